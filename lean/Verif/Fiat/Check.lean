import Verif.Fiat.Syntax

/-!
# A checker for the straight-line programs

The functions here inspect a program as data and never run it. `Verif.Fiat.Sound` proves that an accepted program computes
the modular operation for all arguments.

The reduction `T·2^(64·sh) = X + m·Q` is found by substituting the assignments into `T·2^(64·sh)` from the last to the first: with `hi·W + lo = x·y` for
`Mul64` and `s + W·c = x + y + z` for `Add64`, what remains is a linear form in the products of the arguments and in the quotient words.
-/

namespace Verif.Fiat

/-- the word size -/
abbrev W : ℕ := 2 ^ 64

/-- syntactic equality of expressions -/
def E.same : E → E → Bool
  | .r n, .r m => Nat.beq n m
  | .a n, .a m => Nat.beq n m
  | .b n, .b m => Nat.beq n m
  | .k n, .k m => Nat.beq n m
  | .plus x y, .plus u v => x.same u && y.same v
  | .band x y, .band u v => x.same u && y.same v
  | _, _ => false

/-! ## Single assignment -/

/-- the targets of an assignment -/
def S.t1 : S → ℕ
  | .mul hi _ _ _ => hi
  | .add s _ _ _ _ => s
  | .sub d _ _ _ _ => d
  | .set n _ => n
  | .cmov n _ _ _ => n

@[inherit_doc S.t1]
def S.t2 : S → ℕ
  | .mul _ lo _ _ => lo
  | .add _ c _ _ _ => c
  | .sub _ b _ _ _ => b
  | .set _ _ => 0
  | .cmov _ _ _ _ => 0

/-- only variables below `n` are read -/
def E.under (n : ℕ) : E → Bool
  | .r m => Nat.blt m n
  | .plus x y => x.under n && y.under n
  | .band x y => x.under n && y.under n
  | _ => true

/-- only variables below `n` are read -/
def S.reads (n : ℕ) : S → Bool
  | .mul _ _ x y => x.under n && y.under n
  | .add _ _ x y z => x.under n && y.under n && z.under n
  | .sub _ _ x y z => x.under n && y.under n && z.under n
  | .set _ x => x.under n
  | .cmov _ c x y => c.under n && x.under n && y.under n

/-- every variable is assigned once, before it is read -/
def ssa : ℕ → List S → Bool
  | _, [] => true
  | n, s :: l =>
    s.reads n && (Nat.beq s.t1 0 || Nat.ble n s.t1) && (Nat.beq s.t2 0 || Nat.ble n s.t2)
      && (Nat.beq s.t1 0 || !Nat.beq s.t1 s.t2) && ssa (max n (max (s.t1 + 1) (s.t2 + 1))) l

/-- the assignment to a variable -/
def findDef (n : ℕ) : List S → Option S
  | [] => none
  | s :: l => if Nat.beq s.t1 n || Nat.beq s.t2 n then some s else findDef n l

/-! ## Upper bounds -/

/-- an upper bound of an expression, from the assignments of the variables in it -/
def bnd (code : List S) : ℕ → E → ℕ
  | 0, _ => W - 1
  | f + 1, e =>
    match e with
    | .k w => w
    | .plus x y => bnd code f x + bnd code f y
    | .r n =>
      match n, findDef n code with
      | 0, _ => W - 1
      | _ + 1, some (.mul hi _ _ y) =>
        if Nat.beq hi n then (match y with | .k w => w - 1 | _ => W - 2)
        else (match y with | .k w => W - Nat.gcd w W | _ => W - 1)
      | _ + 1, some (.add _ c _ _ z) => if Nat.beq c n then (if Nat.ble (bnd code f z) 1 then 1 else 2) else W - 1
      | _ + 1, some (.sub _ b _ _ _) => if Nat.beq b n then 1 else W - 1
      | _ + 1, some (.set _ x) => bnd code f x
      | _ + 1, _ => W - 1
    | _ => W - 1

/-- the depth of the search for bounds -/
def fuel : ℕ := 12

/-- the third operands of `bits.Add64` and `bits.Sub64` are 0 or 1, and so are the conditions of the conditional moves -/
def carriesOk (code : List S) : Bool :=
  code.all fun s => match s with
    | .add _ _ _ _ z => Nat.ble (bnd code fuel z) 1
    | .sub _ _ _ _ z => Nat.ble (bnd code fuel z) 1
    | .cmov _ c _ _ => Nat.ble (bnd code fuel c) 1
    | _ => true

/-! ## Linear forms -/

/-- a constant, an expression, an expression that was a factor of a product with a literal (not substituted any further), or the product of
two expressions -/
inductive At where
  | one
  | e (x : E)
  | q (x : E)
  | pr (x y : E)

/-- syntactic equality -/
def At.same : At → At → Bool
  | .one, .one => true
  | .e x, .e y => x.same y
  | .q x, .q y => x.same y
  | .pr x y, .pr u v => x.same u && y.same v
  | _, _ => false

/-- a sum of multiples of atoms -/
abbrev LF := List (ℕ × At)

/-- `c·a + L` -/
def ins (c : ℕ) (a : At) : LF → LF
  | [] => [(c, a)]
  | (d, b) :: l => if a.same b then (c + d, b) :: l else (d, b) :: ins c a l

/-- split off the multiple of `a` -/
def pick (a : At) : LF → ℕ × LF
  | [] => (0, [])
  | (d, b) :: l => if a.same b then (d, l) else let p := pick a l; (p.1, (d, b) :: p.2)

/-- `c·e + L`, where the sums in `e` do not wrap around -/
def lin (code : List S) (c : ℕ) : E → LF → Option LF
  | .k w, L => if Nat.blt w W then some (ins (c * w) .one L) else none
  | .plus x y, L =>
    if Nat.blt (bnd code fuel x + bnd code fuel y) W then
      match lin code c x L with
      | some L' => lin code c y L'
      | none => none
    else none
  | .band _ _, _ => none
  | .r n, L => some (ins c (.e (.r n)) L)
  | .a n, L => some (ins c (.e (.a n)) L)
  | .b n, L => some (ins c (.e (.b n)) L)

/-- `c·x·y + L` -/
def prod (c : ℕ) (x y : E) (L : LF) : Option LF :=
  match y with
  | .k w => if Nat.blt w W then some (ins (c * w) (.q x) L) else none
  | _ => some (ins c (.pr x y) L)

/-- replace the variable `n` by `e` -/
def rep (n : ℕ) (e x : E) : E :=
  match x with
  | .r m => if Nat.beq m n then e else x
  | _ => x

/-- replace the variable `n` by `e` in the products and factors -/
def At.rep (n : ℕ) (e : E) : At → At
  | .q x => .q (Fiat.rep n e x)
  | .pr x y => .pr (Fiat.rep n e x) (Fiat.rep n e y)
  | a => a

/-- `x + y ≡ 0 mod W`: `y` is the low word of `q·m0`, where `q` is `x` or the low word of `x·m'`, and `m0·m' ≡ -1` -/
def vanish (code : List S) (x y : E) : Bool :=
  match y with
  | .r 0 => false
  | .r lo =>
    match findDef lo code with
    | some (.mul hi lo' q (.k m0)) =>
      Nat.beq lo' lo && !Nat.beq hi lo &&
        ((q.same x && Nat.beq ((m0 + 1) % W) 0) ||
          (match q with
            | .r 0 => false
            | .r q' =>
              (match findDef q' code with
                | some (.mul hi' q'' x' (.k m')) =>
                  Nat.beq q'' q' && !Nat.beq hi' q' && x'.same x && Nat.beq ((m' * m0 + 1) % W) 0
                | _ => false)
            | _ => false))
    | _ => false
  | _ => false

/-- substitute one assignment -/
def step (code : List S) (s : S) (L : LF) : Option LF :=
  match s with
  | .mul hi lo x y =>
    if Nat.beq lo 0 then none
    else if Nat.beq hi 0 then some L
    else
      let p := pick (.e (.r hi)) L
      let q := pick (.e (.r lo)) p.2
      if Nat.beq p.1 (W * q.1) then (if Nat.beq q.1 0 then some q.2 else prod q.1 x y q.2) else none
  | .add s c x y z =>
    if Nat.beq c 0 then none
    else if Nat.beq s 0 then
      let p := pick (.e (.r c)) L
      if Nat.beq p.1 0 then some p.2
      else if Nat.beq (p.1 % W) 0 && z.same (.k 0) && vanish code x y then
        match lin code (p.1 / W) x p.2 with
        | some L' => lin code (p.1 / W) y L'
        | none => none
      else none
    else
      let p := pick (.e (.r c)) L
      let q := pick (.e (.r s)) p.2
      if Nat.beq p.1 (W * q.1) then
        if Nat.beq q.1 0 then some q.2
        else
          match lin code q.1 x q.2 with
          | some L1 =>
            (match lin code q.1 y L1 with
              | some L2 => lin code q.1 z L2
              | none => none)
          | none => none
      else none
  | .sub _ _ _ _ _ => some L
  | .set n x =>
    if Nat.beq n 0 then none
    else
      let p := pick (.e (.r n)) L
      let L' := p.2.map fun t => (t.1, t.2.rep n x)
      if Nat.beq p.1 0 then some L' else lin code p.1 x L'
  | .cmov _ _ _ _ => some L

/-- substitute the assignments of a list, the first one first -/
def steps (code : List S) : List S → LF → Option LF
  | [], L => some L
  | s :: l, L => match step code s L with
    | some L' => steps code l L'
    | none => none

/-- forget which expressions were factors -/
def flat : LF → LF
  | [] => []
  | (c, .q x) :: l => ins c (.e x) (flat l)
  | (c, a) :: l => ins c a (flat l)

/-- take away the expected terms -/
def remove : LF → LF → Option LF
  | [], L => some L
  | (c, a) :: l, L =>
    let p := pick a L
    if Nat.ble c p.1 then remove l (if Nat.beq c p.1 then p.2 else (p.1 - c, a) :: p.2) else none

/-- the largest value of the quotient: every remaining coefficient is a multiple of `m` and every remaining atom a word -/
def quot (m : ℕ) : LF → Option ℕ
  | [] => some 0
  | (c, a) :: l =>
    if Nat.beq (c % m) 0 then
      match a, quot m l with
      | .one, some n => some (c / m + n)
      | .e _, some n => some (c / m * (W - 1) + n)
      | _, _ => none
    else none

/-! ## The end of the functions -/

/-- some assignment is this one -/
def isSub (code : List S) (d b : ℕ) (x y z : E) : Bool :=
  code.any fun s => match s with
    | .sub d' b' x' y' z' => Nat.beq d d' && Nat.beq b b' && x.same x' && y.same y' && z.same z'
    | _ => false

@[inherit_doc isSub]
def isAdd (code : List S) (d b : ℕ) (x y z : E) : Bool :=
  code.any fun s => match s with
    | .add d' b' x' y' z' => Nat.beq d d' && Nat.beq b b' && x.same x' && y.same y' && z.same z'
    | _ => false

@[inherit_doc isSub]
def isCmov (code : List S) (n : ℕ) (c x y : E) : Bool :=
  code.any fun s => match s with
    | .cmov n' c' x' y' => Nat.beq n n' && c.same c' && x.same x' && y.same y'
    | _ => false

/-- the variables of the final subtraction: the five words of the number, the differences, the borrows, the results -/
structure Tail where
  t0 : E
  t1 : E
  t2 : E
  t3 : E
  t4 : E
  d0 : ℕ
  d1 : ℕ
  d2 : ℕ
  d3 : ℕ
  b0 : ℕ
  b1 : ℕ
  b2 : ℕ
  b3 : ℕ
  c : ℕ
  o0 : ℕ
  o1 : ℕ
  o2 : ℕ
  o3 : ℕ

/-- read off the last nine assignments -/
def tailOf : List S → Option Tail
  | [.sub d0 b0 t0 _ _, .sub d1 b1 t1 _ _, .sub d2 b2 t2 _ _, .sub d3 b3 t3 _ _, .sub _ c t4 _ _,
      .cmov o0 _ _ _, .cmov o1 _ _ _, .cmov o2 _ _ _, .cmov o3 _ _ _] =>
    some ⟨t0, t1, t2, t3, t4, d0, d1, d2, d3, b0, b1, b2, b3, c, o0, o1, o2, o3⟩
  | _ :: l => tailOf l
  | [] => none

/-- the word `i` of a number -/
def word (m i : ℕ) : ℕ := m / W ^ i % W

/-- no variable in the list is the blank one -/
def nonzero (l : List ℕ) : Bool := l.all fun n => !Nat.beq n 0

/-- the output is the given list -/
def outIs (p : Prog) (o0 o1 o2 o3 : ℕ) : Bool :=
  match p.out with
  | [e0, e1, e2, e3] => e0.same (.r o0) && e1.same (.r o1) && e2.same (.r o2) && e3.same (.r o3)
  | _ => false

/-- the five words minus `m`, with the choice between number and difference by the last borrow -/
def tailOk (p : Prog) (m : ℕ) (t : Tail) : Bool :=
  nonzero [t.d0, t.d1, t.d2, t.d3, t.b0, t.b1, t.b2, t.b3, t.c, t.o0, t.o1, t.o2, t.o3] &&
  isSub p.code t.d0 t.b0 t.t0 (.k (word m 0)) (.k 0) && isSub p.code t.d1 t.b1 t.t1 (.k (word m 1)) (.r t.b0) &&
  isSub p.code t.d2 t.b2 t.t2 (.k (word m 2)) (.r t.b1) && isSub p.code t.d3 t.b3 t.t3 (.k (word m 3)) (.r t.b2) &&
  isSub p.code 0 t.c t.t4 (.k 0) (.r t.b3) &&
  isCmov p.code t.o0 (.r t.c) (.r t.d0) t.t0 && isCmov p.code t.o1 (.r t.c) (.r t.d1) t.t1 &&
  isCmov p.code t.o2 (.r t.c) (.r t.d2) t.t2 && isCmov p.code t.o3 (.r t.c) (.r t.d3) t.t3 &&
  outIs p t.o0 t.o1 t.o2 t.o3

/-- `T·W^sh` as a linear form -/
def target (code : List S) (sh : ℕ) (t : Tail) : Option LF :=
  match lin code (W ^ sh) t.t0 [] with
  | some L0 => (match lin code (W ^ (sh + 1)) t.t1 L0 with
    | some L1 => (match lin code (W ^ (sh + 2)) t.t2 L1 with
      | some L2 => (match lin code (W ^ (sh + 3)) t.t3 L2 with
        | some L3 => lin code (W ^ (sh + 4)) t.t4 L3
        | none => none)
      | none => none)
    | none => none)
  | none => none

/-- the program computes `X·W^(-sh) mod m`, where `X` is the linear form `ex` -/
def redOk (p : Prog) (m sh : ℕ) (ex : LF) : Bool :=
  ssa 1 p.code && carriesOk p.code &&
  match tailOf p.code with
  | some t => tailOk p m t &&
    (match target p.code sh t with
      | some L => (match steps p.code p.code.reverse L with
        | some L' => (match remove ex (flat L') with
          | some D => (match quot m D with
            | some q => Nat.blt q (W ^ sh)
            | none => false)
          | none => false)
        | none => false)
      | none => false)
  | none => false

/-- the variables of a subtraction: differences, borrows, mask, results and carries -/
structure STail where
  d0 : ℕ
  d1 : ℕ
  d2 : ℕ
  d3 : ℕ
  b0 : ℕ
  b1 : ℕ
  b2 : ℕ
  b3 : ℕ
  n : ℕ
  o0 : ℕ
  o1 : ℕ
  o2 : ℕ
  o3 : ℕ
  c0 : ℕ
  c1 : ℕ
  c2 : ℕ
  e0 : E
  e1 : E
  e2 : E
  e3 : E

/-- read off the nine assignments -/
def stailOf : List S → Option STail
  | [.sub d0 b0 _ _ _, .sub d1 b1 _ _ _, .sub d2 b2 _ _ _, .sub d3 b3 _ _ _, .cmov n _ _ _,
      .add o0 c0 _ e0 _, .add o1 c1 _ e1 _, .add o2 c2 _ e2 _, .add o3 _ _ e3 _] =>
    some ⟨d0, d1, d2, d3, b0, b1, b2, b3, n, o0, o1, o2, o3, c0, c1, c2, e0, e1, e2, e3⟩
  | _ => none

/-- `x & w` for a mask `x`, possibly abbreviated when `w` is `0` or all ones -/
def maskOk (n w : ℕ) (e : E) : Bool :=
  e.same (.band (.r n) (.k w)) || (e.same (.r n) && Nat.beq w (W - 1)) || (e.same (.k 0) && Nat.beq w 0)

/-- the program computes `X - Y mod m`, where the words of `X` and `Y` are the expressions given -/
def subOk (p : Prog) (m : ℕ) (x y : ℕ → E) : Bool :=
  ssa 1 p.code && carriesOk p.code &&
  match stailOf p.code with
  | some t =>
    nonzero [t.d0, t.d1, t.d2, t.d3, t.b0, t.b1, t.b2, t.b3, t.n, t.o0, t.o1, t.o2, t.o3, t.c0, t.c1, t.c2] &&
    isSub p.code t.d0 t.b0 (x 0) (y 0) (.k 0) && isSub p.code t.d1 t.b1 (x 1) (y 1) (.r t.b0) &&
    isSub p.code t.d2 t.b2 (x 2) (y 2) (.r t.b1) && isSub p.code t.d3 t.b3 (x 3) (y 3) (.r t.b2) &&
    isCmov p.code t.n (.r t.b3) (.k 0) (.k (W - 1)) &&
    isAdd p.code t.o0 t.c0 (.r t.d0) t.e0 (.k 0) && isAdd p.code t.o1 t.c1 (.r t.d1) t.e1 (.r t.c0) &&
    isAdd p.code t.o2 t.c2 (.r t.d2) t.e2 (.r t.c1) && isAdd p.code t.o3 0 (.r t.d3) t.e3 (.r t.c2) &&
    maskOk t.n (word m 0) t.e0 && maskOk t.n (word m 1) t.e1 && maskOk t.n (word m 2) t.e2 && maskOk t.n (word m 3) t.e3 &&
    outIs p t.o0 t.o1 t.o2 t.o3
  | none => false

/-! ## What is expected of the functions -/

/-- `a·b`, or `a·a` with `a` in the place of `b` -/
def exMul (y : ℕ → E) : LF :=
  (List.range 4).flatMap fun i => (List.range 4).map fun j => (W ^ (i + j), .pr (.a i) (y j))

/-- `c·a` -/
def exArg (c : ℕ) : LF := (List.range 4).map fun i => (c * W ^ i, .e (.a i))

/-- `a + b` -/
def exAdd : LF := exArg 1 ++ (List.range 4).map fun i => (W ^ i, .e (.b i))

/-- the generated functions of one field -/
structure FieldCode where
  mul : Prog
  square : Prog
  add : Prog
  sub : Prog
  opp : Prog
  fromMontgomery : Prog
  toMontgomery : Prog

/-- all functions of a field are accepted for the modulus `m` -/
def FieldCode.ok (c : FieldCode) (m : ℕ) : Bool :=
  redOk c.mul m 4 (exMul .b) && redOk c.square m 4 (exMul .a) && redOk c.add m 0 exAdd && subOk c.sub m .a .b &&
    subOk c.opp m (fun _ => .k 0) .a && redOk c.fromMontgomery m 4 (exArg 1) && redOk c.toMontgomery m 4 (exArg (2 ^ 512 % m))

end Verif.Fiat

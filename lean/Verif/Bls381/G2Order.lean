import Verif.Bls381.G1Order
import Verif.Common.Pocklington

/-!
# The order of the curve of `G2`, the map `psi` and the clearing of the cofactor

As for `G1`: independent points of the prime orders, found outside Lean and checked by the kernel, generate
the curve `y² = x³ + 4(1 + u)` over the field of `fp2`. A relation between `1`, `psi` and `psi²` that holds
for these points holds everywhere.
-/

set_option exponentiation.threshold 1000
set_option linter.unusedSectionVars false

namespace Verif.Bls381

open Verif.Primes Verif.Native Verif.Native.Facts WeierstrassCurve.Affine
open Verif.Pock (force force_eq)

/-! ## The largest prime factor of the cofactor -/

theorem prime_1367711 : Nat.Prime 1367711 := by norm_num

theorem prime_541 : Nat.Prime 541 := by norm_num

theorem prime_12192593745179 : Nat.Prime 12192593745179 := by
  refine Pock.prime_of_check _ 44 [(1367711, 1, 2), (541, 1, 2)] (by decide +kernel) ?_
  simp only [List.forall_mem_cons, List.not_mem_nil, false_implies, implies_true, and_true]
  exact ⟨prime_1367711, prime_541⟩

theorem prime_512088937297519 : Nat.Prime 512088937297519 := by
  refine Pock.prime_of_check _ 49 [(12192593745179, 1, 2)] (by decide +kernel) ?_
  simp only [List.forall_mem_cons, List.not_mem_nil, false_implies, implies_true, and_true]
  exact prime_12192593745179

theorem prime_1857858664515398933 : Nat.Prime 1857858664515398933 := by
  refine Pock.prime_of_check _ 61 [(512088937297519, 1, 2)] (by decide +kernel) ?_
  simp only [List.forall_mem_cons, List.not_mem_nil, false_implies, implies_true, and_true]
  exact prime_512088937297519

theorem prime_22294303974184787197 : Nat.Prime 22294303974184787197 := by
  refine Pock.prime_of_check _ 65 [(1857858664515398933, 1, 2)] (by decide +kernel) ?_
  simp only [List.forall_mem_cons, List.not_mem_nil, false_implies, implies_true, and_true]
  exact prime_1857858664515398933

theorem prime_19931107752921199754119 : Nat.Prime 19931107752921199754119 := by
  refine Pock.prime_of_check _ 75 [(22294303974184787197, 1, 2)] (by decide +kernel) ?_
  simp only [List.forall_mem_cons, List.not_mem_nil, false_implies, implies_true, and_true]
  exact prime_22294303974184787197

theorem prime_81162125843606155545104998607900118769099783 : Nat.Prime 81162125843606155545104998607900118769099783 := by
  refine Pock.prime_of_check _ 146 [(19931107752921199754119, 1, 2)] (by decide +kernel) ?_
  simp only [List.forall_mem_cons, List.not_mem_nil, false_implies, implies_true, and_true]
  exact prime_19931107752921199754119

theorem prime_26935696298915610574513298451669528361624243820491956655650666425177 : Nat.Prime 26935696298915610574513298451669528361624243820491956655650666425177 := by
  refine Pock.prime_of_check _ 224 [(81162125843606155545104998607900118769099783, 1, 2)] (by decide +kernel) ?_
  simp only [List.forall_mem_cons, List.not_mem_nil, false_implies, implies_true, and_true]
  exact prime_81162125843606155545104998607900118769099783

theorem prime_4638704574076146691498289350639807119782054683906549022985642612861209609656189848749536921852444848596916990932297 : Nat.Prime 4638704574076146691498289350639807119782054683906549022985642612861209609656189848749536921852444848596916990932297 := by
  refine Pock.prime_of_check _ 381 [(26935696298915610574513298451669528361624243820491956655650666425177, 1, 2)] (by decide +kernel) ?_
  simp only [List.forall_mem_cons, List.not_mem_nil, false_implies, implies_true, and_true]
  exact prime_26935696298915610574513298451669528361624243820491956655650666425177

/-- the largest prime factor of the cofactor of `G2` -/
def bigFactor : ℕ :=
  402096035359507321594726366720466575392706800671181159425656785868777272553337714697862511267018014931937703598282857976535744623203249

theorem prime_cofactor : Nat.Prime bigFactor := by
  refine Pock.prime_of_check _ 448 [(4638704574076146691498289350639807119782054683906549022985642612861209609656189848749536921852444848596916990932297, 1, 2)] (by decide +kernel) ?_
  simp only [List.forall_mem_cons, List.not_mem_nil, false_implies, implies_true, and_true]
  exact prime_4638704574076146691498289350639807119782054683906549022985642612861209609656189848749536921852444848596916990932297

/-! ## Coordinates in `ℕ` -/

/-- a pair of representatives -/
def c2 (a b : ℕ) : Fp2 Fq := ⟨a, b⟩

theorem c2_add (a b c d : ℕ) : c2 (a + c) (b + d) = c2 a b + c2 c d := by
  rw [Fp2.add_def]; simp only [c2, Fp2.add, Nat.cast_add]

/-- the parts of a product -/
def mulA (a b c d : ℕ) : ℕ := (a * c + (blsp - b * d % blsp)) % blsp

def mulB (a b c d : ℕ) : ℕ := (a * d + b * c) % blsp

theorem c2_mul (a b c d : ℕ) : c2 (mulA a b c d) (mulB a b c d) = c2 a b * c2 c d := by
  rw [Fp2.mul_def, Fp2.mul_eq]
  simp only [c2, mulA, mulB, ZMod.natCast_mod, Nat.cast_add, Nat.cast_mul, cast_sub_mod (show 0 < blsp by decide +kernel)]
  congr 1
  ring

theorem c2_mod (a b : ℕ) : c2 (a % blsp) (b % blsp) = c2 a b := by
  simp only [c2, ZMod.natCast_mod]

theorem c2_neg (a b : ℕ) : c2 (blsp - a % blsp) (blsp - b % blsp) = -c2 a b := by
  rw [Fp2.neg_def]
  simp only [c2, Fp2.neg, cast_sub_mod (show 0 < blsp by decide +kernel)]

/-- product -/
def mulK {α : Type} (a b c d : ℕ) (k : ℕ → ℕ → α) : α :=
  force (mulA a b c d) fun x => force (mulB a b c d) fun y => k x y

theorem mulK_eq {α : Type} (a b c d : ℕ) (k : ℕ → ℕ → α) :
    mulK a b c d k = k (mulA a b c d) (mulB a b c d) := by
  simp only [mulK, force_eq]

/-- coordinates -/
structure P6 where
  xa : ℕ
  xb : ℕ
  ya : ℕ
  yb : ℕ
  za : ℕ
  zb : ℕ

def cast6 (t : P6) : Proj (Fp2 Fq) := ⟨c2 t.xa t.xb, c2 t.ya t.yb, c2 t.za t.zb⟩

def eval6 (t : P6) (k : P6 → P6) : P6 :=
  match t with
  | ⟨a, b, c, d, e, f⟩ => k ⟨a, b, c, d, e, f⟩

theorem eval6_eq (t : P6) (k : P6 → P6) : eval6 t k = k t := rfl

/-- `K256.raw` for the curve of `G2` on representatives -/
def raw6 (s t : P6) : P6 :=
  match s, t with
  | ⟨x1, x1', y1, y1', z1, z1'⟩, ⟨x2, x2', y2, y2', z2, z2'⟩ =>
    mulK x1 x1' x2 x2' fun xx xx' => mulK y1 y1' y2 y2' fun yy yy' => mulK z1 z1' z2 z2' fun zz zz' =>
    mulK x1 x1' y2 y2' fun xy1 xy1' => mulK y1 y1' x2 x2' fun xy2 xy2' =>
    mulK y1 y1' z2 z2' fun yz1 yz1' => mulK z1 z1' y2 y2' fun yz2 yz2' =>
    mulK x1 x1' z2 z2' fun xz1 xz1' => mulK z1 z1' x2 x2' fun xz2 xz2' =>
    force (xy1 + xy2) fun xy => force (xy1' + xy2') fun xy' =>
    force (yz1 + yz2) fun yz => force (yz1' + yz2') fun yz' =>
    mulK 12 12 zz zz' fun bz bz' => mulK 12 12 (xz1 + xz2) (xz1' + xz2') fun bx bx' =>
    force (yy + (blsp - bz % blsp)) fun m => force (yy' + (blsp - bz' % blsp)) fun m' =>
    force (yy + bz) fun n => force (yy' + bz') fun n' =>
    mulK xy xy' m m' fun a a' => mulK yz yz' bx bx' fun b b' =>
    mulK n n' m m' fun c c' => mulK (3 * xx) (3 * xx') bx bx' fun d d' =>
    mulK yz yz' n n' fun e e' => mulK (3 * xx) (3 * xx') xy xy' fun f f' =>
    force ((a + (blsp - b % blsp)) % blsp) fun X => force ((a' + (blsp - b' % blsp)) % blsp) fun X' =>
    force ((c + d) % blsp) fun Y => force ((c' + d') % blsp) fun Y' =>
    force ((e + f) % blsp) fun Z => force ((e' + f') % blsp) fun Z' => ⟨X, X', Y, Y', Z, Z'⟩

theorem c2_12 : c2 12 12 = 3 * curveG2B := by
  rw [curveG2B_eq]; decide +kernel

theorem c2_three (a b : ℕ) : c2 (3 * a) (3 * b) = 3 * c2 a b := by
  rw [show 3 * a = a + (a + a) by omega, show 3 * b = b + (b + b) by omega, c2_add, c2_add]
  ring

theorem cast6_raw6 (s t : P6) : cast6 (raw6 s t) = K256.raw curveG2B (cast6 s) (cast6 t) := by
  obtain ⟨x1, x1', y1, y1', z1, z1'⟩ := s
  obtain ⟨x2, x2', y2, y2', z2, z2'⟩ := t
  simp only [raw6, mulK_eq, force_eq, cast6, K256.raw, c2_mod, c2_add, c2_mul, c2_neg, c2_three, c2_12,
    Proj.mk.injEq]
  refine ⟨?_, ?_, ?_⟩
  · ring
  · ring
  · trivial

/-- coordinates of a point -/
def on2 (g : (ℕ × ℕ) × (ℕ × ℕ)) : Bool :=
  decide (c2 g.2.1 g.2.2 * c2 g.2.1 g.2.2 = c2 g.1.1 g.1.2 * c2 g.1.1 g.1.2 * c2 g.1.1 g.1.2 + ⟨4, 4⟩)

theorem on2_rep {g : (ℕ × ℕ) × (ℕ × ℕ)} (h : on2 g = true) :
    ∃ P : E2, GRep (⟨c2 g.1.1 g.1.2, c2 g.2.1 g.2.2, 1⟩ : Proj (Fp2 Fq)) P := by
  refine (gIsOnCurve_iff g2Ok _ ?_).1 ?_
  · intro h0
    have : (1 : Fp2 Fq) = 0 := congrArg Proj.z h0
    exact one_ne_zero this
  · have h1 := of_decide_eq_true h
    rw [gIsOnCurve, decide_eq_true_eq, curveG2B_eq]
    linear_combination h1

open Classical in
/-- the point with the coordinates -/
noncomputable def mk2 (g : (ℕ × ℕ) × (ℕ × ℕ)) : E2 := if h : on2 g = true then (on2_rep h).choose else 0

theorem mk2_rep {g : (ℕ × ℕ) × (ℕ × ℕ)} (h : on2 g = true) :
    GRep (⟨c2 g.1.1 g.1.2, c2 g.2.1 g.2.2, 1⟩ : Proj (Fp2 Fq)) (mk2 g) := by
  rw [mk2, dif_pos h]
  exact (on2_rep h).choose_spec

theorem mk2_ne {g : (ℕ × ℕ) × (ℕ × ℕ)} (h : on2 g = true) : mk2 g ≠ 0 := fun h0 =>
  absurd ((mk2_rep h).z_eq_zero.2 h0) one_ne_zero

/-- `n` times `g` plus `m` times `q` -/
def lad2 (fuel : ℕ) (g : (ℕ × ℕ) × (ℕ × ℕ)) (n : ℕ) (acc : P6) : P6 :=
  glad eval6 raw6 fuel ⟨g.1.1, g.1.2, g.2.1, g.2.2, 1, 0⟩ n acc

theorem lad2_rep {fuel n : ℕ} {g : (ℕ × ℕ) × (ℕ × ℕ)} (h : on2 g = true) (hn : n < 2 ^ fuel) {acc : P6} {A : E2}
    (hA : GRep (cast6 acc) A) : GRep (cast6 (lad2 fuel g n acc)) (A + n • mk2 g) := by
  refine gRep_glad g2Ok (cast := cast6) eval6_eq cast6_raw6 fuel _ n _ (mk2 g) A hn ?_ hA
  have := mk2_rep h
  have e : c2 1 0 = 1 := by decide +kernel
  simpa [cast6, e] using this

/-- the coordinates of the identity -/
def id6 : P6 := ⟨0, 0, 1, 0, 0, 0⟩

theorem id6_rep : GRep (cast6 id6) (0 : E2) := by
  have e : cast6 id6 = gIdentity := by decide +kernel
  rw [e]; exact gRep_identity

def zero2 (fuel : ℕ) (g : (ℕ × ℕ) × (ℕ × ℕ)) (n : ℕ) : Bool :=
  on2 g && Nat.blt n (2 ^ fuel) &&
    match lad2 fuel g n id6 with
    | ⟨_, _, _, _, z, z'⟩ => z % blsp == 0 && z' % blsp == 0

theorem c2_eq_zero {a b : ℕ} : c2 a b = 0 ↔ a % blsp = 0 ∧ b % blsp = 0 := by
  have : (0 : Fp2 Fq) = ⟨0, 0⟩ := rfl
  rw [this, c2, Fp2.mk.injEq, ZMod.natCast_eq_zero_iff, ZMod.natCast_eq_zero_iff, Nat.dvd_iff_mod_eq_zero,
    Nat.dvd_iff_mod_eq_zero]

theorem zero2_ok {fuel n : ℕ} {g : (ℕ × ℕ) × (ℕ × ℕ)} (h : zero2 fuel g n = true) : n • mk2 g = 0 := by
  rw [zero2] at h
  rcases hl : lad2 fuel g n id6 with ⟨x, x', y, y', z, z'⟩
  rw [hl] at h
  simp only [Bool.and_eq_true, beq_iff_eq, Nat.blt_eq] at h
  obtain ⟨⟨h1, h2⟩, h3, h4⟩ := h
  have hr := lad2_rep h1 h2 id6_rep
  rw [zero_add, hl] at hr
  exact hr.z_eq_zero.1 (c2_eq_zero.2 ⟨h3, h4⟩)

/-- equality of coordinates of points -/
def same6 (s t : P6) : Bool :=
  match s, t with
  | ⟨x, x', y, y', z, z'⟩, ⟨X, X', Y, Y', Z, Z'⟩ =>
    !(z % blsp == 0 && z' % blsp == 0) && !(Z % blsp == 0 && Z' % blsp == 0) &&
      mulK x x' Z Z' (fun a a' => mulK X X' z z' fun b b' => a == b && a' == b') &&
      mulK y y' Z Z' (fun a a' => mulK Y Y' z z' fun b b' => a == b && a' == b')

theorem same6_ok {s t : P6} {P Q : E2} (hs : GRep (cast6 s) P) (ht : GRep (cast6 t) Q) (h : same6 s t = true) :
    P = Q := by
  obtain ⟨x, x', y, y', z, z'⟩ := s
  obtain ⟨X, X', Y, Y', Z, Z'⟩ := t
  simp only [same6, mulK_eq, Bool.and_eq_true, beq_iff_eq, Bool.not_eq_true', Bool.and_eq_false_imp,
    beq_eq_false_iff_ne] at h
  obtain ⟨⟨⟨h1, h2⟩, h3, h3'⟩, h4, h4'⟩ := h
  have e1 : c2 x x' * c2 Z Z' = c2 X X' * c2 z z' := by rw [← c2_mul, ← c2_mul, h3, h3']
  have e2 : c2 y y' * c2 Z Z' = c2 Y Y' * c2 z z' := by rw [← c2_mul, ← c2_mul, h4, h4']
  have n1 : c2 z z' ≠ 0 := fun h => by
    rw [c2_eq_zero] at h; exact h1 h.1 h.2
  have n2 : c2 Z Z' ≠ 0 := fun h => by
    rw [c2_eq_zero] at h; exact h2 h.1 h.2
  have hs' := hs.scale n2
  have ht' := ht.scale n1
  refine hs'.unique ?_
  convert ht' using 2
  · simp only [cast6]; linear_combination e1
  · simp only [cast6]; linear_combination e2
  · simp only [cast6]; ring

/-! ## The maps -/

/-- conjugation -/
def conjHom : Fp2 Fq →+* Fp2 Fq where
  toFun := Fp2.conj
  map_one' := by decide +kernel
  map_zero' := by decide +kernel
  map_mul' x y := by
    simp only [Fp2.mul_def, Fp2.mul_eq, Fp2.conj, Fp2.mk.injEq]
    constructor <;> ring
  map_add' x y := by
    simp only [Fp2.add_def, Fp2.add, Fp2.conj, neg_add]

/-- the coefficient of `psiCoeffX` -/
def psiX : ℕ :=
  0x1a0111ea397fe699ec02408663d4de85aa0d857d89759ad4897d29650fb85f9b409427eb4f49fffd8bfd00000000aaad

/-- the coefficients of `psiCoeffY` -/
def psiYA : ℕ :=
  0x135203e60180a68ee2e9c448d77a2cd91c3dedd930b1cf60ef396489f61eb45e304466cf3e67fa0af1ee7b04121bdea2

/-- the coefficients of `psiCoeffY` -/
def psiYB : ℕ :=
  0x6af0e0437ff400b6831e36d6bd17ffe48395dabc2d3435e77f76e17009241c5ee67992f72ec05f4c81084fbede3cc09

/-- the coefficient of `psi2CoeffX` -/
def psi2X : ℕ :=
  0x1a0111ea397fe699ec02408663d4de85aa0d857d89759ad4897d29650fb85f9b409427eb4f49fffd8bfd00000000aaac

/-- the effective cofactor of RFC 9380, section 8.8.2 -/
def heff : ℕ :=
  0xbc69f08f2ee75b3584c6a0ea91b352888e2a8e9145ad7689986ff031508ffe1329c2f178731db956d82bf015d1212b02ec0ec69d7477c1ae954cbc06689f6a359894c0adebbf6b4e8020005aaa95551

/-- `psi` on the points of order `bigFactor` -/
def psiBig : ℕ :=
  0x17f8c0adfc4b3eb878aa423b27751b78f9a51750ee808b61ef5df35dcb04a884c4e4f62fe26b74d0ce6cbaf10c3e4d7fd4a8d459268c4a4

/-- a point of order 13 -/
def w13a : (ℕ × ℕ) × (ℕ × ℕ) :=
  ((0x52f9993c69f5a8ddd0c9c4141a84436304aaf0140778ed8f9c27a5dd26c7e5944432965fb680501b17ddee023b5e301,
    0xfbbc6adc1ee8e0669c32bf7ec0b18ea2c8e2aa6dd83bf0c748caf8aa481c03e3e696babeffe4b9a722089ad58036503),
    (0x186da343084ae579b454c64874e83c0d62feb08cba84cd5aca3c8098aca0c7d6e12e7aeb2f2fa7108f601dc6a8c016ad,
    0x195942da05c513ffa3efb576a9cf295241adc3f8099bc2b85e4b30862abc25096080b4eaa33477b6048f73e813947f0d))

/-- a point of order 13 -/
def w13b : (ℕ × ℕ) × (ℕ × ℕ) :=
  ((0xa0ffe73144b242fc7a300fae1f2ed7ee148109e774cb9bdfc2ddadfe6819260a083dd514f11b6d889b619a6be692b61,
    0x6d13f4535d514401f08d7fbacc9a495562cd6e981a85e34021b233f4e1398565cd15a795a7ac21977a3a23fcaea20cf),
    (0x543e67672eb5509d15fb31eb5502159357939c6a62946f86185a04d699aba5436f3cd0fbd6ae67aa8a2915d24f1addd,
    0xa276dd850c9782aa3dac353c4693b172d308b69a78f715797b66cc35f7fdb30d9d4c7e58efba01a914a327493298af8))

/-- a point of order 23 -/
def w23a : (ℕ × ℕ) × (ℕ × ℕ) :=
  ((0x1319c8af1bfab2036fb04a6a234477b01523107227e03bc4a4d9039666fe95b7665682841be758c3f160c941e05cc38f,
    0xeeecf967185f2b7af9e790189ac4e1e120d47468dc0a6adaaf477faa19226879bf53ca45d921b68d305f9f645a50dba),
    (0x34e9586beb0870ae60e76812cc58a8c9677106db48274a174c37ae9adadfcf2b529a2279fad8eaf41076aa8bc9ba6ea,
    0x18d201a18f452939fcf7c09ec36d10622b0755220ae2f5c14276f7577faaebc4a6f7d19c1de947a5aa1a06ce2d091718))

/-- a point of order 2713 -/
def w2713a : (ℕ × ℕ) × (ℕ × ℕ) :=
  ((0x19a89fbe3dbb040b402660e481f4ec1684f46455eb9b72404708fa84f51ef4079ed32b9f1dd307ad0bf7df93491dacf6,
    0x52ef0c280fa035d7893a5b3164c4e1b31e1213a95d375c4fed5a63fb567e335985e3a939e6b7934f7879f561dc94461),
    (0x25fc0fcfeb2eeed44b55e8ec21a243c58a0b2fba5d27b0dfa5c192df14bc8fc5b606c9598be8652da547ff961d29081,
    0xb8bb7d7edccf98f4190eb38cc44e7f7998c3fbf2244e03c961c5502baf4e9bf95fe64833f1e3d706ccb582ddfc2cb28))

/-- a point of order 11953 -/
def w11953a : (ℕ × ℕ) × (ℕ × ℕ) :=
  ((0x11a4d1dd66403ec7d0f257857b9152dd238afb0d26795ffdf6a407e0d3b0bdfebbc7bff60a21887357cf7d9d4ba6cbfc,
    0x13418010f2669dbeeedc4679f43fdc2091124f96db1136f2ba011374951e4c1fd568fec09d81537a1a2631f6ce582665),
    (0x14551de45d0b657a6175dc970b027cbd34b2b4c0146b884f0058c054178910ab5c723b1eafea8870fe407b99d43e2df7,
    0x742cd9298fbcc5151043fbc75a70422355441678ef6a8833ebae0d2d9c302c175c986f20774bfd3eafbc58de602b817))

/-- a point of order 262069 -/
def w262069a : (ℕ × ℕ) × (ℕ × ℕ) :=
  ((0x1462302d07ad9144a69307f8bd67c0a97c81858dbbae0c3a62c9c64c1fdab40ad2a276cf499295aa56833d16959818f4,
    0x468841cbc566164a33a83f51fd1a092f8309a904955392d8ff2e45eb725d11496076f5c8e5e23c7f0b29b29f277ae0e),
    (0x111de89cf245e0a501da8f91a7b79d2814ce6500326468c9ba7d0b45b3401fe1ea6b68979d4d9c7ae9bf98dba6bae137,
    0x28b30f2d4c35f4c8134634af4c0f650c406f302fe702520c9bde81bac8da40211f5e15dc04595e2f0f02274f2e16478))

/-- a point of order the large factor of the cofactor -/
def wca : (ℕ × ℕ) × (ℕ × ℕ) :=
  ((0x1402fa30db4a62e925222e2c980df09d21abe2b4328e913dc1ce488a52dbe0353aa0720873f69e1eb372cdeb52774972,
    0x125cf997827f13a5f176b9561ca8118fb5dcb0b829916f505c319fc3a36a3862266aff39448146b9928218ac3d448c18),
    (0x227ad4d16a503e7237710eceb4cf8070a525c5fba72d7163dc431918b652eb65cb83ed89393cdf9675d6afed34a378c,
    0x303817b0bb33bb94cce3b3f79fb7b2ccfd5b7ff38db9b5cd2cee2a01ab5f0e26e13b51fde78fd36770df8e58718433d))

theorem psiCoeffX_eq : psiCoeffX = c2 0 psiX := by
  rw [psiCoeffX, const_num (n := psiX) (by decide +kernel)]; simp [c2]

theorem psiCoeffY_eq : psiCoeffY = c2 psiYA psiYB := by
  rw [psiCoeffY, const_num (n := psiYA) (by decide +kernel), const_num (n := psiYB) (by decide +kernel)]; rfl

theorem psi2CoeffX_eq : psi2CoeffX = c2 psi2X 0 := by
  rw [psi2CoeffX, const_num (n := psi2X) (by decide +kernel)]; simp [c2]

/-- the map of `psi` -/
def psiTwist : Twist curveG2B where
  σ := conjHom
  cx := psiCoeffX
  cy := psiCoeffY
  cube := by rw [psiCoeffX_eq, psiCoeffY_eq, pow_succ, pow_two, pow_two]; decide +kernel
  coeff := by rw [psiCoeffY_eq, curveG2B_eq, pow_two]; decide +kernel
  ne := by rw [psiCoeffY_eq]; decide +kernel

/-- `psi` on the curve -/
noncomputable def psi : E2 →+ E2 := psiTwist.hom g2Ok

theorem psi_rep {p : Proj (Fp2 Fq)} {P : E2} (hp : GRep p P) : GRep (g2Psi p) (psi P) := by
  have h := psiTwist.hom_rep g2Ok hp
  have e : psiTwist.proj p = g2Psi p := by
    change (⟨psiCoeffX * p.x.conj, psiCoeffY * p.y.conj, p.z.conj⟩ : Proj (Fp2 Fq)) = _
    rw [mul_comm, mul_comm psiCoeffY]
    rfl
  rwa [e] at h

theorem psi2_rep {p : Proj (Fp2 Fq)} {P : E2} (hp : GRep p P) : GRep (g2Psi2 p) (psi (psi P)) := by
  have := psi_rep (psi_rep hp)
  convert this using 1
  have hc : ∀ x : Fp2 Fq, x.conj.conj = x := fun x => by simp [Fp2.conj]
  have hm : ∀ x y : Fp2 Fq, (x * y).conj = x.conj * y.conj := conjHom.map_mul
  have e1 : psiCoeffX.conj * psiCoeffX = psi2CoeffX := by
    rw [psiCoeffX_eq, psi2CoeffX_eq]; decide +kernel
  have e2 : psiCoeffY.conj * psiCoeffY = -1 := by
    rw [psiCoeffY_eq]; decide +kernel
  simp only [g2Psi, g2Psi2, hm, hc, mul_assoc, e1, e2, Proj.mk.injEq, and_true]
  refine ⟨trivial, ?_⟩
  ring

theorem beta2_root : (c2 beta 0) ^ 2 + c2 beta 0 + 1 = 0 := by
  rw [pow_two]; decide +kernel

/-- `(x, y) ↦ (β x, y)` -/
noncomputable def phi2 : E2 →+ E2 := (cubeTwist curveG2B (c2 beta 0) beta2_root).hom g2Ok

theorem phi2_sum (P : E2) : phi2 (phi2 P) + phi2 P + P = 0 := cubeTwist_sum g2Ok beta2_root P

theorem phi2_psi (P : E2) : phi2 (psi P) = psi (phi2 P) := by
  obtain ⟨p, hp⟩ := GRep.exists P
  have h1 := (cubeTwist curveG2B (c2 beta 0) beta2_root).hom_rep g2Ok (psi_rep hp)
  have h2 := psi_rep ((cubeTwist curveG2B (c2 beta 0) beta2_root).hom_rep g2Ok hp)
  refine h1.unique ?_
  change GRep _ (psi (phi2 P)) at h2
  suffices e : g2Psi ((cubeTwist curveG2B (c2 beta 0) beta2_root).proj p)
      = (cubeTwist curveG2B (c2 beta 0) beta2_root).proj (g2Psi p) by rwa [e] at h2
  have hm : ∀ x y : Fp2 Fq, (x * y).conj = x.conj * y.conj := conjHom.map_mul
  have hb : (c2 beta 0).conj = c2 beta 0 := by decide +kernel
  simp only [g2Psi, Twist.proj, cubeTwist, RingHom.id_apply, hm, hb, one_mul, mul_assoc]

/-- the coordinates of the images of a point -/
def phi6 (g : (ℕ × ℕ) × (ℕ × ℕ)) : (ℕ × ℕ) × (ℕ × ℕ) :=
  ((beta * g.1.1 % blsp, beta * g.1.2 % blsp), g.2)

def psi6 (g : (ℕ × ℕ) × (ℕ × ℕ)) : P6 :=
  mulK g.1.1 (blsp - g.1.2 % blsp) 0 psiX fun a b =>
    mulK g.2.1 (blsp - g.2.2 % blsp) psiYA psiYB fun c d => ⟨a, b, c, d, 1, 0⟩

theorem phi6_ok {g : (ℕ × ℕ) × (ℕ × ℕ)} (h : on2 g = true) (h' : on2 (phi6 g) = true) :
    phi2 (mk2 g) = mk2 (phi6 g) := by
  have h1 := (cubeTwist curveG2B (c2 beta 0) beta2_root).hom_rep g2Ok (mk2_rep h)
  refine h1.unique (?_ : GRep _ (mk2 (phi6 g)))
  convert mk2_rep h' using 1
  simp only [Twist.proj, cubeTwist, RingHom.id_apply, phi6, one_mul, Proj.mk.injEq, and_true, c2_mod]
  rw [← c2_mul]
  simp [c2, mulA, mulB]

theorem psi6_rep {g : (ℕ × ℕ) × (ℕ × ℕ)} (h : on2 g = true) : GRep (cast6 (psi6 g)) (psi (mk2 g)) := by
  have h1 := psi_rep (mk2_rep h)
  convert h1 using 1
  have hc : ∀ a b : ℕ, c2 a (blsp - b % blsp) = (c2 a b).conj := fun a b => by
    simp only [c2, Fp2.conj, cast_sub_mod (show 0 < blsp by decide +kernel)]
  simp only [psi6, mulK_eq, cast6, c2_mul, g2Psi, hc, psiCoeffX_eq, psiCoeffY_eq, Proj.mk.injEq, true_and]
  decide +kernel

/-- `psi g = a • g + b • phi2 g` -/
def psiIs (fuel : ℕ) (g : (ℕ × ℕ) × (ℕ × ℕ)) (a b : ℕ) : Bool :=
  on2 g && on2 (phi6 g) && Nat.blt a (2 ^ fuel) && Nat.blt b (2 ^ fuel) &&
    same6 (psi6 g) (lad2 fuel (phi6 g) b (lad2 fuel g a id6))

theorem psiIs_ok {fuel a b : ℕ} {g : (ℕ × ℕ) × (ℕ × ℕ)} (h : psiIs fuel g a b = true) :
    psi (mk2 g) = a • mk2 g + b • phi2 (mk2 g) := by
  simp only [psiIs, Bool.and_eq_true, Nat.blt_eq] at h
  obtain ⟨⟨⟨⟨h1, h2⟩, h3⟩, h4⟩, h5⟩ := h
  rw [phi6_ok h1 h2]
  have := same6_ok (psi6_rep h1) (lad2_rep h2 h4 (lad2_rep h1 h3 id6_rep)) h5
  rwa [zero_add] at this

/-- `phi2 g = u • g` -/
def phiIs (fuel : ℕ) (g : (ℕ × ℕ) × (ℕ × ℕ)) (u : ℕ) : Bool :=
  on2 g && on2 (phi6 g) && Nat.blt u (2 ^ fuel) &&
    same6 ⟨(phi6 g).1.1, (phi6 g).1.2, (phi6 g).2.1, (phi6 g).2.2, 1, 0⟩ (lad2 fuel g u id6)

theorem phiIs_ok {fuel u : ℕ} {g : (ℕ × ℕ) × (ℕ × ℕ)} (h : phiIs fuel g u = true) : phi2 (mk2 g) = u • mk2 g := by
  simp only [phiIs, Bool.and_eq_true, Nat.blt_eq] at h
  obtain ⟨⟨⟨h1, h2⟩, h3⟩, h5⟩ := h
  rw [phi6_ok h1 h2]
  have hr : GRep (cast6 ⟨(phi6 g).1.1, (phi6 g).1.2, (phi6 g).2.1, (phi6 g).2.2, 1, 0⟩) (mk2 (phi6 g)) := by
    have e : c2 1 0 = 1 := by decide +kernel
    simpa [cast6, e] using mk2_rep h2
  have := same6_ok hr (lad2_rep h1 h3 id6_rep) h5
  rwa [zero_add] at this

/-! ## The order -/

/-- the generator of `G2` -/
def gen2 : (ℕ × ℕ) × (ℕ × ℕ) := ((g2GenXA, g2GenXB), (g2GenYA, g2GenYB))

/-- the number of points -/
def order2 : ℕ := 13 ^ 2 * 23 ^ 2 * 2713 * 11953 * 262069 * bigFactor * blsr

instance : Fintype (Fp2 Fq) :=
  have : Fintype (ZMod blsp) := ZMod.fintype blsp
  Fintype.ofEquiv (Fq × Fq) ⟨fun x => ⟨x.1, x.2⟩, fun x => (x.A, x.B), fun _ => rfl, fun _ => rfl⟩

theorem card_Fp2 : Fintype.card (Fp2 Fq) = blsp ^ 2 := by
  have : Fintype (ZMod blsp) := ZMod.fintype blsp
  rw [← Nat.card_eq_fintype_card, Nat.card_congr (⟨fun x => (x.A, x.B), fun x => ⟨x.1, x.2⟩, fun _ => rfl, fun _ => rfl⟩ :
    Fp2 Fq ≃ Fq × Fq), Nat.card_prod, Nat.card_zmod, pow_two]

theorem finite_E2 : Finite E2 := card_le.1

theorem n13a : 13 • mk2 w13a = 0 := zero2_ok (fuel := 4) (by decide +kernel)
theorem n13b : 13 • mk2 w13b = 0 := zero2_ok (fuel := 4) (by decide +kernel)
theorem n23a : 23 • mk2 w23a = 0 := zero2_ok (fuel := 5) (by decide +kernel)
theorem n2713 : 2713 • mk2 w2713a = 0 := zero2_ok (fuel := 12) (by decide +kernel)
theorem n11953 : 11953 • mk2 w11953a = 0 := zero2_ok (fuel := 14) (by decide +kernel)
theorem n262069 : 262069 • mk2 w262069a = 0 := zero2_ok (fuel := 18) (by decide +kernel)
theorem nbig : bigFactor • mk2 wca = 0 := zero2_ok (fuel := 448) (by decide +kernel)
theorem nr : blsr • mk2 gen2 = 0 := zero2_ok (fuel := 255) (by decide +kernel)

/-- a subgroup with these points is everything -/
theorem top_of_points2 (K : AddSubgroup E2) (h13 : mk2 w13a ∈ K) (h13' : mk2 w13b ∈ K) (h23 : mk2 w23a ∈ K)
    (h23' : phi2 (mk2 w23a) ∈ K) (ha : mk2 w2713a ∈ K) (hb : mk2 w11953a ∈ K) (hc : mk2 w262069a ∈ K)
    (hd : mk2 wca ∈ K) (hg : mk2 gen2 ∈ K) : K = ⊤ ∧ Nat.card E2 = order2 := by
  have := finite_E2
  have d13 : 13 ^ 2 ∣ Nat.card K := sq_dvd_card_of_indep h13 h13' n13a n13b
    (indep_of_eigen (by norm_num) phi2 (mk2_ne (by decide +kernel)) (mk2_ne (by decide +kernel)) n13a n13b
      (phiIs_ok (fuel := 4) (u := 3) (by decide +kernel)) (phiIs_ok (fuel := 4) (u := 9) (by decide +kernel)) (by decide))
  have d23 : 23 ^ 2 ∣ Nat.card K := sq_dvd_card_of_indep h23 h23' n23a (by rw [← map_nsmul, n23a, map_zero])
    (indep_of_inert (by norm_num) (by norm_num) phi2 phi2_sum (mk2_ne (by decide +kernel)) n23a)
  have da : 2713 ∣ Nat.card K := dvd_card_of_point (by norm_num) ha (mk2_ne (by decide +kernel)) n2713
  have db : 11953 ∣ Nat.card K := dvd_card_of_point (by norm_num) hb (mk2_ne (by decide +kernel)) n11953
  have dc : 262069 ∣ Nat.card K := dvd_card_of_point (by norm_num) hc (mk2_ne (by decide +kernel)) n262069
  have dd : bigFactor ∣ Nat.card K := dvd_card_of_point prime_cofactor hd (mk2_ne (by decide +kernel)) nbig
  have dg : blsr ∣ Nat.card K := dvd_card_of_point fact_blsr.out hg (mk2_ne (by decide +kernel)) nr
  have c1 := Nat.Coprime.mul_dvd_of_dvd_of_dvd (by decide +kernel) d13 d23
  have c2 := Nat.Coprime.mul_dvd_of_dvd_of_dvd (by decide +kernel) c1 da
  have c3 := Nat.Coprime.mul_dvd_of_dvd_of_dvd (by decide +kernel) c2 db
  have c4 := Nat.Coprime.mul_dvd_of_dvd_of_dvd (by decide +kernel) c3 dc
  have c5 := Nat.Coprime.mul_dvd_of_dvd_of_dvd (by decide +kernel) c4 dd
  have c6 := Nat.Coprime.mul_dvd_of_dvd_of_dvd (by decide +kernel) c5 dg
  refine eq_top_of_dvd c6 card_le.2 ?_
  rw [card_Fp2]
  decide +kernel

/-! ## Relations between `1`, `psi` and `psi²` -/

/-- what a relation `A0 + A1 psi + A2 psi²` needs on a point of order `l` with `psi P = a P + b phi P` -/
def relOk (A0 A1 A2 : ℤ) (l a b : ℕ) : Bool :=
  (A0 + A1 * a + A2 * (a * a - b * b)) % l == 0 && (A1 * b + A2 * (2 * a * b - b * b)) % l == 0

/-- the relation as a homomorphism -/
noncomputable def relHom (A0 A1 A2 : ℤ) : E2 →+ E2 :=
  A0 • AddMonoidHom.id E2 + A1 • psi + A2 • psi.comp psi

theorem relHom_apply (A0 A1 A2 : ℤ) (P : E2) : relHom A0 A1 A2 P = A0 • P + A1 • psi P + A2 • psi (psi P) := rfl

theorem relOk_ok {A0 A1 A2 : ℤ} {l a b : ℕ} (h : relOk A0 A1 A2 l a b = true) {P : E2} (hl : l • P = 0)
    (hψ : psi P = a • P + b • phi2 P) : relHom A0 A1 A2 P = 0 ∧ relHom A0 A1 A2 (phi2 P) = 0 := by
  simp only [relOk, Bool.and_eq_true, beq_iff_eq] at h
  obtain ⟨⟨k, hk⟩, m, hm⟩ := h.imp Int.dvd_of_emod_eq_zero Int.dvd_of_emod_eq_zero
  have h1 : relHom A0 A1 A2 P = 0 := by
    have hs : phi2 (phi2 P) = -phi2 P - P := by
      have := phi2_sum P
      rw [add_assoc] at this
      rw [eq_neg_of_add_eq_zero_left this]; abel
    have h2 : psi (psi P) = ((a : ℤ) * a - b * b) • P + (2 * (a : ℤ) * b - b * b) • phi2 P := by
      conv_lhs => rw [hψ]
      rw [map_add, map_nsmul, map_nsmul, ← phi2_psi, hψ, map_add, map_nsmul, map_nsmul, hs]
      simp only [← natCast_zsmul]
      module
    have hl' : l • phi2 P = 0 := by rw [← map_nsmul, hl, map_zero]
    have e : relHom A0 A1 A2 P = (A0 + A1 * a + A2 * (a * a - b * b)) • P
        + (A1 * b + A2 * (2 * a * b - b * b)) • phi2 P := by
      rw [relHom_apply, h2, hψ]
      simp only [← natCast_zsmul]
      module
    rw [e, hk, hm, mul_comm, mul_zsmul, natCast_zsmul, hl, zsmul_zero, mul_comm, mul_zsmul, natCast_zsmul, hl',
      zsmul_zero, add_zero]
  refine ⟨h1, ?_⟩
  have h2 : relHom A0 A1 A2 (phi2 P) = phi2 (relHom A0 A1 A2 P) := by
    rw [relHom_apply, relHom_apply, ← phi2_psi, ← phi2_psi, map_add, map_add, map_zsmul phi2, map_zsmul phi2,
      map_zsmul phi2]
  rw [h2, h1, map_zero]

/-- the checks for all the points -/
def relAll (A0 A1 A2 : ℤ) : Bool :=
  relOk A0 A1 A2 13 11 0 && relOk A0 A1 A2 13 7 0 && relOk A0 A1 A2 23 3 13 && relOk A0 A1 A2 2713 2017 0 &&
    relOk A0 A1 A2 11953 3605 0 && relOk A0 A1 A2 262069 88066 0 && relOk A0 A1 A2 bigFactor psiBig 0 &&
    relOk A0 A1 A2 blsr (blsr - 0xd201000000010000) 0

/-- a relation that holds for the points of prime order holds for all points -/
theorem rel_of_all {A0 A1 A2 : ℤ} (h : relAll A0 A1 A2 = true) (P : E2) :
    A0 • P + A1 • psi P + A2 • psi (psi P) = 0 := by
  simp only [relAll, Bool.and_eq_true] at h
  obtain ⟨⟨⟨⟨⟨⟨⟨h1, h2⟩, h3⟩, h4⟩, h5⟩, h6⟩, h7⟩, h8⟩ := h
  have ht := (top_of_points2 (relHom A0 A1 A2).ker
    (relOk_ok h1 n13a (psiIs_ok (fuel := 4) (by decide +kernel))).1
    (relOk_ok h2 n13b (psiIs_ok (fuel := 4) (by decide +kernel))).1
    (relOk_ok h3 n23a (psiIs_ok (fuel := 5) (by decide +kernel))).1
    (relOk_ok h3 n23a (psiIs_ok (fuel := 5) (by decide +kernel))).2
    (relOk_ok h4 n2713 (psiIs_ok (fuel := 12) (by decide +kernel))).1
    (relOk_ok h5 n11953 (psiIs_ok (fuel := 14) (by decide +kernel))).1
    (relOk_ok h6 n262069 (psiIs_ok (fuel := 18) (by decide +kernel))).1
    (relOk_ok h7 nbig (psiIs_ok (fuel := 448) (by decide +kernel))).1
    (relOk_ok h8 nr (psiIs_ok (fuel := 255) (by decide +kernel))).1).1
  have : P ∈ (relHom A0 A1 A2).ker := by rw [ht]; trivial
  exact this

/-! ## C159: the order of `G2` and the clearing of its cofactor -/

/-- the cofactor `(x⁸ - 4x⁷ + 5x⁶ - 4x⁴ + 6x³ - 4x² - 4x + 13)/9` of `G2` -/
theorem C159_g2_order : ((Nat.card E2 : ℕ) : ℤ) = ((-0xd201000000010000) ^ 8 - 4 * (-0xd201000000010000) ^ 7
    + 5 * (-0xd201000000010000) ^ 6 - 4 * (-0xd201000000010000) ^ 4 + 6 * (-0xd201000000010000) ^ 3
    - 4 * (-0xd201000000010000) ^ 2 - 4 * (-0xd201000000010000) + 13) / 9 * blsr := by
  rw [(top_of_points2 ⊤ trivial trivial trivial trivial trivial trivial trivial trivial trivial).2]
  decide +kernel

/-- `psi` satisfies the equation of the Frobenius of `G1`: `psi² - t psi + p = 0` with `t = x + 1` -/
theorem C159_psi_equation (P : E2) :
    (blsp : ℤ) • P + (-(-0xd201000000010000 + 1) : ℤ) • psi P + (1 : ℤ) • psi (psi P) = 0 :=
  rel_of_all (by decide +kernel) P

/-- `ClearCofactor` computes the published combination of `psi` and multiples of the parameter … -/
theorem C159_g2_clearCofactor_formula {p : Proj (Fp2 Fq)} {P : E2} (hp : GRep p P) :
    GRep (g2ClearCofactor p) ((0xd201000000010000 ^ 2 + 0xd201000000010000 - 1 : ℤ) • P
      + (-0xd201000000010000 - 1 : ℤ) • psi P + (2 : ℤ) • psi (psi P)) := by
  have h1 := gRep_mulByX g2Ok hp
  have h2 := psi_rep hp
  have h3 := psi2_rep (gRep_double g2Ok hp)
  have h4 := gRep_mulByX g2Ok (gRep_add g2Ok h1 h2)
  have h5 := gRep_sub g2Ok (gRep_sub g2Ok (gRep_sub g2Ok (gRep_add g2Ok h3 h4) h1) h2) hp
  have e : (0xd201000000010000 ^ 2 + 0xd201000000010000 - 1 : ℤ) • P + (-0xd201000000010000 - 1 : ℤ) • psi P
      + (2 : ℤ) • psi (psi P) = psi (psi (P + P)) + (-0xd201000000010000 : ℤ) • ((-0xd201000000010000 : ℤ) • P + psi P)
        - (-0xd201000000010000 : ℤ) • P - psi P - P := by
    rw [map_add, map_add]
    module
  rw [e]
  exact h5

/-- … which is the multiple by the effective cofactor of RFC 9380, for every point of the curve -/
theorem C159_g2_clearCofactor {p : Proj (Fp2 Fq)} {P : E2} (hp : GRep p P) :
    GRep (g2ClearCofactor p) (heff • P) := by
  have h1 := C159_g2_clearCofactor_formula hp
  have h2 := rel_of_all (A0 := 0xd201000000010000 ^ 2 + 0xd201000000010000 - 1 - heff) (A1 := -0xd201000000010000 - 1)
    (A2 := 2) (by decide +kernel) P
  have e : heff • P = (0xd201000000010000 ^ 2 + 0xd201000000010000 - 1 : ℤ) • P
      + (-0xd201000000010000 - 1 : ℤ) • psi P + (2 : ℤ) • psi (psi P) := by
    rw [← sub_eq_zero, ← neg_eq_zero, ← h2, ← natCast_zsmul]
    module
  rw [e]
  exact h1

/-- … and lands in the subgroup -/
theorem C159_g2_clearCofactor_subgroup {p : Proj (Fp2 Fq)} {P : E2} (hp : GRep p P) :
    gInSubgroup mulBy3b2 (g2ClearCofactor p) = true := by
  rw [C156_inSubgroup.2 (C159_g2_clearCofactor hp), ← mul_nsmul']
  have := rel_of_all (A0 := (blsr * heff : ℕ)) (A1 := 0) (A2 := 0) (by decide +kernel) P
  rw [natCast_zsmul] at this
  simpa using this

theorem gen2_rep : GRep g2Generator (mk2 gen2) := by
  rw [g2Generator_eq]
  exact mk2_rep (g := gen2) (by decide +kernel)

theorem gen2_order : addOrderOf (mk2 gen2) = blsr :=
  have := fact_blsr
  addOrderOf_eq_prime nr (mk2_ne (by decide +kernel))

/-- the generator of `G2` has order `r`, and the points `InCorrectSubgroup` accepts are its multiples -/
theorem C159_g2_subgroup : ∃ G : E2, GRep g2Generator G ∧ addOrderOf G = blsr ∧
    ∀ {p : Proj (Fp2 Fq)} {P : E2}, GRep p P → (gInSubgroup mulBy3b2 p = true ↔ ∃ k < blsr, P = k • G) := by
  have := finite_E2
  have hcard := (top_of_points2 ⊤ trivial trivial trivial trivial trivial trivial trivial trivial trivial).2
  refine ⟨mk2 gen2, gen2_rep, gen2_order, fun {p P} hp => ?_⟩
  rw [C156_inSubgroup.2 hp]
  constructor
  · exact mem_multiples hcard (by decide +kernel) gen2_order (by decide +kernel)
  · rintro ⟨k, -, rfl⟩
    rw [← mul_nsmul', mul_nsmul, ← gen2_order, addOrderOf_nsmul_eq_zero, nsmul_zero]

/-- on the subgroup `psi` is the multiplication by the parameter of the curve -/
theorem C159_psi_subgroup {P : E2} (hP : blsr • P = 0) : psi P = (-0xd201000000010000 : ℤ) • P := by
  have := finite_E2
  have hcard := (top_of_points2 ⊤ trivial trivial trivial trivial trivial trivial trivial trivial trivial).2
  obtain ⟨k, -, rfl⟩ := mem_multiples hcard (by decide +kernel) gen2_order (by decide +kernel) hP
  have h1 := psiIs_ok (fuel := 255) (g := gen2) (a := blsr - 0xd201000000010000) (b := 0) (by decide +kernel)
  rw [zero_nsmul, add_zero] at h1
  have h2 : psi (mk2 gen2) = (-0xd201000000010000 : ℤ) • mk2 gen2 := by
    have hs : ∀ a b : ℤ, a • mk2 gen2 - b • mk2 gen2 = (a - b) • mk2 gen2 := fun a b => by module
    rw [h1, ← sub_eq_zero, ← natCast_zsmul, hs]
    rw [show (((blsr - 0xd201000000010000 : ℕ) : ℤ) - -0xd201000000010000) = (blsr : ℤ) by decide +kernel, natCast_zsmul]
    exact nr
  rw [map_nsmul, h2]
  simp only [← natCast_zsmul]
  exact smul_comm _ _ _

example : ∃ G : E2, (∃ q, g2FromCompressed (g2ToCompressed g2Generator) = .ok q ∧ GRep q G) ∧
    psi G = (-0xd201000000010000 : ℤ) • G :=
  ⟨_, (C157_g2_roundtrip gen2_rep nr).1, C159_psi_subgroup nr⟩

/-- a point of order 13 is not in the subgroup, its image is -/
example : gInSubgroup mulBy3b2 (⟨c2 w13a.1.1 w13a.1.2, c2 w13a.2.1 w13a.2.2, 1⟩ : Proj (Fp2 Fq)) = false ∧
    gInSubgroup mulBy3b2 (g2ClearCofactor ⟨c2 w13a.1.1 w13a.1.2, c2 w13a.2.1 w13a.2.2, 1⟩) = true := by
  have h := mk2_rep (g := w13a) (by decide +kernel)
  refine ⟨?_, C159_g2_clearCofactor_subgroup h⟩
  rw [Bool.eq_false_iff]
  intro h1
  have h2 := (C156_inSubgroup.2 h).1 h1
  have h3 : (1 : ℤ) • mk2 w13a = 0 := by
    rw [show (1 : ℤ) = (blsr : ℤ) * Int.gcdA blsr 13 + (13 : ℕ) * Int.gcdB blsr 13 by decide +kernel, add_zsmul,
      mul_comm, mul_zsmul, natCast_zsmul, h2, mul_comm, mul_zsmul, natCast_zsmul, n13a, zsmul_zero, zsmul_zero,
      add_zero]
  rw [one_zsmul] at h3
  exact mk2_ne (by decide +kernel) h3

end Verif.Bls381

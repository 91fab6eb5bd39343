import Verif.Bbs.Common
import Verif.Common.Toy
import Mathlib.Tactic.Ring
import Mathlib.Tactic.Module

/-!
# Properties of the sigma protocol builder (C71) and the HMAC-DRBG (C72)
-/

set_option linter.unusedSectionVars false

namespace Verif.SigCommon

variable {F : Type} [Field F]
variable {G : Type} [AddCommGroup G] [Module F G]

theorem zipWith_maps {α β γ δ : Type} (f : β → γ → δ) (g : α → β) (h : α → γ) (l : List α) :
    List.zipWith f (l.map g) (l.map h) = l.map fun x => f (g x) (h x) := by
  induction l with
  | nil => rfl
  | cons a l ih => simp [ih]

theorem mapM_id_some (l : List G) : (l.map some).mapM id = some l := by
  induction l with
  | nil => rfl
  | cons a l ih => rw [List.map_cons, List.mapM_cons, ih]; rfl

theorem mapM_id_eq_some {l : List (Option G)} {r : List G} : l.mapM id = some r ↔ l = r.map some := by
  constructor
  · intro h
    induction l generalizing r with
    | nil => simp only [List.mapM_nil] at h; cases h; rfl
    | cons a l ih =>
      rw [List.mapM_cons] at h
      cases a with
      | none => simp at h
      | some a =>
        cases hl : l.mapM id with
        | none => rw [hl] at h; simp at h
        | some t =>
          rw [hl] at h
          simp at h
          rw [← h, List.map_cons, ih hl]
  · rintro rfl; exact mapM_id_some r

/-- the value of `SumOfProducts` on non-nil points -/
theorem sumOfProducts_some (l : List G) (s : List F) (h : l.length = s.length) :
    sumOfProducts (l.map some) s = some (List.zipWith (fun p s => s • p) l s).sum := by
  unfold sumOfProducts
  rw [if_pos (by simpa using h), mapM_id_some]; rfl

theorem sumOfProducts_pairs (l : List (G × F)) :
    sumOfProducts (l.map fun e => some e.1) (l.map Prod.snd) = some (l.map fun e => e.2 • e.1).sum := by
  have := sumOfProducts_some (l.map Prod.fst) (l.map Prod.snd) (by simp)
  rw [List.map_map] at this
  refine this.trans ?_
  rw [zipWith_maps]

theorem sumOfProducts_none_len {ps : List (Option G)} {s : List F} (h : ps.length ≠ s.length) :
    sumOfProducts ps s = none := by
  unfold sumOfProducts; rw [if_neg h]

theorem sumOfProducts_none_mem {ps : List (Option G)} {s : List F} (h : none ∈ ps) :
    sumOfProducts ps s = none := by
  unfold sumOfProducts
  split
  · cases hp : ps.mapM id with
    | none => rfl
    | some r => rw [mapM_id_eq_some] at hp; rw [hp] at h; simp at h
  · rfl

theorem sumOfProducts_eq_some {ps : List (Option G)} {s : List F} {P : G} :
    sumOfProducts ps s = some P ↔ ∃ l : List (G × F), ps = l.map (fun e => some e.1) ∧
      s = l.map Prod.snd ∧ P = (l.map fun e => e.2 • e.1).sum := by
  constructor
  · intro h
    by_cases hl : ps.length = s.length
    · cases hp : ps.mapM id with
      | none => unfold sumOfProducts at h; rw [if_pos hl, hp] at h; cases h
      | some r =>
        rw [mapM_id_eq_some] at hp
        subst hp
        rw [List.length_map] at hl
        refine ⟨r.zip s, ?_, ?_, ?_⟩
        · have := congrArg (List.map some) (List.map_fst_zip hl.le)
          rw [List.map_map] at this
          exact this.symm
        · rw [List.map_snd_zip hl.ge]
        · rw [sumOfProducts_some _ _ hl] at h
          cases h
          rw [List.zip, List.map_zipWith]
    · rw [sumOfProducts_none_len hl] at h; cases h
  · rintro ⟨l, rfl, rfl, rfl⟩
    exact sumOfProducts_pairs l

/-! ## C71 -/

/-- `Builder.commit` repeated. -/
def commitAll (b : Builder F G) (cs : List (Option G × F)) : Go (Builder F G) :=
  cs.foldlM (fun b c => b.commit c.1 c.2) b

theorem commitAll_from (r : Builder F G) : ∀ (cs : List (Option G × F)) (b : Builder F G),
    commitAll b cs = .ok r ↔ (cs = [] ∨ b.points.length + cs.length ≤ 65536) ∧
      r = ⟨b.points ++ cs.map Prod.fst, b.scalars ++ cs.map Prod.snd⟩ := by
  intro cs
  induction cs with
  | nil =>
    intro b
    simp only [commitAll, List.foldlM_nil, Go.pure_eq_ok, Except.ok.injEq, List.map_nil,
      List.append_nil, true_or, true_and]
    exact eq_comm
  | cons c cs ih =>
    intro b
    unfold commitAll at ih ⊢
    rw [List.foldlM_cons, Go.bind_eq_ok]
    constructor
    · rintro ⟨b', hb, h⟩
      unfold Builder.commit at hb
      rw [Go.guard_bind_eq_ok, Except.ok.injEq] at hb
      obtain ⟨hl, rfl⟩ := hb
      obtain ⟨h1, h2⟩ := (ih _).1 h
      simp only [List.length_append, List.length_singleton] at h1
      refine ⟨Or.inr ?_, by simpa using h2⟩
      rcases h1 with rfl | h1
      · simp; omega
      · rw [List.length_cons]; omega
    · rintro ⟨h1, h2⟩
      have h1' : b.points.length + (cs.length + 1) ≤ 65536 := by
        rcases h1 with h1 | h1
        · cases h1
        · simpa using h1
      refine ⟨⟨b.points ++ [c.1], b.scalars ++ [c.2]⟩, ?_, ?_⟩
      · unfold Builder.commit; rw [Go.guard_bind_eq_ok]; exact ⟨by omega, rfl⟩
      · rw [ih]
        refine ⟨Or.inr ?_, by simpa using h2⟩
        simp only [List.length_append, List.length_singleton]; omega

/-- Committing a list succeeds exactly up to 65536 commitments in total and keeps the order. -/
theorem C71_commit (cs : List (Option G × F)) (r : Builder F G) :
    commitAll Builder.new cs = .ok r ↔
      cs.length ≤ 65536 ∧ r = ⟨cs.map Prod.fst, cs.map Prod.snd⟩ := by
  rw [commitAll_from]
  simp only [Builder.new, List.length_nil, zero_add, List.nil_append]
  constructor
  · rintro ⟨h | h, h2⟩
    · subst h; exact ⟨by simp, h2⟩
    · exact ⟨h, h2⟩
  · rintro ⟨h, h2⟩; exact ⟨Or.inr h, h2⟩

/-- Proof generation fails exactly for a wrong number of secrets. -/
theorem C71_wrong_number (b : Builder F G) (c : F) (xs : List F) :
    b.generateProof c xs = Go.err ↔ xs.length ≠ b.scalars.length := by
  unfold Builder.generateProof
  by_cases h : xs.length = b.scalars.length
  · rw [Go.guard_true h]; simp [h, Go.err]
  · rw [Go.guard_false h]; simp [h, Go.err]

/-- Points `P_i` committed with randomness `r_i` in this order: for every challenge and every list of
secrets `x_i` the responses are `r_i + c·x_i` in the same order, the contribution encodes `Σ r_i·P_i`,
and the responses satisfy `Σ s_i·P_i = Σ r_i·P_i + c·Σ x_i·P_i`. -/
theorem C71_responses (penc : G → List UInt8) (cs : List (G × F × F)) (b : Builder F G)
    (hb : commitAll Builder.new (cs.map fun e => (some e.1, e.2.1)) = .ok b) (c : F) :
    b.generateProof c (cs.map fun e => e.2.2) = .ok (cs.map fun e => e.2.1 + c * e.2.2) ∧
    b.contribution penc = penc (cs.map fun e => e.2.1 • e.1).sum ∧
    (cs.map fun e => (e.2.1 + c * e.2.2) • e.1).sum =
      (cs.map fun e => e.2.1 • e.1).sum + c • (cs.map fun e => e.2.2 • e.1).sum := by
  obtain ⟨_, rfl⟩ := (C71_commit _ _).1 hb
  refine ⟨?_, ?_, ?_⟩
  · unfold Builder.generateProof
    rw [Go.guard_true (by simp)]
    simp only [Go.ok_bind, List.map_map]
    congr 1
    rw [zipWith_maps]
    refine List.map_congr_left fun e _ => ?_
    simp only [Function.comp]
    ring
  · unfold Builder.contribution Builder.commitment
    have := sumOfProducts_pairs (cs.map fun e => (e.1, e.2.1))
    simp only [List.map_map] at this ⊢
    have h2 : sumOfProducts (List.map (Prod.fst ∘ fun e : G × F × F => (some e.1, e.2.1)) cs)
        (List.map (Prod.snd ∘ fun e : G × F × F => (some e.1, e.2.1)) cs) =
        some (cs.map fun e => e.2.1 • e.1).sum := this
    rw [h2]
  · clear * -
    induction cs with
    | nil => simp
    | cons e cs ih =>
      simp only [List.map_cons, List.sum_cons]
      rw [ih]
      module

/-- `Get` returns the point and randomness committed at that position and nil outside. -/
theorem C71_get (cs : List (G × F)) (b : Builder F G)
    (hb : commitAll Builder.new (cs.map fun e => (some e.1, e.2)) = .ok b) (i : ℤ) :
    b.get i = if h : 0 ≤ i ∧ i.toNat < cs.length then
        (some (cs[i.toNat]'h.2).1, some (cs[i.toNat]'h.2).2)
      else (none, none) := by
  obtain ⟨_, rfl⟩ := (C71_commit _ _).1 hb
  unfold Builder.get
  simp only [List.map_map, List.length_map]
  by_cases h : 0 ≤ i ∧ i.toNat < cs.length
  · rw [if_neg (by omega), dif_pos h]
    simp [h.2]
  · rw [if_pos (by omega), dif_neg h]

/-- example: three commitments over the toy field -/
example : ∃ b : Builder Toy.K Toy.K, commitAll Builder.new
    (([(5, 1, 7), (6, 2, 8), (9, 3, 10)] : List (Toy.K × Toy.K × Toy.K)).map
      fun e => (some e.1, e.2.1)) = .ok b := ⟨⟨_, _⟩, (C71_commit _ _).2 ⟨by simp, rfl⟩⟩

/-! ## C72 -/

/-- `n` blocks of the HMAC chain -/
def chain (hmac : List UInt8 → List UInt8 → List UInt8) (k v : List UInt8) (n : ℕ) : List UInt8 :=
  (List.range n).flatMap fun j => (hmac k)^[j + 1] v

theorem chain_succ (hmac : List UInt8 → List UInt8 → List UInt8) (k v : List UInt8) (n : ℕ) :
    chain hmac k v (n + 1) = hmac k v ++ chain hmac k (hmac k v) n := by
  unfold chain
  rw [List.range_succ_eq_map, List.flatMap_cons, List.flatMap_map]
  rfl

theorem readLoop_ok {hmac : List UInt8 → List UInt8 → List UInt8} {size : ℕ} (h0 : 0 < size)
    (hs : ∀ k d, (hmac k d).length = size) (k : List UInt8) (n : ℕ) :
    ∀ (fuel : ℕ) (v dst : List UInt8) (i : ℕ), dst.length = i + n * size → n ≤ fuel →
      Drbg.readLoop hmac k fuel v dst i =
        ((hmac k)^[n] v, .ok (dst.take i ++ chain hmac k v n, dst.length)) := by
  induction n with
  | zero =>
    intro fuel v dst i hl _
    rw [zero_mul, add_zero] at hl
    have : Drbg.readLoop hmac k fuel v dst i = (v, .ok (dst, i)) := by
      cases fuel with
      | zero => rfl
      | succ f => rw [Drbg.readLoop, if_neg (by omega)]
    rw [this, List.take_of_length_le (by omega)]
    simp [chain, hl]
  | succ n ih =>
    intro fuel v dst i hl hf
    obtain ⟨f, rfl⟩ : ∃ f, fuel = f + 1 := ⟨fuel - 1, by omega⟩
    rw [Nat.add_mul, one_mul] at hl
    rw [Drbg.readLoop, if_pos (by omega), if_neg (by rw [hs]; omega)]
    have hlen : (dst.take i ++ hmac k v ++ dst.drop (i + (hmac k v).length)).length = dst.length := by
      simp only [List.length_append, List.length_take, List.length_drop, hs]; omega
    rw [ih f _ _ _ (by rw [hlen, hs]; omega) (by omega), hlen, Function.iterate_succ_apply, chain_succ]
    have ht : (dst.take i ++ hmac k v ++ dst.drop (i + (hmac k v).length)).take
        (i + (hmac k v).length) = dst.take i ++ hmac k v := by
      rw [List.take_append_of_le_length (by simp [hs]; omega), List.take_of_length_le (by simp [hs])]
    rw [ht, List.append_assoc]

theorem readLoop_panic {hmac : List UInt8 → List UInt8 → List UInt8} {size : ℕ}
    (hs : ∀ k d, (hmac k d).length = size) (k : List UInt8) (n m : ℕ) (hm : 0 < m)
    (hm' : m < size) :
    ∀ (fuel : ℕ) (v dst : List UInt8) (i : ℕ), dst.length = i + (n * size + m) → n < fuel →
      Drbg.readLoop hmac k fuel v dst i = ((hmac k)^[n + 1] v, Go.crash) := by
  induction n with
  | zero =>
    intro fuel v dst i hl hf
    obtain ⟨f, rfl⟩ : ∃ f, fuel = f + 1 := ⟨fuel - 1, by omega⟩
    rw [Drbg.readLoop, if_pos (by omega), if_pos (by rw [hs]; omega)]
    rfl
  | succ n ih =>
    intro fuel v dst i hl hf
    obtain ⟨f, rfl⟩ : ∃ f, fuel = f + 1 := ⟨fuel - 1, by omega⟩
    rw [Nat.add_mul, one_mul] at hl
    rw [Drbg.readLoop, if_pos (by omega), if_neg (by rw [hs]; omega)]
    have hlen : (dst.take i ++ hmac k v ++ dst.drop (i + (hmac k v).length)).length = dst.length := by
      simp only [List.length_append, List.length_take, List.length_drop, hs]; omega
    rw [ih f _ _ _ (by rw [hlen, hs]; omega) (by omega), ← Function.iterate_succ_apply]

/-- A destination whose length is a multiple of the hash size is filled with the HMAC chain and its
length is returned. -/
theorem C72_read_ok (hmac : List UInt8 → List UInt8 → List UInt8) (size : ℕ) (h0 : 0 < size)
    (hs : ∀ k d, (hmac k d).length = size) (d : Drbg) (dst : List UInt8) (hd : size ∣ dst.length) :
    (d.read hmac dst).2 = .ok (chain hmac d.k d.v (dst.length / size), dst.length) := by
  unfold Drbg.read
  obtain ⟨n, hn⟩ := hd
  by_cases hz : dst.length = 0
  · rw [if_pos hz, hz]
    rw [List.length_eq_zero_iff] at hz
    simp [hz, chain]
  · rw [if_neg hz]
    have hle : n ≤ dst.length := by rw [hn]; exact Nat.le_mul_of_pos_left _ h0
    rw [readLoop_ok h0 hs d.k n dst.length d.v dst 0 (by rw [hn]; ring) hle]
    simp [hn, h0]

/-- Every other destination makes `Read` panic, after overwriting nothing outside the slice. -/
theorem C72_read_panics (hmac : List UInt8 → List UInt8 → List UInt8) (size : ℕ) (h0 : 0 < size)
    (hs : ∀ k d, (hmac k d).length = size) (d : Drbg) (dst : List UInt8)
    (hd : ¬ size ∣ dst.length) : (d.read hmac dst).2 = Go.crash := by
  unfold Drbg.read
  have hz : dst.length ≠ 0 := fun h => hd (by rw [h]; exact dvd_zero _)
  have hm : 0 < dst.length % size := Nat.pos_of_ne_zero fun h => hd (Nat.dvd_of_mod_eq_zero h)
  rw [if_neg hz, readLoop_panic hs d.k (dst.length / size) (dst.length % size) hm
    (Nat.mod_lt _ h0) dst.length d.v dst 0 (by rw [zero_add, Nat.div_add_mod']) (by
      rcases Nat.lt_or_ge size 2 with h | h
      · have : size = 1 := by omega
        subst this; omega
      · exact Nat.div_lt_self (by omega) h)]

/-- operations on a generator -/
inductive DrbgOp
  | read (dst : List UInt8)
  | reseed (entropy : List UInt8)

def DrbgOp.run (hmac : List UInt8 → List UInt8 → List UInt8) (d : Drbg) : DrbgOp → Drbg
  | .read dst => (d.read hmac dst).1
  | .reseed e => d.reseed hmac e

/-- The internal key and value always have the hash size, whatever is read or reseeded, including
reads that panic. -/
theorem C72_state_size (hmac : List UInt8 → List UInt8 → List UInt8) (size : ℕ)
    (hs : ∀ k d, (hmac k d).length = size) (entropy nonce pers : List UInt8) (ops : List DrbgOp) :
    let d := ops.foldl (DrbgOp.run hmac) (Drbg.new hmac size entropy nonce pers)
    d.k.length = size ∧ d.v.length = size := by
  have hup : ∀ (d : Drbg) seeds, (d.update hmac seeds).k.length = size ∧
      (d.update hmac seeds).v.length = size := by
    intro d seeds
    unfold Drbg.update
    cases seeds <;> simp [hs]
  have hloop : ∀ (k : List UInt8) (fuel : ℕ) (v dst : List UInt8) (i : ℕ), v.length = size →
      (Drbg.readLoop hmac k fuel v dst i).1.length = size := by
    intro k fuel
    induction fuel with
    | zero => intro v dst i h; exact h
    | succ f ih =>
      intro v dst i h
      rw [Drbg.readLoop]
      split
      · simp only
        split
        · exact hs _ _
        · exact ih _ _ _ (hs _ _)
      · exact h
  have gen : ∀ (ops : List DrbgOp) (d : Drbg), d.k.length = size → d.v.length = size →
      (ops.foldl (DrbgOp.run hmac) d).k.length = size ∧
      (ops.foldl (DrbgOp.run hmac) d).v.length = size := by
    intro ops
    induction ops with
    | nil => intro d h1 h2; exact ⟨h1, h2⟩
    | cons op ops ih =>
      intro d h1 h2
      rw [List.foldl_cons]
      have : (DrbgOp.run hmac d op).k.length = size ∧ (DrbgOp.run hmac d op).v.length = size := by
        cases op with
        | reseed e => exact hup d [e]
        | read dst =>
          show (d.read hmac dst).1.k.length = size ∧ (d.read hmac dst).1.v.length = size
          unfold Drbg.read
          split
          · exact ⟨h1, h2⟩
          · have hl := hloop d.k dst.length d.v dst 0 h2
            split
            · rename_i v e heq
              rw [heq] at hl
              exact ⟨h1, hl⟩
            · exact hup _ []
      exact ih _ this.1 this.2
  exact gen ops _ (hup _ _).1 (hup _ _).2

/-- `Read` is a function of the state: equal seeds give equal output after equal histories, and a
successful read advances the state. -/
theorem C72_read_state (hmac : List UInt8 → List UInt8 → List UInt8) (size : ℕ) (h0 : 0 < size)
    (hs : ∀ k d, (hmac k d).length = size) (d : Drbg) (dst : List UInt8) (hne : dst ≠ [])
    (hd : size ∣ dst.length) :
    (d.read hmac dst).1 =
      let v := (hmac d.k)^[dst.length / size] d.v
      let k' := hmac d.k (v ++ [0])
      ⟨k', hmac k' v, d.count + 1⟩ := by
  unfold Drbg.read
  obtain ⟨n, hn⟩ := hd
  have hz : dst.length ≠ 0 := by simpa [List.length_eq_zero_iff] using hne
  rw [if_neg hz]
  have hle : n ≤ dst.length := by rw [hn]; exact Nat.le_mul_of_pos_left _ h0
  rw [readLoop_ok h0 hs d.k n dst.length d.v dst 0 (by rw [hn]; ring) hle]
  simp [hn, h0, Drbg.update]

namespace ToyRun

def hmac (k d : List UInt8) : List UInt8 :=
  let s := (k ++ d).foldl (fun a b => a * 3 + b) 1
  [s, s + 1, s * 5]

example : ∀ k d, (hmac k d).length = 3 := fun _ _ => rfl
example : ((Drbg.new hmac 3 [1] [2] [3]).read hmac (List.replicate 6 0)).2 ≠ Go.crash := by
  decide +kernel
example : ((Drbg.new hmac 3 [1] [2] [3]).read hmac (List.replicate 7 0)).2 = Go.crash := by
  decide +kernel

end ToyRun

end Verif.SigCommon

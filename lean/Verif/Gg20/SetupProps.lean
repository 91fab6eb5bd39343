import Verif.Gg20.SignProps
import Verif.Sharing.V1Props

/-! # C43: from dealt shares to additive shares, and validity of the resulting signature (C45) -/

set_option linter.unusedSectionVars false
set_option exponentiation.threshold 600

namespace Verif.Gg20

variable {q : ℕ} {G : Type} [AddCommGroup G] [Module (ZMod q) G]

/-! ## Dealer -/

/-- `NewDealerShares` (pkg/tecdsa/gg20/dealer/dealer.go:182-238) with a given key `ikm`: the public
key and the map of shares.  `ikm.Bytes()` is the encoding of the absolute value; the scalar
multiplication reduces modulo the order.  `rnd` are the drawn coefficients. -/
def newDealerShares [Fact q.Prime] (bitSize : ℕ) (g : G) (threshold total : ℕ) (ikm : ℤ)
    (rnd : ℕ → ZMod q) : Go (G × List (ℕ × ZMod q × G)) := do
  Go.guard (¬ total < threshold)
  Go.guard (¬ total > 255)
  Go.guard (¬ threshold < 2)
  Go.guard (¬ threshold > 255)
  Go.guard (¬ bitSize ≠ 256)
  let pk : G := (ikm : ZMod q) • g
  let shamir ← V1.newShamir threshold total
  let shares ← V1.split shamir (natBytes ikm.natAbs) rnd
  .ok (pk, shares.zipIdx.map fun si => (si.2 + 1, si.1.value, si.1.value • g))

/-- `genProofParams` (pkg/tecdsa/gg20/dealer/dealer.go:242-298) on the drawn safe primes and the
two values drawn below the modulus. -/
def genProofParams (p q : ℕ) (f alpha : ℤ) : Go Dealer := do
  let n : ℤ := (p : ℤ) * q
  let h1 ← Core.mul (some f) (some f) (some n)
  .ok ⟨n, h1, (h1 ^ alpha.toNat) % n⟩

/-- The parameters satisfy what the proofs need as soon as `f` is a unit. -/
theorem C43_proofParams {p q : ℕ} (hp : 0 < p) (hq : 0 < q) {f alpha : ℤ}
    (hf : IsCoprime f ((p : ℤ) * q)) :
    ∃ D, genProofParams p q f alpha = .ok D ∧ D.N = p * q ∧ 0 < D.N ∧
      D.H1 ≡ f ^ 2 [ZMOD D.N] ∧ D.H2 ≡ D.H1 ^ alpha.toNat [ZMOD D.N] ∧
      IsCoprime D.H1 D.N ∧ IsCoprime D.H2 D.N := by
  have hn : (0 : ℤ) < (p : ℤ) * q := by positivity
  have hmodc : ∀ a : ℤ, IsCoprime a ((p : ℤ) * q) → IsCoprime (a % ((p : ℤ) * q)) ((p : ℤ) * q) := by
    intro a ha
    rw [Int.isCoprime_iff_gcd_eq_one] at ha ⊢
    rw [Int.gcd_emod]
    exact ha
  refine ⟨⟨p * q, (f * f) % (p * q), ((f * f) % (p * q)) ^ alpha.toNat % (p * q)⟩, ?_, rfl, hn,
    ?_, Int.mod_modEq _ _, ?_, ?_⟩
  · unfold genProofParams
    simp only [Core.mul, Big.mod, hn.ne', if_false, Go.ok_bind]
  · rw [pow_two]
    exact Int.mod_modEq _ _
  · exact hmodc _ (hf.mul_left hf)
  · exact hmodc _ ((hmodc _ (hf.mul_left hf)).pow_left)

example : ∃ D, genProofParams 5 11 3 7 = .ok D ∧ D = ⟨55, 9, 4⟩ ∧
    IsCoprime (3 : ℤ) ((5 : ℕ) * (11 : ℕ) : ℤ) :=
  ⟨_, rfl, by decide +kernel, by rw [Int.isCoprime_iff_gcd_eq_one]; decide +kernel⟩

/-- What the dealer hands out: the share of `j` is a fixed polynomial with `threshold`
coefficients at `j`, its point is that value times the generator. -/
theorem C43_dealt [Fact q.Prime] {bitSize : ℕ} {g : G} {threshold total : ℕ} {ikm : ℤ}
    {rnd : ℕ → ZMod q} {pk : G} {shares : List (ℕ × ZMod q × G)}
    (h : newDealerShares bitSize g threshold total ikm rnd = .ok (pk, shares)) :
    (2 ≤ threshold ∧ threshold ≤ total ∧ total ≤ 255 ∧ ikm ≠ 0 ∧ ikm.natAbs < q ∧ total < q) ∧
    pk = (ikm : ZMod q) • g ∧
    ∀ j, shares.lookup j = if 1 ≤ j ∧ j ≤ total then
      some (V1.dealt threshold (natBytes ikm.natAbs) rnd j,
        V1.dealt threshold (natBytes ikm.natAbs) rnd j • g) else none := by
  unfold newDealerShares at h
  simp only [Go.guard_bind_eq_ok] at h
  obtain ⟨h1, h2, h3, h4, h5, h⟩ := h
  obtain ⟨sha, hsh, ht, hl⟩ := V1.newShamir_ok (t := threshold) (n := total) (by omega) (by omega)
    (by omega)
  have ht : sha.threshold.toNat = threshold := by exact_mod_cast ht
  have hl : sha.limit.toNat = total := by exact_mod_cast hl
  rw [hsh, Go.ok_bind, Go.bind_eq_ok] at h
  obtain ⟨sh, hs, he⟩ := h
  obtain ⟨rfl, rfl⟩ := Prod.mk.inj (Except.ok.inj he)
  rw [V1.split_eq_ok] at hs
  obtain ⟨hs1, hs2, hs3, hs4⟩ := hs
  rw [beNat_natBytes] at hs2 hs4
  have hik : ikm ≠ 0 := by
    rintro rfl
    exact hs1 (by decide +kernel)
  unfold V1.mkShares at hs4
  split at hs4
  · cases hs4
  · rename_i hlt
    rw [hl] at hlt hs4
    refine ⟨⟨by omega, by omega, by omega, hik, hs2, by omega⟩, rfl, fun j => ?_⟩
    rw [← Except.ok.inj hs4, ht]
    have hz : ∀ f : ℕ → V1.Share q, ((List.range total).map f).zipIdx =
        (List.range total).map fun i => (f i, i) := by
      intro f
      apply List.ext_getElem
      · simp
      · intro n h1 h2
        simp
    rw [hz, List.map_map]
    have hev : ∀ x : ZMod q, V1.evaluate (((ikm.natAbs : ℕ) : ZMod q) ::
        (List.range (threshold - 1)).map rnd) x = V1.dealt threshold (natBytes ikm.natAbs) rnd x := by
      intro x
      rw [V1.evaluate_eq, ← V1.evalL_dealt, beNat_natBytes]
    have hr : ∀ n, ((List.range n).map fun i => (i + 1,
        V1.dealt threshold (natBytes ikm.natAbs) rnd ((i + 1 : ℕ) : ZMod q),
        V1.dealt threshold (natBytes ikm.natAbs) rnd ((i + 1 : ℕ) : ZMod q) • g)).lookup j =
        if 1 ≤ j ∧ j ≤ n then some (V1.dealt threshold (natBytes ikm.natAbs) rnd j,
          V1.dealt threshold (natBytes ikm.natAbs) rnd j • g) else none := by
      intro n
      induction n with
      | zero =>
        rw [if_neg (by omega)]
        rfl
      | succ n ih =>
        rw [List.range_succ, List.map_append, List.lookup_append, ih]
        by_cases h1 : 1 ≤ j ∧ j ≤ n
        · rw [if_pos h1, if_pos (by omega)]
          rfl
        · rw [if_neg h1]
          by_cases h2 : j = n + 1
          · subst h2
            rw [if_pos (by omega)]
            simp
          · rw [if_neg (by omega)]
            have : (j == n + 1) = false := by simpa using h2
            simp [List.lookup_cons, this]
    rw [← hr total]
    congr 1
    refine List.map_congr_left fun i _ => ?_
    simp only [Function.comp, hev]

/-! ## Additive shares -/

/-- The coordinate used for an identifier. -/
def coord (q : ℕ) (k : ℕ) : ZMod q := ((k % 256 : ℕ) : ZMod q)

theorem lagFold [Fact q.Prime] (j : ℕ) (ids : List ℕ) (l : ZMod q)
    (h : ∀ k ∈ ids, k ≠ j → coord q k ≠ coord q j) :
    ids.foldlM (fun l k =>
      if j = k then (.ok l : Go (ZMod q))
      else do
        let xk : ZMod q := ((k % 256 : ℕ) : ZMod q)
        let xj : ZMod q := ((j % 256 : ℕ) : ZMod q)
        Go.guard (¬ xk - xj = 0)
        .ok (l * (xk * (xk - xj)⁻¹))) l =
      .ok (l * ((ids.filter (· ≠ j)).map fun k =>
        coord q k / (coord q k - coord q j)).prod) := by
  induction ids generalizing l with
  | nil => simp
  | cons k ids ih =>
    rw [List.foldlM_cons]
    by_cases hk : j = k
    · subst hk
      rw [if_pos rfl, Go.ok_bind, ih _ (fun k hk => h k (by simp [hk]))]
      simp
    · have hne : coord q k ≠ coord q j := h k (by simp) (Ne.symm hk)
      rw [if_neg hk]
      show ((Go.guard (¬ coord q k - coord q j = 0) >>= fun _ =>
        .ok (l * (coord q k * (coord q k - coord q j)⁻¹))) >>= _) = _
      rw [Go.guard_true (sub_ne_zero.2 hne), Go.ok_bind, Go.ok_bind,
        ih _ (fun k hk => h k (by simp [hk])), List.filter_cons_of_pos (by simpa using Ne.symm hk),
        List.map_cons, List.prod_cons, div_eq_mul_inv, mul_assoc]

/-- The coefficient is the Lagrange coefficient at 0 for the coordinates, if they are distinct. -/
theorem lagCoeff_eq [Fact q.Prime] {ids : List ℕ} (hn : ids.Nodup) (j : ℕ)
    (h : ∀ k ∈ ids, k ≠ j → coord q k ≠ coord q j) :
    lagCoeff (q := q) ids j = .ok (lag0 ids.toFinset (coord q) j) := by
  unfold lagCoeff
  rw [lagFold j ids 1 h, one_mul, ← List.prod_toFinset _ (hn.filter _)]
  unfold lag0
  congr 1
  refine Finset.prod_congr ?_ fun _ _ => rfl
  ext k
  simp [and_comm]

/-- Two cosigners with identifiers that agree in the last byte make the conversion fail. -/
theorem C43_byte_collision [Fact q.Prime] {ids : List ℕ} {j k : ℕ} (hk : k ∈ ids) (hne : k ≠ j)
    (he : k % 256 = j % 256) : lagCoeff (q := q) ids j = Go.err := by
  unfold lagCoeff
  generalize (1 : ZMod q) = l
  induction ids generalizing l with
  | nil => simp at hk
  | cons a ids ih =>
    rw [List.foldlM_cons]
    by_cases ha : j = a
    · subst ha
      rw [if_pos rfl, Go.ok_bind]
      exact ih (by simpa [hne] using hk) l
    · rw [if_neg ha]
      show ((Go.guard (¬ coord q a - coord q j = 0) >>= fun _ =>
        .ok (l * (coord q a * (coord q a - coord q j)⁻¹))) >>= _) = _
      by_cases hc : coord q a - coord q j = 0
      · rw [Go.guard_false (by simpa using hc)]
        rfl
      · have : a ≠ k := by
          rintro rfl
          exact hc (by rw [coord, he]; exact sub_self _)
        rw [Go.guard_true hc, Go.ok_bind, Go.ok_bind]
        exact ih (by simpa [Ne.symm this] using hk) _

theorem additiveLoop_eq [Fact q.Prime] {ids : List ℕ} (hn : ids.Nodup)
    (h : Set.InjOn (coord q) {k | k ∈ ids}) (i : ℕ) (value : ZMod q) (P : ℕ → G) (l : List ℕ)
    (hl : ∀ j ∈ l, j ∈ ids) :
    ∃ w, additiveLoop i value ids (l.map fun j => (j, P j)) =
        .ok (l.map fun j => (j, lag0 ids.toFinset (coord q) j • P j), w) ∧
      (i ∈ l → w = some (lag0 ids.toFinset (coord q) i * value)) ∧ (i ∉ l → w = none) := by
  induction l with
  | nil => exact ⟨none, rfl, by simp, by simp⟩
  | cons j l ih =>
    obtain ⟨w, h1, h2, h3⟩ := ih (fun k hk => hl k (by simp [hk]))
    have hj : j ∈ ids := hl j (by simp)
    have hlag := lagCoeff_eq (q := q) hn j (fun k hk hne he => hne (h hk hj he))
    refine ⟨if j = i then some (lag0 ids.toFinset (coord q) j * value) else w, ?_, ?_, ?_⟩
    · rw [List.map_cons, additiveLoop, hlag, Go.ok_bind, h1, Go.ok_bind]
      rfl
    · intro hi
      by_cases hji : j = i
      · subst hji; simp
      · rw [if_neg hji]
        exact h2 (by simpa [Ne.symm hji] using hi)
    · intro hi
      simp only [List.mem_cons, not_or] at hi
      rw [if_neg (Ne.symm hi.1)]
      exact h3 hi.2

theorem coord_inj [Fact q.Prime] (hq : 255 < q) {S : Finset ℕ} (hS : ∀ j ∈ S, 1 ≤ j ∧ j ≤ 255) :
    Set.InjOn (coord q) S := by
  intro a ha b hb hab
  have h1 := hS a ha
  have h2 := hS b hb
  unfold coord at hab
  rw [Nat.mod_eq_of_lt (by omega), Nat.mod_eq_of_lt (by omega), ZMod.natCast_eq_natCast_iff] at hab
  unfold Nat.ModEq at hab
  rwa [Nat.mod_eq_of_lt (by omega), Nat.mod_eq_of_lt (by omega)] at hab

/-- Specification: the additive share of `j` among `S` of the Shamir share `x`. -/
def addShare (q : ℕ) [Fact q.Prime] (S : Finset ℕ) (j : ℕ) (x : ZMod q) : ZMod q :=
  lag0 S (fun k => (k : ZMod q)) j * x

theorem lag0_coord [Fact q.Prime] {S : Finset ℕ} (hS : ∀ j ∈ S, 1 ≤ j ∧ j ≤ 255) {j : ℕ}
    (hj : j ∈ S) : lag0 S (coord q) j = lag0 S (fun k => (k : ZMod q)) j := by
  unfold lag0
  refine Finset.prod_congr rfl fun k hk => ?_
  rw [Finset.mem_erase] at hk
  unfold coord
  rw [Nat.mod_eq_of_lt (by have := hS k hk.2; omega), Nat.mod_eq_of_lt (by have := hS j hj; omega)]

/-- `NewSigner` for identifiers in 1..255 and arbitrary share and public shares. -/
theorem newSigner_gen [Fact q.Prime] (hq : 255 < q) {S : Finset ℕ}
    (hS : ∀ j ∈ S, 1 ≤ j ∧ j ≤ 255) (h2 : 2 ≤ S.card) {i : ℕ} (hi : i ∈ S) (P : ℕ → G)
    (value : ZMod q) (sk : Paillier.SecretKey) (y : G) (kg : KeyGen) (publicShares : List (ℕ × G))
    (pks : List (ℕ × Paillier.PublicKey)) (cos : List ℕ) (hcos : ∀ j, j ∈ cos ↔ j ∈ S)
    (hpub : ∀ j ∈ S, publicShares.lookup j = some (P j))
    (hpks : ∀ j ∈ S, j ≠ i → (pks.lookup j).isSome = true) :
    ∃ s, newSigner i value sk y kg publicShares pks cos = .ok s ∧ s.id = i ∧ s.round = 1 ∧
      s.sk = sk ∧ s.keygen = kg ∧ s.pks = pks ∧ s.y = y ∧ s.threshold = S.card ∧
      (∀ Y m σ, s.verify Y m σ = true) ∧ (0 ≤ s.w ∧ s.w < q) ∧
      (s.w : ZMod q) = addShare q S i value ∧
      (∀ j ∈ S, s.pub.lookup j = some (lag0 S (fun k => (k : ZMod q)) j • P j)) ∧
      ∀ j, j ∈ s.cosigners ↔ j ∈ S ∧ j ≠ i := by
  have hmem : ∀ j, j ∈ cos.dedup ↔ j ∈ S := fun j => by rw [List.mem_dedup, hcos]
  have hfin : cos.dedup.toFinset = S := by ext j; rw [List.mem_toFinset, hmem]
  have hlen : cos.dedup.length = S.card := by
    rw [← hfin, List.toFinset_card_of_nodup cos.nodup_dedup]
  have hmap : (cos.dedup.map fun j => (j, publicShares.lookup j)) =
      cos.dedup.map fun j => (j, some (P j)) :=
    List.map_congr_left fun j hj => by rw [hpub j ((hmem j).1 hj)]
  have hkeys : (cos.dedup.map fun j => (j, some (P j))).map (·.1) = cos.dedup := inbox_keys _ _
  have hcopy : ((cos.dedup.map fun j => (j, some (P j))).mapM fun (jP : ℕ × Option G) =>
      (Go.ofOption jP.2 >>= fun P => (.ok (jP.1, P) : Go (ℕ × G)))) =
      .ok (cos.dedup.map fun j => (j, P j)) := by
    generalize cos.dedup = l
    induction l with
    | nil => rfl
    | cons a l ih =>
      rw [List.map_cons, List.mapM_cons, ih]
      rfl
  have hinj : Set.InjOn (coord q) {k | k ∈ cos.dedup} := by
    intro a ha b hb hab
    exact coord_inj hq hS ((hmem a).1 ha) ((hmem b).1 hb) hab
  obtain ⟨w, hw, hw', _⟩ := additiveLoop_eq (q := q) cos.nodup_dedup hinj i value
    P cos.dedup (fun _ h => h)
  have hconv : convertToAdditive i value (cos.dedup.map fun j => (j, some (P j))) =
      .ok (cos.dedup.map fun j => (j, lag0 S (coord q) j • P j),
        some (lag0 S (coord q) i * value)) := by
    unfold convertToAdditive
    rw [Go.guard_true (by simp [hlen]; omega), Go.ok_bind]
    refine (congrArg (· >>= _) hcopy).trans ?_
    rw [Go.ok_bind, hkeys, hw, hw' ((hmem i).2 hi), hfin]
  have hok : ∃ s, newSigner i value sk y kg publicShares pks cos = .ok s ∧ s.id = i ∧ s.round = 1 ∧
      s.sk = sk ∧ s.keygen = kg ∧ s.pks = pks ∧ s.y = y ∧
      s.threshold = (cos.dedup.map fun j => (j, some (P j))).length ∧
      s.verify = (fun _ _ _ => true) ∧ s.w = ((lag0 S (coord q) i * value).cast : ℤ) ∧
      s.pub = (cos.dedup.map fun j => (j, lag0 S (coord q) j • P j)) ∧
      s.cosigners = cos.dedup.filter (· ≠ i) := by
    unfold newSigner prepareToSign
    rw [hmap, Go.guard_true (by rw [List.length_map, hlen]; omega), Go.ok_bind, hconv, Go.ok_bind]
    simp only [deref, Go.ok_bind]
    rw [hkeys]
    have : (cos.dedup.filter fun x => decide (x ≠ i)).forM (fun j =>
        Go.guard ((pks.lookup j).isSome = true)) = .ok () :=
      Go.forM_eq_ok.2 fun j hj => by
        rw [List.mem_filter, hmem] at hj
        exact Go.guard_eq_ok.2 (hpks j hj.1 (by simpa using hj.2))
    rw [this, Go.ok_bind]
    exact ⟨_, rfl, rfl, rfl, rfl, rfl, rfl, rfl, rfl, rfl, rfl, rfl, rfl⟩
  obtain ⟨s, h1, h2, h3, h4, h5, h6, h7, h8, h9, h10, h11, h12⟩ := hok
  refine ⟨s, h1, h2, h3, h4, h5, h6, h7, by simp [h8, hlen], fun _ _ _ => by rw [h9], ?_, ?_, ?_, ?_⟩
  · rw [h10, ← ZMod.natCast_val]
    exact ⟨by positivity, by exact_mod_cast ZMod.val_lt _⟩
  · rw [h10, ZMod.intCast_zmod_cast, addShare, lag0_coord hS hi]
  · intro j hj
    rw [h11, lookup_map_self _ _ ((hmem j).2 hj), lag0_coord hS hj]
  · intro j
    rw [h12, List.mem_filter, hmem]
    simp

/-- **C43.**  `NewSigner` for identifiers in 1..255. -/
theorem C43_newSigner [Fact q.Prime] (hq : 255 < q) {S : Finset ℕ}
    (hS : ∀ j ∈ S, 1 ≤ j ∧ j ≤ 255) (h2 : 2 ≤ S.card) {i : ℕ} (hi : i ∈ S) (g : G)
    (x : ℕ → ZMod q) (sk : Paillier.SecretKey) (y : G) (kg : KeyGen) (publicShares : List (ℕ × G))
    (pks : List (ℕ × Paillier.PublicKey)) (cos : List ℕ) (hcos : ∀ j, j ∈ cos ↔ j ∈ S)
    (hpub : ∀ j ∈ S, publicShares.lookup j = some (x j • g))
    (hpks : ∀ j ∈ S, j ≠ i → (pks.lookup j).isSome = true) :
    ∃ s, newSigner i (x i) sk y kg publicShares pks cos = .ok s ∧ s.id = i ∧ s.round = 1 ∧
      s.sk = sk ∧ s.keygen = kg ∧ s.pks = pks ∧ s.y = y ∧ s.threshold = S.card ∧
      (∀ Y m σ, s.verify Y m σ = true) ∧ (0 ≤ s.w ∧ s.w < q) ∧
      (s.w : ZMod q) = addShare q S i (x i) ∧
      (∀ j ∈ S, s.pub.lookup j = some (addShare q S j (x j) • g)) ∧
      ∀ j, j ∈ s.cosigners ↔ j ∈ S ∧ j ≠ i := by
  obtain ⟨s, h1, h2, h3, h4, h5, h6, h7, h8, h9, h10, h11, h12, h13⟩ := newSigner_gen hq hS h2 hi
    (fun j => x j • g) (x i) sk y kg publicShares pks cos hcos hpub hpks
  refine ⟨s, h1, h2, h3, h4, h5, h6, h7, h8, h9, h10, h11, fun j hj => ?_, h13⟩
  rw [h12 j hj, addShare, mul_smul]

/-- **C43.**  The additive shares of the shares of a polynomial with at most `|S|` coefficients sum
to its constant term. -/
theorem C43_sum [Fact q.Prime] (hq : 255 < q) {S : Finset ℕ} (hS : ∀ j ∈ S, 1 ≤ j ∧ j ≤ 255)
    {t : ℕ} (ht : 0 < t) (htS : t ≤ S.card) (secret : List UInt8) (rnd : ℕ → ZMod q) :
    ∑ j ∈ S, addShare q S j (V1.dealt t secret rnd j) = (beNat secret : ZMod q) := by
  have h := sum_lag0_evalL S (fun k => (k : ZMod q))
    (fun a ha b hb hab => by
      have h1 := hS a ha
      have h2 := hS b hb
      rw [ZMod.natCast_eq_natCast_iff] at hab
      unfold Nat.ModEq at hab
      rwa [Nat.mod_eq_of_lt (by omega), Nat.mod_eq_of_lt (by omega)] at hab)
    (((beNat secret : ℕ) : ZMod q) :: (List.range (t - 1)).map rnd) (by simp; omega)
  rw [List.headD_cons] at h
  rw [← h]
  refine Finset.sum_congr rfl fun j _ => ?_
  rw [V1.evalL_dealt]
  rfl

/-- Signers that come out of `NewSigner` for the same shares are ready for an honest run, and their
additive shares are the ones of the specification. -/
theorem C43_setup [Fact q.Prime] (hq : 255 < q) {E : Env q G} {S : Finset ℕ}
    (hS : ∀ j ∈ S, 1 ≤ j ∧ j ≤ 255) (h2 : 2 ≤ S.card) (x : ℕ → ZMod q)
    (decEnc : ∀ r : ZMod q, r ≠ 0 → E.dec (E.enc (r • E.gen)) = some (r • E.gen))
    (hmacLen : ∀ k m, (E.hmac k m).length = 32)
    (kdfLen : ∀ m, (E.kdf m).length = 32) (pp qq : ℕ → ℕ) (sk : ℕ → Paillier.SecretKey)
    (primes : ∀ i ∈ S, Paillier.HonestPrimes (pp i) (qq i))
    (hsk : ∀ i ∈ S, Paillier.newSecretKey (some (pp i)) (some (qq i)) = .ok (sk i))
    (big : ∀ i ∈ S, (q : ℤ) ^ 2 + (q : ℤ) ^ 5 ≤ pp i * qq i)
    (y : G) (kg : ℕ → KeyGen) (tr : Bool) (Dl : ℕ → Dealer)
    (hkg : ∀ i ∈ S, (kg i).trusted = tr ∧ ∀ j ∈ S, (kg i).params j = some (Dl j))
    (hD : ∀ i ∈ S, 0 < (Dl i).N ∧ IsCoprime (Dl i).H1 (Dl i).N ∧ IsCoprime (Dl i).H2 (Dl i).N)
    (publicShares : ℕ → List (ℕ × G)) (pks : ℕ → List (ℕ × Paillier.PublicKey))
    (hpub : ∀ i ∈ S, ∀ j ∈ S, (publicShares i).lookup j = some (x j • E.gen))
    (hpks : ∀ i ∈ S, ∀ j ∈ S, j ≠ i → (pks i).lookup j = some (sk j).pk)
    (cos : ℕ → List ℕ) (hcos : ∀ i ∈ S, ∀ j, j ∈ cos i ↔ j ∈ S) :
    ∃ s0 : ℕ → Signer G,
      (∀ i ∈ S, newSigner i (x i) (sk i) y (kg i) (publicShares i) (pks i) (cos i) = .ok (s0 i)) ∧
      Setup E S s0 Dl pp qq tr ∧ (∀ i ∈ S, (s0 i).y = y) ∧
      (∀ i ∈ S, ∀ Y m σ, (s0 i).verify Y m σ = true) ∧
      ∀ i ∈ S, ((s0 i).w : ZMod q) = addShare q S i (x i) := by
  have h := fun i (hi : i ∈ S) => C43_newSigner hq hS h2 hi E.gen x (sk i) y (kg i)
    (publicShares i) (pks i) (cos i) (hcos i hi) (hpub i hi)
    (fun j hj hne => by rw [hpks i hi j hj hne]; rfl)
  have : Nonempty (Signer G) := by
    obtain ⟨a, ha⟩ : S.Nonempty := Finset.card_pos.1 (by omega)
    obtain ⟨s, _⟩ := h a ha
    exact ⟨s⟩
  choose! s0 h1 h2 h3 h4 h5 h6 h7 h8 h9 h10 h11 h12 h13 using h
  refine ⟨s0, h1, ?_, h7, h9, h11⟩
  exact
    { decEnc := decEnc
      hmacLen := hmacLen
      kdfLen := kdfLen
      id := h2
      round := h3
      primes := primes
      sk := fun i hi => by rw [h4 i hi]; exact hsk i hi
      big := big
      w := h10
      pub := fun i hi j hj => by rw [h12 i hi j hj, h11 j hj]
      cosigners := h13
      pks := fun i hi j hj hne => by rw [h6 i hi, h4 j hj]; exact hpks i hi j hj hne
      params := fun i hi j hj => by rw [h5 i hi]; exact (hkg i hi).2 j hj
      trusted := fun i hi => by rw [h5 i hi]; exact (hkg i hi).1
      dealerN := fun i hi => (hD i hi).1
      dealerH1 := fun i hi => (hD i hi).2.1
      dealerH2 := fun i hi => (hD i hi).2.2 }

/-- A cosigner list without the own identifier makes `NewSigner` panic: the additive private share
is missing. -/
theorem C43_own_id_missing_panics [Fact q.Prime] (hq : 255 < q) {S : Finset ℕ}
    (hS : ∀ j ∈ S, 1 ≤ j ∧ j ≤ 255) (h2 : 2 ≤ S.card) {i : ℕ} (hi : i ∉ S) (P : ℕ → G)
    (value : ZMod q) (sk : Paillier.SecretKey) (y : G) (kg : KeyGen) (publicShares : List (ℕ × G))
    (pks : List (ℕ × Paillier.PublicKey)) (cos : List ℕ) (hcos : ∀ j, j ∈ cos ↔ j ∈ S)
    (hpub : ∀ j ∈ S, publicShares.lookup j = some (P j)) :
    newSigner i value sk y kg publicShares pks cos = Go.crash := by
  have hmem : ∀ j, j ∈ cos.dedup ↔ j ∈ S := fun j => by rw [List.mem_dedup, hcos]
  have hlen : cos.dedup.length = S.card := by
    have hfin : cos.dedup.toFinset = S := by ext j; rw [List.mem_toFinset, hmem]
    rw [← hfin, List.toFinset_card_of_nodup cos.nodup_dedup]
  have hmap : (cos.dedup.map fun j => (j, publicShares.lookup j)) =
      cos.dedup.map fun j => (j, some (P j)) :=
    List.map_congr_left fun j hj => by rw [hpub j ((hmem j).1 hj)]
  have hkeys : (cos.dedup.map fun j => (j, some (P j))).map (·.1) = cos.dedup := inbox_keys _ _
  have hcopy : ((cos.dedup.map fun j => (j, some (P j))).mapM fun (jP : ℕ × Option G) =>
      (Go.ofOption jP.2 >>= fun P => (.ok (jP.1, P) : Go (ℕ × G)))) =
      .ok (cos.dedup.map fun j => (j, P j)) := by
    generalize cos.dedup = l
    induction l with
    | nil => rfl
    | cons a l ih =>
      rw [List.map_cons, List.mapM_cons, ih]
      rfl
  have hinj : Set.InjOn (coord q) {k | k ∈ cos.dedup} := by
    intro a ha b hb hab
    exact coord_inj hq hS ((hmem a).1 ha) ((hmem b).1 hb) hab
  obtain ⟨w, hw, _, hw'⟩ := additiveLoop_eq (q := q) cos.nodup_dedup hinj i value
    P cos.dedup (fun _ h => h)
  unfold newSigner prepareToSign
  rw [hmap, Go.guard_true (by rw [List.length_map, hlen]; omega), Go.ok_bind]
  have hconv : ∃ l, convertToAdditive i value (cos.dedup.map fun j => (j, some (P j))) =
      .ok (l, none) := by
    unfold convertToAdditive
    rw [Go.guard_true (by rw [List.length_map, hlen]; omega), Go.ok_bind]
    refine ⟨cos.dedup.map fun j => (j, lag0 cos.dedup.toFinset (coord q) j • P j),
      (congrArg (· >>= _) hcopy).trans ?_⟩
    rw [Go.ok_bind, hkeys, hw, hw' (fun h => hi ((hmem i).1 h))]
  obtain ⟨l, hl⟩ := hconv
  rw [hl, Go.ok_bind]
  rfl

/-! ## Validity of the signature -/

/-- Textbook ECDSA verification of `(r, s)` for the digest `m` and the key `Y`, with the point that
is recovered. -/
def EcdsaValid (E : Env q G) (Y : G) (m : ℕ) (σ : Sig) (P : G) : Prop :=
  (0 < σ.r ∧ σ.r < q) ∧ (0 < σ.s ∧ σ.s < q) ∧ P ≠ 0 ∧
    (σ.s : ZMod q) • P = (m : ZMod q) • E.gen + (σ.r : ZMod q) • Y ∧ (E.xy P).1 % q = σ.r

theorem sig_valid {E : Env q G} (hx : ∀ P, (E.xy (-P)).1 = (E.xy P).1) (hgen : E.gen ≠ 0)
    (hy : ∀ P ≠ 0, ((E.xy (-P)).2 % 2).toNat = ((E.xy P).2 % 2).toNat ^^^ 1) {K : ZMod q} {R : G}
    (hR : K • R = E.gen) {tot : ℤ} (htot : 0 ≤ tot ∧ tot < q) {m : ℕ} {x : ZMod q}
    (hs : (tot : ZMod q) = K * (m + ((E.xy R).1 : ZMod q) * x)) (h0 : tot ≠ 0)
    (hr : 0 < (E.xy R).1 ∧ (E.xy R).1 < q) :
    ∃ P, EcdsaValid E (x • E.gen) m
        ⟨if tot > (q : ℤ) / 2 then ((E.xy R).2 % 2).toNat ^^^ 1 else ((E.xy R).2 % 2).toNat,
          (E.xy R).1, if tot > (q : ℤ) / 2 then q - tot else tot⟩ P ∧
      (E.xy P).1 = (E.xy R).1 ∧ ((E.xy P).2 % 2).toNat =
        (if tot > (q : ℤ) / 2 then ((E.xy R).2 % 2).toNat ^^^ 1 else ((E.xy R).2 % 2).toNat) := by
  have hR0 : R ≠ 0 := by
    rintro rfl
    exact hgen (by rw [← hR, smul_zero])
  have hmain : (tot : ZMod q) • R = (m : ZMod q) • E.gen + ((E.xy R).1 : ZMod q) • x • E.gen := by
    rw [hs, mul_comm, mul_smul, hR, add_smul, mul_smul]
  by_cases hc : tot > (q : ℤ) / 2
  · refine ⟨-R, ⟨hr, ?_, neg_ne_zero.2 hR0, ?_, ?_⟩, hx R, ?_⟩
    · simp only [hc, if_true]
      omega
    · simp only [hc, if_true]
      rw [Int.cast_sub, Int.cast_natCast, ZMod.natCast_self, zero_sub, neg_smul_neg]
      exact hmain
    · rw [hx]
      exact Int.emod_eq_of_lt hr.1.le hr.2
    · simp only [hc, if_true]
      exact hy R hR0
  · refine ⟨R, ⟨hr, ?_, hR0, ?_, Int.emod_eq_of_lt hr.1.le hr.2⟩, rfl, by simp [hc]⟩
    · simp only [hc, if_false]
      omega
    · simp only [hc, if_false]
      exact hmain

/-- **C45.**  From shares to a signature: in every honest run of all rounds by signers whose additive
shares sum to `secret`, everybody outputs the same low-S signature; it is valid for the public key
`secret · g`, and its recovery bit is the parity of the recovered point, unless the nonce point has
an `x`-coordinate outside `(0, q)` or `s = 0`. -/
theorem C45_from_shares [Fact q.Prime] [DecidableEq G] (hq : 255 < q) {E : Env q G}
    (hx : ∀ P, (E.xy (-P)).1 = (E.xy P).1) (hgen : E.gen ≠ 0)
    (hy : ∀ P ≠ 0, ((E.xy (-P)).2 % 2).toNat = ((E.xy P).2 % 2).toNat ^^^ 1)
    (decEnc : ∀ r : ZMod q, r ≠ 0 → E.dec (E.enc (r • E.gen)) = some (r • E.gen))
    (hmacLen : ∀ k m, (E.hmac k m).length = 32)
    (kdfLen : ∀ m, (E.kdf m).length = 32)
    -- the shares and the signers
    {S : Finset ℕ} (hS : ∀ j ∈ S, 1 ≤ j ∧ j ≤ 255) (h2 : 2 ≤ S.card) (x : ℕ → ZMod q)
    {secret : ZMod q} (hsecret : ∑ j ∈ S, addShare q S j (x j) = secret)
    (pp qq : ℕ → ℕ) (sk : ℕ → Paillier.SecretKey)
    (primes : ∀ i ∈ S, Paillier.HonestPrimes (pp i) (qq i))
    (hsk : ∀ i ∈ S, Paillier.newSecretKey (some (pp i)) (some (qq i)) = .ok (sk i))
    (big : ∀ i ∈ S, (q : ℤ) ^ 2 + (q : ℤ) ^ 5 ≤ pp i * qq i)
    (kg : ℕ → KeyGen) (tr : Bool) (Dl : ℕ → Dealer)
    (hkg : ∀ i ∈ S, (kg i).trusted = tr ∧ ∀ j ∈ S, (kg i).params j = some (Dl j))
    (hD : ∀ i ∈ S, 0 < (Dl i).N ∧ IsCoprime (Dl i).H1 (Dl i).N ∧ IsCoprime (Dl i).H2 (Dl i).N)
    (publicShares : ℕ → List (ℕ × G)) (pks : ℕ → List (ℕ × Paillier.PublicKey))
    (hpub : ∀ i ∈ S, ∀ j ∈ S, (publicShares i).lookup j = some (x j • E.gen))
    (hpks : ∀ i ∈ S, ∀ j ∈ S, j ≠ i → (pks i).lookup j = some (sk j).pk)
    (cos : ℕ → List ℕ) (hcos : ∀ i ∈ S, ∀ j, j ∈ cos i ↔ j ∈ S)
    -- the run
    (rnd : ℕ → Rnd1) (rndM : ℕ → ℕ → RndM × RndM)
    (rp : ℕ → ℕ → Rand1) (hash : List UInt8) (ord : ℕ → ℕ → List ℕ)
    (hr : ∀ i ∈ S, GoodRnd1 q (pp i * qq i) (rnd i))
    (hm : ∀ i ∈ S, ∀ j ∈ S,
      GoodRndM q (pp j * qq j) (rndM i j).1 ∧ GoodRndM q (pp j * qq j) (rndM i j).2)
    (hrp : ∀ i ∈ S, ∀ j, (rp i j).alpha ≤ (q : ℤ) ^ 3 - 2 ^ 256 * q)
    (hord : ∀ n, ∀ i ∈ S, (ord n i).Nodup ∧ ∀ j, j ∈ ord n i ↔ j ∈ S ∧ j ≠ i)
    (hhash : beNat hash < q)
    (hK : (∑ i ∈ S, ((rnd i).k : ZMod q)) ≠ 0) (hGam : (∑ i ∈ S, ((rnd i).gamma : ZMod q)) ≠ 0) :
    ∃ (s0 : ℕ → Signer G) (t : Run E S s0 rnd rndM rp hash ord) (σ : Sig) (R : G),
      (∀ i ∈ S, newSigner i (x i) (sk i) (secret • E.gen) (kg i) (publicShares i) (pks i) (cos i) =
        .ok (s0 i)) ∧
      (∀ i ∈ S, t.sig i = σ) ∧
      (∑ i ∈ S, ((rnd i).k : ZMod q)) • R = E.gen ∧ σ.r = (E.xy R).1 ∧
      (0 ≤ σ.s ∧ σ.s ≤ (q : ℤ) / 2) ∧
      (σ.s ≠ 0 → 0 < σ.r → σ.r < q →
        ∃ P, EcdsaValid E (secret • E.gen) (beNat hash) σ P ∧ (E.xy P).1 = σ.r ∧
          ((E.xy P).2 % 2).toNat = σ.v) := by
  obtain ⟨s0, h1, H, hy', hver, hw⟩ := C43_setup hq hS h2 x decEnc hmacLen kdfLen pp qq sk
    primes hsk big (secret • E.gen) kg tr Dl hkg hD publicShares pks hpub hpks cos hcos
  obtain ⟨t, tot, R, r1, r2, r3, r4⟩ := C45_honest_run H rnd rndM rp hash ord hr hm hrp hord
    (fun i hi => hver i hi _ _) hhash hK hGam
  have hsum : ∑ i ∈ S, ((s0 i).w : ZMod q) = secret := by
    rw [Finset.sum_congr rfl hw, hsecret]
  rw [hsum] at r3
  refine ⟨s0, t, _, R, h1, r4, r1, rfl, ?_, ?_⟩
  · dsimp only
    split <;> omega
  · intro hs hr1 hr2
    have h0 : tot ≠ 0 := by
      rintro rfl
      have : ¬ (0 : ℤ) > (q : ℤ) / 2 := by omega
      simp [this] at hs
    exact sig_valid hx hgen hy r1 r2 r3 h0 ⟨hr1, hr2⟩

/-- **C45.**  From dealt shares to a signature: in every honest run of all rounds by at least
`threshold` signers, everybody outputs the same low-S signature; it is valid for the public key of
the dealer, and its recovery bit is the parity of the recovered point, unless the nonce point has an
`x`-coordinate outside `(0, q)` or `s = 0`. -/
theorem C45_signature_valid [Fact q.Prime] [DecidableEq G] (hq : 255 < q) {E : Env q G}
    (hx : ∀ P, (E.xy (-P)).1 = (E.xy P).1) (hgen : E.gen ≠ 0)
    (hy : ∀ P ≠ 0, ((E.xy (-P)).2 % 2).toNat = ((E.xy P).2 % 2).toNat ^^^ 1)
    (decEnc : ∀ r : ZMod q, r ≠ 0 → E.dec (E.enc (r • E.gen)) = some (r • E.gen))
    (hmacLen : ∀ k m, (E.hmac k m).length = 32)
    (kdfLen : ∀ m, (E.kdf m).length = 32)
    -- the dealer
    {threshold total : ℕ} {ikm : ℤ} {poly : ℕ → ZMod q} {y : G} {shares : List (ℕ × ZMod q × G)}
    (hikm : 0 < ikm) (hdeal : newDealerShares 256 E.gen threshold total ikm poly = .ok (y, shares))
    -- the signers
    {S : Finset ℕ} (hS : ∀ j ∈ S, 1 ≤ j ∧ j ≤ total) (hcard : threshold ≤ S.card)
    (pp qq : ℕ → ℕ) (sk : ℕ → Paillier.SecretKey)
    (primes : ∀ i ∈ S, Paillier.HonestPrimes (pp i) (qq i))
    (hsk : ∀ i ∈ S, Paillier.newSecretKey (some (pp i)) (some (qq i)) = .ok (sk i))
    (big : ∀ i ∈ S, (q : ℤ) ^ 2 + (q : ℤ) ^ 5 ≤ pp i * qq i)
    (kg : ℕ → KeyGen) (tr : Bool) (Dl : ℕ → Dealer)
    (hkg : ∀ i ∈ S, (kg i).trusted = tr ∧ ∀ j ∈ S, (kg i).params j = some (Dl j))
    (hD : ∀ i ∈ S, 0 < (Dl i).N ∧ IsCoprime (Dl i).H1 (Dl i).N ∧ IsCoprime (Dl i).H2 (Dl i).N)
    (publicShares : ℕ → List (ℕ × G)) (pks : ℕ → List (ℕ × Paillier.PublicKey))
    (hpub : ∀ i ∈ S, ∀ j ∈ S, (publicShares i).lookup j = (shares.lookup j).map Prod.snd)
    (hpks : ∀ i ∈ S, ∀ j ∈ S, j ≠ i → (pks i).lookup j = some (sk j).pk)
    (cos : ℕ → List ℕ) (hcos : ∀ i ∈ S, ∀ j, j ∈ cos i ↔ j ∈ S)
    -- the run
    (rnd : ℕ → Rnd1) (rndM : ℕ → ℕ → RndM × RndM)
    (rp : ℕ → ℕ → Rand1) (hash : List UInt8) (ord : ℕ → ℕ → List ℕ)
    (hr : ∀ i ∈ S, GoodRnd1 q (pp i * qq i) (rnd i))
    (hm : ∀ i ∈ S, ∀ j ∈ S,
      GoodRndM q (pp j * qq j) (rndM i j).1 ∧ GoodRndM q (pp j * qq j) (rndM i j).2)
    (hrp : ∀ i ∈ S, ∀ j, (rp i j).alpha ≤ (q : ℤ) ^ 3 - 2 ^ 256 * q)
    (hord : ∀ n, ∀ i ∈ S, (ord n i).Nodup ∧ ∀ j, j ∈ ord n i ↔ j ∈ S ∧ j ≠ i)
    (hhash : beNat hash < q)
    (hK : (∑ i ∈ S, ((rnd i).k : ZMod q)) ≠ 0) (hGam : (∑ i ∈ S, ((rnd i).gamma : ZMod q)) ≠ 0) :
    ∃ (s0 : ℕ → Signer G) (t : Run E S s0 rnd rndM rp hash ord) (σ : Sig) (R : G),
      (∀ i ∈ S, ∃ sh, shares.lookup i = some sh ∧
        newSigner i sh.1 (sk i) y (kg i) (publicShares i) (pks i) (cos i) = .ok (s0 i)) ∧
      (∀ i ∈ S, t.sig i = σ) ∧
      (∑ i ∈ S, ((rnd i).k : ZMod q)) • R = E.gen ∧ σ.r = (E.xy R).1 ∧
      (0 ≤ σ.s ∧ σ.s ≤ (q : ℤ) / 2) ∧
      (σ.s ≠ 0 → 0 < σ.r → σ.r < q →
        ∃ P, EcdsaValid E y (beNat hash) σ P ∧ (E.xy P).1 = σ.r ∧
          ((E.xy P).2 % 2).toNat = σ.v) := by
  obtain ⟨⟨d1, d2, d3, _, _, _⟩, hyk, hsh⟩ := C43_dealt hdeal
  set x : ℕ → ZMod q := fun j => V1.dealt threshold (natBytes ikm.natAbs) poly j with hxdef
  have hsh' : ∀ j ∈ S, shares.lookup j = some (x j, x j • E.gen) := fun j hj => by
    rw [hsh, if_pos (hS j hj)]
  have hS' : ∀ j ∈ S, 1 ≤ j ∧ j ≤ 255 := fun j hj => by
    have := hS j hj
    omega
  have hsum : ∑ j ∈ S, addShare q S j (x j) = (ikm : ZMod q) := by
    rw [C43_sum hq hS' (by omega) hcard, beNat_natBytes]
    rw [← Int.cast_natCast (R := ZMod q), Int.natCast_natAbs, abs_of_pos hikm]
  obtain ⟨s0, t, σ, R, h1, h2⟩ := C45_from_shares hq hx hgen hy decEnc hmacLen kdfLen hS' (by omega)
    x hsum pp qq sk primes hsk big kg tr Dl hkg hD publicShares pks
    (fun i hi j hj => by rw [hpub i hi j hj, hsh' j hj]; rfl) hpks cos hcos rnd rndM rp hash ord hr
    hm hrp hord hhash hK hGam
  rw [← hyk] at h1 h2
  exact ⟨s0, t, σ, R, fun i hi => ⟨_, hsh' i hi, h1 i hi⟩, h2⟩

/-! ## A concrete run

Signers 1 and 3 of three, group of order 257.  The blinding values of the range proofs are chosen
negative, because for so small an order the slack `2^256 * q` exceeds `q^3`; for a 256-bit order
the condition excludes only a fraction `2^-256` of the values drawn. -/

/-- A group of order 257 with coordinates that behave like those of a curve. -/
def toyEnv : Env 257 (ZMod 257) where
  gen := 3
  xy P := (min P.val (257 - P.val), P.val)
  kdf _ := List.replicate 32 0
  hmac _ _ := List.replicate 32 0
  enc P := [UInt8.ofNat (P.val / 256), UInt8.ofNat P.val]
  dec bs := some ((beNat bs : ℕ) : ZMod 257)

theorem honest_toy : Paillier.HonestPrimes 1060009 1060019 :=
  ⟨by norm_num, by norm_num, by norm_num, by norm_num⟩

/-- Randomness for the toy run. -/
def toyRnd (i : ℕ) : Rnd1 := ⟨10 + i, 20 + i, [1, 2], 5, fun _ => ⟨-2 ^ 265, 7, 12, 3⟩⟩

/-- Randomness for the toy run. -/
def toyRndM : RndM := ⟨1000, 7, ⟨-2 ^ 265, 7, -2 ^ 300, 12, 3, 5, 6⟩⟩

/-- The other signer. -/
def toyOrd (i : ℕ) : List ℕ := if i = 1 then [3] else [1]

theorem toy_run : ∃ (s0 : ℕ → Signer (ZMod 257)) (t : Run toyEnv {1, 3} s0 toyRnd
    (fun _ _ => (toyRndM, toyRndM)) (fun _ _ => ⟨-2 ^ 265, 7, 12, 3⟩) [200] (fun _ => toyOrd))
    (σ : Sig), t.sig 1 = σ ∧ t.sig 3 = σ ∧ 0 ≤ σ.s ∧ σ.s ≤ 128 := by
  obtain ⟨P, Q, hPQ, hP, hQ⟩ : ∃ P Q : ℕ, Paillier.HonestPrimes P Q ∧ P = 1060009 ∧ Q = 1060019 :=
    ⟨_, _, honest_toy, rfl, rfl⟩
  obtain ⟨sk, hU⟩ : ∃ sk, Paillier.newSecretKey (some P) (some Q) = .ok sk :=
    let ⟨_, h, _⟩ := Paillier.newSecretKey_honest hPQ
    ⟨_, h⟩
  have hS : ∀ j ∈ ({1, 3} : Finset ℕ), j = 1 ∨ j = 3 := by simp
  obtain ⟨s0, t, σ, R, -, h1, _, _, h2, _⟩ := C45_signature_valid (q := 257) (by norm_num)
    (E := toyEnv) (by decide +kernel) (by decide +kernel) (by decide +kernel) (by decide +kernel)
    (by intro k m; simp [toyEnv]) (by intro m; simp [toyEnv]) (threshold := 2) (total := 3)
    (ikm := 5) (poly := fun _ => 7) (y := 15)
    (shares := [(1, 12, 36), (2, 19, 57), (3, 26, 78)]) (by norm_num) (by decide +kernel)
    (S := {1, 3}) (by intro j hj; rcases hS j hj with rfl | rfl <;> norm_num) (by decide)
    (fun _ => P) (fun _ => Q) (fun _ => sk) (fun _ _ => hPQ) (fun _ _ => hU)
    (by intro _ _; subst hP hQ; norm_num) (fun _ => .dealer toyD) true (fun _ => toyD)
    (fun _ _ => ⟨rfl, fun _ _ => rfl⟩) (fun _ _ => ⟨by decide, toyD_h1, toyD_h2⟩)
    (fun _ => [(1, 36), (2, 57), (3, 78)]) (fun _ => [(1, sk.pk), (3, sk.pk)])
    (by intro _ _ j hj; rcases hS j hj with rfl | rfl <;> rfl)
    (by intro _ _ j hj _; rcases hS j hj with rfl | rfl <;> rfl)
    (fun _ => [3, 1, 3]) (by intro _ _ j; simp; tauto) toyRnd (fun _ _ => (toyRndM, toyRndM))
    (fun _ _ => ⟨-2 ^ 265, 7, 12, 3⟩) [200] (fun _ => toyOrd)
    (by
      intro i hi
      subst hP hQ
      rcases hS i hi with rfl | rfl <;>
      exact ⟨by norm_num [toyRnd], by norm_num [toyRnd], by norm_num [toyRnd],
        by rw [Int.isCoprime_iff_gcd_eq_one]; decide +kernel,
        fun _ => by norm_num [toyRnd]⟩)
    (by
      intro i hi j hj
      subst hP hQ
      have : GoodRndM 257 ((1060009 : ℕ) * (1060019 : ℕ) : ℤ) toyRndM :=
        ⟨by norm_num [toyRndM], by norm_num [toyRndM],
          by rw [Int.isCoprime_iff_gcd_eq_one]; decide +kernel, by norm_num [toyRndM],
          by norm_num [toyRndM]⟩
      exact ⟨this, this⟩)
    (by intro _ _ _; norm_num)
    (by intro _ i hi; rcases hS i hi with rfl | rfl <;> simp [toyOrd] <;> omega)
    (by decide +kernel) (by decide +kernel) (by decide +kernel)
  refine ⟨s0, t, σ, h1 1 (by simp), h1 3 (by simp), h2.1, h2.2⟩

/-- Three signers, two of them with identifiers that agree in the last byte. -/
example : lagCoeff (q := 257) [1, 2, 257] 1 = Go.err :=
  C43_byte_collision (k := 257) (by simp) (by norm_num) (by norm_num)

example : ∃ s : Signer (ZMod 257), newSigner (q := 257) 3 26 toySk 15 (.dealer toyD)
    [(1, 36), (2, 57), (3, 78)] [(1, toySk.pk)] [1, 3] = .ok s ∧ s.id = 3 :=
  let ⟨s, h⟩ := C43_newSigner (q := 257) (by norm_num) (S := {1, 3}) (by simp) (by decide) (i := 3)
    (by simp) (3 : ZMod 257) (fun j => 5 + 7 * j) toySk 15 (.dealer toyD) [(1, 36), (2, 57), (3, 78)]
    [(1, toySk.pk)] [1, 3] (by simp) (by decide +kernel) (by decide +kernel)
  ⟨s, h.1, h.2.1⟩

example : newSigner (q := 257) 2 19 toySk 15 (.dealer toyD) [(1, 36), (2, 57), (3, 78)] [] [1, 3] =
    (Go.crash : Go (Signer (ZMod 257))) :=
  C43_own_id_missing_panics (q := 257) (by norm_num) (S := {1, 3}) (by simp) (by decide)
    (by decide) (fun j => if j = 1 then 36 else 78) 19 toySk 15 (.dealer toyD) _ _ _ (by simp)
    (by decide +kernel)

/-- A negative key is not rejected: the shares are those of its absolute value, the public key is
the one of the negative key. -/
theorem C43_negative_key [Fact q.Prime] {bitSize : ℕ} {g : G} {threshold total : ℕ} {ikm : ℤ}
    {rnd : ℕ → ZMod q} {pk : G} {shares : List (ℕ × ZMod q × G)}
    (h : newDealerShares bitSize g threshold total ikm rnd = .ok (pk, shares)) :
    newDealerShares bitSize g threshold total (-ikm) rnd = .ok (-pk, shares) := by
  obtain ⟨_, rfl, _⟩ := C43_dealt h
  unfold newDealerShares at h ⊢
  simp only [Go.bind_eq_ok, Int.natAbs_neg] at h ⊢
  obtain ⟨_, h1, _, h2, _, h3, _, h4, _, h5, sh, h6, l, h7, h8⟩ := h
  refine ⟨_, h1, _, h2, _, h3, _, h4, _, h5, sh, h6, l, h7, ?_⟩
  rw [← (Prod.mk.inj (Except.ok.inj h8)).2, Int.cast_neg, neg_smul]

example : ∃ shares,
    newDealerShares (q := 257) 256 (3 : ZMod 257) 2 3 (-5) (fun _ => 7) = .ok (-15, shares) :=
  ⟨_, C43_negative_key (pk := 15) (shares := [(1, 12, 36), (2, 19, 57), (3, 26, 78)])
    (by decide +kernel)⟩

end Verif.Gg20

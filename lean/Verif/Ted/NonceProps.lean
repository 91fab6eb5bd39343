import Verif.Ted.NonceModel
import Verif.Ted.TedProps
import Verif.Legacy.ScalarProps

/-!
# Random elements of the Ed25519 field, and what they mean for sharing and for nonces (C212); helpers of `ted25519` (C213)
-/

namespace Verif.Ted
open Verif.Primes Verif.Curves.Ed Finset

local instance : Fact (Nat.Prime edl) := fact_edl

/-! ## C212 -/

/-- specification: the residues of `2^254 + 8k` for `k < 2^251` -/
def clampedSet : Set Fl := {c | ∃ k : ℕ, k < 2 ^ 251 ∧ c = 2 ^ 254 + 8 * (k : Fl)}

theorem cast_affine (k : ℕ) : ((8 * (2 ^ 251 + k) : ℕ) : Fl) = 2 ^ 254 + 8 * (k : Fl) := by
  push_cast; ring

theorem randomElement_eq (sha512 : List UInt8 → List UInt8) (b : List UInt8) (hb : b.length = 64)
    (hl : ((sha512 b).take 32).length = 32) :
    randomElement sha512 (some b) = .ok ((leNat (clamp ((sha512 b).take 32)) : ℕ) : Fl) := by
  unfold randomElement Legacy.edRandom
  dsimp only
  rw [Go.guard_true hb, Go.ok_bind, libSetClamped, Go.guard_true hl, Go.ok_bind, Go.ok_bind, Go.ok_bind, Legacy.edOut_eq]
  have h := ZMod.val_lt ((leNat (clamp ((sha512 b).take 32)) : ℕ) : Fl)
  rw [newElementEd, if_pos ⟨by exact_mod_cast h, Int.natCast_nonneg _⟩, Int.cast_natCast, ZMod.natCast_zmod_val]

/-- C212: `RandomElement` for the order of Ed25519 fails exactly when the reader fails or returns other than 64 bytes, and whatever the hash
function and the bytes read, the result lies in `clampedSet`. -/
theorem C212_range (sha512 : List UInt8 → List UInt8) (hs : ∀ m, (sha512 m).length = 64) (read : Option (List UInt8)) :
    ((∀ b, read = some b → b.length ≠ 64) → randomElement sha512 read = Go.err) ∧
    (∀ b, read = some b → b.length = 64 → ∃ c ∈ clampedSet, randomElement sha512 read = .ok c) := by
  constructor
  · intro h
    cases read with
    | none => rfl
    | some b => rw [randomElement, Legacy.edRandom, Go.guard_false (h b rfl)]; rfl
  · rintro b rfl hb
    have hl : ((sha512 b).take 32).length = 32 := by rw [List.length_take, hs]; rfl
    obtain ⟨-, -, ⟨m, hm⟩, h1, h2⟩ := C178_clamping _ hl
    obtain ⟨k, hk⟩ : ∃ k : ℕ, m = 2 ^ 251 + k := ⟨m - 2 ^ 251, by omega⟩
    refine ⟨_, ⟨k, by omega, ?_⟩, randomElement_eq sha512 b hb hl⟩
    rw [hm, hk]; exact cast_affine k

example : randomElement (fun _ => List.replicate 64 0) (some (List.replicate 64 7)) = .ok ((2 ^ 254 : ℕ) : Fl) ∧
    randomElement (fun _ => List.replicate 64 0) (some [1]) = Go.err := by
  constructor <;> decide +kernel

/-- C212: every element of `clampedSet` is reached: there are 32 bytes such that any hash value starting with them gives it. -/
theorem C212_reached (c : Fl) (hc : c ∈ clampedSet) : ∃ d : List UInt8, d.length = 32 ∧
    ∀ (sha512 : List UInt8 → List UInt8) (b : List UInt8), b.length = 64 → (sha512 b).take 32 = d →
      randomElement sha512 (some b) = .ok c := by
  obtain ⟨k, hk, hkc⟩ := hc
  rw [hkc]
  obtain ⟨n, hn⟩ : ∃ n : ℕ, n = 2 ^ 254 + 8 * k := ⟨_, rfl⟩
  obtain ⟨lo, hlo⟩ : ∃ lo : ℕ, lo = n % 256 := ⟨_, rfl⟩
  obtain ⟨hi, hhi⟩ : ∃ hi : ℕ, hi = n / 256 / 256 ^ 30 := ⟨_, rfl⟩
  obtain ⟨mid, hmid⟩ : ∃ mid : ℕ, mid = n / 256 % 256 ^ 30 := ⟨_, rfl⟩
  have hlo' : lo < 256 ∧ lo % 8 = 0 := by omega
  have hhi' : 64 ≤ hi ∧ hi < 128 := by norm_num at hhi hn hk; omega
  have hmid' : mid < 256 ^ 30 := by omega
  have key1 : ∀ x < 256, x % 8 = 0 → UInt8.ofNat x &&& 248 = UInt8.ofNat x := by decide +kernel
  have key2 : ∀ x < 128, 64 ≤ x → (UInt8.ofNat x &&& 63) ||| 64 = UInt8.ofNat x := by decide +kernel
  have hlen : (leBytes 30 mid).length = 30 := leBytes_length _ _
  have hcl : clamp (UInt8.ofNat lo :: (leBytes 30 mid ++ [UInt8.ofNat hi])) =
      UInt8.ofNat lo :: (leBytes 30 mid ++ [UInt8.ofNat hi]) := by
    have h1 : (leBytes 30 mid ++ [UInt8.ofNat hi]).take 30 = leBytes 30 mid := by
      rw [List.take_append_of_le_length hlen.ge, List.take_of_length_le hlen.le]
    have h2 : (leBytes 30 mid ++ [UInt8.ofNat hi]).drop 30 = [UInt8.ofNat hi] := by
      rw [List.drop_append_of_le_length hlen.ge, List.drop_of_length_le hlen.le, List.nil_append]
    show [UInt8.ofNat lo &&& 248] ++ (leBytes 30 mid ++ [UInt8.ofNat hi]).take 30 ++
      ((leBytes 30 mid ++ [UInt8.ofNat hi]).drop 30).map _ = _
    rw [h1, h2, key1 lo hlo'.1 hlo'.2, List.map_cons, key2 hi hhi'.2 hhi'.1]; rfl
  have hval : leNat (UInt8.ofNat lo :: (leBytes 30 mid ++ [UInt8.ofNat hi])) = n := by
    have h1 : (UInt8.ofNat lo).toNat = lo := by rw [UInt8.toNat_ofNat']; exact Nat.mod_eq_of_lt hlo'.1
    have h2 : (UInt8.ofNat hi).toNat = hi := by rw [UInt8.toNat_ofNat']; exact Nat.mod_eq_of_lt (by omega)
    have h3 : leNat [UInt8.ofNat hi] = hi := by rw [leNat_cons, h2]; rfl
    rw [leNat_cons, leNat_append, hlen, leNat_leBytes _ _ hmid', h1, h3, hlo, hmid, hhi]
    have e1 := Nat.div_add_mod n 256
    have e2 := Nat.div_add_mod (n / 256) (256 ^ 30)
    omega
  refine ⟨UInt8.ofNat lo :: (leBytes 30 mid ++ [UInt8.ofNat hi]), by simp [hlen], fun sha512 b hb hd => ?_⟩
  rw [randomElement_eq sha512 b hb (by rw [hd]; simp [hlen]), hd, hcl, hval, hn, ← cast_affine, mul_add]
  rfl

example : ((2 ^ 254 : Fl) + 8 * ((5 : ℕ) : Fl)) ∈ clampedSet := ⟨5, by norm_num, rfl⟩

theorem affine_inj {a b : ℕ} (ha : a < edl) (hb : b < edl) (h : (2 : Fl) ^ 254 + 8 * (a : Fl) = 2 ^ 254 + 8 * (b : Fl)) : a = b := by
  have h8 : (8 : Fl) ≠ 0 := by
    have : ((8 : ℕ) : Fl) ≠ 0 := by
      rw [Ne, ZMod.natCast_eq_zero_iff]; decide +kernel
    exact_mod_cast this
  exact V1.natCast_inj_lt ha hb (mul_left_cancel₀ h8 (add_left_cancel h))

/-- the elements of `clampedSet` as a finite set -/
noncomputable def clampedFin : Finset Fl := (range (2 ^ 251)).image fun k : ℕ => (2 : Fl) ^ 254 + 8 * (k : Fl)

theorem mem_clampedFin (c : Fl) : c ∈ clampedFin ↔ c ∈ clampedSet := by
  unfold clampedFin clampedSet
  rw [Finset.mem_image]
  constructor
  · rintro ⟨k, hk, h⟩; exact ⟨k, Finset.mem_range.1 hk, h.symm⟩
  · rintro ⟨k, hk, h⟩; exact ⟨k, Finset.mem_range.2 hk, h.symm⟩

theorem two_pow_lt_edl : 2 * 2 ^ 251 < edl := by decide +kernel

theorem clampedFin_card : clampedFin.card = 2 ^ 251 := by
  unfold clampedFin
  rw [Finset.card_image_of_injOn, Finset.card_range]
  intro a ha b hb h
  have ha' : a < 2 ^ 251 := Finset.mem_range.1 ha
  have hb' : b < 2 ^ 251 := Finset.mem_range.1 hb
  have := two_pow_lt_edl
  exact affine_inj (by omega) (by omega) h

/-- C212: fewer than half of the scalars can be drawn: exactly `2^251` of the `edl` elements. -/
theorem C212_half : ∃ S : Finset Fl, (∀ c, c ∈ S ↔ c ∈ clampedSet) ∧ S.card = 2 ^ 251 ∧ 2 * S.card < edl :=
  ⟨clampedFin, mem_clampedFin, clampedFin_card, by rw [clampedFin_card]; exact two_pow_lt_edl⟩

theorem drawCoeffs_ok {sha512 : List UInt8 → List UInt8} (hs : ∀ m, (sha512 m).length = 64) {reads : ℕ → Option (List UInt8)} :
    ∀ {n i : ℕ} {cs : List Fl}, drawCoeffs sha512 reads n i = .ok cs → cs.length = n ∧ ∀ c ∈ cs, c ∈ clampedSet
  | 0, i, cs, h => by cases h; simp
  | n + 1, i, cs, h => by
    rw [drawCoeffs, Go.bind_eq_ok] at h
    obtain ⟨c, hc, h⟩ := h
    rw [Go.bind_eq_ok] at h
    obtain ⟨cs', hcs, h⟩ := h
    obtain rfl := Except.ok.inj h
    obtain ⟨h1, h2⟩ := drawCoeffs_ok hs hcs
    refine ⟨by rw [List.length_cons, h1], fun x hx => ?_⟩
    rcases List.mem_cons.1 hx with rfl | hx
    · by_cases hr : ∃ b, reads i = some b ∧ b.length = 64
      · obtain ⟨b, hb, hl⟩ := hr
        obtain ⟨c', hc', h'⟩ := (C212_range sha512 hs (reads i)).2 b hb hl
        rw [h'] at hc
        obtain rfl := Except.ok.inj hc
        exact hc'
      · rw [(C212_range sha512 hs (reads i)).1 fun b hb hl => hr ⟨b, hb, hl⟩] at hc
        cases hc
    · exact h2 x hx

theorem drawCoeffs_iff (sha512 : List UInt8 → List UInt8) (reads : ℕ → Option (List UInt8)) :
    ∀ (n i : ℕ) (cs : List Fl), drawCoeffs sha512 reads n i = .ok cs ↔
      cs.length = n ∧ ∀ j < n, ∃ c, cs[j]? = some c ∧ randomElement sha512 (reads (i + j)) = .ok c
  | 0, i, cs => by
    rw [drawCoeffs, Except.ok.injEq, List.length_eq_zero_iff]
    exact ⟨fun h => ⟨h.symm, fun j hj => absurd hj (Nat.not_lt_zero j)⟩, fun h => h.1.symm⟩
  | n + 1, i, cs => by
    rw [drawCoeffs, Go.bind_eq_ok]
    constructor
    · rintro ⟨c, hc, h⟩
      obtain ⟨cs', hcs, h⟩ := Go.bind_eq_ok.1 h
      obtain rfl := Except.ok.inj h
      obtain ⟨h1, h2⟩ := (drawCoeffs_iff sha512 reads n (i + 1) cs').1 hcs
      refine ⟨by rw [List.length_cons, h1], fun j hj => ?_⟩
      cases j with
      | zero => exact ⟨c, rfl, hc⟩
      | succ j =>
        obtain ⟨c', e1, e2⟩ := h2 j (by omega)
        exact ⟨c', by rw [List.getElem?_cons_succ, e1], by rw [← e2]; congr 2; omega⟩
    · rintro ⟨h1, h2⟩
      obtain ⟨c, cs', rfl⟩ := List.exists_cons_of_length_eq_add_one h1
      obtain ⟨c', e1, e2⟩ := h2 0 (by omega)
      obtain rfl := Option.some.inj e1
      refine ⟨c, e2, Go.bind_eq_ok.2 ⟨cs', (drawCoeffs_iff sha512 reads n (i + 1) cs').2 ⟨by simpa using h1, fun j hj => ?_⟩, rfl⟩⟩
      obtain ⟨c', e1, e2⟩ := h2 (j + 1) (by omega)
      exact ⟨c', by rw [← e1, List.getElem?_cons_succ], by rw [← e2]; congr 2; omega⟩

/-- C212: the constant term is the secret, and every further coefficient is the element of a read of its own -/
theorem C212_draws (sha512 : List UInt8 → List UInt8) (a : Fl) (degree : ℕ) (reads : ℕ → Option (List UInt8)) (p : List Fl) :
    newPolyEd sha512 a degree reads = .ok p ↔ p.length = degree ∧ p[0]? = some a ∧
      ∀ i, i + 1 < degree → ∃ c, p[i + 1]? = some c ∧ randomElement sha512 (reads i) = .ok c := by
  unfold newPolyEd
  split_ifs with h0
  · constructor
    · intro h; cases h
    · rintro ⟨h1, h2, -⟩
      rw [h0, List.length_eq_zero_iff] at h1
      rw [h1] at h2
      cases h2
  rw [Go.bind_eq_ok]
  constructor
  · rintro ⟨cs, hcs, h⟩
    obtain rfl := Except.ok.inj h
    obtain ⟨h1, h2⟩ := (drawCoeffs_iff sha512 reads _ 0 cs).1 hcs
    refine ⟨by rw [List.length_cons, h1]; omega, rfl, fun i hi => ?_⟩
    obtain ⟨c, e1, e2⟩ := h2 i (by omega)
    exact ⟨c, by rw [List.getElem?_cons_succ, e1], by rwa [Nat.zero_add] at e2⟩
  · rintro ⟨h1, h2, h3⟩
    cases p with
    | nil => cases h2
    | cons a' cs =>
      obtain rfl := Option.some.inj h2
      refine ⟨cs, (drawCoeffs_iff sha512 reads _ 0 cs).2 ⟨by rw [← h1, List.length_cons]; rfl, fun j hj => ?_⟩, rfl⟩
      obtain ⟨c, e1, e2⟩ := h3 j (by omega)
      exact ⟨c, by rw [← e1, List.getElem?_cons_succ], by rwa [Nat.zero_add]⟩

/-- a polynomial with one drawn coefficient -/
example (sha512 : List UInt8 → List UInt8) (hs : ∀ m, (sha512 m).length = 64) :
    ∃ c, newPolyEd sha512 5 2 (fun _ => some (List.replicate 64 3)) = .ok [5, c] := by
  obtain ⟨c, -, hc⟩ := (C212_range sha512 hs (some (List.replicate 64 3))).2 _ rfl List.length_replicate
  refine ⟨c, (C212_draws sha512 5 2 _ [5, c]).2 ⟨rfl, rfl, fun i hi => ?_⟩⟩
  obtain rfl : i = 0 := by omega
  exact ⟨c, rfl, hc⟩

/-- C212: the split over the order of Ed25519 is the generic one with coefficients from `clampedSet`. -/
theorem C212_split (sha512 : List UInt8 → List UInt8) (hs : ∀ m, (sha512 m).length = 64) (s : V1.Shamir) (secret : List UInt8)
    (reads : ℕ → Option (List UInt8)) (r : List (V1.Share edl) × List Fl) (h : splitEd sha512 s secret reads = .ok r) :
    ∃ rnd : ℕ → Fl, V1.getSharesAndPolynomial s secret rnd = .ok r ∧ ∀ i < s.threshold.toNat - 1, rnd i ∈ clampedSet := by
  unfold splitEd newPolyEd at h
  rw [Go.guard_bind_eq_ok, Go.guard_bind_eq_ok] at h
  obtain ⟨h1, h2, h⟩ := h
  rw [Go.bind_eq_ok] at h
  obtain ⟨p, hp, h⟩ := h
  split at hp
  · cases hp
  rename_i h0
  rw [Go.bind_eq_ok] at hp
  obtain ⟨cs, hcs, hp⟩ := hp
  obtain rfl := Except.ok.inj hp
  rw [Go.bind_eq_ok] at h
  obtain ⟨sh, hsh, h⟩ := h
  obtain rfl := Except.ok.inj h
  obtain ⟨hl, hm⟩ := drawCoeffs_ok hs hcs
  have hmap : (List.range (s.threshold.toNat - 1)).map (fun i => cs.getD i 0) = cs := by
    apply List.ext_getElem
    · simp [hl]
    · intro i h1 h2
      rw [List.getElem_map, List.getElem_range, List.getD_eq_getElem _ _ h2]
  refine ⟨fun i => cs.getD i 0, V1.getSharesAndPolynomial_eq_ok.2 ⟨by simpa using h1, h2, h0, ?_, hsh⟩, fun i hi => ?_⟩
  · rw [hmap]
  · have hi' : i < cs.length := by omega
    show cs.getD i 0 ∈ _
    rw [List.getD_eq_getElem _ _ hi']
    exact hm _ (List.getElem_mem _)

theorem evalL_append_single (l : List Fl) (c x : Fl) : evalL (l ++ [c]) x = evalL l x + x ^ l.length * c := by
  induction l with
  | nil => simp [evalL]
  | cons a l ih =>
    rw [List.cons_append, evalL_cons, evalL_cons, ih, List.length_cons, smul_add, smul_eq_mul (a := x) (b := _ * c), pow_succ]
    ring

/-- two polynomials of `n + 1` coefficients with the same last one that agree on `n` identifiers are equal -/
theorem poly_eq_of_last {n : ℕ} {p p' : List Fl} {c : Fl} (hp : p.length = n) (hp' : p'.length = n) (ids : Finset UInt32)
    (hc : n ≤ ids.card) (h : ∀ id ∈ ids, evalL (p ++ [c]) (id.toNat : Fl) = evalL (p' ++ [c]) (id.toNat : Fl)) : p = p' := by
  have hlt : ∀ id : UInt32, id.toNat < edl := fun id => lt_trans id.toNat_lt (by decide +kernel)
  have hcard : (ids.image fun id : UInt32 => (id.toNat : Fl)).card = ids.card := by
    apply Finset.card_image_of_injective
    intro a b hab
    exact UInt32.toNat_inj.1 (V1.natCast_inj_lt (hlt a) (hlt b) hab)
  refine evalL_inj p p' (hp.trans hp'.symm) (ids.image fun id : UInt32 => (id.toNat : Fl)) (by rw [hcard, hp]; exact hc) ?_
  intro x hx
  obtain ⟨id, hid, rfl⟩ := Finset.mem_image.1 hx
  have := h id hid
  rw [evalL_append_single, evalL_append_single, hp, hp'] at this
  exact add_right_cancel this

/-- C212: sharing over the order of Ed25519 is not perfectly secret.  Fix a threshold and any values for `threshold - 1` (or more)
identifiers: the secrets for which `Split` can have produced them, over all hash functions and all bytes of the reader, lie in a set of at
most `2^251` elements, so more than half of all secrets are excluded. -/
theorem C212_shares_leak (s : V1.Shamir) (ht : 2 ≤ s.threshold.toNat) (ids : Finset UInt32) (hids : s.threshold.toNat - 1 ≤ ids.card)
    (v : UInt32 → Fl) : ∃ T : Finset Fl, T.card ≤ 2 ^ 251 ∧ 2 * T.card < edl ∧
    ∀ (sha512 : List UInt8 → List UInt8) (secret : List UInt8) (reads : ℕ → Option (List UInt8)) (r : List (V1.Share edl) × List Fl),
      (∀ m, (sha512 m).length = 64) → splitEd sha512 s secret reads = .ok r → (∀ id ∈ ids, ⟨id, v id⟩ ∈ r.1) →
      ((beNat secret : ℕ) : Fl) ∈ T := by
  classical
  let P : Fl → List Fl → Prop := fun c p => p.length = s.threshold.toNat - 1 ∧
    ∀ id ∈ ids, evalL (p ++ [c]) (id.toNat : Fl) = v id
  let f : Fl → Fl := fun c => if h : ∃ p, P c p then h.choose.headD 0 else 0
  have hcard : (clampedFin.image f).card ≤ 2 ^ 251 := clampedFin_card ▸ Finset.card_image_le
  refine ⟨clampedFin.image f, hcard, lt_of_le_of_lt (Nat.mul_le_mul_left 2 hcard) two_pow_lt_edl, ?_⟩
  intro sha512 secret reads r hs hsp hv
  obtain ⟨rnd, hg, hmem⟩ := C212_split sha512 hs s secret reads r hsp
  obtain ⟨-, -, h0, hpoly, hmk⟩ := V1.getSharesAndPolynomial_eq_ok.1 hg
  obtain ⟨m, hm⟩ : ∃ m, s.threshold.toNat - 1 = m + 1 := ⟨s.threshold.toNat - 2, by omega⟩
  have hsplit : r.2 = (((beNat secret : ℕ) : Fl) :: (List.range m).map rnd) ++ [rnd m] := by
    rw [hpoly, hm, List.range_succ, List.map_append, List.cons_append]; rfl
  have hP : P (rnd m) (((beNat secret : ℕ) : Fl) :: (List.range m).map rnd) := by
    refine ⟨by simp [hm], fun id hid => ?_⟩
    have := (V1.mem_mkShares hmk _).1 (hv id hid)
    rw [← hsplit, ← this.2.2]
  have hex : ∃ p, P (rnd m) p := ⟨_, hP⟩
  have heq : hex.choose = ((beNat secret : ℕ) : Fl) :: (List.range m).map rnd := by
    have hc := hex.choose_spec
    exact poly_eq_of_last hc.1 hP.1 ids hids fun id hid => by rw [hc.2 id hid, hP.2 id hid]
  refine Finset.mem_image.2 ⟨rnd m, (mem_clampedFin _).2 (hmem m (by omega)), ?_⟩
  show (if h : ∃ p, P (rnd m) p then h.choose.headD 0 else 0) = _
  rw [dif_pos hex, heq]; rfl

example : (splitEd (fun _ => List.replicate 64 0) ⟨2, 3⟩ [5] (fun _ => some (List.replicate 64 0))).toOption.map
    (fun r => r.1.map fun sh => sh.id) = some [1, 2, 3] := by decide +kernel

/-- C212: an excluded secret by name: with threshold two, the holder of the share `(id, v)` knows that the secret is not
`v - 2^255 * id`, nor `v` itself. -/
theorem C212_excluded (sha512 : List UInt8 → List UInt8) (hs : ∀ m, (sha512 m).length = 64) (s : V1.Shamir) (ht : s.threshold.toNat = 2)
    (secret : List UInt8) (reads : ℕ → Option (List UInt8)) (r : List (V1.Share edl) × List Fl)
    (h : splitEd sha512 s secret reads = .ok r) (sh : V1.Share edl) (hsh : sh ∈ r.1) :
    ((beNat secret : ℕ) : Fl) ≠ sh.value - 2 ^ 255 * (sh.id.toNat : Fl) ∧ ((beNat secret : ℕ) : Fl) ≠ sh.value := by
  obtain ⟨rnd, hg, hmem⟩ := C212_split sha512 hs s secret reads r h
  obtain ⟨-, -, h0, hpoly, hmk⟩ := V1.getSharesAndPolynomial_eq_ok.1 hg
  obtain ⟨hid, -, hval⟩ := (V1.mem_mkShares hmk sh).1 hsh
  have hx : ((sh.id.toNat : ℕ) : Fl) ≠ 0 := by
    rw [Ne, ZMod.natCast_eq_zero_iff]
    intro hd
    have h1 := Nat.le_of_dvd (by omega) hd
    have h2 : edl < 2 ^ 32 := lt_of_le_of_lt h1 sh.id.toNat_lt
    exact absurd h2 (by decide +kernel)
  have hc := hmem 0 (by omega)
  have hval' : sh.value = ((beNat secret : ℕ) : Fl) + (sh.id.toNat : Fl) * rnd 0 := by
    rw [hval, hpoly, ht]; simp [evalL]
  obtain ⟨k, hk, hk'⟩ := hc
  have hl := two_pow_lt_edl
  constructor
  · intro he
    have h1 : (sh.id.toNat : Fl) * rnd 0 = (sh.id.toNat : Fl) * 2 ^ 255 := by
      rw [hval'] at he
      have := congrArg (fun z : Fl => z + 2 ^ 255 * (sh.id.toNat : Fl) - ((beNat secret : ℕ) : Fl)) he
      simp only [sub_add_cancel] at this
      rw [add_sub_cancel_left, add_sub_cancel_left, mul_comm] at this
      exact this.symm
    have h2 := mul_left_cancel₀ hx h1
    rw [hk'] at h2
    have h3 : (2 : Fl) ^ 255 = 2 ^ 254 + 8 * ((2 ^ 251 : ℕ) : Fl) := by push_cast; ring
    have := affine_inj (by omega) (by omega) (h2.trans h3)
    omega
  · intro he
    have h1 : (sh.id.toNat : Fl) * rnd 0 = 0 := by
      rw [hval'] at he
      exact left_eq_add.1 he
    have h2 : rnd 0 = 0 := (mul_eq_zero.1 h1).resolve_left hx
    rw [hk'] at h2
    have h4 : (0 : Fl) = 2 ^ 254 + 8 * ((edl - 2 ^ 251 : ℕ) : Fl) := by
      have : ((2 ^ 254 + 8 * (edl - 2 ^ 251) : ℕ) : Fl) = 0 := by
        rw [ZMod.natCast_eq_zero_iff]; decide +kernel
      rw [Nat.cast_add, Nat.cast_mul, Nat.cast_pow] at this
      exact this.symm
    have := affine_inj (by omega) (by omega) (h2.trans h4)
    omega

/-- C212: the nonce of a dealer, hence the discrete logarithm of the nonce point it publishes, lies in `clampedSet`. -/
theorem C212_nonce {G : Type} [AddCommGroup G] [Module (ZMod edl) G] (g : G) (penc : G → List UInt8)
    (hkdf : List UInt8 × List UInt8 → List UInt8) (sha512 : List UInt8 → List UInt8) (hs : ∀ m, (sha512 m).length = 64)
    (hh : ∀ i, (hkdf i).length = 64) (s : V1.Share edl) (pub msg : List UInt8) (rnd : Option (List UInt8)) :
    (∀ b, rnd = some b → b.length ≠ 32) ∧ sharableNonce g penc hkdf sha512 s pub msg rnd = Go.err ∨
    ∃ b, rnd = some b ∧ b.length = 32 ∧ ∃ r ∈ clampedSet,
      randomElement sha512 (some (hkdf (shareBytes s ++ b, nonceLabel ++ pub ++ msg))) = .ok r ∧
      sharableNonce g penc hkdf sha512 s pub msg rnd = .ok (penc (r • g), natBytes r.val) := by
  cases rnd with
  | none => exact Or.inl ⟨by simp, rfl⟩
  | some b =>
    by_cases hb : b.length = 32
    · right
      refine ⟨b, rfl, hb, ?_⟩
      obtain ⟨r, hr, he⟩ := (C212_range sha512 hs (some (hkdf (hkdfInput s pub msg b)))).2 _ rfl (hh _)
      refine ⟨r, hr, he, ?_⟩
      unfold sharableNonce
      simp only [Go.ofOption, Go.ok_bind]
      rw [Go.guard_true hb, Go.ok_bind, he, Go.ok_bind, scalarLE_reverse (by decide +kernel)]
      rfl
    · left
      refine ⟨by rintro _ ⟨⟩; exact hb, ?_⟩
      unfold sharableNonce
      simp only [Go.ofOption, Go.ok_bind]
      rw [Go.guard_false hb]; rfl

example : sharableNonce (1 : ZMod edl) (fun x => [UInt8.ofNat x.val]) (fun _ => List.replicate 64 0) (fun _ => List.replicate 64 0)
    ⟨1, 5⟩ [] [] (some (List.replicate 32 9)) =
    .ok ([UInt8.ofNat ((2 ^ 254 : ℕ) : Fl).val], natBytes ((2 ^ 254 : ℕ) : Fl).val) := by decide +kernel

/-! ## C213 -/

theorem shareBytes_inj {s s' : V1.Share edl} {a b : List UInt8} (hab : a.length = b.length) (h : shareBytes s ++ a = shareBytes s' ++ b) :
    s = s' ∧ a = b := by
  obtain ⟨h1, h2⟩ := List.append_inj' h hab
  refine ⟨?_, h2⟩
  have e1 := C94_share_round_trip s
  rw [h1, C94_share_round_trip s'] at e1
  exact (Except.ok.inj e1).symm

/-- C213: the input of HKDF determines the share, the random bytes and, for public keys of one length, the public key and the message. -/
theorem C213_hkdf_input (s s' : V1.Share edl) (pub pub' msg msg' rnd rnd' : List UInt8) (hr : rnd.length = 32) (hr' : rnd'.length = 32)
    (hp : pub.length = pub'.length) :
    hkdfInput s pub msg rnd = hkdfInput s' pub' msg' rnd' ↔ s = s' ∧ pub = pub' ∧ msg = msg' ∧ rnd = rnd' := by
  constructor
  · intro h
    obtain ⟨h1, h2⟩ := Prod.mk.inj h
    obtain ⟨e1, e2⟩ := shareBytes_inj (hr.trans hr'.symm) h1
    rw [List.append_assoc, List.append_assoc] at h2
    obtain ⟨e3, e4⟩ := List.append_inj (List.append_cancel_left h2) hp
    exact ⟨e1, e3, e4, e2⟩
  · rintro ⟨rfl, rfl, rfl, rfl⟩; rfl

example : hkdfInput ⟨1, 5⟩ (List.replicate 32 1) [7] (List.replicate 32 2) ≠
    hkdfInput ⟨1, 5⟩ (List.replicate 32 1) [8] (List.replicate 32 2) := by decide +kernel

/-- C213: the public key is not checked to have 32 bytes, and a key of another length can be exchanged against a part of the message without
changing the input. -/
theorem C213_hkdf_ambiguous (s : V1.Share edl) (pub msg rnd x : List UInt8) :
    hkdfInput s (pub ++ x) msg rnd = hkdfInput s pub (x ++ msg) rnd := by
  simp [hkdfInput, List.append_assoc]

example : hkdfInput ⟨1, 5⟩ [1, 2] [3] [] = hkdfInput ⟨1, 5⟩ [1] [2, 3] [] := by decide +kernel

/-- C213: `CommitmentsFromBytes` succeeds exactly on lists of 32-byte encodings that all decode; otherwise it is an error, never a panic. -/
theorem C213_commitments_decision {G : Type} (pdec : List UInt8 → Option G) (bs : List (List UInt8)) :
    (∀ cs, commitmentsFromBytes pdec bs = .ok cs ↔ List.Forall₂ (fun b c => b.length = 32 ∧ pdec b = some c) bs cs) ∧
    commitmentsFromBytes pdec bs ≠ Go.crash := by
  have one : ∀ (b : List UInt8) (c : G), (do let k ← publicKeyFromBytes b; Go.ofOption (pdec k)) = .ok c ↔ b.length = 32 ∧ pdec b = some c := by
    intro b c
    unfold publicKeyFromBytes
    by_cases h : b.length = 32
    · rw [Go.guard_true h, Go.ok_bind, Go.ok_bind, Go.ofOption_eq_ok]
      exact ⟨fun e => ⟨h, e⟩, fun e => e.2⟩
    · rw [Go.guard_false h]
      exact ⟨fun e => (nomatch e), fun e => absurd e.1 h⟩
  have one' : ∀ b : List UInt8, (do let k ← publicKeyFromBytes b; Go.ofOption (pdec k)) ≠ Go.crash := by
    intro b
    unfold publicKeyFromBytes
    by_cases h : b.length = 32
    · rw [Go.guard_true h, Go.ok_bind, Go.ok_bind]
      cases pdec b <;> exact fun e => nomatch e
    · rw [Go.guard_false h]; exact fun e => nomatch e
  unfold commitmentsFromBytes
  induction bs with
  | nil =>
    refine ⟨fun cs => ?_, fun e => nomatch e⟩
    rw [List.forall₂_nil_left_iff]
    exact ⟨fun e => (Except.ok.inj e).symm, fun e => by rw [e]; rfl⟩
  | cons b bs ih =>
    rw [List.mapM_cons]
    constructor
    · intro cs
      rw [Go.bind_eq_ok]
      constructor
      · rintro ⟨c, hc, h⟩
        rw [Go.bind_eq_ok] at h
        obtain ⟨cs', h1, h2⟩ := h
        obtain rfl := Except.ok.inj h2
        exact List.Forall₂.cons ((one b c).1 hc) ((ih.1 cs').1 h1)
      · intro h
        cases h with
        | cons h1 h2 => exact ⟨_, (one b _).2 h1, by rw [(ih.1 _).2 h2]; rfl⟩
    · cases hb : (do let k ← publicKeyFromBytes b; Go.ofOption (pdec k)) with
      | error e =>
        intro h
        exact one' b (hb.trans (congrArg Except.error (Except.error.inj h)))
      | ok c =>
        rw [Go.ok_bind]
        intro h
        apply ih.2
        cases hr : (List.mapM (fun b => do let k ← publicKeyFromBytes b; Go.ofOption (pdec k)) bs) with
        | error e => rw [hr] at h; exact h
        | ok v => rw [hr] at h; cases h

/-- C213: commitments survive the way through bytes, for an encoding of 32 bytes with its decoding. -/
theorem C213_commitments_round_trip {G : Type} (penc : G → List UInt8) (pdec : List UInt8 → Option G) (hl : ∀ P, (penc P).length = 32)
    (hd : ∀ P, pdec (penc P) = some P) (cs : List G) : commitmentsFromBytes pdec (commitmentsToBytes penc cs) = .ok cs := by
  rw [(C213_commitments_decision pdec _).1, commitmentsToBytes, List.forall₂_map_left_iff]
  exact List.forall₂_same.2 fun c _ => ⟨hl c, hd c⟩

example : commitmentsFromBytes (fun b => if b.length = 32 then some (b.headD 0) else none)
    (commitmentsToBytes (fun c : UInt8 => List.replicate 32 c) [3, 4]) = .ok [3, 4] := by decide +kernel

/-- C213: `NewKeyShare` reads the secret big-endian and panics unless it is below the order; it agrees with `KeyShareFromBytes` on the four
bytes of the identifier followed by the secret. -/
theorem C213_newKeyShare (id : UInt8) (secret : List UInt8) :
    newKeyShare id secret = (if beNat secret < edl then .ok ⟨id.toUInt32, ((beNat secret : ℕ) : Fl)⟩ else Go.crash) ∧
    newKeyShare id secret = keyShareFromBytes (beBytes 4 id.toNat ++ secret) := by
  have h1 : newKeyShare id secret = (if beNat secret < edl then .ok ⟨id.toUInt32, ((beNat secret : ℕ) : Fl)⟩ else Go.crash) := by
    unfold newKeyShare newElementEd
    by_cases h : beNat secret < edl
    · rw [if_pos ⟨by exact_mod_cast h, Int.natCast_nonneg _⟩, if_pos h, Go.ok_bind, Int.cast_natCast]
    · rw [if_neg (fun e => h (by exact_mod_cast e.1)), if_neg h]; rfl
  refine ⟨h1, ?_⟩
  rw [h1]
  unfold keyShareFromBytes
  have hl : (beBytes 4 id.toNat).length = 4 := beBytes_length _ _
  have hl4 : ¬ (beBytes 4 id.toNat ++ secret).length < 4 := by rw [List.length_append, hl]; omega
  rw [if_neg hl4, List.drop_append_of_le_length hl.ge, List.drop_of_length_le hl.le, List.nil_append,
    List.take_append_of_le_length hl.ge, List.take_of_length_le hl.le]
  have hid := id.toNat_lt
  rw [beNat_beBytes _ _ (by omega)]
  by_cases h : beNat secret < edl
  · have hu : UInt32.ofNat id.toNat = id.toUInt32 :=
      UInt32.toNat_inj.1 (by rw [UInt32.toNat_ofNat', UInt8.toNat_toUInt32]; exact Nat.mod_eq_of_lt (by omega))
    rw [if_pos h, if_neg (by omega), hu]
  · rw [if_neg h, if_pos (by omega)]

example : newKeyShare 3 [1, 0] = .ok ⟨3, 256⟩ ∧ newKeyShare 3 (beBytes 32 edl) = Go.crash := by
  constructor <;> decide +kernel

/-- C213: the addition of nonce shares is that of the shares, and does not fail in the detour through bytes. -/
theorem C213_nonceShareAdd (a b : V1.Share edl) : nonceShareAdd a b = V1.Share.add a b := by
  unfold nonceShareAdd V1.Share.add
  by_cases h : a.id = b.id
  · rw [if_neg (not_not.2 h), if_neg (not_not.2 h), beNat_natBytes]
    have hv := ZMod.val_lt (a.value + b.value)
    rw [newElementEd, if_pos ⟨by exact_mod_cast hv, Int.natCast_nonneg _⟩, Go.ok_bind, Int.cast_natCast, ZMod.natCast_zmod_val]
  · rw [if_pos h, if_pos h]

example : nonceShareAdd ⟨2, -1⟩ ⟨2, 3⟩ = .ok ⟨2, 2⟩ := by decide +kernel

/-- C213: the two halves of a partial signature, which panic on fewer than 32 bytes; `TSign` never produces such a one. -/
theorem C213_halves (p : PartialSig) :
    (p.sig.length < 32 → sigR p = Go.crash ∧ sigS p = Go.crash) ∧
    (32 ≤ p.sig.length → ∃ r s, sigR p = .ok r ∧ sigS p = .ok s ∧ r.length = 32 ∧ r ++ s = p.sig) ∧
    ∀ (sha512 : List UInt8 → List UInt8) (wide : List UInt8 → ZMod edl) (msg : List UInt8) (key nonce : V1.Share edl)
      (pub noncePub : List UInt8), tSign sha512 wide msg key pub nonce noncePub = .ok p → p.sig.length = 64 := by
  refine ⟨fun h => ⟨if_pos h, if_pos h⟩, fun h => ?_, fun sha512 wide msg key nonce pub noncePub h => ?_⟩
  · exact ⟨_, _, if_neg (by omega), if_neg (by omega), by rw [List.length_take]; omega, List.take_append_drop 32 p.sig⟩
  · unfold tSign at h
    rw [Go.bind_eq_ok] at h
    obtain ⟨sig, -, h⟩ := h
    split at h
    · cases h
    · rename_i hl
      obtain rfl := Except.ok.inj h
      exact not_not.1 hl

example : sigR ⟨1, List.replicate 32 1 ++ [2]⟩ = .ok (List.replicate 32 1) ∧ sigS ⟨1, List.replicate 32 1 ++ [2]⟩ = .ok [2] := by
  constructor <;> decide +kernel

/-- C213: `GenerateKey` returns the public half of the private key, from which `Public` and `Seed` recover the public key and the seed; the
signatures of `PrivateKey.Sign` verify under it, and a request to sign a hash is refused. -/
theorem C213_generateKey {G : Type} [AddCommGroup G] [Module (ZMod edl) G] [DecidableEq G] (g : G) (penc : G → List UInt8)
    (pdec : List UInt8 → Option G) (hpl : ∀ P, (penc P).length = 32) (hpd : ∀ P, pdec (penc P) = some P)
    (sha512 : List UInt8 → List UInt8) (hsha : ∀ m, (sha512 m).length = 64) (wide : List UInt8 → ZMod edl) (read : Option (List UInt8)) :
    ((∀ seed, read = some seed → seed.length ≠ 32) → generateKey g penc sha512 read = Go.err) ∧
    ∀ seed, read = some seed → seed.length = 32 → ∃ pub priv, generateKey g penc sha512 read = .ok (pub, priv) ∧
      pub = penc (((leNat (prune (sha512 seed)) : ℕ) : ZMod edl) • g) ∧ privPublic priv = .ok pub ∧ privSeed priv = .ok seed ∧
      ∀ msg, privSign g penc sha512 wide priv msg true = Go.err ∧
        ∃ sig, privSign g penc sha512 wide priv msg false = .ok sig ∧ verify g penc pdec sha512 wide pub msg sig = .ok true := by
  constructor
  · intro h
    cases read with
    | none => rfl
    | some seed =>
      unfold generateKey newKeyFromSeed
      simp only [Go.ofOption, Go.ok_bind]
      rw [Go.guard_false (h seed rfl)]; rfl
  · rintro seed rfl hl
    have hk : newKeyFromSeed (q := edl) g penc sha512 seed =
        .ok (seed ++ penc (((leNat (prune (sha512 seed)) : ℕ) : ZMod edl) • g)) := by
      unfold newKeyFromSeed
      rw [Go.guard_true hl, Go.ok_bind, prune_clamp (q := edl) (sha512 seed) (by rw [hsha]; norm_num), Go.ok_bind, pad32_of_eq hl,
        pad32_of_eq (hpl _)]
    have hd : (seed ++ penc (((leNat (prune (sha512 seed)) : ℕ) : ZMod edl) • g)).drop 32 =
        penc (((leNat (prune (sha512 seed)) : ℕ) : ZMod edl) • g) := by
      rw [List.drop_append_of_le_length hl.ge, List.drop_of_length_le hl.le, List.nil_append]
    refine ⟨penc (((leNat (prune (sha512 seed)) : ℕ) : ZMod edl) • g),
      seed ++ penc (((leNat (prune (sha512 seed)) : ℕ) : ZMod edl) • g), ?_, rfl, ?_, ?_, fun msg => ⟨rfl, ?_⟩⟩
    · unfold generateKey
      simp only [Go.ofOption, Go.ok_bind]
      rw [hk, Go.ok_bind, hd, pad32_of_eq (hpl _)]
    · rw [privPublic, if_neg (by rw [List.length_append]; omega), hd, pad32_of_eq (hpl _)]
    · rw [privSeed, if_neg (by rw [List.length_append]; omega), List.take_append_of_le_length hl.ge, List.take_of_length_le hl.le,
        pad32_of_eq hl]
    · obtain ⟨sig, h1, h2⟩ := C95_sign_verify (q := edl) (by decide +kernel) g penc pdec hpl hpd sha512 hsha wide seed _ msg hk
      rw [hd] at h2
      exact ⟨sig, h1, h2⟩

example : (generateKey (1 : ZMod edl) (fun x => leBytes 32 x.val) (fun _ => List.replicate 64 0) (some (List.replicate 32 1))).toOption.map
    (fun r => r.2.length) = some 64 := by decide +kernel

end Verif.Ted

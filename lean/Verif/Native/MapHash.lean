import Verif.Native.MapProps

/-!
# C161 (continued), C162, C163: `Hash` and the expansion of messages
-/

set_option exponentiation.threshold 1000

namespace Verif.Native

open Primes WeierstrassCurve.Affine

/-! ## C162: the expansion of a message -/

/-- the tag used in place of a tag of more than 255 bytes (RFC 9380, 5.3.3) -/
def rfcDst (H : List UInt8 → List UInt8) (dst : List UInt8) : List UInt8 :=
  if 255 < dst.length then H ("H2C-OVERSIZE-DST-".toUTF8.toList ++ dst) else dst

theorem xmdLoop_spec (H : List UInt8 → List UInt8) (block : ℕ) (msg dst : List UInt8) (len k i : ℕ) :
    xmdLoop H (H (Core.specIn0 block msg dst len)) (Core.specDst dst) k (i + 1) (Core.specB H block msg dst len (i + 1))
      = (List.range (k + 1)).map fun j => Core.specB H block msg dst len (i + 1 + j) := by
  induction k generalizing i with
  | zero => rfl
  | succ k ih =>
    have e : H (List.zipWith (· ^^^ ·) (H (Core.specIn0 block msg dst len)) (Core.specB H block msg dst len (i + 1))
        ++ [1 + UInt8.ofNat (i + 1)] ++ Core.specDst dst) = Core.specB H block msg dst len (i + 1 + 1) := by
      rw [Core.specB]
      congr 4
      rw [show i + 2 = 1 + (i + 1) by omega, UInt8.ofNat_add 1 (i + 1)]
      rfl
    rw [xmdLoop, e, ih, List.range_succ_eq_map (n := k + 1), List.map_cons, List.map_map]
    congr 1
    refine List.map_congr_left fun j _ => ?_
    simp only [Function.comp]
    congr 1
    omega

/-- C162: for every message, tag and positive length `ExpandMsgXmd` returns the first bytes of the blocks of
expand_message_xmd (RFC 9380, 5.3.1), the tag being replaced by its hash when it is longer than 255 bytes. -/
theorem C162_expandXmd (H : List UInt8 → List UInt8) (size block : ℕ) (hs : 0 < size) (msg dst : List UInt8)
    {len : ℕ} (hl : 0 < len) : expandMsgXmd H size block msg dst len =
      ((((List.range ((len + size - 1) / size)).map fun i =>
        Core.specB H block msg (rfcDst H dst) len (i + 1)).flatten).take len) := by
  have hd : getDomainXmd H dst = rfcDst H dst := rfl
  have hell : 1 ≤ (len + size - 1) / size := (Nat.one_le_div_iff hs).2 (by omega)
  have hlen : len >>> 8 = len / 256 := by rw [Nat.shiftRight_eq_div_pow]
  simp only [expandMsgXmd, hd, hlen]
  have h0 : List.replicate block (0 : UInt8) ++ msg ++ [UInt8.ofNat (len / 256), UInt8.ofNat len] ++ [0]
      ++ rfcDst H dst ++ [UInt8.ofNat (rfcDst H dst).length] = Core.specIn0 block msg (rfcDst H dst) len := by
    simp [Core.specIn0, Core.specDst]
  have h1 : ∀ b, b ++ [1] ++ rfcDst H dst ++ [UInt8.ofNat (rfcDst H dst).length]
      = b ++ [1] ++ Core.specDst (rfcDst H dst) := by
    intro b; simp [Core.specDst]
  rw [h0, h1]
  have := xmdLoop_spec H block msg (rfcDst H dst) len ((len + size - 1) / size - 1) 0
  rw [Nat.sub_add_cancel hell] at this
  simp only [zero_add] at this
  rw [show Core.specB H block msg (rfcDst H dst) len 1 = H (H (Core.specIn0 block msg (rfcDst H dst) len) ++ [1]
    ++ Core.specDst (rfcDst H dst)) from rfl] at this
  rw [show rfcDst H dst ++ [UInt8.ofNat (rfcDst H dst).length] = Core.specDst (rfcDst H dst) from rfl, this]
  congr 3
  funext j
  rw [Nat.add_comm]

/-- C162: `ExpandMsgXmd` of the curves and `ExpandMessageXmd` of `pkg/core` return the same bytes wherever the latter
succeeds. -/
theorem C162_agrees (H : List UInt8 → List UInt8) (size block : ℕ) (hs : 0 < size) (hs2 : size ≤ 256)
    (msg dst : List UInt8) (hdst : dst.length ≤ 255) {len : ℕ} (h1 : 0 < len) (h2 : len ≤ 255 * size) :
    Core.expandXmd H size block msg dst len = .ok (expandMsgXmd H size block msg dst len) := by
  rw [C162_expandXmd H size block hs msg dst h1]
  have := (Core.C89_expand_spec H size block hs hs2 msg dst hdst len).2.2 (by omega) (by exact_mod_cast h2)
  rw [this, rfcDst, if_neg (by omega)]
  rfl

/-- C162: as many bytes as asked for. -/
theorem C162_expandXmd_length (H : List UInt8 → List UInt8) (size block : ℕ) (hs : 0 < size)
    (hH : ∀ x, (H x).length = size) (msg dst : List UInt8) {len : ℕ} (hl : 0 < len) :
    (expandMsgXmd H size block msg dst len).length = len := by
  rw [C162_expandXmd H size block hs msg dst hl]
  have hB : ∀ i, (Core.specB H block msg (rfcDst H dst) len (i + 1)).length = size := by
    intro i
    cases i <;> exact hH _
  rw [List.length_take, List.length_flatten, List.map_map]
  have : (List.length ∘ fun i => Core.specB H block msg (rfcDst H dst) len (i + 1)) = fun _ => size := funext hB
  rw [this]
  simp only [List.map_const', List.length_range, List.sum_replicate, smul_eq_mul]
  have h := Nat.div_add_mod (len + size - 1) size
  have hm := Nat.mod_lt (len + size - 1) hs
  rw [mul_comm] at h
  omega

/-- expand_message_xof (RFC 9380, 5.3.2 and 5.3.3) for an extendable-output function with security level `k` -/
def rfcXof (X : List UInt8 → ℕ → List UInt8) (k : ℕ) (msg dst : List UInt8) (len : ℕ) : List UInt8 :=
  let dst := if 255 < dst.length then X ("H2C-OVERSIZE-DST-".toUTF8.toList ++ dst) ((2 * k + 7) / 8) else dst
  X (msg ++ [UInt8.ofNat (len / 256), UInt8.ofNat len] ++ (dst ++ [UInt8.ofNat dst.length])) len

/-- C162: `ExpandMsgXof` is expand_message_xof for every tag of at most 255 bytes, and for SHAKE256 (`k = 256`) for
every tag. -/
theorem C162_expandXof (X : List UInt8 → ℕ → List UInt8) (k : ℕ) (msg dst : List UInt8) (len : ℕ)
    (h : dst.length ≤ 255 ∨ k = 256) : expandMsgXof X msg dst len = rfcXof X k msg dst len := by
  have hlen : len >>> 8 = len / 256 := by rw [Nat.shiftRight_eq_div_pow]
  have hd : getDomainXof X dst
      = if 255 < dst.length then X ("H2C-OVERSIZE-DST-".toUTF8.toList ++ dst) ((2 * k + 7) / 8) else dst := by
    unfold getDomainXof oversizeDstSalt
    rcases h with h | h
    · rw [if_neg (by omega), if_neg (by omega)]
    · subst h; rfl
  simp only [expandMsgXof, rfcXof, hd, hlen, List.append_assoc]

/-- C162: for SHAKE128 (`k = 128`) and a longer tag the bytes hashed are not those of the RFC: they end in 64, not in
32. -/
theorem C162_shake128_oversize (X : List UInt8 → ℕ → List UInt8) (hX : ∀ x n, (X x n).length = n)
    (msg dst : List UInt8) (len : ℕ) (h : 255 < dst.length) :
    ∃ a b, expandMsgXof X msg dst len = X a len ∧ rfcXof X 128 msg dst len = X b len ∧ a ≠ b ∧
      a.getLast? = some 64 ∧ b.getLast? = some 32 := by
  have key : ∀ a b : List UInt8, a.getLast? = some 64 → b.getLast? = some 32 → a ≠ b := by
    rintro a _ ha hb rfl
    rw [ha] at hb
    exact absurd (Option.some.inj hb) (by decide)
  refine ⟨_, _, rfl, rfl, key _ _ ?_ ?_, ?_, ?_⟩ <;>
    simp only [List.append_assoc, getDomainXof, if_pos h, gt_iff_lt, hX] <;>
    simp only [← List.append_assoc, List.getLast?_append, List.getLast?_singleton, Option.some_or] <;> rfl

/-- a function with the lengths required -/
example : ∃ X : List UInt8 → ℕ → List UInt8, (∀ x n, (X x n).length = n) ∧
    expandMsgXof X [] (List.replicate 256 7) 96 = X ([0, 96] ++ List.replicate 64 64 ++ [64]) 96 ∧
    rfcXof X 128 [] (List.replicate 256 7) 96 = X ([0, 96] ++ List.replicate 32 32 ++ [32]) 96 :=
  ⟨fun _ n => List.replicate n (UInt8.ofNat n), by simp, by decide +kernel, by decide +kernel⟩

/-! ## C161: the points returned by `Hash` -/

theorem leNat_append_zeros (l : List UInt8) (n : ℕ) : leNat (l ++ List.replicate n 0) = leNat l := by
  induction l with
  | nil =>
    induction n with
    | zero => rfl
    | succ n ih =>
      rw [List.nil_append] at ih ⊢
      rw [List.replicate_succ, leNat_cons, ih]; rfl
  | cons b l ih => rw [List.cons_append, leNat_cons, leNat_cons, ih]

theorem unMont_encode {P : FieldParams} (hP : P.Ok) {p : ℕ} [hp : Fact p.Prime] (h2 : 2 < p)
    (hm : P.modulus.val = p) (n : ℕ) : unMont p (encode P (n : P.Ring)) = n := by
  refine unMont_eq h2 _ _ ?_
  have hlt : P.modulus.val < 2 ^ 256 := P.modulus.val_lt
  have : NeZero P.modulus.val := hP.neZero
  rw [encode, Limbs.val_ofNat (lt_trans (ZMod.val_lt _) hlt)]
  have e : ((n : P.Ring) * 2 ^ 256) = ((n * 2 ^ 256 : ℕ) : P.Ring) := by push_cast; ring
  rw [e, ZMod.val_natCast, hm, Nat.mod_mod]

/-- C161: the 48 bytes are read as a big-endian number, reduced modulo `p`. -/
theorem C161_elem {P : FieldParams} (hP : P.Ok) {p : ℕ} [hp : Fact p.Prime] (h2 : 2 < p)
    (hm : P.modulus.val = p) {u : List UInt8} (hu : u.length = 48) : elem48 p P u = beNat u := by
  rw [elem48, C57_wide hP _ (by simp [hu]), leNat_append_zeros, ← beNat_eq_leNat_reverse, unMont_encode hP h2 hm]

/-- the lengths of the outputs of the hash functions -/
def Hasher.Ok : Hasher → Prop
  | .xmd H size _ => 0 < size ∧ ∀ x, (H x).length = size
  | .xof X => ∀ x n, (X x n).length = n

theorem Hasher.Ok.expand_length {h : Hasher} (hh : h.Ok) (msg dst : List UInt8) {len : ℕ} (hl : 0 < len) :
    (h.expand msg dst len).length = len := by
  cases h with
  | xmd H size block => exact C162_expandXmd_length H size block hh.1 hh.2 msg dst hl
  | xof X => exact hh _ _

/-- map_to_curve for secp256k1 (RFC 9380, 6.6.3 and 8.7): simplified SWU onto the isogenous curve, then the isogeny -/
def K256.IsMap (u : ZMod k256p) (P : K256.Group) : Prop :=
  ∃ x y, IsSwu ((K256.isoA : ℕ) : ZMod k256p) (1771 : ℕ) (-(11 : ℕ)) lowBitOf u x y ∧
    ∃ h, P = .some (evalL (castL k256p K256.isoN.xNum) x / evalL (castL k256p K256.isoN.xDen) x)
      (evalL (castL k256p K256.isoN.yNum) x / evalL (castL k256p K256.isoN.yDen) x * y) h

/-- map_to_curve for P-256 (RFC 9380, 6.6.2 and 8.2) -/
def P256.IsMap (u : ZMod p256p) (P : P256.Group) : Prop :=
  ∃ x y, IsSwu (-3) P256.b (-(10 : ℕ)) lowBitOf u x y ∧ ∃ h, P = .some x y h

theorem K256.mapToCurve_isMap (u : ZMod k256p) : ∃ P, K256.IsMap u P ∧ Rep (K256.mapToCurve u) P := by
  obtain ⟨P, hP, hR⟩ := C161_k256_point u
  obtain ⟨_, _, he, _⟩ := C161_k256_isogeny (C160_k256_map u).equation
  refine ⟨P, ⟨_, _, C160_k256_map u, ?_⟩, hR⟩
  rcases P with _ | ⟨x, y, h⟩
  · exact absurd rfl hP
  · obtain ⟨_, hx, hy⟩ := hR
    simp only [K256.mapToCurve, he, mul_one] at hx hy
    subst hx hy
    exact ⟨h, rfl⟩

theorem P256.mapToCurve_isMap (u : ZMod p256p) : ∃ P, P256.IsMap u P ∧ Rep (P256.mapToCurve u) P := by
  obtain ⟨P, hP, hR⟩ := C161_p256_point u
  refine ⟨P, ⟨_, _, C160_p256_map u, ?_⟩, hR⟩
  rcases P with _ | ⟨x, y, h⟩
  · exact absurd rfl hP
  · obtain ⟨_, hx, hy⟩ := hR
    simp only [P256.mapToCurve, mul_one] at hx hy
    subst hx hy
    exact ⟨h, rfl⟩

/-- The specification determines the point. -/
theorem K256.IsMap.unique {u : ZMod k256p} {P Q : K256.Group} (hP : K256.IsMap u P) (hQ : K256.IsMap u Q) : P = Q := by
  obtain ⟨x, y, h, _, rfl⟩ := hP
  obtain ⟨x', y', h', _, rfl⟩ := hQ
  obtain ⟨rfl, rfl⟩ := h.unique (fun _ hy => lowBitOf_neg (by decide +kernel) hy) h'
  rfl

theorem P256.IsMap.unique {u : ZMod p256p} {P Q : P256.Group} (hP : P256.IsMap u P) (hQ : P256.IsMap u Q) : P = Q := by
  obtain ⟨x, y, h, _, rfl⟩ := hP
  obtain ⟨x', y', h', _, rfl⟩ := hQ
  obtain ⟨rfl, rfl⟩ := h.unique (fun _ hy => lowBitOf_neg (by decide +kernel) hy) h'
  rfl

/-- the element read from the expanded message -/
theorem K256.elem {u : List UInt8} (hu : u.length = 48) : elem48 k256p k256Fp u = beNat u :=
  C161_elem C111_constants.1.1 (by decide) (by decide +kernel) hu

theorem P256.elem {u : List UInt8} (hu : u.length = 48) : elem48 p256p p256Fp u = beNat u :=
  C161_elem C111_constants.2.2.1.1 (by decide) (by decide +kernel) hu

/-- C161: for every message and tag `Hash` on secp256k1 is hash_to_curve of RFC 9380: the sum of the images of the two
field elements read from the expanded message. -/
theorem C161_k256_hash {h : Hasher} (hh : h.Ok) (msg dst : List UInt8) : ∃ P Q : K256.Group,
    K256.IsMap (beNat ((h.expand msg dst 96).take 48) : ℕ) P ∧ K256.IsMap (beNat ((h.expand msg dst 96).drop 48) : ℕ) Q ∧
    Rep (K256.hash h msg dst) (P + Q) := by
  have hl := hh.expand_length msg dst (len := 96) (by omega)
  have e0 := K256.elem (u := (h.expand msg dst 96).take 48) (by simp [hl])
  have e1 := K256.elem (u := (h.expand msg dst 96).drop 48) (by simp [hl])
  obtain ⟨P, hP, rP⟩ := K256.mapToCurve_isMap (beNat ((h.expand msg dst 96).take 48) : ℕ)
  obtain ⟨Q, hQ, rQ⟩ := K256.mapToCurve_isMap (beNat ((h.expand msg dst 96).drop 48) : ℕ)
  refine ⟨P, Q, hP, hQ, ?_⟩
  rw [K256.hash]
  rw [e0, e1]
  exact C56_k256_add K256.two_ne K256.no_root rP rQ

/-- C161: … and so it is on P-256. -/
theorem C161_p256_hash {h : Hasher} (hh : h.Ok) (msg dst : List UInt8) : ∃ P Q : P256.Group,
    P256.IsMap (beNat ((h.expand msg dst 96).take 48) : ℕ) P ∧ P256.IsMap (beNat ((h.expand msg dst 96).drop 48) : ℕ) Q ∧
    Rep (P256.hash h msg dst) (P + Q) := by
  have hl := hh.expand_length msg dst (len := 96) (by omega)
  have e0 := P256.elem (u := (h.expand msg dst 96).take 48) (by simp [hl])
  have e1 := P256.elem (u := (h.expand msg dst 96).drop 48) (by simp [hl])
  obtain ⟨P, hP, rP⟩ := P256.mapToCurve_isMap (beNat ((h.expand msg dst 96).take 48) : ℕ)
  obtain ⟨Q, hQ, rQ⟩ := P256.mapToCurve_isMap (beNat ((h.expand msg dst 96).drop 48) : ℕ)
  refine ⟨P, Q, hP, hQ, ?_⟩
  rw [P256.hash]
  rw [e0, e1]
  exact C56_p256_add P256.two_ne P256.no_root rP rQ

/-- a hasher with the lengths required -/
example : (Hasher.xmd (fun x => List.replicate 32 (x.foldl (· + ·) 5)) 32 64).Ok := ⟨by decide, by simp⟩

/-- `Hash` with this hasher and the two field elements it maps -/
example : let h := Hasher.xmd (fun x => List.replicate 32 (x.foldl (· + ·) 5)) 32 64
    beNat ((h.expand [1, 2] [3] 96).take 48) ≠ beNat ((h.expand [1, 2] [3] 96).drop 48) := by decide +kernel

end Verif.Native

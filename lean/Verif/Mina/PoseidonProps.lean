import Mathlib.LinearAlgebra.Matrix.NonsingularInverse
import Mathlib.FieldTheory.Finite.Basic
import Mathlib.Data.List.OfFn
import Mathlib.Algebra.BigOperators.Fin
import Verif.Mina.PoseidonModel

/-!
# Poseidon: the permutations are permutations, and what the sponge does not separate

C135: each of the three permutations of the repository is a bijection on states. C78 (sponge part): the
sponge has no padding, so zeros at the end of the last block are not seen.
-/

namespace Verif.Mina

open Primes

set_option maxRecDepth 100000
set_option exponentiation.threshold 600

/-! ### permutations of states -/

/-- a length-preserving bijection on the states of a width -/
def IsPerm {F : Type} (w : ℕ) (f : List F → List F) : Prop :=
  ∃ g : List F → List F, ∀ s : List F, s.length = w →
    (f s).length = w ∧ (g s).length = w ∧ g (f s) = s ∧ f (g s) = s

theorem IsPerm.comp {F : Type} {w : ℕ} {f g : List F → List F} (hf : IsPerm w f) (hg : IsPerm w g) :
    IsPerm w (fun s => f (g s)) := by
  obtain ⟨f', hf⟩ := hf
  obtain ⟨g', hg⟩ := hg
  refine ⟨fun s => g' (f' s), fun s hs => ?_⟩
  obtain ⟨g1, g2, g3, g4⟩ := hg s hs
  obtain ⟨f1, f2, f3, f4⟩ := hf s hs
  obtain ⟨a1, a2, a3, a4⟩ := hf (g s) g1
  obtain ⟨b1, b2, b3, b4⟩ := hg (f' s) f2
  exact ⟨a1, b2, by simp only [a3, g3], by simp only [b4, f4]⟩

theorem IsPerm.id {F : Type} (w : ℕ) : IsPerm w (fun s : List F => s) :=
  ⟨fun s => s, fun _ hs => ⟨hs, hs, rfl, rfl⟩⟩

section Field
variable {F : Type} [Field F]

theorem zipWith_add_sub (s k : List F) (h : s.length = k.length) :
    List.zipWith (· - ·) (List.zipWith (· + ·) s k) k = s := by
  induction s generalizing k with
  | nil => simp
  | cons a s ih =>
    cases k with
    | nil => simp at h
    | cons b k => simp at h; simp [ih k h]

theorem zipWith_sub_add (s k : List F) (h : s.length = k.length) :
    List.zipWith (· + ·) (List.zipWith (· - ·) s k) k = s := by
  induction s generalizing k with
  | nil => simp
  | cons a s ih =>
    cases k with
    | nil => simp at h
    | cons b k => simp at h; simp [ih k h]

theorem isPerm_ark (P : Params F) {w : ℕ} (r : ℕ) (h : (P.roundKeys.getD r []).length = w) :
    IsPerm w (ark P r) := by
  refine ⟨fun s => List.zipWith (· - ·) s (P.roundKeys.getD r []), fun s hs => ?_⟩
  unfold ark
  exact ⟨by simp [hs, ← h], by simp [hs, ← h], zipWith_add_sub _ _ (by omega), zipWith_sub_add _ _ (by omega)⟩

theorem isPerm_sbox (P : Params F) (w : ℕ) {g : F → F} (h1 : ∀ x, g (P.sBox.exp x) = x)
    (h2 : ∀ x, P.sBox.exp (g x) = x) : IsPerm w (sbox P) := by
  refine ⟨fun s => s.map g, fun s hs => ?_⟩
  unfold sbox
  refine ⟨by simp [hs], by simp [hs], ?_, ?_⟩
  · show List.map g (List.map P.sBox.exp s) = s
    rw [List.map_map]; exact List.map_id'' h1 s
  · show List.map P.sBox.exp (List.map g s) = s
    rw [List.map_map]; exact List.map_id'' h2 s

/-- a state as a vector -/
def vec (w : ℕ) (s : List F) : Fin w → F := fun i => s.getD i 0

/-- a table as a matrix -/
def mat (w : ℕ) (M : List (List F)) : Matrix (Fin w) (Fin w) F := fun i j => (M.getD i []).getD j 0

/-- multiplication of a table with a state, as in `mds` -/
def mulRows (M : List (List F)) (s : List F) : List F :=
  M.map (fun row => (List.zipWith (· * ·) s row).foldl (· + ·) 0)

theorem ofFn_vec {w : ℕ} (s : List F) (h : s.length = w) : List.ofFn (vec w s) = s := by
  subst h
  apply List.ext_getElem?
  intro i
  by_cases hi : i < s.length
  · simp [hi, vec]
  · simp [hi]

theorem vec_ofFn {w : ℕ} (f : Fin w → F) : vec w (List.ofFn f) = f := by
  funext i
  simp [vec]

theorem dot_eq {w : ℕ} (s row : List F) (hs : s.length = w) (hr : row.length = w) :
    (List.zipWith (· * ·) s row).foldl (· + ·) 0 = ∑ i : Fin w, vec w row i * vec w s i := by
  have e : List.zipWith (· * ·) s row = List.ofFn (fun i : Fin w => vec w row i * vec w s i) := by
    apply List.ext_getElem?
    intro i
    by_cases hi : i < w
    · have h1 : i < s.length := by omega
      have h2 : i < row.length := by omega
      rw [List.getElem?_zipWith, List.getElem?_eq_getElem h1, List.getElem?_eq_getElem h2,
        List.getElem?_ofFn, dif_pos hi]
      simp only [vec, List.getD_eq_getElem?_getD, List.getElem?_eq_getElem h1,
        List.getElem?_eq_getElem h2, Option.getD_some]
      rw [mul_comm]
    · rw [List.getElem?_eq_none (by simp; omega), List.getElem?_eq_none (by simp; omega)]
  rw [← List.sum_eq_foldl, e, List.sum_ofFn]

theorem mulRows_eq {w : ℕ} (M : List (List F)) (s : List F) (hM : M.length = w)
    (hr : ∀ row ∈ M, row.length = w) (hs : s.length = w) :
    mulRows M s = List.ofFn ((mat w M).mulVec (vec w s)) := by
  apply List.ext_getElem?
  intro i
  unfold mulRows
  rw [List.getElem?_map]
  by_cases hi : i < w
  · have hi' : i < M.length := by omega
    rw [List.getElem?_eq_getElem hi', Option.map_some,
      dot_eq s _ hs (hr _ (List.getElem_mem hi')), List.getElem?_ofFn]
    simp only [hi, dif_pos]
    congr 1
    unfold Matrix.mulVec dotProduct
    apply Finset.sum_congr rfl
    intro j _
    simp [mat, vec, hi']
  · rw [List.getElem?_eq_none (by omega), List.getElem?_eq_none (by simp; omega)]
    rfl

theorem isPerm_mulRows {w : ℕ} {M N : List (List F)} (hM : M.length = w ∧ ∀ row ∈ M, row.length = w)
    (hN : N.length = w ∧ ∀ row ∈ N, row.length = w) (h : mat w N * mat w M = 1) :
    IsPerm w (mulRows M) := by
  refine ⟨mulRows N, fun s hs => ⟨by simp [mulRows, hM.1], by simp [mulRows, hN.1], ?_, ?_⟩⟩
  · rw [mulRows_eq M s hM.1 hM.2 hs, mulRows_eq N _ hN.1 hN.2 (by simp), vec_ofFn,
      Matrix.mulVec_mulVec, h, Matrix.one_mulVec, ofFn_vec s hs]
  · rw [mulRows_eq N s hN.1 hN.2 hs, mulRows_eq M _ hM.1 hM.2 (by simp), vec_ofFn,
      Matrix.mulVec_mulVec, mul_eq_one_comm.1 h, Matrix.one_mulVec, ofFn_vec s hs]

theorem isPerm_rounds (P : Params F) (t : Permutation) {w : ℕ} (hs : IsPerm w (sbox P))
    (hm : IsPerm w (mds P)) (n r : ℕ) (hk : ∀ i < r + n, (P.roundKeys.getD i []).length = w) :
    IsPerm w (rounds P t n r) := by
  induction n generalizing r with
  | zero => exact IsPerm.id w
  | succ n ih =>
    have h1 := ih (r + 1) (fun i hi => hk i (by omega))
    have ha := isPerm_ark P r (hk r (by omega))
    cases t with
    | threeW => exact h1.comp (hm.comp (hs.comp ha))
    | fiveW => exact h1.comp (ha.comp (hm.comp hs))
    | three => exact h1.comp (ha.comp (hm.comp hs))

theorem isPerm_permute (P : Params F) (t : Permutation) {w : ℕ} (hs : IsPerm w (sbox P))
    (hm : IsPerm w (mds P))
    (hk : ∀ i < P.fullRounds + (if t = .threeW then 1 else 0), (P.roundKeys.getD i []).length = w) :
    IsPerm w (permute P t) := by
  cases t with
  | threeW =>
    have h1 := isPerm_rounds P .threeW hs hm P.fullRounds 0 (fun i hi => hk i (by simp; omega))
    exact (isPerm_ark P P.fullRounds (hk _ (by simp))).comp h1
  | fiveW => exact isPerm_rounds P .fiveW hs hm P.fullRounds 0 (fun i hi => hk i (by simp; omega))
  | three => exact isPerm_rounds P .three hs hm P.fullRounds 0 (fun i hi => hk i (by simp; omega))

end Field

/-! ### the power maps -/

theorem pow_inverse {p : ℕ} [hp : Fact p.Prime] {e d k : ℕ} (h : e * d = k * (p - 1) + 1) (x : ZMod p) :
    (x ^ e) ^ d = x := by
  rw [← pow_mul, h, pow_succ]
  by_cases hx : x = 0
  · simp [hx]
  · rw [mul_comm k, pow_mul, ZMod.pow_card_sub_one_eq_one hx, one_pow, one_mul]

theorem exp_quint {F : Type} [Field F] (x : F) : SBox.exp .quint x = x ^ 5 := by
  simp only [SBox.exp]; ring

theorem exp_sept {F : Type} [Field F] (x : F) : SBox.exp .sept x = x ^ 7 := by
  simp only [SBox.exp]; ring

/-- an inverse of 5 modulo `p - 1` -/
def root5 : ℕ := 0x333333333333333333333333333333334e9ee0c9a10a60e2e0f0f3f0cccccccd

/-- an inverse of 7 modulo `p - 1` -/
def root7 : ℕ := 0x2db6db6db6db6db6db6db6db6db6db6dcf56ff8f745b8d5cdb204784b6db6db7

theorem root5_spec : 5 * root5 = 4 * (pallasp - 1) + 1 := by decide +kernel

theorem root7_spec : 7 * root7 = 5 * (pallasp - 1) + 1 := by decide +kernel

/-- C135: fifth and seventh powers are bijections of the field, which is what the choice of S-box needs -/
theorem C135_sbox (x : ZMod pallasp) :
    SBox.exp .quint x ^ root5 = x ∧ SBox.exp .quint (x ^ root5) = x ∧
    SBox.exp .sept x ^ root7 = x ∧ SBox.exp .sept (x ^ root7) = x := by
  rw [exp_quint, exp_quint, exp_sept, exp_sept]
  exact ⟨pow_inverse root5_spec x, pow_inverse (mul_comm 5 root5 ▸ root5_spec) x,
    pow_inverse root7_spec x, pow_inverse (mul_comm 7 root7 ▸ root7_spec) x⟩

theorem cube_root : (20444556541222657078399132219657928148671392403212669005631716460534733845831 : ZMod pallasp) ^ 3 = 1 ∧ (20444556541222657078399132219657928148671392403212669005631716460534733845831 : ZMod pallasp) ≠ 1 := by decide +kernel

/-- C135: the four S-boxes: powers three, five and seven, and the inverse, which leaves zero; the inverse is a bijection and the cube is not:
zero excepted every cube has three roots -/
theorem C135_exp (x : ZMod pallasp) :
    SBox.exp .cube x = x ^ 3 ∧ SBox.exp .quint x = x ^ 5 ∧ SBox.exp .sept x = x ^ 7 ∧
    (x ≠ 0 → SBox.exp .inverse x * x = 1) ∧ SBox.exp .inverse (0 : ZMod pallasp) = 0 ∧
    SBox.exp .inverse (SBox.exp .inverse x) = x ∧
    (x ≠ 0 → ∃ y, y ≠ x ∧ SBox.exp .cube y = SBox.exp .cube x) := by
  have := Primes.fact_pallasp
  refine ⟨?_, exp_quint x, exp_sept x, fun h => inv_mul_cancel₀ h, inv_zero, inv_inv x, fun h => ?_⟩
  · show x * x * x = _
    ring
  · have hw := cube_root.1
    refine ⟨20444556541222657078399132219657928148671392403212669005631716460534733845831 * x, fun e => ?_, ?_⟩
    · exact cube_root.2 (mul_right_cancel₀ h (e.trans (one_mul x).symm))
    · show 20444556541222657078399132219657928148671392403212669005631716460534733845831 * x * (20444556541222657078399132219657928148671392403212669005631716460534733845831 * x) * (20444556541222657078399132219657928148671392403212669005631716460534733845831 * x) = x * x * x
      linear_combination (x * x * x) * hw

/-! ### the tables of the repository -/

/-- the inverse of the matrix of `threeW` -/
def threeWMdsInv : List (List (ZMod pallasp)) := [[0x1e562b4d7d471d8518281728b87b8e4b466d9f5b8d0481b1f58adcc44249768,
   0x3011137c26f06a9ec2bac6c13e95399e1c0a6c9e1c1063b898f08b99e475e782,
   0x2bd872fe745e61eefa5c8a81912538eb6569a54a951eef2d0aa60bac1963a64b],
  [0x3a31ffb2ac6c975590b798378a057932e694ad81f32b6aae9ad7dfc230547710,
   0xd2d95d0e4a83f16ee1a025eabf177c4f536743c6c701c4a561278ae9539eb92,
   0x34ba06e0e5f5152747b4e9aee0cf27d44a0d4f007f3849b6542e885ce9686f63],
  [0xc119843202949e37a7ccf04891f134104ca922ccac00de85da961cd4fed2d4a,
   0x3b44918da454a7777ddc106f2106480edd4686bf64295a55c2af025b678044c8,
   0x2b4393646ef5ce0b60f12b7590583ed677e324d591bb728473a9c34c4e20eb58]]

/-- the inverse of the matrix of `fiveW` -/
def fiveWMdsInv : List (List (ZMod pallasp)) := [[0x2b75741f20be2ce007262636f2144220b6bd62d94984af23ac891c00fcb957ed,
   0x1eaf88fd205146e8397120d811f6d9daf217902751a2199f9203dfdf46a969bb,
   0x18905dde68d3f3878f163e3fea531e0512e082c665c42996db874cb3928ac3cf,
   0x2a8cf8e85adcb952c3b45a0b70ecdc10d97fc0ec91b1fb939960df42f85f3408,
   0x26fca28b97339a5c07be6e2b96d02c7e560a8d2c24ce6e74053e817bca35d8bf],
  [0x3a21cdd0f4f47e2753dab83d85d26a981da9af7cd00041ee49323fdc800f159c,
   0x62c241d43e4c231a7198ed551a2922221925e3c1238559e14c57119dd60659b,
   0x3fd59fe59baea4a3cd3d1f6cabeaa5a00f08a5d0b010e913e69a949193e49c94,
   0x2159dfed82327bd8eccb7c0d0926808f84b85439e6a88ad053f97f4cb4ab66ef,
   0x2c4599e34ad96326f10276bcba977503ba61a4bc668663a921afc68b2a63e3f],
  [0x2afcfce031130a87482fb67bbb1e0a0f7c0421a3cd4873e80969085749b78c5e,
   0x3457486a97ece4c834bc0d8597a979745b2e43655f041d727c25e3d1744fbdba,
   0x15a1bbd32923335914b770e414f073cc7410ee3fcb40c6ac8aff0487c713e2c7,
   0x9022365d3f1ad7b83c17c83912db9a89d2977bcd0fb1a35515e8fdb854d0170,
   0x2197f85cb5e552fa35da23c9738ddb0a10d964f8258fae4bf86308e2423c622c],
  [0x310ce20ee4a5e931edf5b2042b13c2e2e8f37bde4f4fbd429697845685eff013,
   0x232faa993fb155c11621b341e43dd17015d2c953acde20439ad8f9ff6cb5dacc,
   0x1cde7a09fa9206061faa45298518fa348abd1ac3d5e3dabebf78cc20c87ad67c,
   0xaa713fdf2ec6b5007dc566264317fb79142f90fb14884061abc66300fabbc66,
   0x2a7dce6bec13f6e282557150f03c65abc47cf3b8691e16270dd528c33f499c7c],
  [0x375b40ba7d2984384c0fe9478c99bc923b4a9648254f7826df6345fd837dab09,
   0x1b118bc13dbdae61a57a972524279feed2579e936378ae73b2f6708aafa38b9d,
   0x33cd7a071b1cd3283130a2581d4b61e73afb614c278faf1f604dbcf6c897db3f,
   0xde6a7b989fc63e6e329e58f2fa44df2bca216f394927fb1c44e0193cae0c54c,
   0x3595a254091f6f20c2800a117b71045e5b5d18879f84e24a79e2cd822773069f]]

/-- the inverse of the matrix of `three` -/
def threeMdsInv : List (List (ZMod pallasp)) := [[0x9bce867a797e6238ac6b0b1fb9018f87fb12f3916969c981968e99e2420ea33,
   0x2004e2ebf41782336df1c275596de7a06e329f2aa5685cc9b890531c4b139f0b,
   0x1f73fd4897553a3bdf360e136a0017564befe140bf0689b2e1c7ae69f01ef194],
  [0x1816a16c24acb412363688392f21e52dfa7e5f259de02599ae3fb86a726b03fb,
   0x17a3db53c4be5c79e2747ede6d32924f8c5d72ed91f2ae4b11344d8cb3cc63f6,
   0x145de45edfd18c64f690386bfc201638ba634887f5bf74ca58b25916ec643b09],
  [0x1903cc02f0aa338d5db874210685cb6d66efbd94e3f444fd5d8402b6d0c6464b,
   0xad4e53885fdf98a48c77aeea5610afe4378bb072e2be74193820eac2614a1d4,
   0x267bbf48cde4cf91e5754b476334495061a09e8854026544d311141da2d0da6f]]

theorem rInv_spec : 2 ^ 256 * rInv % pallasp = 1 := by decide +kernel

/-- the number read from a literal is the one whose product with `2^256` it is -/
theorem Words.val_spec (w : Words) :
    w.val * (2 : ZMod pallasp) ^ 256 =
      ((w.w0 + 2 ^ 64 * w.w1 + 2 ^ 128 * w.w2 + 2 ^ 192 * w.w3 : ℕ) : ZMod pallasp) := by
  have h : ((2 ^ 256 * rInv : ℕ) : ZMod pallasp) = 1 := by
    rw [← ZMod.natCast_mod, rInv_spec]; simp
  unfold Words.val
  rw [ZMod.natCast_mod, Nat.cast_mul, mul_assoc, mul_comm (rInv : ZMod pallasp)]
  have e : (2 : ZMod pallasp) ^ 256 * (rInv : ZMod pallasp) = 1 := by
    rw [← h]; simp only [Nat.cast_mul, Nat.cast_pow, Nat.cast_ofNat]
  rw [e, mul_one]

/-- the number of round keys a permutation reads -/
def keysUsed : Permutation → ℕ
  | .threeW => 64
  | .fiveW => 53
  | .three => 54

/-- C135: every row the permutations and `Init` read exists and is as long as the state, so no index is
out of range -/
theorem C135_tables (t : Permutation) :
    (contexts t).rate < (contexts t).width ∧ 0 < (contexts t).rate ∧
    (∀ i < keysUsed t, ((contexts t).roundKeys.getD i []).length = (contexts t).width) ∧
    (contexts t).mds.length = (contexts t).width ∧
    (∀ row ∈ (contexts t).mds, row.length = (contexts t).width) ∧
    (contexts t).iv.length = 2 ∧ (∀ row ∈ (contexts t).iv, row.length = (contexts t).width) := by
  cases t <;> decide +kernel

theorem mds_inv_threeW : mat 3 threeWMdsInv * mat 3 (contexts .threeW).mds = 1 := by
  decide +kernel

theorem mds_inv_three : mat 3 threeMdsInv * mat 3 (contexts .three).mds = 1 := by
  decide +kernel

theorem mds_inv_fiveW : mat 5 fiveWMdsInv * mat 5 (contexts .fiveW).mds = 1 := by
  decide +kernel

/-- C135: each of the three permutations of the package is a bijection on its states: two states are
never merged and every state is reached -/
theorem C135_bijective (t : Permutation) : IsPerm (contexts t).width (permute (contexts t) t) := by
  obtain ⟨-, -, h1, h2, h3, -, -⟩ := C135_tables t
  apply isPerm_permute
  · cases t
    · exact isPerm_sbox _ _ (g := fun x => x ^ root5) (fun x => (C135_sbox x).1) (fun x => (C135_sbox x).2.1)
    · exact isPerm_sbox _ _ (g := fun x => x ^ root7) (fun x => (C135_sbox x).2.2.1)
        (fun x => (C135_sbox x).2.2.2)
    · exact isPerm_sbox _ _ (g := fun x => x ^ root7) (fun x => (C135_sbox x).2.2.1)
        (fun x => (C135_sbox x).2.2.2)
  · cases t
    · exact isPerm_mulRows (N := threeWMdsInv) ⟨h2, h3⟩ (by decide +kernel) mds_inv_threeW
    · exact isPerm_mulRows (N := fiveWMdsInv) ⟨h2, h3⟩ (by decide +kernel) mds_inv_fiveW
    · exact isPerm_mulRows (N := threeMdsInv) ⟨h2, h3⟩ (by decide +kernel) mds_inv_three
  · cases t <;> exact h1

/-- C135: in terms of states only -/
theorem C135_injective (t : Permutation) (s s' : List (ZMod pallasp))
    (hs : s.length = (contexts t).width) (hs' : s'.length = (contexts t).width)
    (h : permute (contexts t) t s = permute (contexts t) t s') : s = s' := by
  obtain ⟨g, hg⟩ := C135_bijective t
  rw [← (hg s hs).2.2.1, h, (hg s' hs').2.2.1]

/-- C135: the initial states of the two networks differ in the contexts with three and five wires; the
context `three` starts both networks in the zero state and so does not separate them -/
theorem C135_networks :
    initSponge (contexts .threeW) testNet ≠ initSponge (contexts .threeW) mainNet ∧
    initSponge (contexts .fiveW) testNet ≠ initSponge (contexts .fiveW) mainNet ∧
    initSponge (contexts .three) testNet = initSponge (contexts .three) mainNet ∧
    initSponge (contexts .three) nullNet = initSponge (contexts .three) mainNet := by
  decide +kernel

/-! ### the sponge -/

section Sponge
variable {F : Type} [Field F] (P : Params F) (t : Permutation)

theorem update_append (c : Sponge F) (a b : List F) :
    update P t c (a ++ b) = update P t (update P t c a) b := List.foldl_append

theorem set_getD_add_zero (s : List F) (i : ℕ) : s.set i (s.getD i 0 + 0) = s := by
  rw [add_zero]
  by_cases hi : i < s.length
  · simp [hi]
  · exact List.set_eq_of_length_le (by omega)

theorem update_zeros (c : Sponge F) (k : ℕ) (h : c.absorbed + k ≤ P.rate) :
    update P t c (List.replicate k 0) = ⟨c.state, c.absorbed + k⟩ := by
  induction k generalizing c with
  | zero => rfl
  | succ k ih =>
    have e : absorb P t c 0 = ⟨c.state, c.absorbed + 1⟩ := by
      unfold absorb
      rw [if_neg (by omega)]
      simp only [set_getD_add_zero]
    rw [List.replicate_succ]
    show update P t (absorb P t c 0) (List.replicate k 0) = _
    rw [e, ih _ (by simp only; omega)]
    simp only [Sponge.mk.injEq, true_and]
    omega

/-- how many elements of the current block are filled after absorbing `n` elements -/
def filled (rate n : ℕ) : ℕ := if n = 0 then 0 else (n - 1) % rate + 1

theorem absorbed_update (hr : 0 < P.rate) (s : List F) (fs : List F) :
    (update P t ⟨s, 0⟩ fs).absorbed = filled P.rate fs.length := by
  induction fs using List.reverseRecOn with
  | nil => rfl
  | append_singleton fs f ih =>
    rw [update_append]
    show (absorb P t (update P t ⟨s, 0⟩ fs) f).absorbed = _
    have e : ∀ c : Sponge F, (absorb P t c f).absorbed =
        if c.absorbed = P.rate then 1 else c.absorbed + 1 := by
      intro c; unfold absorb; split <;> rfl
    rw [e, ih]
    unfold filled
    simp only [List.length_append, List.length_singleton]
    rw [if_neg (by omega : ¬ fs.length + 1 = 0), Nat.add_sub_cancel]
    by_cases h0 : fs.length = 0
    · rw [if_pos h0, h0, if_neg (by omega)]; simp
    · rw [if_neg h0]
      obtain ⟨n, hn⟩ := Nat.exists_eq_succ_of_ne_zero h0
      rw [hn]
      simp only [Nat.succ_eq_add_one, Nat.add_sub_cancel]
      have hlt := Nat.mod_lt n hr
      by_cases h1 : n % P.rate + 1 = P.rate
      · have e : n + 1 = P.rate * (n / P.rate + 1) := by
          have := Nat.div_add_mod n P.rate
          rw [Nat.mul_add, Nat.mul_one]; omega
        rw [if_pos h1, e, Nat.mul_mod_right]
      · rw [if_neg h1]
        congr 1
        rw [Nat.add_mod, Nat.mod_eq_of_lt (a := n % P.rate + 1 % P.rate)]
        · rw [Nat.mod_eq_of_lt (a := 1) (by omega)]
        · rw [Nat.mod_eq_of_lt (a := 1) (by omega)]; omega

end Sponge

/-- C78 (sponge): zeros at the end of the absorbed list that fit into its last block do not change the
hash. The sponge has neither padding nor a length. -/
theorem C78_sponge {p : ℕ} [Fact p.Prime] (q : ℕ) (P : Params (ZMod p)) (t : Permutation) (net : ℤ)
    (fs : List (ZMod p)) (k : ℕ) (hr : 0 < P.rate) (hk : filled P.rate fs.length + k ≤ P.rate) :
    spongeHash q P t net (fs ++ List.replicate k 0) = spongeHash q P t net fs := by
  unfold spongeHash
  have hz : ∀ c, initSponge P net = some c → c.absorbed = 0 := by
    intro c hc
    unfold initSponge at hc
    split at hc
    · simp at hc
    · split at hc <;> · simp only [Option.some.injEq] at hc; subst hc; rfl
  cases hc : initSponge P net with
  | none => rfl
  | some c =>
    simp only
    obtain ⟨s, a⟩ := c
    have := hz _ hc
    simp only at this
    subst this
    rw [update_append, update_zeros]
    · rfl
    · rw [absorbed_update P t hr]; exact hk

/-! ### examples: the test vectors of the repository (`poseidon_hash_test.go:19-94`) -/

example : spongeHash pallasq (contexts .threeW) .threeW nullNet
    [] =
    .ok 0x17e6634c2a86a63f1254e6c31b78e1fdc6f0885c0abb8bc7ed822d91b651321b := by
  decide +kernel

example : spongeHash pallasq (contexts .threeW) .threeW nullNet
    [0x30b04a6adc99ce2c5702bee822bff5383716f806d886e1ff87196f9c388e69df] =
    .ok 0xc72ea437a631b8368d81feebb6d3d53b689c64bc75ab3c61780c9f8c5b6b1f9 := by
  decide +kernel

example : spongeHash pallasq (contexts .threeW) .threeW nullNet
    [0x26c02ab5b15e1179fbd1d21afb16fe0368677503b4a60049811956a8a548b656,
     0x2fff26405f7098a4d14a7e5ae2af4b894d3f2a4d32a1b2c6d9bbc9d9038a6af2] =
    .ok 0x18093b39704edd6f089a92dd60ef7d3a29dfd13c537f86557bd2fbbc936e557a := by
  decide +kernel

example : spongeHash pallasq (contexts .threeW) .threeW nullNet
    [0x26cbce06c21bc74df448ddc66eeeb70ad64f6243ed5ddf940669e423fa415c07,
     0xd7a55b11ae953b282835d4450efb662821e0511ccbc2bd42ad09bb0ebbee2a4,
     0x3996466c2e1f8596f2ba8c6bf3cc2fbb42a3fb4c926eb16e0d9c2d24a123fc7d] =
    .ok 0x356b28107b19a4bbd226cdb9d2dba419b765e9a3b5a4f4436fb0aa19a9394bf9 := by
  decide +kernel

example : spongeHash pallasq (contexts .threeW) .threeW nullNet
    [0x39b60324d596f1f48c45eb15285c2d27e48d38bddbfcc61873d4804eb159a6a1,
     0x40fd559ff12d13894c1c84ef28362efa79396ff3830d1641b1301185d06335e,
     0x63e68358290cb2b9fbf19e15d1d40852bbaa2f625e8c4cdfad0b6a9d0f4a838,
     0x2ef5f4423ff7ae77b687813d68ad4d23ab70aad61ed73bb2ccd7303a31d05634] =
    .ok 0x34ec5a8777074fc6e430ce472821e1ebe9fc3cb5be9419fff96efd64a9cf1ccc := by
  decide +kernel

example : spongeHash pallasq (contexts .threeW) .threeW nullNet
    [0x5a9d459f1d4bd31accff5156aa637eef489f41c53bd971c99bb76dc48eecfbc,
     0x2b075b585e211c87464055b2da8a8dd4ba746d5c990a40fd852f261ab26f102d,
     0x63c333226c6553e8e5cff0c678c87e575a52abb56074d53567958e83ee90083,
     0x17644ac5c21da6c99ff1977e05c1fe6052ba4cf9ffdeaf166d6f5631da329c87,
     0x1e61593ab6af4bb4184132135de8bec9c2dacdb3a5aeae082dfb1c50e5a60a9c] =
    .ok 0x128ebcccd31b8c23ba248d45c24096624b95d5a8ece1d4fec0e2f028219c7bcf := by
  decide +kernel

example : spongeHash pallasq (contexts .threeW) .threeW mainNet
    [0x31d36bb7985684ad4e4be03b6043d77b795bb7befe4eeae4f3855fd25bc6480f,
     0x31d36bb7985684ad4e4be03b6043d77b795bb7befe4eeae4f3855fd25bc6480f,
     0x3e7673053e907446abb1896f6c15cdf2d27f64f668d7d32fbec051a5e504bf3,
     0x31d36bb7985684ad4e4be03b6043d77b795bb7befe4eeae4f3855fd25bc6480f,
     0x27b47c1729f074d9a38b699bac056bcc94f35459856fa5ec37579568c5b97cac,
     0x5105b8feac2e80272d7d1ea4d6cdc227503939d79bddc68fe9169a0ec410101,
     0x1240e6d2d0e81c0200004e200000019000000000000000010000000000000003,
     0x1800000000000000000000000000000000000037b6b2b690309039b,
     0xa8000000] =
    .ok 0x2147434faa98f945cd7e810fb82c5f5173ccdfb1a22ef41f9579ed42c2c7fa64 := by
  decide +kernel

/-- three elements and the same with a zero have one hash -/
example (a b c : ZMod pallasp) : spongeHash pallasq (contexts .threeW) .threeW mainNet [a, b, c, 0] =
    spongeHash pallasq (contexts .threeW) .threeW mainNet [a, b, c] :=
  C78_sponge pallasq (contexts .threeW) .threeW mainNet [a, b, c] 1 (by decide) (by show filled 2 3 + 1 ≤ 2; decide)

end Verif.Mina

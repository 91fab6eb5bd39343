import Verif.Native.MapHash
import Verif.Bls381.MapModel
import Verif.Bls381.G2Order

/-!
# C163, C164: hashing to the groups of BLS12-381
-/

set_option exponentiation.threshold 1000

namespace Verif.Bls381

open Primes Native WeierstrassCurve.Affine

/-! ## C163: the maps of G1 -/

/-- the constants of RFC 9380, 8.8.1 for the curve isogenous to that of G1 -/
def isoA1 : ℕ := 0x144698a3b8e9433d693a02c96d4982b0ea985383ee66a8d8e8981aefd881ac98936f8da0e0f97f5cf428082d584c1d
@[inherit_doc isoA1] def isoB1 : ℕ := 0x12e2908d11688030018b12e8753eee3b2016c1f0f24f4070a0b9c14fcef35ef55a23215a316ceaa5d1cc48e98e172be0

theorem osswuMapA_eq : osswuMapA = (isoA1 : ℕ) := const_num (by decide +kernel)
theorem osswuMapB_eq : osswuMapB = (isoB1 : ℕ) := const_num (by decide +kernel)
theorem oswwuMapZ_eq : oswwuMapZ = (11 : ℕ) := const_num (by decide +kernel)
theorem osswuMapC2_eq : osswuMapC2 = (0x3d689d1e0e762cef9f2bec6130316806b4c80eda6fc10ce77ae83eab1ea8b8b8a407c9c6db195e06f2dbeabc2baeff5 : ℕ) :=
  const_num (by decide +kernel)

theorem osswuMapA_ne : osswuMapA ≠ 0 := by rw [osswuMapA_eq]; exact natCast_ne_zero_of_mod (by decide +kernel)
theorem oswwuMapZ_ne : oswwuMapZ ≠ 0 := by rw [oswwuMapZ_eq]; exact natCast_ne_zero_of_mod (by decide +kernel)

theorem osswuMapC2_sq : osswuMapC2 ^ 2 = -oswwuMapZ ^ 3 := by
  have h : ((0x3d689d1e0e762cef9f2bec6130316806b4c80eda6fc10ce77ae83eab1ea8b8b8a407c9c6db195e06f2dbeabc2baeff5 ^ 2 + 11 ^ 3 : ℕ) : Fq) = (0 : ℕ) :=
    natCast_eq_of_mod (by decide +kernel)
  rw [osswuMapC2_eq, oswwuMapZ_eq]
  rw [Nat.cast_add, Nat.cast_pow, Nat.cast_pow, Nat.cast_zero] at h
  linear_combination h

theorem osswuEx : IsSquare ((osswuMapB / (oswwuMapZ * osswuMapA)) ^ 3
    + osswuMapA * (osswuMapB / (oswwuMapZ * osswuMapA)) + osswuMapB) := by
  have hw : osswuMapB / (oswwuMapZ * osswuMapA)
      = (0x123939a31626a32de772bc7a591ea140683bca0c62efb105310d5ce1d27d1aadf79a5d5cbe8e2c4ff7d4816af76d2814 : ℕ) := by
    rw [div_eq_iff (mul_ne_zero oswwuMapZ_ne osswuMapA_ne), osswuMapA_eq, osswuMapB_eq, oswwuMapZ_eq, ← Nat.cast_mul,
      ← Nat.cast_mul]
    exact natCast_eq_of_mod (by decide +kernel)
  rw [hw, osswuMapA_eq, osswuMapB_eq]
  refine ⟨(0x5be3446f07e910e291153e84f1dabd3dfe5c2b1080d8b6a640425c3826f2a429373f9bab7e8308f6dd10ffa11124dbc : ℕ), ?_⟩
  rw [← Nat.cast_pow, ← Nat.cast_mul, ← Nat.cast_add, ← Nat.cast_add, ← Nat.cast_mul]
  exact natCast_eq_of_mod (by decide +kernel)

theorem fix_sign {F : Type} [Field F] {sgn : F → Bool} (hs : ∀ y ≠ 0, sgn (-y) = !sgn y) {A B u x y : F}
    (hxy : y ^ 2 = x ^ 3 + A * x + B) :
    (sel y (-y) (xor (sgn u) (sgn y))) ^ 2 = x ^ 3 + A * x + B ∧
      (sel y (-y) (xor (sgn u) (sgn y)) ≠ 0 → sgn (sel y (-y) (xor (sgn u) (sgn y))) = sgn u) := by
  unfold sel
  split
  · next hne =>
    refine ⟨by rw [neg_sq, hxy], fun h0 => ?_⟩
    rw [hs y (neg_ne_zero.1 h0)]
    revert hne
    cases sgn u <;> cases sgn y <;> simp
  · next hne =>
    refine ⟨hxy, fun _ => ?_⟩
    revert hne
    cases sgn u <;> cases sgn y <;> simp

/-- the straight-line program of `osswu3mod4` over any field -/
def osswuGen {F : Type} [Field F] [DecidableEq F] (A B Z C2 : F) (pw : F → F) (sgn : F → Bool) (u : F) : Proj F :=
  let tv1 := u * u
  let tv3 := Z * tv1
  let tv2 := tv3 * tv3
  let xd := tv2 + tv3
  let x1n := xd + 1
  let x1n := x1n * B
  let xd := -A * xd
  let xd := sel xd (Z * A) (decide (xd = 0))
  let tv2 := xd * xd
  let gxd := tv2 * xd
  let tv2 := tv2 * A
  let gx1 := x1n * x1n
  let gx1 := gx1 + tv2
  let gx1 := gx1 * x1n
  let tv2 := B * gxd
  let gx1 := gx1 + tv2
  let tv4 := gxd * gxd
  let tv2 := gx1 * gxd
  let tv4 := tv4 * tv2
  let y1 := pw tv4
  let y1 := y1 * tv2
  let x2n := tv3 * x1n
  let y2 := y1 * C2
  let y2 := y2 * tv1
  let y2 := y2 * u
  let tv2 := y1 * y1
  let tv2 := tv2 * gxd
  let e2 := decide (tv2 = gx1)
  let x2n := sel x2n x1n e2
  let y2 := sel y2 y1 e2
  let e3 := xor (sgn u) (sgn y2)
  let y2 := sel y2 (-y2) e3
  let x := xd⁻¹
  let x := x * x2n
  ⟨x, y2, 1⟩

theorem osswuGen_isSwu {p : ℕ} [Fact p.Prime] (h4 : p % 4 = 3) {A B Z C2 : ZMod p} (hA : A ≠ 0) (hZ : Z ≠ 0)
    (hc : C2 ^ 2 = -Z ^ 3) (hex : IsSquare ((B / (Z * A)) ^ 3 + A * (B / (Z * A)) + B)) {pw : ZMod p → ZMod p}
    (hpw : ∀ z, pw z = z ^ ((p - 3) / 4)) {sgn : ZMod p → Bool} (hs : ∀ y ≠ 0, sgn (-y) = !sgn y) (u : ZMod p) :
    IsSwu A B Z sgn u (osswuGen A B Z C2 pw sgn u).x (osswuGen A B Z C2 pw sgn u).y := by
  obtain ⟨h1, h3, h4, h5, h6⟩ := swu_core h4 hA hZ hc hex (u := u) rfl rfl rfl rfl rfl rfl rfl
  generalize hx1 : ((Z * u ^ 2) ^ 2 + Z * u ^ 2 + 1) * B = x1n at h1 h3 h4 h5 h6
  generalize hxd : (if -A * ((Z * u ^ 2) ^ 2 + Z * u ^ 2) = 0 then Z * A else
    -A * ((Z * u ^ 2) ^ 2 + Z * u ^ 2)) = xd at h1 h3 h4 h5 h6
  generalize hn : x1n ^ 3 + A * x1n * xd ^ 2 + B * xd ^ 3 = n at h5 h6
  generalize hy : ((xd ^ 3) ^ 2 * (n * xd ^ 3)) ^ ((p - 3) / 4) * (n * xd ^ 3) = y1 at h5 h6
  have key : osswuGen A B Z C2 pw sgn u =
      let x := sel (Z * u ^ 2 * x1n) x1n (decide (y1 ^ 2 * xd ^ 3 = n))
      let y := sel (y1 * C2 * u ^ 2 * u) y1 (decide (y1 ^ 2 * xd ^ 3 = n))
      ⟨x / xd, sel y (-y) (xor (sgn u) (sgn y)), 1⟩ := by
    have e1 : (Z * (u * u) * (Z * (u * u)) + Z * (u * u) + 1) * B = x1n := by
      rw [← hx1]; ring
    have e2 : -A * (Z * (u * u) * (Z * (u * u)) + Z * (u * u))
        = -A * ((Z * u ^ 2) ^ 2 + Z * u ^ 2) := by ring
    have e2' : sel (-A * ((Z * u ^ 2) ^ 2 + Z * u ^ 2)) (Z * A)
        (decide (-A * ((Z * u ^ 2) ^ 2 + Z * u ^ 2) = 0)) = xd := by
      rw [← hxd, sel]; simp only [decide_eq_true_eq]
    have e0 : xd * xd * xd = xd ^ 3 := by ring
    have e3 : (x1n * x1n + xd * xd * A) * x1n + B * xd ^ 3 = n := by rw [← hn]; ring
    have e4 : xd ^ 3 * xd ^ 3 * (n * xd ^ 3) = (xd ^ 3) ^ 2 * (n * xd ^ 3) := by ring
    have e6 : y1 * y1 = y1 ^ 2 := by ring
    have e7 : y1 * C2 * (u * u) * u = y1 * C2 * u ^ 2 * u := by ring
    have e8 : Z * (u * u) * x1n = Z * u ^ 2 * x1n := by ring
    simp only [osswuGen, e1, e2, e2', e0, e3, e4, hpw, hy, e6, e7, e8, div_eq_mul_inv]
    rw [mul_comm]
  rw [key]
  by_cases hq : IsSquare ((x1n / xd) ^ 3 + A * (x1n / xd) + B)
  · obtain ⟨a1, a2⟩ := h5 hq
    simp only [decide_eq_true a1]
    have := fix_sign hs (u := u) a2
    exact ⟨⟨x1n / xd, h3, h4, fun _ => rfl, fun hn => absurd hq hn⟩, this.1, this.2⟩
  · obtain ⟨a1, a2⟩ := h6 hq
    simp only [decide_eq_false a1]
    have := fix_sign hs (u := u) a2
    exact ⟨⟨x1n / xd, h3, h4, fun hn => absurd hn hq, fun _ => mul_div_assoc _ _ _⟩, this.1, this.2⟩

theorem osswuPow (z : Fq) : pow1 z osswuMapC1 = z ^ ((blsp - 3) / 4) := by
  have hC1 : limbVal osswuMapC1 = (blsp - 3) / 4 := by decide +kernel
  rw [pow1_eq, hC1]

theorem g1_swu_gen (u : Fq) :
    IsSwu osswuMapA osswuMapB oswwuMapZ sgn0of1 u (g1Osswu u).x (g1Osswu u).y :=
  osswuGen_isSwu (p := blsp) (by decide +kernel) osswuMapA_ne oswwuMapZ_ne osswuMapC2_sq osswuEx osswuPow
    (fun _ hy => sgn1_neg hy) u

/-- C163: on every field element `osswu3mod4` is the simplified SWU map of RFC 9380 with the constants of section
8.8.1. -/
theorem C163_g1_map (u : Fq) : IsSwu ((isoA1 : ℕ) : Fq) (isoB1 : ℕ) (11 : ℕ) sgn0of1 u (g1Osswu u).x (g1Osswu u).y := by
  have := g1_swu_gen u
  rwa [osswuMapA_eq, osswuMapB_eq, oswwuMapZ_eq] at this

/-- the exceptional input -/
example : (g1Osswu 0).x = (0x123939a31626a32de772bc7a591ea140683bca0c62efb105310d5ce1d27d1aadf79a5d5cbe8e2c4ff7d4816af76d2814 : ℕ) := by
  decide +kernel

/-- the coefficients of the isogeny of G1 (RFC 9380, appendix E.2) -/
def isoN1 : IsogenyParams ℕ where
  xNum := [
    0x11a05f2b1e833340b809101dd99815856b303e88a2d7005ff2627b56cdb4e2c85610c2d5f2e62d6eaeac1662734649b7,
    0x17294ed3e943ab2f0588bab22147a81c7c17e75b2f6a8417f565e33c70d1e86b4838f2a6f318c356e834eef1b3cb83bb,
    0xd54005db97678ec1d1048c5d10a9a1bce032473295983e56878e501ec68e25c958c3e3d2a09729fe0179f9dac9edcb0,
    0x1778e7166fcc6db74e0609d307e55412d7f5e4656a8dbf25f1b33289f1b330835336e25ce3107193c5b388641d9b6861,
    0xe99726a3199f4436642b4b3e4118e5499db995a1257fb3f086eeb65982fac18985a286f301e77c451154ce9ac8895d9,
    0x1630c3250d7313ff01d1201bf7a74ab5db3cb17dd952799b9ed3ab9097e68f90a0870d2dcae73d19cd13c1c66f652983,
    0xd6ed6553fe44d296a3726c38ae652bfb11586264f0f8ce19008e218f9c86b2a8da25128c1052ecaddd7f225a139ed84,
    0x17b81e7701abdbe2e8743884d1117e53356de5ab275b4db1a682c62ef0f2753339b7c8f8c8f475af9ccb5618e3f0c88e,
    0x80d3cf1f9a78fc47b90b33563be990dc43b756ce79f5574a2c596c928c5d1de4fa295f296b74e956d71986a8497e317,
    0x169b1f8e1bcfa7c42e0c37515d138f22dd2ecb803a0c5c99676314baf4bb1b7fa3190b2edc0327797f241067be390c9e,
    0x10321da079ce07e272d8ec09d2565b0dfa7dccdde6787f96d50af36003b14866f69b771f8c285decca67df3f1605fb7b,
    0x6e08c248e260e70bd1e962381edee3d31d79d7e22c837bc23c0bf1bc24c6b68c24b1b80b64d391fa9c8ba2e8ba2d229]
  xDen := [
    0x8ca8d548cff19ae18b2e62f4bd3fa6f01d5ef4ba35b48ba9c9588617fc8ac62b558d681be343df8993cf9fa40d21b1c,
    0x12561a5deb559c4348b4711298e536367041e8ca0cf0800c0126c2588c48bf5713daa8846cb026e9e5c8276ec82b3bff,
    0xb2962fe57a3225e8137e629bff2991f6f89416f5a718cd1fca64e00b11aceacd6a3d0967c94fedcfcc239ba5cb83e19,
    0x3425581a58ae2fec83aafef7c40eb545b08243f16b1655154cca8abc28d6fd04976d5243eecf5c4130de8938dc62cd8,
    0x13a8e162022914a80a6f1d5f43e7a07dffdfc759a12062bb8d6b44e833b306da9bd29ba81f35781d539d395b3532a21e,
    0xe7355f8e4e667b955390f7f0506c6e9395735e9ce9cad4d0a43bcef24b8982f7400d24bc4228f11c02df9a29f6304a5,
    0x772caacf16936190f3e0c63e0596721570f5799af53a1894e2e073062aede9cea73b3538f0de06cec2574496ee84a3a,
    0x14a7ac2a9d64a8b230b3f5b074cf01996e7f63c21bca68a81996e1cdf9822c580fa5b9489d11e2d311f7d99bbdcc5a5e,
    0xa10ecf6ada54f825e920b3dafc7a3cce07f8d1d7161366b74100da67f39883503826692abba43704776ec3a79a1d641,
    0x95fc13ab9e92ad4476d6e3eb3a56680f682b4ee96f7d03776df533978f31c1593174e4b4b7865002d6384d168ecdd0a,
    0x1]
  yNum := [
    0x90d97c81ba24ee0259d1f094980dcfa11ad138e48a869522b52af6c956543d3cd0c7aee9b3ba3c2be9845719707bb33,
    0x134996a104ee5811d51036d776fb46831223e96c254f383d0f906343eb67ad34d6c56711962fa8bfe097e75a2e41c696,
    0xcc786baa966e66f4a384c86a3b49942552e2d658a31ce2c344be4b91400da7d26d521628b00523b8dfe240c72de1f6,
    0x1f86376e8981c217898751ad8746757d42aa7b90eeb791c09e4a3ec03251cf9de405aba9ec61deca6355c77b0e5f4cb,
    0x8cc03fdefe0ff135caf4fe2a21529c4195536fbe3ce50b879833fd221351adc2ee7f8dc099040a841b6daecf2e8fedb,
    0x16603fca40634b6a2211e11db8f0a6a074a7d0d4afadb7bd76505c3d3ad5544e203f6326c95a807299b23ab13633a5f0,
    0x4ab0b9bcfac1bbcb2c977d027796b3ce75bb8ca2be184cb5231413c4d634f3747a87ac2460f415ec961f8855fe9d6f2,
    0x987c8d5333ab86fde9926bd2ca6c674170a05bfe3bdd81ffd038da6c26c842642f64550fedfe935a15e4ca31870fb29,
    0x9fc4018bd96684be88c9e221e4da1bb8f3abd16679dc26c1e8b6e6a1f20cabe69d65201c78607a360370e577bdba587,
    0xe1bba7a1186bdb5223abde7ada14a23c42a0ca7915af6fe06985e7ed1e4d43b9b3f7055dd4eba6f2bafaaebca731c30,
    0x19713e47937cd1be0dfd0b8f1d43fb93cd2fcbcb6caf493fd1183e416389e61031bf3a5cce3fbafce813711ad011c132,
    0x18b46a908f36f6deb918c143fed2edcc523559b8aaf0c2462e6bfe7f911f643249d9cdf41b44d606ce07c8a4d0074d8e,
    0xb182cac101b9399d155096004f53f447aa7b12a3426b08ec02710e807b4633f06c851c1919211f20d4c04f00b971ef8,
    0x245a394ad1eca9b72fc00ae7be315dc757b3b080d4c158013e6632d3c40659cc6cf90ad1c232a6442d9d3f5db980133,
    0x5c129645e44cf1102a159f748c4a3fc5e673d81d7e86568d9ab0f5d396a7ce46ba1049b6579afb7866b1e715475224b,
    0x15e6be4e990f03ce4ea50b3b42df2eb5cb181d8f84965a3957add4fa95af01b2b665027efec01c7704b456be69c8b604]
  yDen := [
    0x16112c4c3a9c98b252181140fad0eae9601a6de578980be6eec3232b5be72e7a07f3688ef60c206d01479253b03663c1,
    0x1962d75c2381201e1a0cbd6c43c348b885c84ff731c4d59ca4a10356f453e01f78a4260763529e3532f6102c2e49a03d,
    0x58df3306640da276faaae7d6e8eb15778c4855551ae7f310c35a5dd279cd2eca6757cd636f96f891e2538b53dbf67f2,
    0x16b7d288798e5395f20d23bf89edb4d1d115c5dbddbcd30e123da489e726af41727364f2c28297ada8d26d98445f5416,
    0xbe0e079545f43e4b00cc912f8228ddcc6d19c9f0f69bbb0542eda0fc9dec916a20b15dc0fd2ededda39142311a5001d,
    0x8d9e5297186db2d9fb266eaac783182b70152c65550d881c5ecd87b6f0f5a6449f38db9dfa9cce202c6477faaf9b7ac,
    0x166007c08a99db2fc3ba8734ace9824b5eecfdfa8d0cf8ef5dd365bc400a0051d5fa9c01a58b1fb93d1a1399126a775c,
    0x16a3ef08be3ea7ea03bcddfabba6ff6ee5a4375efa1f4fd7feb34fd206357132b920f5b00801dee460ee415a15812ed9,
    0x1866c8ed336c61231a1be54fd1d74cc4f9fb0ce4c6af5920abc5750c4bf39b4852cfe2f7bb9248836b233d9d55535d4a,
    0x167a55cda70a6e1cea820597d94a84903216f763e13d87bb5308592e7ea7d4fbc7385ea3d529b35e346ef48bb8913f55,
    0x4d2f259eea405bd48f010a01ad2911d9c6dd039bb61a6290e591b36e636a5c871a5c29f4f83060400f8b49cba8f6aa8,
    0xaccbb67481d033ff5852c1e48c50c477f94ff8aefce42d28c0f9a88cea7913516f968986f7ebbea9684b529e2561092,
    0xad6b9514c767fe3c3613144b45f1496543346d98adf02267d5ceef9a00d9b8693000763e3b90ac11e99b138573345cc,
    0x2660400eb2e4f3b628bdd0d53cd76f2bf565b94e72927c1cb748df27942480e420517bd8714cc80d1fadc1326ed06f7,
    0xe0fa1d816ddc03e6b24255e0d7819c171c40f65e273b853324efcd6356caa205ca2f570f13497804415473a1d634b8f,
    0x1]

theorem map_fpDec : ∀ {l : List (List UInt64)} {k : List ℕ},
    List.Forall₂ (fun l x => x * 2 ^ 384 % blsp = limbVal l % blsp) l k → l.map fpDec = castL blsp k
  | _, _, .nil => rfl
  | _, _, .cons h t => by
    rw [List.map_cons, map_fpDec t, const_num h]; rfl

/-- C163: the tables hold these coefficients. -/
theorem C163_g1_tables : g1Iso = ⟨castL blsp isoN1.xNum, castL blsp isoN1.xDen, castL blsp isoN1.yNum,
    castL blsp isoN1.yDen⟩ := by
  simp only [g1Iso, IsogenyParams.mk.injEq]
  refine ⟨?_, ?_, ?_, ?_⟩
  · refine map_fpDec (l := [_, _, _, _, _, _, _, _, _, _, _, _]) (k := isoN1.xNum) ?_
    simp only [isoN1, List.forall₂_cons, List.forall₂_nil_left_iff, and_true]
    decide +kernel
  · refine map_fpDec (l := [_, _, _, _, _, _, _, _, _, _, _]) (k := isoN1.xDen) ?_
    simp only [isoN1, List.forall₂_cons, List.forall₂_nil_left_iff, and_true]
    decide +kernel
  · refine map_fpDec (l := [_, _, _, _, _, _, _, _, _, _, _, _, _, _, _, _]) (k := isoN1.yNum) ?_
    simp only [isoN1, List.forall₂_cons, List.forall₂_nil_left_iff, and_true]
    decide +kernel
  · refine map_fpDec (l := [_, _, _, _, _, _, _, _, _, _, _, _, _, _, _, _]) (k := isoN1.yDen) ?_
    simp only [isoN1, List.forall₂_cons, List.forall₂_nil_left_iff, and_true]
    decide +kernel

theorem g1_identity (x : Fq) :
    evalL (castL blsp isoN1.yNum) x ^ 2 * ((x ^ 3 + (isoA1 : ℕ) * x + (isoB1 : ℕ)) * evalL (castL blsp isoN1.xDen) x ^ 3)
    = evalL (castL blsp isoN1.yDen) x ^ 2 * (evalL (castL blsp isoN1.xNum) x ^ 3
      + (4 : ℕ) * evalL (castL blsp isoN1.xDen) x ^ 3) := by
  have key : mulN blsp (mulN blsp isoN1.yNum isoN1.yNum) (mulN blsp [isoB1, isoA1, 0, 1]
      (mulN blsp isoN1.xDen (mulN blsp isoN1.xDen isoN1.xDen)))
      = mulN blsp (mulN blsp isoN1.yDen isoN1.yDen) (addN blsp
        (mulN blsp isoN1.xNum (mulN blsp isoN1.xNum isoN1.xNum))
        (smulN blsp 4 (mulN blsp isoN1.xDen (mulN blsp isoN1.xDen isoN1.xDen)))) := by decide +kernel
  have h := congrArg (fun l => evalL (castL blsp l) x) key
  simp only [evalL_mulN, evalL_addN, evalL_smulN] at h
  have e : evalL (castL blsp [isoB1, isoA1, 0, 1]) x = x ^ 3 + (isoA1 : ℕ) * x + (isoB1 : ℕ) := by
    simp only [evalL_castL_cons, Nat.cast_zero, Nat.cast_one]
    simp only [castL, List.map_nil, evalL_nil]
    ring
  rw [e] at h
  linear_combination h

/-- the two denominators vanish together -/
theorem g1_den (x : Fq) : evalL (castL blsp isoN1.yDen) x ^ 2 = evalL (castL blsp isoN1.xDen) x ^ 3 := by
  have key : mulN blsp isoN1.yDen isoN1.yDen = mulN blsp isoN1.xDen (mulN blsp isoN1.xDen isoN1.xDen) := by
    decide +kernel
  have h := congrArg (fun l => evalL (castL blsp l) x) key
  simp only [evalL_mulN] at h
  linear_combination h

/-- map_to_curve for G1 (RFC 9380, 6.6.3 and 8.8.1): simplified SWU onto the isogenous curve, then the isogeny, whose
kernel goes to the identity -/
def IsMap1 (u : Fq) (P : E1) : Prop :=
  ∃ x y, IsSwu ((isoA1 : ℕ) : Fq) (isoB1 : ℕ) (11 : ℕ) sgn0of1 u x y ∧
    (evalL (castL blsp isoN1.xDen) x = 0 → P = 0) ∧
    (evalL (castL blsp isoN1.xDen) x ≠ 0 →
      ∃ h, P = .some (evalL (castL blsp isoN1.xNum) x / evalL (castL blsp isoN1.xDen) x)
        (evalL (castL blsp isoN1.yNum) x / evalL (castL blsp isoN1.yDen) x * y) h)

theorem IsMap1.unique {u : Fq} {P Q : E1} (hP : IsMap1 u P) (hQ : IsMap1 u Q) : P = Q := by
  obtain ⟨x, y, h, h0, h1⟩ := hP
  obtain ⟨x', y', h', h0', h1'⟩ := hQ
  obtain ⟨rfl, rfl⟩ := h.unique (fun _ hy => sgn1_neg hy) h'
  by_cases hz : evalL (castL blsp isoN1.xDen) x = 0
  · rw [h0 hz, h0' hz]
  · obtain ⟨_, rfl⟩ := h1 hz
    obtain ⟨_, rfl⟩ := h1' hz
    rfl

/-- the two maps of the code -/
def g1Map (u : Fq) : Proj Fq := g1IsogenyMap (g1Osswu u)

theorem g1IsogenyMap_eq (a : Proj Fq) : g1IsogenyMap a = ⟨evalL (castL blsp isoN1.xNum) a.x / evalL (castL blsp isoN1.xDen) a.x,
    evalL (castL blsp isoN1.yNum) a.x / evalL (castL blsp isoN1.yDen) a.x * a.y, 1⟩ := by
  rw [g1IsogenyMap, C163_g1_tables]
  dsimp only
  rw [computeIsoK_eq _ (by decide) (by decide), computeIsoK_eq _ (by decide) (by decide),
    computeIsoK_eq _ (by decide) (by decide), computeIsoK_eq _ (by decide) (by decide), inv_mul_eq_div, inv_mul_eq_div]

theorem g1_rep_of_equation {x y : Fq} (h : y ^ 2 = x ^ 3 + (4 : ℕ)) :
    ∃ P : E1, GRep (⟨x, y, 1⟩ : Proj Fq) P ∧ ∃ hn, P = .some x y hn := by
  have hb : y ^ 2 = x ^ 3 + 0 * x + curveG1B := by rw [h, curveG1B_eq]; push_cast; ring
  have hy : y ≠ 0 := by
    rintro rfl
    exact g1Ok.no x (by rw [← hb]; ring)
  exact ⟨.some x y (nonsingular_curve g1Ok.two hy hb), gRep_some.2 ⟨one_ne_zero, by simp, by simp⟩, _, rfl⟩

/-- C163: for every input whose image is not in the kernel of the isogeny the point is the one prescribed. -/
theorem C163_g1_point {u : Fq} (hu : evalL (castL blsp isoN1.xDen) (g1Osswu u).x ≠ 0) :
    ∃ P, IsMap1 u P ∧ GRep (g1Map u) P := by
  have hs := C163_g1_map u
  have hy : evalL (castL blsp isoN1.yDen) (g1Osswu u).x ≠ 0 := by
    intro h0
    have := g1_den (g1Osswu u).x
    rw [h0, zero_pow two_ne_zero] at this
    exact hu (pow_eq_zero_iff (three_ne_zero) |>.1 this.symm)
  have he := iso_equation hu hy (g1_identity _) hs.equation
  obtain ⟨P, hP, hn, rfl⟩ := g1_rep_of_equation he
  refine ⟨_, ⟨_, _, hs, fun h => absurd h hu, fun _ => ⟨hn, rfl⟩⟩, ?_⟩
  rw [g1Map, g1IsogenyMap_eq]
  exact hP

/-- C163: otherwise the code gives `(0, 0, 1)`, which is not on the curve, instead of the identity. -/
theorem C163_g1_kernel {u : Fq} (hu : evalL (castL blsp isoN1.xDen) (g1Osswu u).x = 0) :
    g1Map u = ⟨0, 0, 1⟩ ∧ (∀ P : E1, ¬ GRep (g1Map u) P) ∧ gIsOnCurve curveG1B (g1Map u) = false ∧ IsMap1 u 0 := by
  have hy : evalL (castL blsp isoN1.yDen) (g1Osswu u).x = 0 := by
    have := g1_den (g1Osswu u).x
    rw [hu, zero_pow three_ne_zero] at this
    exact pow_eq_zero_iff (two_ne_zero) |>.1 this
  have e : g1Map u = ⟨0, 0, 1⟩ := by
    rw [g1Map, g1IsogenyMap_eq, hu, hy, div_zero, div_zero, zero_mul]
  refine ⟨e, fun P hP => ?_, by rw [e]; decide +kernel, _, _, C163_g1_map u, fun _ => rfl, fun h => absurd hu h⟩
  rw [e] at hP
  exact hP.y_ne g1Ok rfl

/-- C163: and there are such inputs. -/
theorem C163_g1_kernel_reached : ∃ u : Fq, evalL (castL blsp isoN1.xDen) (g1Osswu u).x = 0 :=
  ⟨(0xa2605e5991fcf3e63728a7a1468d79bacaa5f23f3816aadcd38efdd330c6d4f5bbf450f92156e0e23e16e3252bcd042 : ℕ), by
    decide +kernel⟩

/-- an input that is none of them -/
example : evalL (castL blsp isoN1.xDen) (g1Osswu 0).x ≠ 0 := by decide +kernel

/-! ## C164: the maps of G2 -/

/-- the constants of RFC 9380, 8.8.2 for the curve isogenous to that of G2 -/
theorem sswuMapA_eq : sswuMapA = c2 0 240 := by
  rw [sswuMapA, c2, const_num (n := 0) (by decide +kernel), const_num (n := 240) (by decide +kernel)]
@[inherit_doc sswuMapA_eq] theorem sswuMapB_eq : sswuMapB = c2 1012 1012 := by
  rw [sswuMapB, c2, const_num (n := 1012) (by decide +kernel)]
@[inherit_doc sswuMapA_eq] theorem sswuMapZ_eq : sswuMapZ = -c2 2 1 := by
  rw [sswuMapZ, const_num (n := blsp - 2) (by decide +kernel), const_num (n := blsp - 1) (by decide +kernel),
    Nat.cast_sub (by decide), Nat.cast_sub (by decide), ZMod.natCast_self, zero_sub, zero_sub]
  rfl
theorem swwuMapMbDivA_eq : swwuMapMbDivA * sswuMapA = -sswuMapB := by
  rw [swwuMapMbDivA, sswuMapA_eq, sswuMapB_eq,
    const_num (n := 0x83c12791abdd5d2fe2f284f0cc6e5aa9b8c2d3f6f3f792302cf75e62bfc4df1d6834443da498888725d8cccccccb1c3) (by decide +kernel),
    const_num (n := 0x11c4ff711ec210c74cec7f673684c72cc8eb1e458445999c64615cbacab4a8324828bbbad70a777747a173333332f8e8) (by decide +kernel)]
  decide +kernel

theorem not_isSquare_of_norm {x : Fp2 Fq} {n : ℕ} (hn : norm2 x = (n : ℕ))
    (h : Pock.powMod blsp 384 n (blsp / 2) 1 = blsp - 1) : ¬ IsSquare x := by
  rintro ⟨y, rfl⟩
  rw [norm2_mul] at hn
  exact not_isSquare_of_powMod (p := blsp) (by decide +kernel) (by decide +kernel) h ⟨norm2 y, hn.symm⟩

theorem sswuMapZ_nonsquare : ¬ IsSquare sswuMapZ := by
  rw [sswuMapZ_eq]
  exact not_isSquare_of_norm (n := 5) (by decide +kernel) (by decide +kernel)

theorem isSquare_mul_of_not {a b : Fp2 Fq} (ha : ¬ IsSquare a) (hb : ¬ IsSquare b) : IsSquare (a * b) := by
  have h2 : ringChar (Fp2 Fq) ≠ 2 := by
    intro h
    have : ((ringChar (Fp2 Fq) : ℕ) : Fp2 Fq) = 0 := ringChar.Nat.cast_ringChar
    rw [h] at this
    exact Fp2.two_ne (by exact_mod_cast this)
  have ha0 : a ≠ 0 := by rintro rfl; exact ha IsSquare.zero
  have hb0 : b ≠ 0 := by rintro rfl; exact hb IsSquare.zero
  rw [← quadraticChar_one_iff_isSquare (mul_ne_zero ha0 hb0), map_mul,
    (quadraticChar_neg_one_iff_not_isSquare).2 ha, (quadraticChar_neg_one_iff_not_isSquare).2 hb]
  norm_num

theorem sgn2_neg (y : Fp2 Fq) (h : y ≠ 0) : sgn0of2 (-y) = !sgn0of2 y := (C150_signs h).2

theorem fp2Sqrt_flag (a : Fp2 Fq) : (fp2Sqrt 0 a).2 = true ↔ IsSquare a :=
  (C150_sqrt 0 a).1.trans ⟨fun ⟨y, h⟩ => ⟨y, h.symm⟩, fun ⟨y, h⟩ => ⟨y, h.symm⟩⟩

theorem fp2Sqrt_root {a : Fp2 Fq} (h : IsSquare a) : (fp2Sqrt 0 a).1 ^ 2 = a := by
  rw [sq]; exact (C150_sqrt 0 a).2.1 ((fp2Sqrt_flag a).2 h)

attribute [local irreducible] fp2Sqrt

/-- C164: on every field element but zero `sswu` is the simplified SWU map of RFC 9380 with the constants of section
8.8.2. -/
theorem C164_g2_map {u : Fp2 Fq} (hu : u ≠ 0) :
    IsSwu (c2 0 240) (c2 1012 1012) (-c2 2 1) sgn0of2 u (g2Sswu u).x (g2Sswu u).y := by
  rw [← sswuMapA_eq, ← sswuMapB_eq, ← sswuMapZ_eq]
  have hZ := sswuMapZ_nonsquare
  have hA : sswuMapA ≠ 0 := by rw [sswuMapA_eq]; decide +kernel
  have hM := eq_div_of_mul_eq hA swwuMapMbDivA_eq
  have hgen : ∀ Z A B M : Fp2 Fq, ¬ IsSquare Z → A ≠ 0 → M = -B / A → sswuMapZ = Z → sswuMapA = A → sswuMapB = B →
      swwuMapMbDivA = M → IsSwu A B Z sgn0of2 u (g2Sswu u).x (g2Sswu u).y := by
    intro Z A B M hZ hA hM eZ eA eB eM
    have ht : ¬ IsSquare (u * u * Z) := by
      rintro ⟨s, hs⟩
      exact hZ ⟨s / u, by field_simp; linear_combination hs⟩
    have ht0 : u * u * Z ≠ 0 := by intro h0; rw [h0] at ht; exact ht IsSquare.zero
    have hneg : IsSquare (-1 : Fp2 Fq) := ⟨⟨0, 1⟩, by decide +kernel⟩
    have ht1 : u * u * Z + 1 ≠ 0 := by
      intro h0
      exact ht (by rw [eq_neg_of_add_eq_zero_left h0]; exact hneg)
    generalize htt : u * u * Z = t at ht ht0 ht1
    have ht1' : 1 + t ≠ 0 := by rwa [add_comm]
    have hsum : t + t * t ≠ 0 := by
      have : t + t * t = t * (t + 1) := by ring
      rw [this]; exact mul_ne_zero ht0 ht1
    have hx0 : (t + t * t)⁻¹ + 1 ≠ 0 := by
      intro h0
      have h1 : t * t + t + 1 = 0 := by
        field_simp at h0
        linear_combination h0
      exact ht ⟨t * t, by linear_combination (t - t * t) * h1⟩
    have hinv : (Fp2.invert (t + t * t) (t + t * t)).1 = (t + t * t)⁻¹ := by rw [Fp2.invert_eq, if_neg hsum]
    have hsel : sel ((t + t * t)⁻¹ + 1) sswuMapZInv ((t + t * t)⁻¹ + 1).isZero = (t + t * t)⁻¹ + 1 := by
      rw [Fp2.isZero_eq, decide_eq_false hx0]; rfl
    generalize hx1 : ((t + t * t)⁻¹ + 1) * M = x1
    have hg : (x1 * x1 + A) * x1 + B = x1 ^ 3 + A * x1 + B := by ring
    have hg2 : (x1 ^ 3 + A * x1 + B) * (t * t * t) = (t * x1) ^ 3 + A * (t * x1) + B := by
      rw [← hx1, hM]
      field_simp
      ring
    have key : g2Sswu u =
        let x := sel (t * x1) x1 (fp2Sqrt 0 (x1 ^ 3 + A * x1 + B)).2
        let y := (fp2Sqrt 0 (sel ((t * x1) ^ 3 + A * (t * x1) + B) (x1 ^ 3 + A * x1 + B)
          (fp2Sqrt 0 (x1 ^ 3 + A * x1 + B)).2)).1
        ⟨x, sel y (-y) (xor (sgn0of2 u) (sgn0of2 y)), 1⟩ := by
      rw [g2Sswu]
      simp only [eZ, eA, eB, eM, htt, hinv, hsel, hx1, hg, hg2]
      rfl
    rw [key]
    have hspec : (Z ^ 2 * u ^ 4 + Z * u ^ 2 = 0 → x1 = B / (Z * A)) ∧
        (Z ^ 2 * u ^ 4 + Z * u ^ 2 ≠ 0 → x1 = -B / A * (1 + 1 / (Z ^ 2 * u ^ 4 + Z * u ^ 2))) := by
      have e : Z ^ 2 * u ^ 4 + Z * u ^ 2 = t + t * t := by rw [← htt]; ring
      rw [e]
      refine ⟨fun h => absurd h hsum, fun _ => ?_⟩
      rw [← hx1, hM, one_div]; ring
    have hzt : t * x1 = Z * u ^ 2 * x1 := by rw [← htt]; ring
    by_cases hq : IsSquare (x1 ^ 3 + A * x1 + B)
    · have hf := (fp2Sqrt_flag _).2 hq
      simp only [hf]
      have := fix_sign sgn2_neg (u := u) (x := x1) (A := A) (B := B) (fp2Sqrt_root hq)
      exact ⟨⟨x1, hspec.1, hspec.2, fun _ => rfl, fun h => absurd hq h⟩, this.1, this.2⟩
    · have hf : (fp2Sqrt 0 (x1 ^ 3 + A * x1 + B)).2 = false := by
        rw [Bool.eq_false_iff]; exact fun h => hq ((fp2Sqrt_flag _).1 h)
      simp only [hf]
      have hq2 : IsSquare ((t * x1) ^ 3 + A * (t * x1) + B) := by
        rw [← hg2]
        refine isSquare_mul_of_not hq ?_
        rintro ⟨s, hs⟩
        exact ht ⟨s / t, by field_simp; linear_combination hs⟩
      have := fix_sign sgn2_neg (u := u) (x := t * x1) (A := A) (B := B) (fp2Sqrt_root hq2)
      exact ⟨⟨x1, hspec.1, hspec.2, fun h => absurd h hq, fun _ => hzt⟩, this.1, this.2⟩
  exact hgen _ _ _ _ hZ hA hM rfl rfl rfl rfl

/-- C164: at zero it is not: the code tests for zero after it added one, and gives `(0, 0)`, which is not on the
isogenous curve. -/
theorem C164_g2_map_zero : g2Sswu 0 = ⟨0, 0, 1⟩ ∧
    (0 : Fp2 Fq) ^ 2 ≠ 0 ^ 3 + c2 0 240 * 0 + c2 1012 1012 ∧
    ¬ IsSwu (c2 0 240) (c2 1012 1012) (-c2 2 1) sgn0of2 0 (g2Sswu 0).x (g2Sswu 0).y := by
  have h1 : g2Sswu 0 = ⟨0, 0, 1⟩ := by decide +kernel
  have h2 : (0 : Fp2 Fq) ^ 2 ≠ 0 ^ 3 + c2 0 240 * 0 + c2 1012 1012 := by decide +kernel
  exact ⟨h1, h2, fun h => h2 (by rw [h1] at h; exact h.equation)⟩

/-- a non-zero input -/
example : (⟨0, 1⟩ : Fp2 Fq) ≠ 0 := by decide +kernel

/-- the coefficients of the isogeny of G2 (RFC 9380, appendix E.3) -/
def isoC2 : IsogenyParams (Fp2 Fq) where
  xNum := [
    c2 0x5c759507e8e333ebb5b7a9a47d7ed8532c52d39fd3a042a88b58423c50ae15d5c2638e343d9c71c6238aaaaaaaa97d6
      0x5c759507e8e333ebb5b7a9a47d7ed8532c52d39fd3a042a88b58423c50ae15d5c2638e343d9c71c6238aaaaaaaa97d6,
    c2 0x0
      0x11560bf17baa99bc32126fced787c88f984f87adf7ae0c7f9a208c6b4f20a4181472aaa9cb8d555526a9ffffffffc71a,
    c2 0x11560bf17baa99bc32126fced787c88f984f87adf7ae0c7f9a208c6b4f20a4181472aaa9cb8d555526a9ffffffffc71e
      0x8ab05f8bdd54cde190937e76bc3e447cc27c3d6fbd7063fcd104635a790520c0a395554e5c6aaaa9354ffffffffe38d,
    c2 0x171d6541fa38ccfaed6dea691f5fb614cb14b4e7f4e810aa22d6108f142b85757098e38d0f671c7188e2aaaaaaaa5ed1
      0x0]
  xDen := [
    c2 0x0
      0x1a0111ea397fe69a4b1ba7b6434bacd764774b84f38512bf6730d2a0f6b0f6241eabfffeb153ffffb9feffffffffaa63,
    c2 0xc
      0x1a0111ea397fe69a4b1ba7b6434bacd764774b84f38512bf6730d2a0f6b0f6241eabfffeb153ffffb9feffffffffaa9f,
    c2 0x1
      0x0]
  yNum := [
    c2 0x1530477c7ab4113b59a4c18b076d11930f7da5d4a07f649bf54439d87d27e500fc8c25ebf8c92f6812cfc71c71c6d706
      0x1530477c7ab4113b59a4c18b076d11930f7da5d4a07f649bf54439d87d27e500fc8c25ebf8c92f6812cfc71c71c6d706,
    c2 0x0
      0x5c759507e8e333ebb5b7a9a47d7ed8532c52d39fd3a042a88b58423c50ae15d5c2638e343d9c71c6238aaaaaaaa97be,
    c2 0x11560bf17baa99bc32126fced787c88f984f87adf7ae0c7f9a208c6b4f20a4181472aaa9cb8d555526a9ffffffffc71c
      0x8ab05f8bdd54cde190937e76bc3e447cc27c3d6fbd7063fcd104635a790520c0a395554e5c6aaaa9354ffffffffe38f,
    c2 0x124c9ad43b6cf79bfbf7043de3811ad0761b0f37a1e26286b0e977c69aa274524e79097a56dc4bd9e1b371c71c718b10
      0x0]
  yDen := [
    c2 0x1a0111ea397fe69a4b1ba7b6434bacd764774b84f38512bf6730d2a0f6b0f6241eabfffeb153ffffb9feffffffffa8fb
      0x1a0111ea397fe69a4b1ba7b6434bacd764774b84f38512bf6730d2a0f6b0f6241eabfffeb153ffffb9feffffffffa8fb,
    c2 0x0
      0x1a0111ea397fe69a4b1ba7b6434bacd764774b84f38512bf6730d2a0f6b0f6241eabfffeb153ffffb9feffffffffa9d3,
    c2 0x12
      0x1a0111ea397fe69a4b1ba7b6434bacd764774b84f38512bf6730d2a0f6b0f6241eabfffeb153ffffb9feffffffffaa99,
    c2 0x1
      0x0]

theorem const_num2 {a b : ℕ} {l k : List UInt64} (h : a * 2 ^ 384 % blsp = limbVal l % blsp)
    (h' : b * 2 ^ 384 % blsp = limbVal k % blsp) : (⟨fpDec l, fpDec k⟩ : Fp2 Fq) = c2 a b := by
  rw [const_num h, const_num h']; rfl

/-- C164: the tables hold these coefficients. -/
theorem C164_g2_tables : g2Iso = isoC2 := by
  simp only [g2Iso, isoC2, IsogenyParams.mk.injEq, List.cons.injEq, and_true]
  refine ⟨⟨?_, ?_, ?_, ?_⟩, ⟨?_, ?_, ?_⟩, ⟨?_, ?_, ?_, ?_⟩, ?_, ?_, ?_, ?_⟩ <;>
    exact const_num2 (by decide +kernel) (by decide +kernel)

/-- sums and products of polynomials -/
def addR {R : Type} [CommRing R] : List R → List R → List R
  | [], l => l
  | l, [] => l
  | a :: l, b :: k => (a + b) :: addR l k

@[inherit_doc addR] def mulR {R : Type} [CommRing R] : List R → List R → List R
  | [], _ => []
  | a :: l, k => addR (k.map (a * ·)) (0 :: mulR l k)

section
variable {R : Type} [CommRing R]

theorem evalL_addR (a b : List R) (x : R) : evalL (addR a b) x = evalL a x + evalL b x := by
  induction a generalizing b with
  | nil => rw [addR, evalL_nil, zero_add]
  | cons c l ih =>
    cases b with
    | nil => rw [addR, evalL_nil, add_zero]; simp
    | cons d k => rw [addR, evalL_cons, evalL_cons, evalL_cons, ih]; ring

theorem evalL_smulR (c : R) (l : List R) (x : R) : evalL (l.map (c * ·)) x = c * evalL l x := by
  induction l with
  | nil => simp [evalL_nil]
  | cons a l ih => rw [List.map_cons, evalL_cons, evalL_cons, ih]; ring

theorem evalL_mulR (a b : List R) (x : R) : evalL (mulR a b) x = evalL a x * evalL b x := by
  induction a with
  | nil => simp [mulR, evalL_nil]
  | cons c l ih => rw [mulR, evalL_addR, evalL_smulR, evalL_cons, evalL_cons, ih]; ring

end

theorem g2_identity (x : Fp2 Fq) :
    evalL isoC2.yNum x ^ 2 * ((x ^ 3 + c2 0 240 * x + c2 1012 1012) * evalL isoC2.xDen x ^ 3)
    = evalL isoC2.yDen x ^ 2 * (evalL isoC2.xNum x ^ 3 + c2 4 4 * evalL isoC2.xDen x ^ 3) := by
  have key : mulR (mulR isoC2.yNum isoC2.yNum) (mulR [c2 1012 1012, c2 0 240, 0, 1]
      (mulR isoC2.xDen (mulR isoC2.xDen isoC2.xDen)))
      = mulR (mulR isoC2.yDen isoC2.yDen) (addR (mulR isoC2.xNum (mulR isoC2.xNum isoC2.xNum))
        (mulR [c2 4 4] (mulR isoC2.xDen (mulR isoC2.xDen isoC2.xDen)))) := by decide +kernel
  have h := congrArg (fun l => evalL l x) key
  simp only [evalL_mulR, evalL_addR] at h
  have e : evalL [c2 1012 1012, c2 0 240, 0, 1] x = x ^ 3 + c2 0 240 * x + c2 1012 1012 := by
    simp only [evalL_cons, evalL_nil]; ring
  have e' : evalL [c2 4 4] x = c2 4 4 := by simp only [evalL_cons, evalL_nil]; ring
  rw [e, e'] at h
  linear_combination h

theorem g2_xDen (x : Fp2 Fq) : evalL isoC2.xDen x = (x - (c2 0 6 - c2 6 0)) ^ 2 := by
  have key : isoC2.xDen = mulR [c2 6 0 - c2 0 6, 1] [c2 6 0 - c2 0 6, 1] := by decide +kernel
  rw [key, evalL_mulR]
  simp only [evalL_cons, evalL_nil]
  ring

theorem g2_yDen (x : Fp2 Fq) : evalL isoC2.yDen x = (x - (c2 0 6 - c2 6 0)) ^ 3 := by
  have key : isoC2.yDen = mulR [c2 6 0 - c2 0 6, 1] (mulR [c2 6 0 - c2 0 6, 1] [c2 6 0 - c2 0 6, 1]) := by
    decide +kernel
  rw [key, evalL_mulR, evalL_mulR]
  simp only [evalL_cons, evalL_nil]
  ring

/-- no point of the isogenous curve has the abscissa of the kernel -/
theorem g2_kernel_ne {x y : Fp2 Fq} (h : y ^ 2 = x ^ 3 + c2 0 240 * x + c2 1012 1012) :
    x - (c2 0 6 - c2 6 0) ≠ 0 := by
  intro h0
  rw [sub_eq_zero.1 h0] at h
  refine not_isSquare_of_norm (x := (c2 0 6 - c2 6 0) ^ 3 + c2 0 240 * (c2 0 6 - c2 6 0) + c2 1012 1012) (n := 32)
    (by decide +kernel) (by decide +kernel) ⟨y, by rw [← h, sq]⟩

theorem g2IsogenyMap_eq (a : Proj (Fp2 Fq)) : g2IsogenyMap a = ⟨evalL isoC2.xNum a.x / evalL isoC2.xDen a.x,
    evalL isoC2.yNum a.x / evalL isoC2.yDen a.x * a.y, 1⟩ := by
  have hi : ∀ x : Fp2 Fq, (Fp2.invert 0 x).1 = x⁻¹ := fun x => rfl
  rw [g2IsogenyMap, C164_g2_tables]
  rw [hi, hi, computeIsoK_eq _ (by decide) (by decide), computeIsoK_eq _ (by decide) (by decide),
    computeIsoK_eq _ (by decide) (by decide), computeIsoK_eq _ (by decide) (by decide), inv_mul_eq_div, inv_mul_eq_div]

/-- C164: the isogeny takes every point of the isogenous curve to a point of the curve of G2, by rational functions
whose denominators do not vanish. -/
theorem C164_g2_isogeny {x y z : Fp2 Fq} (h : y ^ 2 = x ^ 3 + c2 0 240 * x + c2 1012 1012) :
    evalL isoC2.xDen x ≠ 0 ∧ evalL isoC2.yDen x ≠ 0 ∧ ∃ hn, GRep (g2IsogenyMap ⟨x, y, z⟩)
      (.some (evalL isoC2.xNum x / evalL isoC2.xDen x) (evalL isoC2.yNum x / evalL isoC2.yDen x * y) hn : E2) := by
  have hk := g2_kernel_ne h
  have h1 : evalL isoC2.xDen x ≠ 0 := by rw [g2_xDen]; exact pow_ne_zero _ hk
  have h2 : evalL isoC2.yDen x ≠ 0 := by rw [g2_yDen]; exact pow_ne_zero _ hk
  have he := iso_equation h1 h2 (g2_identity x) h
  refine ⟨h1, h2, ?_⟩
  rw [g2IsogenyMap_eq]
  generalize evalL isoC2.xNum x / evalL isoC2.xDen x = X at he ⊢
  generalize evalL isoC2.yNum x / evalL isoC2.yDen x * y = Y at he ⊢
  have hb : Y ^ 2 = X ^ 3 + 0 * X + curveG2B := by
    rw [he, curveG2B_eq, zero_mul, add_zero]; rfl
  have hy : Y ≠ 0 := by
    rintro rfl
    exact g2Ok.no X (by rw [← hb]; ring)
  exact ⟨nonsingular_curve g2Ok.two hy hb, gRep_some.2 ⟨one_ne_zero, by simp, by simp⟩⟩

/-- map_to_curve for G2 (RFC 9380, 6.6.3 and 8.8.2) -/
def IsMap2 (u : Fp2 Fq) (P : E2) : Prop :=
  ∃ x y, IsSwu (c2 0 240) (c2 1012 1012) (-c2 2 1) sgn0of2 u x y ∧
    ∃ h, P = .some (evalL isoC2.xNum x / evalL isoC2.xDen x) (evalL isoC2.yNum x / evalL isoC2.yDen x * y) h

theorem IsMap2.unique {u : Fp2 Fq} {P Q : E2} (hP : IsMap2 u P) (hQ : IsMap2 u Q) : P = Q := by
  obtain ⟨x, y, h, _, rfl⟩ := hP
  obtain ⟨x', y', h', _, rfl⟩ := hQ
  obtain ⟨rfl, rfl⟩ := h.unique sgn2_neg h'
  rfl

/-- C164: for every input but zero the point is the one prescribed. -/
theorem C164_g2_point {u : Fp2 Fq} (hu : u ≠ 0) : ∃ P, IsMap2 u P ∧ GRep (g2IsogenyMap (g2Sswu u)) P := by
  have hs := C164_g2_map hu
  obtain ⟨_, _, hn, hr⟩ := C164_g2_isogeny (z := (g2Sswu u).z) hs.equation
  exact ⟨_, ⟨_, _, hs, hn, rfl⟩, hr⟩

/-- C164: for zero it is not on the curve. -/
theorem C164_g2_point_zero : gIsOnCurve curveG2B (g2IsogenyMap (g2Sswu 0)) = false ∧
    ∀ P : E2, ¬ GRep (g2IsogenyMap (g2Sswu 0)) P := by
  have h0 : g2IsogenyMap (g2Sswu 0) = ⟨c2 0x66bb89253ba71d3ec9e8839a528cf05c6a232406eb23d8497e6210b4cb6c1842d7fcd6e4b63c0ca343ef684bda11a56
      0x13955957e5c574c65e7d1f7c9e22ddd19dd5194484d2d53acf4ab195a9fa349ff12c329065f03f3585c0097b425e9055, 0, 1⟩ := by
    rw [C164_g2_map_zero.1]
    decide +kernel
  have h1 : gIsOnCurve curveG2B (g2IsogenyMap (g2Sswu 0)) = false := by rw [h0]; decide +kernel
  exact ⟨h1, fun P hP => hP.y_ne g2Ok (by rw [h0])⟩

/-! ## `Hash` -/

/-- 64 bytes are read as a big-endian number, reduced modulo `p`. -/
theorem elem64_eq {u : List UInt8} (hu : u.length = 64) : elem64 u = (beNat u : ℕ) := by
  rw [elem64, (C145_wide (by simp [hu])).2, leNat_append_zeros, ← beNat_eq_leNat_reverse]

/-- C163: for all messages and tags whose two field elements are not exceptional `Hash` on G1 is hash_to_curve of RFC
9380, with the effective cofactor `1 - x`, and a point of the subgroup. -/
theorem C163_g1_hash {h : Hasher} (hh : h.Ok) (msg dst : List UInt8) {u0 u1 : Fq}
    (h0 : u0 = (beNat ((h.expand msg dst 128).take 64) : ℕ)) (h1 : u1 = (beNat ((h.expand msg dst 128).drop 64) : ℕ))
    (k0 : evalL (castL blsp isoN1.xDen) (g1Osswu u0).x ≠ 0) (k1 : evalL (castL blsp isoN1.xDen) (g1Osswu u1).x ≠ 0) :
    ∃ P Q : E1, IsMap1 u0 P ∧ IsMap1 u1 Q ∧ GRep (g1Hash h msg dst) (0xd201000000010001 • (P + Q)) ∧
      gInSubgroup mulBy3b1 (g1Hash h msg dst) = true := by
  have hl := hh.expand_length msg dst (len := 128) (by omega)
  obtain ⟨P, hP, rP⟩ := C163_g1_point k0
  obtain ⟨Q, hQ, rQ⟩ := C163_g1_point k1
  have e : g1Hash h msg dst = g1ClearCofactor (gAdd mulBy3b1 (g1Map u0) (g1Map u1)) := by
    rw [g1Hash, elem64_eq (by simp [hl]), elem64_eq (by simp [hl]), ← h0, ← h1]; rfl
  have ha := C155_g1_add rP rQ
  refine ⟨P, Q, hP, hQ, ?_, ?_⟩ <;> rw [e]
  · exact C156_g1_clearCofactor ha
  · exact C159_g1_clearCofactor ha

/-- C164: for all messages and tags whose two field elements are not zero `Hash` on G2 is hash_to_curve of RFC 9380,
with its effective cofactor, and a point of the subgroup. -/
theorem C164_g2_hash {h : Hasher} (hh : h.Ok) (msg dst : List UInt8) {u0 u1 : Fp2 Fq}
    (h0 : u0 = c2 (beNat ((h.expand msg dst 256).take 64)) (beNat (((h.expand msg dst 256).drop 64).take 64)))
    (h1 : u1 = c2 (beNat (((h.expand msg dst 256).drop 128).take 64)) (beNat ((h.expand msg dst 256).drop 192)))
    (k0 : u0 ≠ 0) (k1 : u1 ≠ 0) :
    ∃ P Q : E2, IsMap2 u0 P ∧ IsMap2 u1 Q ∧ GRep (g2Hash h msg dst) (heff • (P + Q)) ∧
      gInSubgroup mulBy3b2 (g2Hash h msg dst) = true := by
  have hl := hh.expand_length msg dst (len := 256) (by omega)
  obtain ⟨P, hP, rP⟩ := C164_g2_point k0
  obtain ⟨Q, hQ, rQ⟩ := C164_g2_point k1
  have e : g2Hash h msg dst
      = g2ClearCofactor (gAdd mulBy3b2 (g2IsogenyMap (g2Sswu u0)) (g2IsogenyMap (g2Sswu u1))) := by
    rw [g2Hash, elem64_eq (by simp [hl]), elem64_eq (by simp [hl]), elem64_eq (by simp [hl]), elem64_eq (by simp [hl]),
      h0, h1]
    rfl
  have ha := C155_g2_add rP rQ
  refine ⟨P, Q, hP, hQ, ?_, ?_⟩ <;> rw [e]
  · exact C159_g2_clearCofactor ha
  · exact C159_g2_clearCofactor_subgroup ha

/-- a hasher and a message satisfying the hypotheses for both groups -/
example : let h := Hasher.xmd (fun x => List.replicate 32 (x.foldl (· + ·) 5)) 32 64
    h.Ok ∧ evalL (castL blsp isoN1.xDen) (g1Osswu (beNat ((h.expand [1, 2] [3] 128).take 64) : ℕ)).x ≠ 0 ∧
    evalL (castL blsp isoN1.xDen) (g1Osswu (beNat ((h.expand [1, 2] [3] 128).drop 64) : ℕ)).x ≠ 0 ∧
    c2 (beNat ((h.expand [1, 2] [3] 256).take 64)) (beNat (((h.expand [1, 2] [3] 256).drop 64).take 64)) ≠ 0 ∧
    c2 (beNat (((h.expand [1, 2] [3] 256).drop 128).take 64)) (beNat ((h.expand [1, 2] [3] 256).drop 192)) ≠ 0 :=
  ⟨⟨by decide, by simp⟩, by decide +kernel, by decide +kernel, by decide +kernel, by decide +kernel⟩

/-- C163, C164: `Random` fails unless one read delivers 64 bytes, and then hashes them with the tags of the two
groups. -/
theorem C164_random (sha256 : Hasher) (read : Option (List UInt8)) :
    (∀ p, g1Random sha256 read = .ok p ↔ ∃ seed, read = some seed ∧ seed.length = 64 ∧
      p = g1Hash sha256 seed "BLS12381G1_XMD:SHA-256_SSWU_RO_".toUTF8.toList) ∧
    (∀ p, g2Random sha256 read = .ok p ↔ ∃ seed, read = some seed ∧ seed.length = 64 ∧
      p = g2Hash sha256 seed "BLS12381G2_XMD:SHA-256_SSWU_RO_".toUTF8.toList) := by
  constructor <;> intro p
  · unfold g1Random
    simp only [Go.bind_eq_ok, Go.ofOption_eq_ok, Go.guard_eq_ok, Except.ok.injEq]
    constructor
    · rintro ⟨s, rfl, _, hl, rfl⟩; exact ⟨s, rfl, hl, rfl⟩
    · rintro ⟨s, rfl, hl, rfl⟩; exact ⟨s, rfl, (), hl, rfl⟩
  · unfold g2Random
    simp only [Go.bind_eq_ok, Go.ofOption_eq_ok, Go.guard_eq_ok, Except.ok.injEq]
    constructor
    · rintro ⟨s, rfl, _, hl, rfl⟩; exact ⟨s, rfl, hl, rfl⟩
    · rintro ⟨s, rfl, hl, rfl⟩; exact ⟨s, rfl, (), hl, rfl⟩

end Verif.Bls381

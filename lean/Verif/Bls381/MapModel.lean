import Verif.Native.MapModel
import Verif.Bls381.GModel

/-!
# Hashing to BLS12-381 (`Hash` and `Random` of `g1.go` and `g2.go`)

A message is expanded by the functions of `native/hash2field.go`, modelled in `Verif.Native.MapModel`.
-/

namespace Verif.Bls381

open Verif.Primes Verif.Native

/-- `osswuMapA` (`g1.go:39-46`) -/
def osswuMapA : Fq := fpDec [0x2f65aa0e9af5aa51, 0x86464c2d1e8416c3, 0xb85ce591b7bd31e2, 0x27e11c91b5f24e7c,
    0x28376eda6bfc1835, 0x155455c3e5071d85]

/-- `osswuMapB` (`g1.go:47-54`) -/
def osswuMapB : Fq := fpDec [0xfb996971fe22a1e0, 0x9aa93eb35b742d6f, 0x8c476013de99c5c4, 0x873e27c3a221e571,
    0xca72b5e45a52d888, 0x06824061418a386b]

/-- `osswuMapC2` (`g1.go:63-70`) -/
def osswuMapC2 : Fq := fpDec [0x43b571cad3215f1f, 0xccb460ef1c702dc2, 0x742d884f4f97100b, 0xdb2c3e3238a3382b,
    0xe40f3fa13fce8f88, 0x0073a2af9892a2ff]

/-- `oswwuMapZ` (`g1.go:71-78`) -/
def oswwuMapZ : Fq := fpDec [0x886c00000023ffdc, 0x0f70008d3090001d, 0x77672417ed5828c3, 0x9dac23e943dc1740,
    0x50553f1b9c131521, 0x078c712fbe0ab6e8]

/-- `osswuMapC1` (`g1.go:55-62`), an exponent -/
def osswuMapC1 : List UInt64 := [0xee7fbfffffffeaaa, 0x07aaffffac54ffff, 0xd9cc34a83dac3d89, 0xd91dd2e13ce144af,
    0x92c6e9ed90d2eb35, 0x0680447a8e5ff9a6]

/-- `oswwuMapXd1`, `negOsswuMapA` (`g1.go:79-80`) -/
def oswwuMapXd1 : Fq := oswwuMapZ * osswuMapA
@[inherit_doc oswwuMapXd1] def negOsswuMapA : Fq := -osswuMapA

/-- `g1IsoXNum`, `g1IsoXDen`, `g1IsoYNum`, `g1IsoYDen` (`g1.go:82-529`) -/
def g1Iso : IsogenyParams Fq where
  xNum := [
    fpDec [0x4d18b6f3af00131c, 0x19fa219793fee28c, 0x3f2885f1467f19ae, 0x23dcea34f2ffb304,
      0xd15b58d2ffc00054, 0x0913be200a20bef4],
    fpDec [0x898985385cdbbd8b, 0x3c79e43cc7d966aa, 0x1597e193f4cd233a, 0x8637ef1e4d6623ad,
      0x11b22deed20d827b, 0x07097bc5998784ad],
    fpDec [0xa542583a480b664b, 0xfc7169c026e568c6, 0x5ba2ef314ed8b5a6, 0x5b5491c05102f0e7,
      0xdf6e99707d2a0079, 0x0784151ed7605524],
    fpDec [0x494e212870f72741, 0xab9be52fbda43021, 0x26f5577994e34c3d, 0x049dfee82aefbd60,
      0x65dadd7828505289, 0x0e93d431ea011aeb],
    fpDec [0x90ee774bd6a74d45, 0x7ada1c8a41bfb185, 0x0f1a8953b325f464, 0x104c24211be4805c,
      0x169139d319ea7a8f, 0x09f20ead8e532bf6],
    fpDec [0x6ddd93e2f43626b7, 0xa5482c9aa1ccd7bd, 0x143245631883f4bd, 0x2e0a94ccf77ec0db,
      0xb0282d480e56489f, 0x18f4bfcbb4368929],
    fpDec [0x23c5f0c953402dfd, 0x7a43ff6958ce4fe9, 0x2c390d3d2da5df63, 0xd0df5c98e1f9d70f,
      0xffd89869a572b297, 0x1277ffc72f25e8fe],
    fpDec [0x79f4f0490f06a8a6, 0x85f894a88030fd81, 0x12da3054b18b6410, 0xe2a57f6505880d65,
      0xbba074f260e400f1, 0x08b76279f621d028],
    fpDec [0xe67245ba78d5b00b, 0x8456ba9a1f186475, 0x7888bff6e6b33bb4, 0xe21585b9a30f86cb,
      0x05a69cdcef55feee, 0x09e699dd9adfa5ac],
    fpDec [0x0de5c357bff57107, 0x0a0db4ae6b1a10b2, 0xe256bb67b3b3cd8d, 0x8ad456574e9db24f,
      0x0443915f50fd4179, 0x098c4bf7de8b6375],
    fpDec [0xe6b0617e7dd929c7, 0xfe6e37d442537375, 0x1dafdeda137a489e, 0xe4efd1ad3f767ceb,
      0x4a51d8667f0fe1cf, 0x054fdf4bbf1d821c],
    fpDec [0x72db2a50658d767b, 0x8abf91faa257b3d5, 0xe969d6833764ab47, 0x464170142a1009eb,
      0xb14f01aadb30be2f, 0x18ae6a856f40715d]]
  xDen := [
    fpDec [0xb962a077fdb0f945, 0xa6a9740fefda13a0, 0xc14d568c3ed6c544, 0xb43fc37b908b133e,
      0x9c0b3ac929599016, 0x0165aa6c93ad115f],
    fpDec [0x23279a3ba506c1d9, 0x92cfca0a9465176a, 0x3b294ab13755f0ff, 0x116dda1c5070ae93,
      0xed4530924cec2045, 0x083383d6ed81f1ce],
    fpDec [0x9885c2a6449fecfc, 0x4a2b54ccd37733f0, 0x17da9ffd8738c142, 0xa0fba72732b3fafd,
      0xff364f36e54b6812, 0x0f29c13c660523e2],
    fpDec [0xe349cc118278f041, 0xd487228f2f3204fb, 0xc9d325849ade5150, 0x43a92bd69c15c2df,
      0x1c2c7844bc417be4, 0x12025184f407440c],
    fpDec [0x587f65ae6acb057b, 0x1444ef325140201f, 0xfbf995e71270da49, 0xccda066072436a42,
      0x7408904f0f186bb2, 0x13b93c63edf6c015],
    fpDec [0xfb918622cd141920, 0x4a4c64423ecaddb4, 0x0beb232927f7fb26, 0x30f94df6f83a3dc2,
      0xaeedd424d780f388, 0x06cc402dd594bbeb],
    fpDec [0xd41f761151b23f8f, 0x32a92465435719b3, 0x64f436e888c62cb9, 0xdf70a9a1f757c6e4,
      0x6933a38d5b594c81, 0x0c6f7f7237b46606],
    fpDec [0x693c08747876c8f7, 0x22c9850bf9cf80f0, 0x8e9071dab950c124, 0x89bc62d61c7baf23,
      0xbc6be2d8dad57c23, 0x17916987aa14a122],
    fpDec [0x1be3ff439c1316fd, 0x9965243a7571dfa7, 0xc7f7f62962f5cd81, 0x32c6aa9af394361c,
      0xbbc2ee18e1c227f4, 0x0c102cbac531bb34],
    fpDec [0x997614c97bacbf07, 0x61f86372b99192c0, 0x5b8c95fc14353fc3, 0xca2b066c2a87492f,
      0x16178f5bbf698711, 0x12a6dcd7f0f4e0e8],
    fpDec [0x760900000002fffd, 0xebf4000bc40c0002, 0x5f48985753c758ba, 0x77ce585370525745,
      0x5c071a97a256ec6d, 0x15f65ec3fa80e493]]
  yNum := [
    fpDec [0x2b567ff3e2837267, 0x1d4d9e57b958a767, 0xce028fea04bd7373, 0xcc31a30a0b6cd3df,
      0x7d7b18a682692693, 0x0d300744d42a0310],
    fpDec [0x99c2555fa542493f, 0xfe7f53cc4874f878, 0x5df0608b8f97608a, 0x14e03832052b49c8,
      0x706326a6957dd5a4, 0x0a8dadd9c2414555],
    fpDec [0x13d942922a5cf63a, 0x357e33e36e261e7d, 0xcf05a27c8456088d, 0x0000bd1de7ba50f0,
      0x83d0c7532f8c1fde, 0x13f70bf38bbf2905],
    fpDec [0x5c57fd95bfafbdbb, 0x28a359a65e541707, 0x3983ceb4f6360b6d, 0xafe19ff6f97e6d53,
      0xb3468f4550192bf7, 0x0bb6cde49d8ba257],
    fpDec [0x590b62c7ff8a513f, 0x314b4ce372cacefd, 0x6bef32ce94b8a800, 0x6ddf84a095713d5f,
      0x64eace4cb0982191, 0x0386213c651b888d],
    fpDec [0xa5310a31111bbcdd, 0xa14ac0f5da148982, 0xf9ad9cc95423d2e9, 0xaa6ec095283ee4a7,
      0xcf5b1f022e1c9107, 0x01fddf5aed881793],
    fpDec [0x65a572b0d7a7d950, 0xe25c2d8183473a19, 0xc2fcebe7cb877dbd, 0x05b2d36c769a89b0,
      0xba12961be86e9efb, 0x07eb1b29c1dfde1f],
    fpDec [0x93e09572f7c4cd24, 0x364e929076795091, 0x8569467e68af51b5, 0xa47da89439f5340f,
      0xf4fa918082e44d64, 0x0ad52ba3e6695a79],
    fpDec [0x911429844e0d5f54, 0xd03f51a3516bb233, 0x3d587e5640536e66, 0xfa86d2a3a9a73482,
      0xa90ed5adf1ed5537, 0x149c9c326a5e7393],
    fpDec [0x462bbeb03c12921a, 0xdc9af5fa0a274a17, 0x9a558ebde836ebed, 0x649ef8f11a4fae46,
      0x8100e1652b3cdc62, 0x1862bd62c291dacb],
    fpDec [0x05c9b8ca89f12c26, 0x0194160fa9b9ac4f, 0x6a643d5a6879fa2c, 0x14665bdd8846e19d,
      0xbb1d0d53af3ff6bf, 0x12c7e1c3b28962e5],
    fpDec [0xb55ebf900b8a3e17, 0xfedc77ec1a9201c4, 0x1f07db10ea1a4df4, 0x0dfbd15dc41a594d,
      0x389547f2334a5391, 0x02419f98165871a4],
    fpDec [0xb416af000745fc20, 0x8e563e9d1ea6d0f5, 0x7c763e17763a0652, 0x01458ef0159ebbef,
      0x8346fe421f96bb13, 0x0d2d7b829ce324d2],
    fpDec [0x93096bb538d64615, 0x6f2a2619951d823a, 0x8f66b3ea59514fa4, 0xf563e63704f7092f,
      0x724b136c4cf2d9fa, 0x046959cfcfd0bf49],
    fpDec [0xea748d4b6e405346, 0x91e9079c2c02d58f, 0x41064965946d9b59, 0xa06731f1d2bbe1ee,
      0x07f897e267a33f1b, 0x1017290919210e5f],
    fpDec [0x872aa6c17d985097, 0xeecc53161264562a, 0x07afe37afff55002, 0x54759078e5be6838,
      0xc4b92d15db8acca8, 0x106d87d1b51d13b9]]
  yDen := [
    fpDec [0xeb6c359d47e52b1c, 0x18ef5f8a10634d60, 0xddfa71a0889d5b7e, 0x723e71dcc5fc1323,
      0x52f45700b70d5c69, 0x0a8b981ee47691f1],
    fpDec [0x616a3c4f5535b9fb, 0x6f5f037395dbd911, 0xf25f4cc5e35c65da, 0x3e50dffea3c62658,
      0x6a33dca523560776, 0x0fadeff77b6bfe3e],
    fpDec [0x2be9b66df470059c, 0x24a2c159a3d36742, 0x115dbe7ad10c2a37, 0xb6634a652ee5884d,
      0x04fe8bb2b8d81af4, 0x01c2a7a256fe9c41],
    fpDec [0xf27bf8ef3b75a386, 0x898b367476c9073f, 0x24482e6b8c2f4e5f, 0xc8e0bbd6fe110806,
      0x59b0c17f7631448a, 0x11037cd58b3dbfbd],
    fpDec [0x31c7912ea267eec6, 0x1dbf6f1c5fcdb700, 0xd30d4fe3ba86fdb1, 0x3cae528fbee9a2a4,
      0xb1cce69b6aa9ad9a, 0x044393bb632d94fb],
    fpDec [0xc66ef6efeeb5c7e8, 0x9824c289dd72bb55, 0x71b1a4d2f119981d, 0x104fc1aafb0919cc,
      0x0e49df01d942a628, 0x096c3a09773272d4],
    fpDec [0x9abc11eb5fadeff4, 0x32dca50a885728f0, 0xfb1fa3721569734c, 0xc4b76271ea6506b3,
      0xd466a75599ce728e, 0x0c81d4645f4cb6ed],
    fpDec [0x4199f10e5b8be45b, 0xda64e495b1e87930, 0xcb353efe9b33e4ff, 0x9e9efb24aa6424c6,
      0xf08d33680a237465, 0x0d3378023e4c7406],
    fpDec [0x7eb4ae92ec74d3a5, 0xc341b4aa9fac3497, 0x5be603899e907687, 0x03bfd9cca75cbdeb,
      0x564c2935a96bfa93, 0x0ef3c33371e2fdb5],
    fpDec [0x7ee91fd449f6ac2e, 0xe5d5bd5cb9357a30, 0x773a8ca5196b1380, 0xd0fda172174ed023,
      0x6cb95e0fa776aead, 0x0d22d5a40cec7cff],
    fpDec [0xf727e09285fd8519, 0xdc9d55a83017897b, 0x7549d8bd057894ae, 0x178419613d90d8f8,
      0xfce95ebdeb5b490a, 0x0467ffaef23fc49e],
    fpDec [0xc1769e6a7c385f1b, 0x79bc930deac01c03, 0x5461c75a23ede3b5, 0x6e20829e5c230c45,
      0x828e0f1e772a53cd, 0x116aefa749127bff],
    fpDec [0x101c10bf2744c10a, 0xbbf18d053a6a3154, 0xa0ecf39ef026f602, 0xfc009d4996dc5153,
      0xb9000209d5bd08d3, 0x189e5fe4470cd73c],
    fpDec [0x7ebd546ca1575ed2, 0xe47d5a981d081b55, 0x57b2b625b6d4ca21, 0xb0a1ba04228520cc,
      0x98738983c2107ff3, 0x13dddbc4799d81d6],
    fpDec [0x09319f2e39834935, 0x039e952cbdb05c21, 0x55ba77a9a2f76493, 0xfd04e3dfc6086467,
      0xfb95832e7d78742e, 0x0ef9c24eccaf5e0e],
    fpDec [0x760900000002fffd, 0xebf4000bc40c0002, 0x5f48985753c758ba, 0x77ce585370525745,
      0x5c071a97a256ec6d, 0x15f65ec3fa80e493]]

/-- `osswu3mod4` (`g1.go:1033-1091`); `fp.Invert` of a non-zero element is the inverse, of zero zero (C144) -/
def g1Osswu (u : Fq) : Proj Fq :=
  let tv1 := u * u
  let tv3 := oswwuMapZ * tv1
  let tv2 := tv3 * tv3
  let xd := tv2 + tv3
  let x1n := xd + 1
  let x1n := x1n * osswuMapB
  let xd := negOsswuMapA * xd
  let xd := sel xd oswwuMapXd1 (decide (xd = 0))
  let tv2 := xd * xd
  let gxd := tv2 * xd
  let tv2 := tv2 * osswuMapA
  let gx1 := x1n * x1n
  let gx1 := gx1 + tv2
  let gx1 := gx1 * x1n
  let tv2 := osswuMapB * gxd
  let gx1 := gx1 + tv2
  let tv4 := gxd * gxd
  let tv2 := gx1 * gxd
  let tv4 := tv4 * tv2
  let y1 := pow1 tv4 osswuMapC1
  let y1 := y1 * tv2
  let x2n := tv3 * x1n
  let y2 := y1 * osswuMapC2
  let y2 := y2 * tv1
  let y2 := y2 * u
  let tv2 := y1 * y1
  let tv2 := tv2 * gxd
  let e2 := decide (tv2 = gx1)
  let x2n := sel x2n x1n e2
  let y2 := sel y2 y1 e2
  let e3 := xor (sgn0of1 u) (sgn0of1 y2)
  let y2 := sel y2 (-y2) e3
  let x := xd⁻¹
  let x := x * x2n
  ⟨x, y2, 1⟩

/-- `isogenyMap` with `computeKFp` (`g1.go:1093-1124`) -/
def g1IsogenyMap (a : Proj Fq) : Proj Fq :=
  let xs := isoXs a.x 16
  let xNum := computeIsoK xs g1Iso.xNum
  let xDen := computeIsoK xs g1Iso.xDen
  let yNum := computeIsoK xs g1Iso.yNum
  let yDen := computeIsoK xs g1Iso.yDen
  let x := xDen⁻¹
  let x := x * xNum
  let y := yDen⁻¹
  let y := y * yNum
  let y := y * a.y
  ⟨x, y, 1⟩

/-- 64 expanded bytes as a field element: reversed into the lower part of a buffer of 96 bytes whose upper part is
zero (`g1.go:566-570`, `g2.go:528-536`) -/
def elem64 (u : List UInt8) : Fq := fpDec (fpSetBytesWide (u.reverse ++ List.replicate 32 0))

/-- `G1.Hash` (`g1.go:553-579`) -/
def g1Hash (h : Hasher) (msg dst : List UInt8) : Proj Fq :=
  let u := h.expand msg dst 128
  let u0 := elem64 (u.take 64)
  let u1 := elem64 (u.drop 64)
  let r0 := g1Osswu u0
  let r1 := g1Osswu u1
  let q0 := g1IsogenyMap r0
  let q1 := g1IsogenyMap r1
  g1ClearCofactor (gAdd mulBy3b1 q0 q1)

/-- `G1.Random` (`g1.go:537-551`): what one `Read` of the reader delivers, or `none` if it fails -/
def g1Random (sha256 : Hasher) (read : Option (List UInt8)) : Go (Proj Fq) := do
  let seed ← Go.ofOption read
  Go.guard (seed.length = 64)
  .ok (g1Hash sha256 seed "BLS12381G1_XMD:SHA-256_SSWU_RO_".toUTF8.toList)

/-- `sswuMapA` (`g2.go:87-97`) -/
def sswuMapA : Fp2 Fq := ⟨fpDec [0x0000000000000000, 0x0000000000000000, 0x0000000000000000, 0x0000000000000000,
      0x0000000000000000, 0x0000000000000000],
    fpDec [0xe53a000003135242, 0x01080c0fdef80285, 0xe7889edbe340f6bd, 0x0b51375126310601,
      0x02d6985717c744ab, 0x1220b4e979ea5467]⟩

/-- `sswuMapB` (`g2.go:98-115`) -/
def sswuMapB : Fp2 Fq := ⟨fpDec [0x22ea00000cf89db2, 0x6ec832df71380aa4, 0x6e1b94403db5a66e, 0x75bf3c53a79473ba,
      0x3dd3a569412c0a34, 0x125cdb5e74dc4fd1],
    fpDec [0x22ea00000cf89db2, 0x6ec832df71380aa4, 0x6e1b94403db5a66e, 0x75bf3c53a79473ba,
      0x3dd3a569412c0a34, 0x125cdb5e74dc4fd1]⟩

/-- `sswuMapZ` (`g2.go:116-133`) -/
def sswuMapZ : Fp2 Fq := ⟨fpDec [0x87ebfffffff9555c, 0x656fffe5da8ffffa, 0x0fd0749345d33ad2, 0xd951e663066576f4,
      0xde291a3d41e980d3, 0x0815664c7dfe040d],
    fpDec [0x43f5fffffffcaaae, 0x32b7fff2ed47fffd, 0x07e83a49a2e99d69, 0xeca8f3318332bb7a,
      0xef148d1ea0f4c069, 0x040ab3263eff0206]⟩

/-- `sswuMapZInv` (`g2.go:134-151`) -/
def sswuMapZInv : Fp2 Fq := ⟨fpDec [0xacd0000000011110, 0x9dd9999dc88ccccd, 0xb5ca2ac9b76352bf, 0xf1b574bcf4bc90ce,
      0x42dab41f28a77081, 0x132fc6ac14cd1e12],
    fpDec [0xe396ffffffff2223, 0x4fbf332fcd0d9998, 0x0c4bbd3c1aff4cc4, 0x6b9c91267926ca58,
      0x29ae4da6aef7f496, 0x10692e942f195791]⟩

/-- `swwuMapMbDivA` (`g2.go:152-169`) -/
def swwuMapMbDivA : Fp2 Fq := ⟨fpDec [0x903c555555474fb3, 0x5f98cc95ce451105, 0x9f8e582eefe0fade, 0xc68946b6aebbd062,
      0x467a4ad10ee6de53, 0x0e7146f483e23a05],
    fpDec [0x29c2aaaaaab85af8, 0xbf133368e30eeefa, 0xc7a27a7206cffb45, 0x9dee04ce44c9425c,
      0x04a15ce53464ce83, 0x0b8fcaf5b59dac95]⟩

/-- `g2IsoXNum`, `g2IsoXDen`, `g2IsoYNum`, `g2IsoYDen` (`g2.go:171-448`) -/
def g2Iso : IsogenyParams (Fp2 Fq) where
  xNum := [
    ⟨fpDec [0x47f671c71ce05e62, 0x06dd57071206393e, 0x7c80cd2af3fd71a2, 0x048103ea9e6cd062,
      0xc54516acc8d037f6, 0x13808f550920ea41],
      fpDec [0x47f671c71ce05e62, 0x06dd57071206393e, 0x7c80cd2af3fd71a2, 0x048103ea9e6cd062,
        0xc54516acc8d037f6, 0x13808f550920ea41]⟩,
    ⟨fpDec [0x0000000000000000, 0x0000000000000000, 0x0000000000000000, 0x0000000000000000,
      0x0000000000000000, 0x0000000000000000],
      fpDec [0x5fe55555554c71d0, 0x873fffdd236aaaa3, 0x6a6b4619b26ef918, 0x21c2888408874945,
        0x2836cda7028cabc5, 0x0ac73310a7fd5abd]⟩,
    ⟨fpDec [0x0a0c5555555971c3, 0xdb0c00101f9eaaae, 0xb1fb2f941d797997, 0xd3960742ef416e1c,
      0xb70040e2c20556f4, 0x149d7861e581393b],
      fpDec [0xaff2aaaaaaa638e8, 0x439fffee91b55551, 0xb535a30cd9377c8c, 0x90e144420443a4a2,
        0x941b66d3814655e2, 0x0563998853fead5e]⟩,
    ⟨fpDec [0x40aac71c71c725ed, 0x190955557a84e38e, 0xd817050a8f41abc3, 0xd86485d4c87f6fb1,
      0x696eb479f885d059, 0x198e1a74328002d2],
      fpDec [0x0000000000000000, 0x0000000000000000, 0x0000000000000000, 0x0000000000000000,
        0x0000000000000000, 0x0000000000000000]⟩]
  xDen := [
    ⟨fpDec [0x0000000000000000, 0x0000000000000000, 0x0000000000000000, 0x0000000000000000,
      0x0000000000000000, 0x0000000000000000],
      fpDec [0x1f3affffff13ab97, 0xf25bfc611da3ff3e, 0xca3757cb3819b208, 0x3e6427366f8cec18,
        0x03977bc86095b089, 0x04f69db13f39a952]⟩,
    ⟨fpDec [0x447600000027552e, 0xdcb8009a43480020, 0x6f7ee9ce4a6e8b59, 0xb10330b7c0a95bc6,
      0x6140b1fcfb1e54b7, 0x0381be097f0bb4e1],
      fpDec [0x7588ffffffd8557d, 0x41f3ff646e0bffdf, 0xf7b1e8d2ac426aca, 0xb3741acd32dbb6f8,
        0xe9daf5b9482d581f, 0x167f53e0ba7431b8]⟩,
    ⟨fpDec [0x760900000002fffd, 0xebf4000bc40c0002, 0x5f48985753c758ba, 0x77ce585370525745,
      0x5c071a97a256ec6d, 0x15f65ec3fa80e493],
      fpDec [0x0000000000000000, 0x0000000000000000, 0x0000000000000000, 0x0000000000000000,
        0x0000000000000000, 0x0000000000000000]⟩]
  yNum := [
    ⟨fpDec [0x96d8f684bdfc77be, 0xb530e4f43b66d0e2, 0x184a88ff379652fd, 0x57cb23ecfae804e1,
      0x0fd2e39eada3eba9, 0x08c8055e31c5d5c3],
      fpDec [0x96d8f684bdfc77be, 0xb530e4f43b66d0e2, 0x184a88ff379652fd, 0x57cb23ecfae804e1,
        0x0fd2e39eada3eba9, 0x08c8055e31c5d5c3]⟩,
    ⟨fpDec [0x0000000000000000, 0x0000000000000000, 0x0000000000000000, 0x0000000000000000,
      0x0000000000000000, 0x0000000000000000],
      fpDec [0xbf0a71c71c91b406, 0x4d6d55d28b7638fd, 0x9d82f98e5f205aee, 0xa27aa27b1d1a18d5,
        0x02c3b2b2d2938e86, 0x0c7d13420b09807f]⟩,
    ⟨fpDec [0xd7f9555555531c74, 0x21cffff748daaaa8, 0x5a9ad1866c9bbe46, 0x4870a2210221d251,
      0x4a0db369c0a32af1, 0x02b1ccc429ff56af],
      fpDec [0xe205aaaaaaac8e37, 0xfcdc000768795556, 0x0c96011a8a1537dd, 0x1c06a963f163406e,
        0x010df44c82a881e6, 0x174f45260f808feb]⟩,
    ⟨fpDec [0xa470bda12f67f35c, 0xc0fe38e23327b425, 0xc9d3d0f2c6f0678d, 0x1c55c9935b5a982e,
      0x27f6c0e2f0746764, 0x117c5e6e28aa9054],
      fpDec [0x0000000000000000, 0x0000000000000000, 0x0000000000000000, 0x0000000000000000,
        0x0000000000000000, 0x0000000000000000]⟩]
  yDen := [
    ⟨fpDec [0x0162fffffa765adf, 0x8f7bea480083fb75, 0x561b3c2259e93611, 0x11e19fc1a9c875d5,
      0xca713efc00367660, 0x03c6a03d41da1151],
      fpDec [0x0162fffffa765adf, 0x8f7bea480083fb75, 0x561b3c2259e93611, 0x11e19fc1a9c875d5,
        0xca713efc00367660, 0x03c6a03d41da1151]⟩,
    ⟨fpDec [0x0000000000000000, 0x0000000000000000, 0x0000000000000000, 0x0000000000000000,
      0x0000000000000000, 0x0000000000000000],
      fpDec [0x5db0fffffd3b02c5, 0xd713f52358ebfdba, 0x5ea60761a84d161a, 0xbb2c75a34ea6c44a,
        0x0ac6735921c1119b, 0x0ee3d913bdacfbf6]⟩,
    ⟨fpDec [0x66b10000003affc5, 0xcb1400e764ec0030, 0xa73e5eb56fa5d106, 0x8984c913a0fe09a9,
      0x11e10afb78ad7f13, 0x05429d0e3e918f52],
      fpDec [0x534dffffffc4aae6, 0x5397ff174c67ffcf, 0xbff273eb870b251d, 0xdaf2827152870915,
        0x393a9cbaca9e2dc3, 0x14be74dbfaee5748]⟩,
    ⟨fpDec [0x760900000002fffd, 0xebf4000bc40c0002, 0x5f48985753c758ba, 0x77ce585370525745,
      0x5c071a97a256ec6d, 0x15f65ec3fa80e493],
      fpDec [0x0000000000000000, 0x0000000000000000, 0x0000000000000000, 0x0000000000000000,
        0x0000000000000000, 0x0000000000000000]⟩]

/-- `sswu` (`g2.go:1051-1090`); fresh receivers hold zero -/
def g2Sswu (u : Fp2 Fq) : Proj (Fp2 Fq) :=
  let tv1 := u * u
  let tv1 := tv1 * sswuMapZ
  let tv2 := tv1 * tv1
  let x1 := tv1 + tv2
  let x1 := (Fp2.invert x1 x1).1
  let x1 := x1 + 1
  let x1 := sel x1 sswuMapZInv x1.isZero
  let x1 := x1 * swwuMapMbDivA
  let gx1 := x1 * x1
  let gx1 := gx1 + sswuMapA
  let gx1 := gx1 * x1
  let gx1 := gx1 + sswuMapB
  let x2 := tv1 * x1
  let tv2 := tv2 * tv1
  let gx2 := gx1 * tv2
  let e2 := (fp2Sqrt 0 gx1).2
  let x := sel x2 x1 e2
  let y2 := sel gx2 gx1 e2
  let y := (fp2Sqrt 0 y2).1
  let y := Fp2.cneg y y (xor (sgn0of2 u) (sgn0of2 y))
  ⟨x, y, 1⟩

/-- `isogenyMap` with `computeKFp2` (`g2.go:1092-1123`) on a fresh receiver -/
def g2IsogenyMap (a : Proj (Fp2 Fq)) : Proj (Fp2 Fq) :=
  let xs := isoXs a.x 4
  let xNum := computeIsoK xs g2Iso.xNum
  let xDen := computeIsoK xs g2Iso.xDen
  let yNum := computeIsoK xs g2Iso.yNum
  let yDen := computeIsoK xs g2Iso.yDen
  let x := (Fp2.invert 0 xDen).1
  let x := x * xNum
  let y := (Fp2.invert 0 yDen).1
  let y := y * yNum
  let y := y * a.y
  ⟨x, y, 1⟩

/-- `G2.Hash` (`g2.go:517-547`) -/
def g2Hash (h : Hasher) (msg dst : List UInt8) : Proj (Fp2 Fq) :=
  let u := h.expand msg dst 256
  let u0 : Fp2 Fq := ⟨elem64 (u.take 64), elem64 ((u.drop 64).take 64)⟩
  let u1 : Fp2 Fq := ⟨elem64 ((u.drop 128).take 64), elem64 (u.drop 192)⟩
  let r0 := g2Sswu u0
  let r1 := g2Sswu u1
  let q0 := g2IsogenyMap r0
  let q1 := g2IsogenyMap r1
  g2ClearCofactor (gAdd mulBy3b2 q0 q1)

/-- `G2.Random` (`g2.go:501-515`) -/
def g2Random (sha256 : Hasher) (read : Option (List UInt8)) : Go (Proj (Fp2 Fq)) := do
  let seed ← Go.ofOption read
  Go.guard (seed.length = 64)
  .ok (g2Hash sha256 seed "BLS12381G2_XMD:SHA-256_SSWU_RO_".toUTF8.toList)

end Verif.Bls381

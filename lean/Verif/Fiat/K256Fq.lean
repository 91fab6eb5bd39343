import Verif.Common.Primes
import Verif.Fiat.Check

/-!
# The code of `pkg/core/curves/native/k256/fq/secp256k1_fq.go`, statement by statement

Registers are the variables `x1, x2, …` of the Go code, `a` and `b` the limbs of the two arguments; the conversions between `uint1` and
`uint64`, which are the same type, are left out.
-/

namespace Verif.Fiat.K256Fq
open Verif.Fiat

/-- `Mul` (`secp256k1_fq.go:83-402`) -/
def mul : Prog where
  code := [
    .set 1 (.a 1), .set 2 (.a 2), .set 3 (.a 3), .set 4 (.a 0), .mul 6 5 (.r 4) (.b 3), .mul 8 7 (.r 4) (.b 2),
    .mul 10 9 (.r 4) (.b 1), .mul 12 11 (.r 4) (.b 0), .add 13 14 (.r 12) (.r 9) (.k 0),
    .add 15 16 (.r 10) (.r 7) (.r 14), .add 17 18 (.r 8) (.r 5) (.r 16), .set 19 (.plus (.r 18) (.r 6)),
    .mul 0 20 (.r 11) (.k 0x4b0dff665588b13f), .mul 23 22 (.r 20) (.k 0xffffffffffffffff),
    .mul 25 24 (.r 20) (.k 0xfffffffffffffffe), .mul 27 26 (.r 20) (.k 0xbaaedce6af48a03b),
    .mul 29 28 (.r 20) (.k 0xbfd25e8cd0364141), .add 30 31 (.r 29) (.r 26) (.k 0), .add 32 33 (.r 27) (.r 24) (.r 31),
    .add 34 35 (.r 25) (.r 22) (.r 33), .set 36 (.plus (.r 35) (.r 23)), .add 0 38 (.r 11) (.r 28) (.k 0),
    .add 39 40 (.r 13) (.r 30) (.r 38), .add 41 42 (.r 15) (.r 32) (.r 40), .add 43 44 (.r 17) (.r 34) (.r 42),
    .add 45 46 (.r 19) (.r 36) (.r 44), .mul 48 47 (.r 1) (.b 3), .mul 50 49 (.r 1) (.b 2), .mul 52 51 (.r 1) (.b 1),
    .mul 54 53 (.r 1) (.b 0), .add 55 56 (.r 54) (.r 51) (.k 0), .add 57 58 (.r 52) (.r 49) (.r 56),
    .add 59 60 (.r 50) (.r 47) (.r 58), .set 61 (.plus (.r 60) (.r 48)), .add 62 63 (.r 39) (.r 53) (.k 0),
    .add 64 65 (.r 41) (.r 55) (.r 63), .add 66 67 (.r 43) (.r 57) (.r 65), .add 68 69 (.r 45) (.r 59) (.r 67),
    .add 70 71 (.r 46) (.r 61) (.r 69), .mul 0 72 (.r 62) (.k 0x4b0dff665588b13f),
    .mul 75 74 (.r 72) (.k 0xffffffffffffffff), .mul 77 76 (.r 72) (.k 0xfffffffffffffffe),
    .mul 79 78 (.r 72) (.k 0xbaaedce6af48a03b), .mul 81 80 (.r 72) (.k 0xbfd25e8cd0364141),
    .add 82 83 (.r 81) (.r 78) (.k 0), .add 84 85 (.r 79) (.r 76) (.r 83), .add 86 87 (.r 77) (.r 74) (.r 85),
    .set 88 (.plus (.r 87) (.r 75)), .add 0 90 (.r 62) (.r 80) (.k 0), .add 91 92 (.r 64) (.r 82) (.r 90),
    .add 93 94 (.r 66) (.r 84) (.r 92), .add 95 96 (.r 68) (.r 86) (.r 94), .add 97 98 (.r 70) (.r 88) (.r 96),
    .set 99 (.plus (.r 98) (.r 71)), .mul 101 100 (.r 2) (.b 3), .mul 103 102 (.r 2) (.b 2),
    .mul 105 104 (.r 2) (.b 1), .mul 107 106 (.r 2) (.b 0), .add 108 109 (.r 107) (.r 104) (.k 0),
    .add 110 111 (.r 105) (.r 102) (.r 109), .add 112 113 (.r 103) (.r 100) (.r 111),
    .set 114 (.plus (.r 113) (.r 101)), .add 115 116 (.r 91) (.r 106) (.k 0), .add 117 118 (.r 93) (.r 108) (.r 116),
    .add 119 120 (.r 95) (.r 110) (.r 118), .add 121 122 (.r 97) (.r 112) (.r 120),
    .add 123 124 (.r 99) (.r 114) (.r 122), .mul 0 125 (.r 115) (.k 0x4b0dff665588b13f),
    .mul 128 127 (.r 125) (.k 0xffffffffffffffff), .mul 130 129 (.r 125) (.k 0xfffffffffffffffe),
    .mul 132 131 (.r 125) (.k 0xbaaedce6af48a03b), .mul 134 133 (.r 125) (.k 0xbfd25e8cd0364141),
    .add 135 136 (.r 134) (.r 131) (.k 0), .add 137 138 (.r 132) (.r 129) (.r 136),
    .add 139 140 (.r 130) (.r 127) (.r 138), .set 141 (.plus (.r 140) (.r 128)), .add 0 143 (.r 115) (.r 133) (.k 0),
    .add 144 145 (.r 117) (.r 135) (.r 143), .add 146 147 (.r 119) (.r 137) (.r 145),
    .add 148 149 (.r 121) (.r 139) (.r 147), .add 150 151 (.r 123) (.r 141) (.r 149),
    .set 152 (.plus (.r 151) (.r 124)), .mul 154 153 (.r 3) (.b 3), .mul 156 155 (.r 3) (.b 2),
    .mul 158 157 (.r 3) (.b 1), .mul 160 159 (.r 3) (.b 0), .add 161 162 (.r 160) (.r 157) (.k 0),
    .add 163 164 (.r 158) (.r 155) (.r 162), .add 165 166 (.r 156) (.r 153) (.r 164),
    .set 167 (.plus (.r 166) (.r 154)), .add 168 169 (.r 144) (.r 159) (.k 0),
    .add 170 171 (.r 146) (.r 161) (.r 169), .add 172 173 (.r 148) (.r 163) (.r 171),
    .add 174 175 (.r 150) (.r 165) (.r 173), .add 176 177 (.r 152) (.r 167) (.r 175),
    .mul 0 178 (.r 168) (.k 0x4b0dff665588b13f), .mul 181 180 (.r 178) (.k 0xffffffffffffffff),
    .mul 183 182 (.r 178) (.k 0xfffffffffffffffe), .mul 185 184 (.r 178) (.k 0xbaaedce6af48a03b),
    .mul 187 186 (.r 178) (.k 0xbfd25e8cd0364141), .add 188 189 (.r 187) (.r 184) (.k 0),
    .add 190 191 (.r 185) (.r 182) (.r 189), .add 192 193 (.r 183) (.r 180) (.r 191),
    .set 194 (.plus (.r 193) (.r 181)), .add 0 196 (.r 168) (.r 186) (.k 0), .add 197 198 (.r 170) (.r 188) (.r 196),
    .add 199 200 (.r 172) (.r 190) (.r 198), .add 201 202 (.r 174) (.r 192) (.r 200),
    .add 203 204 (.r 176) (.r 194) (.r 202), .set 205 (.plus (.r 204) (.r 177)),
    .sub 206 207 (.r 197) (.k 0xbfd25e8cd0364141) (.k 0), .sub 208 209 (.r 199) (.k 0xbaaedce6af48a03b) (.r 207),
    .sub 210 211 (.r 201) (.k 0xfffffffffffffffe) (.r 209), .sub 212 213 (.r 203) (.k 0xffffffffffffffff) (.r 211),
    .sub 0 215 (.r 205) (.k 0) (.r 213), .cmov 216 (.r 215) (.r 206) (.r 197), .cmov 217 (.r 215) (.r 208) (.r 199),
    .cmov 218 (.r 215) (.r 210) (.r 201), .cmov 219 (.r 215) (.r 212) (.r 203)]
  out := [.r 216, .r 217, .r 218, .r 219]

/-- `Square` (`secp256k1_fq.go:412-731`) -/
def square : Prog where
  code := [
    .set 1 (.a 1), .set 2 (.a 2), .set 3 (.a 3), .set 4 (.a 0), .mul 6 5 (.r 4) (.a 3), .mul 8 7 (.r 4) (.a 2),
    .mul 10 9 (.r 4) (.a 1), .mul 12 11 (.r 4) (.a 0), .add 13 14 (.r 12) (.r 9) (.k 0),
    .add 15 16 (.r 10) (.r 7) (.r 14), .add 17 18 (.r 8) (.r 5) (.r 16), .set 19 (.plus (.r 18) (.r 6)),
    .mul 0 20 (.r 11) (.k 0x4b0dff665588b13f), .mul 23 22 (.r 20) (.k 0xffffffffffffffff),
    .mul 25 24 (.r 20) (.k 0xfffffffffffffffe), .mul 27 26 (.r 20) (.k 0xbaaedce6af48a03b),
    .mul 29 28 (.r 20) (.k 0xbfd25e8cd0364141), .add 30 31 (.r 29) (.r 26) (.k 0), .add 32 33 (.r 27) (.r 24) (.r 31),
    .add 34 35 (.r 25) (.r 22) (.r 33), .set 36 (.plus (.r 35) (.r 23)), .add 0 38 (.r 11) (.r 28) (.k 0),
    .add 39 40 (.r 13) (.r 30) (.r 38), .add 41 42 (.r 15) (.r 32) (.r 40), .add 43 44 (.r 17) (.r 34) (.r 42),
    .add 45 46 (.r 19) (.r 36) (.r 44), .mul 48 47 (.r 1) (.a 3), .mul 50 49 (.r 1) (.a 2), .mul 52 51 (.r 1) (.a 1),
    .mul 54 53 (.r 1) (.a 0), .add 55 56 (.r 54) (.r 51) (.k 0), .add 57 58 (.r 52) (.r 49) (.r 56),
    .add 59 60 (.r 50) (.r 47) (.r 58), .set 61 (.plus (.r 60) (.r 48)), .add 62 63 (.r 39) (.r 53) (.k 0),
    .add 64 65 (.r 41) (.r 55) (.r 63), .add 66 67 (.r 43) (.r 57) (.r 65), .add 68 69 (.r 45) (.r 59) (.r 67),
    .add 70 71 (.r 46) (.r 61) (.r 69), .mul 0 72 (.r 62) (.k 0x4b0dff665588b13f),
    .mul 75 74 (.r 72) (.k 0xffffffffffffffff), .mul 77 76 (.r 72) (.k 0xfffffffffffffffe),
    .mul 79 78 (.r 72) (.k 0xbaaedce6af48a03b), .mul 81 80 (.r 72) (.k 0xbfd25e8cd0364141),
    .add 82 83 (.r 81) (.r 78) (.k 0), .add 84 85 (.r 79) (.r 76) (.r 83), .add 86 87 (.r 77) (.r 74) (.r 85),
    .set 88 (.plus (.r 87) (.r 75)), .add 0 90 (.r 62) (.r 80) (.k 0), .add 91 92 (.r 64) (.r 82) (.r 90),
    .add 93 94 (.r 66) (.r 84) (.r 92), .add 95 96 (.r 68) (.r 86) (.r 94), .add 97 98 (.r 70) (.r 88) (.r 96),
    .set 99 (.plus (.r 98) (.r 71)), .mul 101 100 (.r 2) (.a 3), .mul 103 102 (.r 2) (.a 2),
    .mul 105 104 (.r 2) (.a 1), .mul 107 106 (.r 2) (.a 0), .add 108 109 (.r 107) (.r 104) (.k 0),
    .add 110 111 (.r 105) (.r 102) (.r 109), .add 112 113 (.r 103) (.r 100) (.r 111),
    .set 114 (.plus (.r 113) (.r 101)), .add 115 116 (.r 91) (.r 106) (.k 0), .add 117 118 (.r 93) (.r 108) (.r 116),
    .add 119 120 (.r 95) (.r 110) (.r 118), .add 121 122 (.r 97) (.r 112) (.r 120),
    .add 123 124 (.r 99) (.r 114) (.r 122), .mul 0 125 (.r 115) (.k 0x4b0dff665588b13f),
    .mul 128 127 (.r 125) (.k 0xffffffffffffffff), .mul 130 129 (.r 125) (.k 0xfffffffffffffffe),
    .mul 132 131 (.r 125) (.k 0xbaaedce6af48a03b), .mul 134 133 (.r 125) (.k 0xbfd25e8cd0364141),
    .add 135 136 (.r 134) (.r 131) (.k 0), .add 137 138 (.r 132) (.r 129) (.r 136),
    .add 139 140 (.r 130) (.r 127) (.r 138), .set 141 (.plus (.r 140) (.r 128)), .add 0 143 (.r 115) (.r 133) (.k 0),
    .add 144 145 (.r 117) (.r 135) (.r 143), .add 146 147 (.r 119) (.r 137) (.r 145),
    .add 148 149 (.r 121) (.r 139) (.r 147), .add 150 151 (.r 123) (.r 141) (.r 149),
    .set 152 (.plus (.r 151) (.r 124)), .mul 154 153 (.r 3) (.a 3), .mul 156 155 (.r 3) (.a 2),
    .mul 158 157 (.r 3) (.a 1), .mul 160 159 (.r 3) (.a 0), .add 161 162 (.r 160) (.r 157) (.k 0),
    .add 163 164 (.r 158) (.r 155) (.r 162), .add 165 166 (.r 156) (.r 153) (.r 164),
    .set 167 (.plus (.r 166) (.r 154)), .add 168 169 (.r 144) (.r 159) (.k 0),
    .add 170 171 (.r 146) (.r 161) (.r 169), .add 172 173 (.r 148) (.r 163) (.r 171),
    .add 174 175 (.r 150) (.r 165) (.r 173), .add 176 177 (.r 152) (.r 167) (.r 175),
    .mul 0 178 (.r 168) (.k 0x4b0dff665588b13f), .mul 181 180 (.r 178) (.k 0xffffffffffffffff),
    .mul 183 182 (.r 178) (.k 0xfffffffffffffffe), .mul 185 184 (.r 178) (.k 0xbaaedce6af48a03b),
    .mul 187 186 (.r 178) (.k 0xbfd25e8cd0364141), .add 188 189 (.r 187) (.r 184) (.k 0),
    .add 190 191 (.r 185) (.r 182) (.r 189), .add 192 193 (.r 183) (.r 180) (.r 191),
    .set 194 (.plus (.r 193) (.r 181)), .add 0 196 (.r 168) (.r 186) (.k 0), .add 197 198 (.r 170) (.r 188) (.r 196),
    .add 199 200 (.r 172) (.r 190) (.r 198), .add 201 202 (.r 174) (.r 192) (.r 200),
    .add 203 204 (.r 176) (.r 194) (.r 202), .set 205 (.plus (.r 204) (.r 177)),
    .sub 206 207 (.r 197) (.k 0xbfd25e8cd0364141) (.k 0), .sub 208 209 (.r 199) (.k 0xbaaedce6af48a03b) (.r 207),
    .sub 210 211 (.r 201) (.k 0xfffffffffffffffe) (.r 209), .sub 212 213 (.r 203) (.k 0xffffffffffffffff) (.r 211),
    .sub 0 215 (.r 205) (.k 0) (.r 213), .cmov 216 (.r 215) (.r 206) (.r 197), .cmov 217 (.r 215) (.r 208) (.r 199),
    .cmov 218 (.r 215) (.r 210) (.r 201), .cmov 219 (.r 215) (.r 212) (.r 203)]
  out := [.r 216, .r 217, .r 218, .r 219]

/-- `Add` (`secp256k1_fq.go:742-781`) -/
def add : Prog where
  code := [
    .add 1 2 (.a 0) (.b 0) (.k 0), .add 3 4 (.a 1) (.b 1) (.r 2), .add 5 6 (.a 2) (.b 2) (.r 4),
    .add 7 8 (.a 3) (.b 3) (.r 6), .sub 9 10 (.r 1) (.k 0xbfd25e8cd0364141) (.k 0),
    .sub 11 12 (.r 3) (.k 0xbaaedce6af48a03b) (.r 10), .sub 13 14 (.r 5) (.k 0xfffffffffffffffe) (.r 12),
    .sub 15 16 (.r 7) (.k 0xffffffffffffffff) (.r 14), .sub 0 18 (.r 8) (.k 0) (.r 16),
    .cmov 19 (.r 18) (.r 9) (.r 1), .cmov 20 (.r 18) (.r 11) (.r 3), .cmov 21 (.r 18) (.r 13) (.r 5),
    .cmov 22 (.r 18) (.r 15) (.r 7)]
  out := [.r 19, .r 20, .r 21, .r 22]

/-- `Sub` (`secp256k1_fq.go:792-822`) -/
def sub : Prog where
  code := [
    .sub 1 2 (.a 0) (.b 0) (.k 0), .sub 3 4 (.a 1) (.b 1) (.r 2), .sub 5 6 (.a 2) (.b 2) (.r 4),
    .sub 7 8 (.a 3) (.b 3) (.r 6), .cmov 9 (.r 8) (.k 0) (.k 0xffffffffffffffff),
    .add 10 11 (.r 1) (.band (.r 9) (.k 0xbfd25e8cd0364141)) (.k 0),
    .add 12 13 (.r 3) (.band (.r 9) (.k 0xbaaedce6af48a03b)) (.r 11),
    .add 14 15 (.r 5) (.band (.r 9) (.k 0xfffffffffffffffe)) (.r 13), .add 16 0 (.r 7) (.r 9) (.r 15)]
  out := [.r 10, .r 12, .r 14, .r 16]

/-- `Opp` (`secp256k1_fq.go:832-862`) -/
def opp : Prog where
  code := [
    .sub 1 2 (.k 0) (.a 0) (.k 0), .sub 3 4 (.k 0) (.a 1) (.r 2), .sub 5 6 (.k 0) (.a 2) (.r 4),
    .sub 7 8 (.k 0) (.a 3) (.r 6), .cmov 9 (.r 8) (.k 0) (.k 0xffffffffffffffff),
    .add 10 11 (.r 1) (.band (.r 9) (.k 0xbfd25e8cd0364141)) (.k 0),
    .add 12 13 (.r 3) (.band (.r 9) (.k 0xbaaedce6af48a03b)) (.r 11),
    .add 14 15 (.r 5) (.band (.r 9) (.k 0xfffffffffffffffe)) (.r 13), .add 16 0 (.r 7) (.r 9) (.r 15)]
  out := [.r 10, .r 12, .r 14, .r 16]

/-- `FromMontgomery` (`secp256k1_fq.go:872-1084`) -/
def fromMontgomery : Prog where
  code := [
    .set 1 (.a 0), .mul 0 2 (.r 1) (.k 0x4b0dff665588b13f), .mul 5 4 (.r 2) (.k 0xffffffffffffffff),
    .mul 7 6 (.r 2) (.k 0xfffffffffffffffe), .mul 9 8 (.r 2) (.k 0xbaaedce6af48a03b),
    .mul 11 10 (.r 2) (.k 0xbfd25e8cd0364141), .add 12 13 (.r 11) (.r 8) (.k 0), .add 14 15 (.r 9) (.r 6) (.r 13),
    .add 16 17 (.r 7) (.r 4) (.r 15), .add 0 19 (.r 1) (.r 10) (.k 0), .add 20 21 (.k 0) (.r 12) (.r 19),
    .add 22 23 (.k 0) (.r 14) (.r 21), .add 24 25 (.k 0) (.r 16) (.r 23),
    .add 26 27 (.k 0) (.plus (.r 17) (.r 5)) (.r 25), .add 28 29 (.r 20) (.a 1) (.k 0),
    .add 30 31 (.r 22) (.k 0) (.r 29), .add 32 33 (.r 24) (.k 0) (.r 31), .add 34 35 (.r 26) (.k 0) (.r 33),
    .mul 0 36 (.r 28) (.k 0x4b0dff665588b13f), .mul 39 38 (.r 36) (.k 0xffffffffffffffff),
    .mul 41 40 (.r 36) (.k 0xfffffffffffffffe), .mul 43 42 (.r 36) (.k 0xbaaedce6af48a03b),
    .mul 45 44 (.r 36) (.k 0xbfd25e8cd0364141), .add 46 47 (.r 45) (.r 42) (.k 0), .add 48 49 (.r 43) (.r 40) (.r 47),
    .add 50 51 (.r 41) (.r 38) (.r 49), .add 0 53 (.r 28) (.r 44) (.k 0), .add 54 55 (.r 30) (.r 46) (.r 53),
    .add 56 57 (.r 32) (.r 48) (.r 55), .add 58 59 (.r 34) (.r 50) (.r 57),
    .add 60 61 (.plus (.r 35) (.r 27)) (.plus (.r 51) (.r 39)) (.r 59), .add 62 63 (.r 54) (.a 2) (.k 0),
    .add 64 65 (.r 56) (.k 0) (.r 63), .add 66 67 (.r 58) (.k 0) (.r 65), .add 68 69 (.r 60) (.k 0) (.r 67),
    .mul 0 70 (.r 62) (.k 0x4b0dff665588b13f), .mul 73 72 (.r 70) (.k 0xffffffffffffffff),
    .mul 75 74 (.r 70) (.k 0xfffffffffffffffe), .mul 77 76 (.r 70) (.k 0xbaaedce6af48a03b),
    .mul 79 78 (.r 70) (.k 0xbfd25e8cd0364141), .add 80 81 (.r 79) (.r 76) (.k 0), .add 82 83 (.r 77) (.r 74) (.r 81),
    .add 84 85 (.r 75) (.r 72) (.r 83), .add 0 87 (.r 62) (.r 78) (.k 0), .add 88 89 (.r 64) (.r 80) (.r 87),
    .add 90 91 (.r 66) (.r 82) (.r 89), .add 92 93 (.r 68) (.r 84) (.r 91),
    .add 94 95 (.plus (.r 69) (.r 61)) (.plus (.r 85) (.r 73)) (.r 93), .add 96 97 (.r 88) (.a 3) (.k 0),
    .add 98 99 (.r 90) (.k 0) (.r 97), .add 100 101 (.r 92) (.k 0) (.r 99), .add 102 103 (.r 94) (.k 0) (.r 101),
    .mul 0 104 (.r 96) (.k 0x4b0dff665588b13f), .mul 107 106 (.r 104) (.k 0xffffffffffffffff),
    .mul 109 108 (.r 104) (.k 0xfffffffffffffffe), .mul 111 110 (.r 104) (.k 0xbaaedce6af48a03b),
    .mul 113 112 (.r 104) (.k 0xbfd25e8cd0364141), .add 114 115 (.r 113) (.r 110) (.k 0),
    .add 116 117 (.r 111) (.r 108) (.r 115), .add 118 119 (.r 109) (.r 106) (.r 117),
    .add 0 121 (.r 96) (.r 112) (.k 0), .add 122 123 (.r 98) (.r 114) (.r 121),
    .add 124 125 (.r 100) (.r 116) (.r 123), .add 126 127 (.r 102) (.r 118) (.r 125),
    .add 128 129 (.plus (.r 103) (.r 95)) (.plus (.r 119) (.r 107)) (.r 127),
    .sub 130 131 (.r 122) (.k 0xbfd25e8cd0364141) (.k 0), .sub 132 133 (.r 124) (.k 0xbaaedce6af48a03b) (.r 131),
    .sub 134 135 (.r 126) (.k 0xfffffffffffffffe) (.r 133), .sub 136 137 (.r 128) (.k 0xffffffffffffffff) (.r 135),
    .sub 0 139 (.r 129) (.k 0) (.r 137), .cmov 140 (.r 139) (.r 130) (.r 122), .cmov 141 (.r 139) (.r 132) (.r 124),
    .cmov 142 (.r 139) (.r 134) (.r 126), .cmov 143 (.r 139) (.r 136) (.r 128)]
  out := [.r 140, .r 141, .r 142, .r 143]

/-- `ToMontgomery` (`secp256k1_fq.go:1094-1393`) -/
def toMontgomery : Prog where
  code := [
    .set 1 (.a 1), .set 2 (.a 2), .set 3 (.a 3), .set 4 (.a 0), .mul 6 5 (.r 4) (.k 0x9d671cd581c69bc5),
    .mul 8 7 (.r 4) (.k 0xe697f5e45bcd07c6), .mul 10 9 (.r 4) (.k 0x741496c20e7cf878),
    .mul 12 11 (.r 4) (.k 0x896cf21467d7d140), .add 13 14 (.r 12) (.r 9) (.k 0), .add 15 16 (.r 10) (.r 7) (.r 14),
    .add 17 18 (.r 8) (.r 5) (.r 16), .mul 0 19 (.r 11) (.k 0x4b0dff665588b13f),
    .mul 22 21 (.r 19) (.k 0xffffffffffffffff), .mul 24 23 (.r 19) (.k 0xfffffffffffffffe),
    .mul 26 25 (.r 19) (.k 0xbaaedce6af48a03b), .mul 28 27 (.r 19) (.k 0xbfd25e8cd0364141),
    .add 29 30 (.r 28) (.r 25) (.k 0), .add 31 32 (.r 26) (.r 23) (.r 30), .add 33 34 (.r 24) (.r 21) (.r 32),
    .add 0 36 (.r 11) (.r 27) (.k 0), .add 37 38 (.r 13) (.r 29) (.r 36), .add 39 40 (.r 15) (.r 31) (.r 38),
    .add 41 42 (.r 17) (.r 33) (.r 40), .add 43 44 (.plus (.r 18) (.r 6)) (.plus (.r 34) (.r 22)) (.r 42),
    .mul 46 45 (.r 1) (.k 0x9d671cd581c69bc5), .mul 48 47 (.r 1) (.k 0xe697f5e45bcd07c6),
    .mul 50 49 (.r 1) (.k 0x741496c20e7cf878), .mul 52 51 (.r 1) (.k 0x896cf21467d7d140),
    .add 53 54 (.r 52) (.r 49) (.k 0), .add 55 56 (.r 50) (.r 47) (.r 54), .add 57 58 (.r 48) (.r 45) (.r 56),
    .add 59 60 (.r 37) (.r 51) (.k 0), .add 61 62 (.r 39) (.r 53) (.r 60), .add 63 64 (.r 41) (.r 55) (.r 62),
    .add 65 66 (.r 43) (.r 57) (.r 64), .mul 0 67 (.r 59) (.k 0x4b0dff665588b13f),
    .mul 70 69 (.r 67) (.k 0xffffffffffffffff), .mul 72 71 (.r 67) (.k 0xfffffffffffffffe),
    .mul 74 73 (.r 67) (.k 0xbaaedce6af48a03b), .mul 76 75 (.r 67) (.k 0xbfd25e8cd0364141),
    .add 77 78 (.r 76) (.r 73) (.k 0), .add 79 80 (.r 74) (.r 71) (.r 78), .add 81 82 (.r 72) (.r 69) (.r 80),
    .add 0 84 (.r 59) (.r 75) (.k 0), .add 85 86 (.r 61) (.r 77) (.r 84), .add 87 88 (.r 63) (.r 79) (.r 86),
    .add 89 90 (.r 65) (.r 81) (.r 88),
    .add 91 92 (.plus (.plus (.r 66) (.r 44)) (.plus (.r 58) (.r 46))) (.plus (.r 82) (.r 70)) (.r 90),
    .mul 94 93 (.r 2) (.k 0x9d671cd581c69bc5), .mul 96 95 (.r 2) (.k 0xe697f5e45bcd07c6),
    .mul 98 97 (.r 2) (.k 0x741496c20e7cf878), .mul 100 99 (.r 2) (.k 0x896cf21467d7d140),
    .add 101 102 (.r 100) (.r 97) (.k 0), .add 103 104 (.r 98) (.r 95) (.r 102),
    .add 105 106 (.r 96) (.r 93) (.r 104), .add 107 108 (.r 85) (.r 99) (.k 0),
    .add 109 110 (.r 87) (.r 101) (.r 108), .add 111 112 (.r 89) (.r 103) (.r 110),
    .add 113 114 (.r 91) (.r 105) (.r 112), .mul 0 115 (.r 107) (.k 0x4b0dff665588b13f),
    .mul 118 117 (.r 115) (.k 0xffffffffffffffff), .mul 120 119 (.r 115) (.k 0xfffffffffffffffe),
    .mul 122 121 (.r 115) (.k 0xbaaedce6af48a03b), .mul 124 123 (.r 115) (.k 0xbfd25e8cd0364141),
    .add 125 126 (.r 124) (.r 121) (.k 0), .add 127 128 (.r 122) (.r 119) (.r 126),
    .add 129 130 (.r 120) (.r 117) (.r 128), .add 0 132 (.r 107) (.r 123) (.k 0),
    .add 133 134 (.r 109) (.r 125) (.r 132), .add 135 136 (.r 111) (.r 127) (.r 134),
    .add 137 138 (.r 113) (.r 129) (.r 136),
    .add 139 140 (.plus (.plus (.r 114) (.r 92)) (.plus (.r 106) (.r 94))) (.plus (.r 130) (.r 118)) (.r 138),
    .mul 142 141 (.r 3) (.k 0x9d671cd581c69bc5), .mul 144 143 (.r 3) (.k 0xe697f5e45bcd07c6),
    .mul 146 145 (.r 3) (.k 0x741496c20e7cf878), .mul 148 147 (.r 3) (.k 0x896cf21467d7d140),
    .add 149 150 (.r 148) (.r 145) (.k 0), .add 151 152 (.r 146) (.r 143) (.r 150),
    .add 153 154 (.r 144) (.r 141) (.r 152), .add 155 156 (.r 133) (.r 147) (.k 0),
    .add 157 158 (.r 135) (.r 149) (.r 156), .add 159 160 (.r 137) (.r 151) (.r 158),
    .add 161 162 (.r 139) (.r 153) (.r 160), .mul 0 163 (.r 155) (.k 0x4b0dff665588b13f),
    .mul 166 165 (.r 163) (.k 0xffffffffffffffff), .mul 168 167 (.r 163) (.k 0xfffffffffffffffe),
    .mul 170 169 (.r 163) (.k 0xbaaedce6af48a03b), .mul 172 171 (.r 163) (.k 0xbfd25e8cd0364141),
    .add 173 174 (.r 172) (.r 169) (.k 0), .add 175 176 (.r 170) (.r 167) (.r 174),
    .add 177 178 (.r 168) (.r 165) (.r 176), .add 0 180 (.r 155) (.r 171) (.k 0),
    .add 181 182 (.r 157) (.r 173) (.r 180), .add 183 184 (.r 159) (.r 175) (.r 182),
    .add 185 186 (.r 161) (.r 177) (.r 184),
    .add 187 188 (.plus (.plus (.r 162) (.r 140)) (.plus (.r 154) (.r 142))) (.plus (.r 178) (.r 166)) (.r 186),
    .sub 189 190 (.r 181) (.k 0xbfd25e8cd0364141) (.k 0), .sub 191 192 (.r 183) (.k 0xbaaedce6af48a03b) (.r 190),
    .sub 193 194 (.r 185) (.k 0xfffffffffffffffe) (.r 192), .sub 195 196 (.r 187) (.k 0xffffffffffffffff) (.r 194),
    .sub 0 198 (.r 188) (.k 0) (.r 196), .cmov 199 (.r 198) (.r 189) (.r 181), .cmov 200 (.r 198) (.r 191) (.r 183),
    .cmov 201 (.r 198) (.r 193) (.r 185), .cmov 202 (.r 198) (.r 195) (.r 187)]
  out := [.r 199, .r 200, .r 201, .r 202]

/-- the functions of the field -/
def code : FieldCode := ⟨mul, square, add, sub, opp, fromMontgomery, toMontgomery⟩

set_option maxRecDepth 10000 in
/-- the checker accepts the functions -/
theorem code_ok : code.ok Primes.k256q = true := by decide +kernel

end Verif.Fiat.K256Fq

import Verif.Common.Primes
import Verif.Fiat.Check

/-!
# The code of `pkg/core/curves/native/p256/fp/p256_fp.go`, statement by statement

Registers are the variables `x1, x2, …` of the Go code, `a` and `b` the limbs of the two arguments; the conversions between `uint1` and
`uint64`, which are the same type, are left out.
-/

namespace Verif.Fiat.P256Fp
open Verif.Fiat

/-- `Mul` (`p256_fp.go:85-360`) -/
def mul : Prog where
  code := [
    .set 1 (.a 1), .set 2 (.a 2), .set 3 (.a 3), .set 4 (.a 0), .mul 6 5 (.r 4) (.b 3), .mul 8 7 (.r 4) (.b 2),
    .mul 10 9 (.r 4) (.b 1), .mul 12 11 (.r 4) (.b 0), .add 13 14 (.r 12) (.r 9) (.k 0),
    .add 15 16 (.r 10) (.r 7) (.r 14), .add 17 18 (.r 8) (.r 5) (.r 16), .set 19 (.plus (.r 18) (.r 6)),
    .mul 21 20 (.r 11) (.k 0xffffffff00000001), .mul 23 22 (.r 11) (.k 0xffffffff),
    .mul 25 24 (.r 11) (.k 0xffffffffffffffff), .add 26 27 (.r 25) (.r 22) (.k 0), .set 28 (.plus (.r 27) (.r 23)),
    .add 0 30 (.r 11) (.r 24) (.k 0), .add 31 32 (.r 13) (.r 26) (.r 30), .add 33 34 (.r 15) (.r 28) (.r 32),
    .add 35 36 (.r 17) (.r 20) (.r 34), .add 37 38 (.r 19) (.r 21) (.r 36), .mul 40 39 (.r 1) (.b 3),
    .mul 42 41 (.r 1) (.b 2), .mul 44 43 (.r 1) (.b 1), .mul 46 45 (.r 1) (.b 0), .add 47 48 (.r 46) (.r 43) (.k 0),
    .add 49 50 (.r 44) (.r 41) (.r 48), .add 51 52 (.r 42) (.r 39) (.r 50), .set 53 (.plus (.r 52) (.r 40)),
    .add 54 55 (.r 31) (.r 45) (.k 0), .add 56 57 (.r 33) (.r 47) (.r 55), .add 58 59 (.r 35) (.r 49) (.r 57),
    .add 60 61 (.r 37) (.r 51) (.r 59), .add 62 63 (.r 38) (.r 53) (.r 61),
    .mul 65 64 (.r 54) (.k 0xffffffff00000001), .mul 67 66 (.r 54) (.k 0xffffffff),
    .mul 69 68 (.r 54) (.k 0xffffffffffffffff), .add 70 71 (.r 69) (.r 66) (.k 0), .set 72 (.plus (.r 71) (.r 67)),
    .add 0 74 (.r 54) (.r 68) (.k 0), .add 75 76 (.r 56) (.r 70) (.r 74), .add 77 78 (.r 58) (.r 72) (.r 76),
    .add 79 80 (.r 60) (.r 64) (.r 78), .add 81 82 (.r 62) (.r 65) (.r 80), .set 83 (.plus (.r 82) (.r 63)),
    .mul 85 84 (.r 2) (.b 3), .mul 87 86 (.r 2) (.b 2), .mul 89 88 (.r 2) (.b 1), .mul 91 90 (.r 2) (.b 0),
    .add 92 93 (.r 91) (.r 88) (.k 0), .add 94 95 (.r 89) (.r 86) (.r 93), .add 96 97 (.r 87) (.r 84) (.r 95),
    .set 98 (.plus (.r 97) (.r 85)), .add 99 100 (.r 75) (.r 90) (.k 0), .add 101 102 (.r 77) (.r 92) (.r 100),
    .add 103 104 (.r 79) (.r 94) (.r 102), .add 105 106 (.r 81) (.r 96) (.r 104),
    .add 107 108 (.r 83) (.r 98) (.r 106), .mul 110 109 (.r 99) (.k 0xffffffff00000001),
    .mul 112 111 (.r 99) (.k 0xffffffff), .mul 114 113 (.r 99) (.k 0xffffffffffffffff),
    .add 115 116 (.r 114) (.r 111) (.k 0), .set 117 (.plus (.r 116) (.r 112)), .add 0 119 (.r 99) (.r 113) (.k 0),
    .add 120 121 (.r 101) (.r 115) (.r 119), .add 122 123 (.r 103) (.r 117) (.r 121),
    .add 124 125 (.r 105) (.r 109) (.r 123), .add 126 127 (.r 107) (.r 110) (.r 125),
    .set 128 (.plus (.r 127) (.r 108)), .mul 130 129 (.r 3) (.b 3), .mul 132 131 (.r 3) (.b 2),
    .mul 134 133 (.r 3) (.b 1), .mul 136 135 (.r 3) (.b 0), .add 137 138 (.r 136) (.r 133) (.k 0),
    .add 139 140 (.r 134) (.r 131) (.r 138), .add 141 142 (.r 132) (.r 129) (.r 140),
    .set 143 (.plus (.r 142) (.r 130)), .add 144 145 (.r 120) (.r 135) (.k 0),
    .add 146 147 (.r 122) (.r 137) (.r 145), .add 148 149 (.r 124) (.r 139) (.r 147),
    .add 150 151 (.r 126) (.r 141) (.r 149), .add 152 153 (.r 128) (.r 143) (.r 151),
    .mul 155 154 (.r 144) (.k 0xffffffff00000001), .mul 157 156 (.r 144) (.k 0xffffffff),
    .mul 159 158 (.r 144) (.k 0xffffffffffffffff), .add 160 161 (.r 159) (.r 156) (.k 0),
    .set 162 (.plus (.r 161) (.r 157)), .add 0 164 (.r 144) (.r 158) (.k 0), .add 165 166 (.r 146) (.r 160) (.r 164),
    .add 167 168 (.r 148) (.r 162) (.r 166), .add 169 170 (.r 150) (.r 154) (.r 168),
    .add 171 172 (.r 152) (.r 155) (.r 170), .set 173 (.plus (.r 172) (.r 153)),
    .sub 174 175 (.r 165) (.k 0xffffffffffffffff) (.k 0), .sub 176 177 (.r 167) (.k 0xffffffff) (.r 175),
    .sub 178 179 (.r 169) (.k 0) (.r 177), .sub 180 181 (.r 171) (.k 0xffffffff00000001) (.r 179),
    .sub 0 183 (.r 173) (.k 0) (.r 181), .cmov 184 (.r 183) (.r 174) (.r 165), .cmov 185 (.r 183) (.r 176) (.r 167),
    .cmov 186 (.r 183) (.r 178) (.r 169), .cmov 187 (.r 183) (.r 180) (.r 171)]
  out := [.r 184, .r 185, .r 186, .r 187]

/-- `Square` (`p256_fp.go:370-645`) -/
def square : Prog where
  code := [
    .set 1 (.a 1), .set 2 (.a 2), .set 3 (.a 3), .set 4 (.a 0), .mul 6 5 (.r 4) (.a 3), .mul 8 7 (.r 4) (.a 2),
    .mul 10 9 (.r 4) (.a 1), .mul 12 11 (.r 4) (.a 0), .add 13 14 (.r 12) (.r 9) (.k 0),
    .add 15 16 (.r 10) (.r 7) (.r 14), .add 17 18 (.r 8) (.r 5) (.r 16), .set 19 (.plus (.r 18) (.r 6)),
    .mul 21 20 (.r 11) (.k 0xffffffff00000001), .mul 23 22 (.r 11) (.k 0xffffffff),
    .mul 25 24 (.r 11) (.k 0xffffffffffffffff), .add 26 27 (.r 25) (.r 22) (.k 0), .set 28 (.plus (.r 27) (.r 23)),
    .add 0 30 (.r 11) (.r 24) (.k 0), .add 31 32 (.r 13) (.r 26) (.r 30), .add 33 34 (.r 15) (.r 28) (.r 32),
    .add 35 36 (.r 17) (.r 20) (.r 34), .add 37 38 (.r 19) (.r 21) (.r 36), .mul 40 39 (.r 1) (.a 3),
    .mul 42 41 (.r 1) (.a 2), .mul 44 43 (.r 1) (.a 1), .mul 46 45 (.r 1) (.a 0), .add 47 48 (.r 46) (.r 43) (.k 0),
    .add 49 50 (.r 44) (.r 41) (.r 48), .add 51 52 (.r 42) (.r 39) (.r 50), .set 53 (.plus (.r 52) (.r 40)),
    .add 54 55 (.r 31) (.r 45) (.k 0), .add 56 57 (.r 33) (.r 47) (.r 55), .add 58 59 (.r 35) (.r 49) (.r 57),
    .add 60 61 (.r 37) (.r 51) (.r 59), .add 62 63 (.r 38) (.r 53) (.r 61),
    .mul 65 64 (.r 54) (.k 0xffffffff00000001), .mul 67 66 (.r 54) (.k 0xffffffff),
    .mul 69 68 (.r 54) (.k 0xffffffffffffffff), .add 70 71 (.r 69) (.r 66) (.k 0), .set 72 (.plus (.r 71) (.r 67)),
    .add 0 74 (.r 54) (.r 68) (.k 0), .add 75 76 (.r 56) (.r 70) (.r 74), .add 77 78 (.r 58) (.r 72) (.r 76),
    .add 79 80 (.r 60) (.r 64) (.r 78), .add 81 82 (.r 62) (.r 65) (.r 80), .set 83 (.plus (.r 82) (.r 63)),
    .mul 85 84 (.r 2) (.a 3), .mul 87 86 (.r 2) (.a 2), .mul 89 88 (.r 2) (.a 1), .mul 91 90 (.r 2) (.a 0),
    .add 92 93 (.r 91) (.r 88) (.k 0), .add 94 95 (.r 89) (.r 86) (.r 93), .add 96 97 (.r 87) (.r 84) (.r 95),
    .set 98 (.plus (.r 97) (.r 85)), .add 99 100 (.r 75) (.r 90) (.k 0), .add 101 102 (.r 77) (.r 92) (.r 100),
    .add 103 104 (.r 79) (.r 94) (.r 102), .add 105 106 (.r 81) (.r 96) (.r 104),
    .add 107 108 (.r 83) (.r 98) (.r 106), .mul 110 109 (.r 99) (.k 0xffffffff00000001),
    .mul 112 111 (.r 99) (.k 0xffffffff), .mul 114 113 (.r 99) (.k 0xffffffffffffffff),
    .add 115 116 (.r 114) (.r 111) (.k 0), .set 117 (.plus (.r 116) (.r 112)), .add 0 119 (.r 99) (.r 113) (.k 0),
    .add 120 121 (.r 101) (.r 115) (.r 119), .add 122 123 (.r 103) (.r 117) (.r 121),
    .add 124 125 (.r 105) (.r 109) (.r 123), .add 126 127 (.r 107) (.r 110) (.r 125),
    .set 128 (.plus (.r 127) (.r 108)), .mul 130 129 (.r 3) (.a 3), .mul 132 131 (.r 3) (.a 2),
    .mul 134 133 (.r 3) (.a 1), .mul 136 135 (.r 3) (.a 0), .add 137 138 (.r 136) (.r 133) (.k 0),
    .add 139 140 (.r 134) (.r 131) (.r 138), .add 141 142 (.r 132) (.r 129) (.r 140),
    .set 143 (.plus (.r 142) (.r 130)), .add 144 145 (.r 120) (.r 135) (.k 0),
    .add 146 147 (.r 122) (.r 137) (.r 145), .add 148 149 (.r 124) (.r 139) (.r 147),
    .add 150 151 (.r 126) (.r 141) (.r 149), .add 152 153 (.r 128) (.r 143) (.r 151),
    .mul 155 154 (.r 144) (.k 0xffffffff00000001), .mul 157 156 (.r 144) (.k 0xffffffff),
    .mul 159 158 (.r 144) (.k 0xffffffffffffffff), .add 160 161 (.r 159) (.r 156) (.k 0),
    .set 162 (.plus (.r 161) (.r 157)), .add 0 164 (.r 144) (.r 158) (.k 0), .add 165 166 (.r 146) (.r 160) (.r 164),
    .add 167 168 (.r 148) (.r 162) (.r 166), .add 169 170 (.r 150) (.r 154) (.r 168),
    .add 171 172 (.r 152) (.r 155) (.r 170), .set 173 (.plus (.r 172) (.r 153)),
    .sub 174 175 (.r 165) (.k 0xffffffffffffffff) (.k 0), .sub 176 177 (.r 167) (.k 0xffffffff) (.r 175),
    .sub 178 179 (.r 169) (.k 0) (.r 177), .sub 180 181 (.r 171) (.k 0xffffffff00000001) (.r 179),
    .sub 0 183 (.r 173) (.k 0) (.r 181), .cmov 184 (.r 183) (.r 174) (.r 165), .cmov 185 (.r 183) (.r 176) (.r 167),
    .cmov 186 (.r 183) (.r 178) (.r 169), .cmov 187 (.r 183) (.r 180) (.r 171)]
  out := [.r 184, .r 185, .r 186, .r 187]

/-- `Add` (`p256_fp.go:656-695`) -/
def add : Prog where
  code := [
    .add 1 2 (.a 0) (.b 0) (.k 0), .add 3 4 (.a 1) (.b 1) (.r 2), .add 5 6 (.a 2) (.b 2) (.r 4),
    .add 7 8 (.a 3) (.b 3) (.r 6), .sub 9 10 (.r 1) (.k 0xffffffffffffffff) (.k 0),
    .sub 11 12 (.r 3) (.k 0xffffffff) (.r 10), .sub 13 14 (.r 5) (.k 0) (.r 12),
    .sub 15 16 (.r 7) (.k 0xffffffff00000001) (.r 14), .sub 0 18 (.r 8) (.k 0) (.r 16),
    .cmov 19 (.r 18) (.r 9) (.r 1), .cmov 20 (.r 18) (.r 11) (.r 3), .cmov 21 (.r 18) (.r 13) (.r 5),
    .cmov 22 (.r 18) (.r 15) (.r 7)]
  out := [.r 19, .r 20, .r 21, .r 22]

/-- `Sub` (`p256_fp.go:706-736`) -/
def sub : Prog where
  code := [
    .sub 1 2 (.a 0) (.b 0) (.k 0), .sub 3 4 (.a 1) (.b 1) (.r 2), .sub 5 6 (.a 2) (.b 2) (.r 4),
    .sub 7 8 (.a 3) (.b 3) (.r 6), .cmov 9 (.r 8) (.k 0) (.k 0xffffffffffffffff), .add 10 11 (.r 1) (.r 9) (.k 0),
    .add 12 13 (.r 3) (.band (.r 9) (.k 0xffffffff)) (.r 11), .add 14 15 (.r 5) (.k 0) (.r 13),
    .add 16 0 (.r 7) (.band (.r 9) (.k 0xffffffff00000001)) (.r 15)]
  out := [.r 10, .r 12, .r 14, .r 16]

/-- `Opp` (`p256_fp.go:746-776`) -/
def opp : Prog where
  code := [
    .sub 1 2 (.k 0) (.a 0) (.k 0), .sub 3 4 (.k 0) (.a 1) (.r 2), .sub 5 6 (.k 0) (.a 2) (.r 4),
    .sub 7 8 (.k 0) (.a 3) (.r 6), .cmov 9 (.r 8) (.k 0) (.k 0xffffffffffffffff), .add 10 11 (.r 1) (.r 9) (.k 0),
    .add 12 13 (.r 3) (.band (.r 9) (.k 0xffffffff)) (.r 11), .add 14 15 (.r 5) (.k 0) (.r 13),
    .add 16 0 (.r 7) (.band (.r 9) (.k 0xffffffff00000001)) (.r 15)]
  out := [.r 10, .r 12, .r 14, .r 16]

/-- `FromMontgomery` (`p256_fp.go:786-922`) -/
def fromMontgomery : Prog where
  code := [
    .set 1 (.a 0), .mul 3 2 (.r 1) (.k 0xffffffff00000001), .mul 5 4 (.r 1) (.k 0xffffffff),
    .mul 7 6 (.r 1) (.k 0xffffffffffffffff), .add 8 9 (.r 7) (.r 4) (.k 0), .add 0 11 (.r 1) (.r 6) (.k 0),
    .add 12 13 (.k 0) (.r 8) (.r 11), .add 14 15 (.r 12) (.a 1) (.k 0), .mul 17 16 (.r 14) (.k 0xffffffff00000001),
    .mul 19 18 (.r 14) (.k 0xffffffff), .mul 21 20 (.r 14) (.k 0xffffffffffffffff), .add 22 23 (.r 21) (.r 18) (.k 0),
    .add 0 25 (.r 14) (.r 20) (.k 0),
    .add 26 27 (.plus (.r 15) (.plus (.r 13) (.plus (.r 9) (.r 5)))) (.r 22) (.r 25),
    .add 28 29 (.r 2) (.plus (.r 23) (.r 19)) (.r 27), .add 30 31 (.r 3) (.r 16) (.r 29),
    .add 32 33 (.r 26) (.a 2) (.k 0), .add 34 35 (.r 28) (.k 0) (.r 33), .add 36 37 (.r 30) (.k 0) (.r 35),
    .mul 39 38 (.r 32) (.k 0xffffffff00000001), .mul 41 40 (.r 32) (.k 0xffffffff),
    .mul 43 42 (.r 32) (.k 0xffffffffffffffff), .add 44 45 (.r 43) (.r 40) (.k 0), .add 0 47 (.r 32) (.r 42) (.k 0),
    .add 48 49 (.r 34) (.r 44) (.r 47), .add 50 51 (.r 36) (.plus (.r 45) (.r 41)) (.r 49),
    .add 52 53 (.plus (.r 37) (.plus (.r 31) (.r 17))) (.r 38) (.r 51), .add 54 55 (.r 48) (.a 3) (.k 0),
    .add 56 57 (.r 50) (.k 0) (.r 55), .add 58 59 (.r 52) (.k 0) (.r 57), .mul 61 60 (.r 54) (.k 0xffffffff00000001),
    .mul 63 62 (.r 54) (.k 0xffffffff), .mul 65 64 (.r 54) (.k 0xffffffffffffffff), .add 66 67 (.r 65) (.r 62) (.k 0),
    .add 0 69 (.r 54) (.r 64) (.k 0), .add 70 71 (.r 56) (.r 66) (.r 69),
    .add 72 73 (.r 58) (.plus (.r 67) (.r 63)) (.r 71),
    .add 74 75 (.plus (.r 59) (.plus (.r 53) (.r 39))) (.r 60) (.r 73), .set 76 (.plus (.r 75) (.r 61)),
    .sub 77 78 (.r 70) (.k 0xffffffffffffffff) (.k 0), .sub 79 80 (.r 72) (.k 0xffffffff) (.r 78),
    .sub 81 82 (.r 74) (.k 0) (.r 80), .sub 83 84 (.r 76) (.k 0xffffffff00000001) (.r 82),
    .sub 0 86 (.k 0) (.k 0) (.r 84), .cmov 87 (.r 86) (.r 77) (.r 70), .cmov 88 (.r 86) (.r 79) (.r 72),
    .cmov 89 (.r 86) (.r 81) (.r 74), .cmov 90 (.r 86) (.r 83) (.r 76)]
  out := [.r 87, .r 88, .r 89, .r 90]

/-- `ToMontgomery` (`p256_fp.go:932-1187`) -/
def toMontgomery : Prog where
  code := [
    .set 1 (.a 1), .set 2 (.a 2), .set 3 (.a 3), .set 4 (.a 0), .mul 6 5 (.r 4) (.k 0x4fffffffd),
    .mul 8 7 (.r 4) (.k 0xfffffffffffffffe), .mul 10 9 (.r 4) (.k 0xfffffffbffffffff), .mul 12 11 (.r 4) (.k 3),
    .add 13 14 (.r 12) (.r 9) (.k 0), .add 15 16 (.r 10) (.r 7) (.r 14), .add 17 18 (.r 8) (.r 5) (.r 16),
    .mul 20 19 (.r 11) (.k 0xffffffff00000001), .mul 22 21 (.r 11) (.k 0xffffffff),
    .mul 24 23 (.r 11) (.k 0xffffffffffffffff), .add 25 26 (.r 24) (.r 21) (.k 0), .add 0 28 (.r 11) (.r 23) (.k 0),
    .add 29 30 (.r 13) (.r 25) (.r 28), .add 31 32 (.r 15) (.plus (.r 26) (.r 22)) (.r 30),
    .add 33 34 (.r 17) (.r 19) (.r 32), .add 35 36 (.plus (.r 18) (.r 6)) (.r 20) (.r 34),
    .mul 38 37 (.r 1) (.k 0x4fffffffd), .mul 40 39 (.r 1) (.k 0xfffffffffffffffe),
    .mul 42 41 (.r 1) (.k 0xfffffffbffffffff), .mul 44 43 (.r 1) (.k 3), .add 45 46 (.r 44) (.r 41) (.k 0),
    .add 47 48 (.r 42) (.r 39) (.r 46), .add 49 50 (.r 40) (.r 37) (.r 48), .add 51 52 (.r 29) (.r 43) (.k 0),
    .add 53 54 (.r 31) (.r 45) (.r 52), .add 55 56 (.r 33) (.r 47) (.r 54), .add 57 58 (.r 35) (.r 49) (.r 56),
    .mul 60 59 (.r 51) (.k 0xffffffff00000001), .mul 62 61 (.r 51) (.k 0xffffffff),
    .mul 64 63 (.r 51) (.k 0xffffffffffffffff), .add 65 66 (.r 64) (.r 61) (.k 0), .add 0 68 (.r 51) (.r 63) (.k 0),
    .add 69 70 (.r 53) (.r 65) (.r 68), .add 71 72 (.r 55) (.plus (.r 66) (.r 62)) (.r 70),
    .add 73 74 (.r 57) (.r 59) (.r 72),
    .add 75 76 (.plus (.plus (.r 58) (.r 36)) (.plus (.r 50) (.r 38))) (.r 60) (.r 74),
    .mul 78 77 (.r 2) (.k 0x4fffffffd), .mul 80 79 (.r 2) (.k 0xfffffffffffffffe),
    .mul 82 81 (.r 2) (.k 0xfffffffbffffffff), .mul 84 83 (.r 2) (.k 3), .add 85 86 (.r 84) (.r 81) (.k 0),
    .add 87 88 (.r 82) (.r 79) (.r 86), .add 89 90 (.r 80) (.r 77) (.r 88), .add 91 92 (.r 69) (.r 83) (.k 0),
    .add 93 94 (.r 71) (.r 85) (.r 92), .add 95 96 (.r 73) (.r 87) (.r 94), .add 97 98 (.r 75) (.r 89) (.r 96),
    .mul 100 99 (.r 91) (.k 0xffffffff00000001), .mul 102 101 (.r 91) (.k 0xffffffff),
    .mul 104 103 (.r 91) (.k 0xffffffffffffffff), .add 105 106 (.r 104) (.r 101) (.k 0),
    .add 0 108 (.r 91) (.r 103) (.k 0), .add 109 110 (.r 93) (.r 105) (.r 108),
    .add 111 112 (.r 95) (.plus (.r 106) (.r 102)) (.r 110), .add 113 114 (.r 97) (.r 99) (.r 112),
    .add 115 116 (.plus (.plus (.r 98) (.r 76)) (.plus (.r 90) (.r 78))) (.r 100) (.r 114),
    .mul 118 117 (.r 3) (.k 0x4fffffffd), .mul 120 119 (.r 3) (.k 0xfffffffffffffffe),
    .mul 122 121 (.r 3) (.k 0xfffffffbffffffff), .mul 124 123 (.r 3) (.k 3), .add 125 126 (.r 124) (.r 121) (.k 0),
    .add 127 128 (.r 122) (.r 119) (.r 126), .add 129 130 (.r 120) (.r 117) (.r 128),
    .add 131 132 (.r 109) (.r 123) (.k 0), .add 133 134 (.r 111) (.r 125) (.r 132),
    .add 135 136 (.r 113) (.r 127) (.r 134), .add 137 138 (.r 115) (.r 129) (.r 136),
    .mul 140 139 (.r 131) (.k 0xffffffff00000001), .mul 142 141 (.r 131) (.k 0xffffffff),
    .mul 144 143 (.r 131) (.k 0xffffffffffffffff), .add 145 146 (.r 144) (.r 141) (.k 0),
    .add 0 148 (.r 131) (.r 143) (.k 0), .add 149 150 (.r 133) (.r 145) (.r 148),
    .add 151 152 (.r 135) (.plus (.r 146) (.r 142)) (.r 150), .add 153 154 (.r 137) (.r 139) (.r 152),
    .add 155 156 (.plus (.plus (.r 138) (.r 116)) (.plus (.r 130) (.r 118))) (.r 140) (.r 154),
    .sub 157 158 (.r 149) (.k 0xffffffffffffffff) (.k 0), .sub 159 160 (.r 151) (.k 0xffffffff) (.r 158),
    .sub 161 162 (.r 153) (.k 0) (.r 160), .sub 163 164 (.r 155) (.k 0xffffffff00000001) (.r 162),
    .sub 0 166 (.r 156) (.k 0) (.r 164), .cmov 167 (.r 166) (.r 157) (.r 149), .cmov 168 (.r 166) (.r 159) (.r 151),
    .cmov 169 (.r 166) (.r 161) (.r 153), .cmov 170 (.r 166) (.r 163) (.r 155)]
  out := [.r 167, .r 168, .r 169, .r 170]

/-- the functions of the field -/
def code : FieldCode := ⟨mul, square, add, sub, opp, fromMontgomery, toMontgomery⟩

set_option maxRecDepth 10000 in
/-- the checker accepts the functions -/
theorem code_ok : code.ok Primes.p256p = true := by decide +kernel

end Verif.Fiat.P256Fp

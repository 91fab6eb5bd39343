import Verif.Common.Primes
import Verif.Fiat.Check

/-!
# The code of `pkg/core/curves/native/pasta/fq/pasta_fq.go`, statement by statement

Registers are the variables `x1, x2, …` of the Go code, `a` and `b` the limbs of the two arguments; the conversions between `uint1` and
`uint64`, which are the same type, are left out.
-/

namespace Verif.Fiat.PastaFq
open Verif.Fiat

/-- `fiat_pasta_fq_mul` (`pasta_fq.go:99-382`) -/
def mul : Prog where
  code := [
    .set 1 (.a 1), .set 2 (.a 2), .set 3 (.a 3), .set 4 (.a 0), .mul 6 5 (.r 4) (.b 3), .mul 8 7 (.r 4) (.b 2),
    .mul 10 9 (.r 4) (.b 1), .mul 12 11 (.r 4) (.b 0), .add 13 14 (.r 12) (.r 9) (.k 0),
    .add 15 16 (.r 10) (.r 7) (.r 14), .add 17 18 (.r 8) (.r 5) (.r 16), .set 19 (.plus (.r 18) (.r 6)),
    .mul 0 20 (.r 11) (.k 0x8c46eb20ffffffff), .mul 23 22 (.r 20) (.k 0x4000000000000000),
    .mul 25 24 (.r 20) (.k 0x224698fc0994a8dd), .mul 27 26 (.r 20) (.k 0x8c46eb2100000001),
    .add 28 29 (.r 27) (.r 24) (.k 0), .set 30 (.plus (.r 29) (.r 25)), .add 0 32 (.r 11) (.r 26) (.k 0),
    .add 33 34 (.r 13) (.r 28) (.r 32), .add 35 36 (.r 15) (.r 30) (.r 34), .add 37 38 (.r 17) (.r 22) (.r 36),
    .add 39 40 (.r 19) (.r 23) (.r 38), .mul 42 41 (.r 1) (.b 3), .mul 44 43 (.r 1) (.b 2), .mul 46 45 (.r 1) (.b 1),
    .mul 48 47 (.r 1) (.b 0), .add 49 50 (.r 48) (.r 45) (.k 0), .add 51 52 (.r 46) (.r 43) (.r 50),
    .add 53 54 (.r 44) (.r 41) (.r 52), .set 55 (.plus (.r 54) (.r 42)), .add 56 57 (.r 33) (.r 47) (.k 0),
    .add 58 59 (.r 35) (.r 49) (.r 57), .add 60 61 (.r 37) (.r 51) (.r 59), .add 62 63 (.r 39) (.r 53) (.r 61),
    .add 64 65 (.r 40) (.r 55) (.r 63), .mul 0 66 (.r 56) (.k 0x8c46eb20ffffffff),
    .mul 69 68 (.r 66) (.k 0x4000000000000000), .mul 71 70 (.r 66) (.k 0x224698fc0994a8dd),
    .mul 73 72 (.r 66) (.k 0x8c46eb2100000001), .add 74 75 (.r 73) (.r 70) (.k 0), .set 76 (.plus (.r 75) (.r 71)),
    .add 0 78 (.r 56) (.r 72) (.k 0), .add 79 80 (.r 58) (.r 74) (.r 78), .add 81 82 (.r 60) (.r 76) (.r 80),
    .add 83 84 (.r 62) (.r 68) (.r 82), .add 85 86 (.r 64) (.r 69) (.r 84), .set 87 (.plus (.r 86) (.r 65)),
    .mul 89 88 (.r 2) (.b 3), .mul 91 90 (.r 2) (.b 2), .mul 93 92 (.r 2) (.b 1), .mul 95 94 (.r 2) (.b 0),
    .add 96 97 (.r 95) (.r 92) (.k 0), .add 98 99 (.r 93) (.r 90) (.r 97), .add 100 101 (.r 91) (.r 88) (.r 99),
    .set 102 (.plus (.r 101) (.r 89)), .add 103 104 (.r 79) (.r 94) (.k 0), .add 105 106 (.r 81) (.r 96) (.r 104),
    .add 107 108 (.r 83) (.r 98) (.r 106), .add 109 110 (.r 85) (.r 100) (.r 108),
    .add 111 112 (.r 87) (.r 102) (.r 110), .mul 0 113 (.r 103) (.k 0x8c46eb20ffffffff),
    .mul 116 115 (.r 113) (.k 0x4000000000000000), .mul 118 117 (.r 113) (.k 0x224698fc0994a8dd),
    .mul 120 119 (.r 113) (.k 0x8c46eb2100000001), .add 121 122 (.r 120) (.r 117) (.k 0),
    .set 123 (.plus (.r 122) (.r 118)), .add 0 125 (.r 103) (.r 119) (.k 0), .add 126 127 (.r 105) (.r 121) (.r 125),
    .add 128 129 (.r 107) (.r 123) (.r 127), .add 130 131 (.r 109) (.r 115) (.r 129),
    .add 132 133 (.r 111) (.r 116) (.r 131), .set 134 (.plus (.r 133) (.r 112)), .mul 136 135 (.r 3) (.b 3),
    .mul 138 137 (.r 3) (.b 2), .mul 140 139 (.r 3) (.b 1), .mul 142 141 (.r 3) (.b 0),
    .add 143 144 (.r 142) (.r 139) (.k 0), .add 145 146 (.r 140) (.r 137) (.r 144),
    .add 147 148 (.r 138) (.r 135) (.r 146), .set 149 (.plus (.r 148) (.r 136)),
    .add 150 151 (.r 126) (.r 141) (.k 0), .add 152 153 (.r 128) (.r 143) (.r 151),
    .add 154 155 (.r 130) (.r 145) (.r 153), .add 156 157 (.r 132) (.r 147) (.r 155),
    .add 158 159 (.r 134) (.r 149) (.r 157), .mul 0 160 (.r 150) (.k 0x8c46eb20ffffffff),
    .mul 163 162 (.r 160) (.k 0x4000000000000000), .mul 165 164 (.r 160) (.k 0x224698fc0994a8dd),
    .mul 167 166 (.r 160) (.k 0x8c46eb2100000001), .add 168 169 (.r 167) (.r 164) (.k 0),
    .set 170 (.plus (.r 169) (.r 165)), .add 0 172 (.r 150) (.r 166) (.k 0), .add 173 174 (.r 152) (.r 168) (.r 172),
    .add 175 176 (.r 154) (.r 170) (.r 174), .add 177 178 (.r 156) (.r 162) (.r 176),
    .add 179 180 (.r 158) (.r 163) (.r 178), .set 181 (.plus (.r 180) (.r 159)),
    .sub 182 183 (.r 173) (.k 0x8c46eb2100000001) (.k 0), .sub 184 185 (.r 175) (.k 0x224698fc0994a8dd) (.r 183),
    .sub 186 187 (.r 177) (.k 0) (.r 185), .sub 188 189 (.r 179) (.k 0x4000000000000000) (.r 187),
    .sub 0 191 (.r 181) (.k 0) (.r 189), .cmov 192 (.r 191) (.r 182) (.r 173), .cmov 193 (.r 191) (.r 184) (.r 175),
    .cmov 194 (.r 191) (.r 186) (.r 177), .cmov 195 (.r 191) (.r 188) (.r 179)]
  out := [.r 192, .r 193, .r 194, .r 195]

/-- `fiat_pasta_fq_square` (`pasta_fq.go:392-675`) -/
def square : Prog where
  code := [
    .set 1 (.a 1), .set 2 (.a 2), .set 3 (.a 3), .set 4 (.a 0), .mul 6 5 (.r 4) (.a 3), .mul 8 7 (.r 4) (.a 2),
    .mul 10 9 (.r 4) (.a 1), .mul 12 11 (.r 4) (.a 0), .add 13 14 (.r 12) (.r 9) (.k 0),
    .add 15 16 (.r 10) (.r 7) (.r 14), .add 17 18 (.r 8) (.r 5) (.r 16), .set 19 (.plus (.r 18) (.r 6)),
    .mul 0 20 (.r 11) (.k 0x8c46eb20ffffffff), .mul 23 22 (.r 20) (.k 0x4000000000000000),
    .mul 25 24 (.r 20) (.k 0x224698fc0994a8dd), .mul 27 26 (.r 20) (.k 0x8c46eb2100000001),
    .add 28 29 (.r 27) (.r 24) (.k 0), .set 30 (.plus (.r 29) (.r 25)), .add 0 32 (.r 11) (.r 26) (.k 0),
    .add 33 34 (.r 13) (.r 28) (.r 32), .add 35 36 (.r 15) (.r 30) (.r 34), .add 37 38 (.r 17) (.r 22) (.r 36),
    .add 39 40 (.r 19) (.r 23) (.r 38), .mul 42 41 (.r 1) (.a 3), .mul 44 43 (.r 1) (.a 2), .mul 46 45 (.r 1) (.a 1),
    .mul 48 47 (.r 1) (.a 0), .add 49 50 (.r 48) (.r 45) (.k 0), .add 51 52 (.r 46) (.r 43) (.r 50),
    .add 53 54 (.r 44) (.r 41) (.r 52), .set 55 (.plus (.r 54) (.r 42)), .add 56 57 (.r 33) (.r 47) (.k 0),
    .add 58 59 (.r 35) (.r 49) (.r 57), .add 60 61 (.r 37) (.r 51) (.r 59), .add 62 63 (.r 39) (.r 53) (.r 61),
    .add 64 65 (.r 40) (.r 55) (.r 63), .mul 0 66 (.r 56) (.k 0x8c46eb20ffffffff),
    .mul 69 68 (.r 66) (.k 0x4000000000000000), .mul 71 70 (.r 66) (.k 0x224698fc0994a8dd),
    .mul 73 72 (.r 66) (.k 0x8c46eb2100000001), .add 74 75 (.r 73) (.r 70) (.k 0), .set 76 (.plus (.r 75) (.r 71)),
    .add 0 78 (.r 56) (.r 72) (.k 0), .add 79 80 (.r 58) (.r 74) (.r 78), .add 81 82 (.r 60) (.r 76) (.r 80),
    .add 83 84 (.r 62) (.r 68) (.r 82), .add 85 86 (.r 64) (.r 69) (.r 84), .set 87 (.plus (.r 86) (.r 65)),
    .mul 89 88 (.r 2) (.a 3), .mul 91 90 (.r 2) (.a 2), .mul 93 92 (.r 2) (.a 1), .mul 95 94 (.r 2) (.a 0),
    .add 96 97 (.r 95) (.r 92) (.k 0), .add 98 99 (.r 93) (.r 90) (.r 97), .add 100 101 (.r 91) (.r 88) (.r 99),
    .set 102 (.plus (.r 101) (.r 89)), .add 103 104 (.r 79) (.r 94) (.k 0), .add 105 106 (.r 81) (.r 96) (.r 104),
    .add 107 108 (.r 83) (.r 98) (.r 106), .add 109 110 (.r 85) (.r 100) (.r 108),
    .add 111 112 (.r 87) (.r 102) (.r 110), .mul 0 113 (.r 103) (.k 0x8c46eb20ffffffff),
    .mul 116 115 (.r 113) (.k 0x4000000000000000), .mul 118 117 (.r 113) (.k 0x224698fc0994a8dd),
    .mul 120 119 (.r 113) (.k 0x8c46eb2100000001), .add 121 122 (.r 120) (.r 117) (.k 0),
    .set 123 (.plus (.r 122) (.r 118)), .add 0 125 (.r 103) (.r 119) (.k 0), .add 126 127 (.r 105) (.r 121) (.r 125),
    .add 128 129 (.r 107) (.r 123) (.r 127), .add 130 131 (.r 109) (.r 115) (.r 129),
    .add 132 133 (.r 111) (.r 116) (.r 131), .set 134 (.plus (.r 133) (.r 112)), .mul 136 135 (.r 3) (.a 3),
    .mul 138 137 (.r 3) (.a 2), .mul 140 139 (.r 3) (.a 1), .mul 142 141 (.r 3) (.a 0),
    .add 143 144 (.r 142) (.r 139) (.k 0), .add 145 146 (.r 140) (.r 137) (.r 144),
    .add 147 148 (.r 138) (.r 135) (.r 146), .set 149 (.plus (.r 148) (.r 136)),
    .add 150 151 (.r 126) (.r 141) (.k 0), .add 152 153 (.r 128) (.r 143) (.r 151),
    .add 154 155 (.r 130) (.r 145) (.r 153), .add 156 157 (.r 132) (.r 147) (.r 155),
    .add 158 159 (.r 134) (.r 149) (.r 157), .mul 0 160 (.r 150) (.k 0x8c46eb20ffffffff),
    .mul 163 162 (.r 160) (.k 0x4000000000000000), .mul 165 164 (.r 160) (.k 0x224698fc0994a8dd),
    .mul 167 166 (.r 160) (.k 0x8c46eb2100000001), .add 168 169 (.r 167) (.r 164) (.k 0),
    .set 170 (.plus (.r 169) (.r 165)), .add 0 172 (.r 150) (.r 166) (.k 0), .add 173 174 (.r 152) (.r 168) (.r 172),
    .add 175 176 (.r 154) (.r 170) (.r 174), .add 177 178 (.r 156) (.r 162) (.r 176),
    .add 179 180 (.r 158) (.r 163) (.r 178), .set 181 (.plus (.r 180) (.r 159)),
    .sub 182 183 (.r 173) (.k 0x8c46eb2100000001) (.k 0), .sub 184 185 (.r 175) (.k 0x224698fc0994a8dd) (.r 183),
    .sub 186 187 (.r 177) (.k 0) (.r 185), .sub 188 189 (.r 179) (.k 0x4000000000000000) (.r 187),
    .sub 0 191 (.r 181) (.k 0) (.r 189), .cmov 192 (.r 191) (.r 182) (.r 173), .cmov 193 (.r 191) (.r 184) (.r 175),
    .cmov 194 (.r 191) (.r 186) (.r 177), .cmov 195 (.r 191) (.r 188) (.r 179)]
  out := [.r 192, .r 193, .r 194, .r 195]

/-- `fiat_pasta_fq_add` (`pasta_fq.go:686-725`) -/
def add : Prog where
  code := [
    .add 1 2 (.a 0) (.b 0) (.k 0), .add 3 4 (.a 1) (.b 1) (.r 2), .add 5 6 (.a 2) (.b 2) (.r 4),
    .add 7 8 (.a 3) (.b 3) (.r 6), .sub 9 10 (.r 1) (.k 0x8c46eb2100000001) (.k 0),
    .sub 11 12 (.r 3) (.k 0x224698fc0994a8dd) (.r 10), .sub 13 14 (.r 5) (.k 0) (.r 12),
    .sub 15 16 (.r 7) (.k 0x4000000000000000) (.r 14), .sub 0 18 (.r 8) (.k 0) (.r 16),
    .cmov 19 (.r 18) (.r 9) (.r 1), .cmov 20 (.r 18) (.r 11) (.r 3), .cmov 21 (.r 18) (.r 13) (.r 5),
    .cmov 22 (.r 18) (.r 15) (.r 7)]
  out := [.r 19, .r 20, .r 21, .r 22]

/-- `fiat_pasta_fq_sub` (`pasta_fq.go:736-766`) -/
def sub : Prog where
  code := [
    .sub 1 2 (.a 0) (.b 0) (.k 0), .sub 3 4 (.a 1) (.b 1) (.r 2), .sub 5 6 (.a 2) (.b 2) (.r 4),
    .sub 7 8 (.a 3) (.b 3) (.r 6), .cmov 9 (.r 8) (.k 0) (.k 0xffffffffffffffff),
    .add 10 11 (.r 1) (.band (.r 9) (.k 0x8c46eb2100000001)) (.k 0),
    .add 12 13 (.r 3) (.band (.r 9) (.k 0x224698fc0994a8dd)) (.r 11), .add 14 15 (.r 5) (.k 0) (.r 13),
    .add 16 0 (.r 7) (.band (.r 9) (.k 0x4000000000000000)) (.r 15)]
  out := [.r 10, .r 12, .r 14, .r 16]

/-- `fiat_pasta_fq_opp` (`pasta_fq.go:776-806`) -/
def opp : Prog where
  code := [
    .sub 1 2 (.k 0) (.a 0) (.k 0), .sub 3 4 (.k 0) (.a 1) (.r 2), .sub 5 6 (.k 0) (.a 2) (.r 4),
    .sub 7 8 (.k 0) (.a 3) (.r 6), .cmov 9 (.r 8) (.k 0) (.k 0xffffffffffffffff),
    .add 10 11 (.r 1) (.band (.r 9) (.k 0x8c46eb2100000001)) (.k 0),
    .add 12 13 (.r 3) (.band (.r 9) (.k 0x224698fc0994a8dd)) (.r 11), .add 14 15 (.r 5) (.k 0) (.r 13),
    .add 16 0 (.r 7) (.band (.r 9) (.k 0x4000000000000000)) (.r 15)]
  out := [.r 10, .r 12, .r 14, .r 16]

/-- `fiat_pasta_fq_from_montgomery` (`pasta_fq.go:816-960`) -/
def fromMontgomery : Prog where
  code := [
    .set 1 (.a 0), .mul 0 2 (.r 1) (.k 0x8c46eb20ffffffff), .mul 5 4 (.r 2) (.k 0x4000000000000000),
    .mul 7 6 (.r 2) (.k 0x224698fc0994a8dd), .mul 9 8 (.r 2) (.k 0x8c46eb2100000001), .add 10 11 (.r 9) (.r 6) (.k 0),
    .add 0 13 (.r 1) (.r 8) (.k 0), .add 14 15 (.k 0) (.r 10) (.r 13), .add 16 17 (.r 14) (.a 1) (.k 0),
    .mul 0 18 (.r 16) (.k 0x8c46eb20ffffffff), .mul 21 20 (.r 18) (.k 0x4000000000000000),
    .mul 23 22 (.r 18) (.k 0x224698fc0994a8dd), .mul 25 24 (.r 18) (.k 0x8c46eb2100000001),
    .add 26 27 (.r 25) (.r 22) (.k 0), .add 0 29 (.r 16) (.r 24) (.k 0),
    .add 30 31 (.plus (.r 17) (.plus (.r 15) (.plus (.r 11) (.r 7)))) (.r 26) (.r 29),
    .add 32 33 (.r 4) (.plus (.r 27) (.r 23)) (.r 31), .add 34 35 (.r 5) (.r 20) (.r 33),
    .add 36 37 (.r 30) (.a 2) (.k 0), .add 38 39 (.r 32) (.k 0) (.r 37), .add 40 41 (.r 34) (.k 0) (.r 39),
    .mul 0 42 (.r 36) (.k 0x8c46eb20ffffffff), .mul 45 44 (.r 42) (.k 0x4000000000000000),
    .mul 47 46 (.r 42) (.k 0x224698fc0994a8dd), .mul 49 48 (.r 42) (.k 0x8c46eb2100000001),
    .add 50 51 (.r 49) (.r 46) (.k 0), .add 0 53 (.r 36) (.r 48) (.k 0), .add 54 55 (.r 38) (.r 50) (.r 53),
    .add 56 57 (.r 40) (.plus (.r 51) (.r 47)) (.r 55),
    .add 58 59 (.plus (.r 41) (.plus (.r 35) (.r 21))) (.r 44) (.r 57), .add 60 61 (.r 54) (.a 3) (.k 0),
    .add 62 63 (.r 56) (.k 0) (.r 61), .add 64 65 (.r 58) (.k 0) (.r 63), .mul 0 66 (.r 60) (.k 0x8c46eb20ffffffff),
    .mul 69 68 (.r 66) (.k 0x4000000000000000), .mul 71 70 (.r 66) (.k 0x224698fc0994a8dd),
    .mul 73 72 (.r 66) (.k 0x8c46eb2100000001), .add 74 75 (.r 73) (.r 70) (.k 0), .add 0 77 (.r 60) (.r 72) (.k 0),
    .add 78 79 (.r 62) (.r 74) (.r 77), .add 80 81 (.r 64) (.plus (.r 75) (.r 71)) (.r 79),
    .add 82 83 (.plus (.r 65) (.plus (.r 59) (.r 45))) (.r 68) (.r 81), .set 84 (.plus (.r 83) (.r 69)),
    .sub 85 86 (.r 78) (.k 0x8c46eb2100000001) (.k 0), .sub 87 88 (.r 80) (.k 0x224698fc0994a8dd) (.r 86),
    .sub 89 90 (.r 82) (.k 0) (.r 88), .sub 91 92 (.r 84) (.k 0x4000000000000000) (.r 90),
    .sub 0 94 (.k 0) (.k 0) (.r 92), .cmov 95 (.r 94) (.r 85) (.r 78), .cmov 96 (.r 94) (.r 87) (.r 80),
    .cmov 97 (.r 94) (.r 89) (.r 82), .cmov 98 (.r 94) (.r 91) (.r 84)]
  out := [.r 95, .r 96, .r 97, .r 98]

/-- `fiat_pasta_fq_to_montgomery` (`pasta_fq.go:970-1222`) -/
def toMontgomery : Prog where
  code := [
    .set 1 (.a 1), .set 2 (.a 2), .set 3 (.a 3), .set 4 (.a 0), .mul 6 5 (.r 4) (.k 0x96d41af7ccfdaa9),
    .mul 8 7 (.r 4) (.k 0x7fae231004ccf590), .mul 10 9 (.r 4) (.k 0x67bb433d891a16e3),
    .mul 12 11 (.r 4) (.k 0xfc9678ff0000000f), .add 13 14 (.r 12) (.r 9) (.k 0), .add 15 16 (.r 10) (.r 7) (.r 14),
    .add 17 18 (.r 8) (.r 5) (.r 16), .mul 0 19 (.r 11) (.k 0x8c46eb20ffffffff),
    .mul 22 21 (.r 19) (.k 0x4000000000000000), .mul 24 23 (.r 19) (.k 0x224698fc0994a8dd),
    .mul 26 25 (.r 19) (.k 0x8c46eb2100000001), .add 27 28 (.r 26) (.r 23) (.k 0), .add 0 30 (.r 11) (.r 25) (.k 0),
    .add 31 32 (.r 13) (.r 27) (.r 30), .add 33 34 (.r 15) (.plus (.r 28) (.r 24)) (.r 32),
    .add 35 36 (.r 17) (.r 21) (.r 34), .mul 38 37 (.r 1) (.k 0x96d41af7ccfdaa9),
    .mul 40 39 (.r 1) (.k 0x7fae231004ccf590), .mul 42 41 (.r 1) (.k 0x67bb433d891a16e3),
    .mul 44 43 (.r 1) (.k 0xfc9678ff0000000f), .add 45 46 (.r 44) (.r 41) (.k 0), .add 47 48 (.r 42) (.r 39) (.r 46),
    .add 49 50 (.r 40) (.r 37) (.r 48), .add 51 52 (.r 31) (.r 43) (.k 0), .add 53 54 (.r 33) (.r 45) (.r 52),
    .add 55 56 (.r 35) (.r 47) (.r 54),
    .add 57 58 (.plus (.plus (.r 36) (.plus (.r 18) (.r 6))) (.r 22)) (.r 49) (.r 56),
    .mul 0 59 (.r 51) (.k 0x8c46eb20ffffffff), .mul 62 61 (.r 59) (.k 0x4000000000000000),
    .mul 64 63 (.r 59) (.k 0x224698fc0994a8dd), .mul 66 65 (.r 59) (.k 0x8c46eb2100000001),
    .add 67 68 (.r 66) (.r 63) (.k 0), .add 0 70 (.r 51) (.r 65) (.k 0), .add 71 72 (.r 53) (.r 67) (.r 70),
    .add 73 74 (.r 55) (.plus (.r 68) (.r 64)) (.r 72), .add 75 76 (.r 57) (.r 61) (.r 74),
    .mul 78 77 (.r 2) (.k 0x96d41af7ccfdaa9), .mul 80 79 (.r 2) (.k 0x7fae231004ccf590),
    .mul 82 81 (.r 2) (.k 0x67bb433d891a16e3), .mul 84 83 (.r 2) (.k 0xfc9678ff0000000f),
    .add 85 86 (.r 84) (.r 81) (.k 0), .add 87 88 (.r 82) (.r 79) (.r 86), .add 89 90 (.r 80) (.r 77) (.r 88),
    .add 91 92 (.r 71) (.r 83) (.k 0), .add 93 94 (.r 73) (.r 85) (.r 92), .add 95 96 (.r 75) (.r 87) (.r 94),
    .add 97 98 (.plus (.plus (.r 76) (.plus (.r 58) (.plus (.r 50) (.r 38)))) (.r 62)) (.r 89) (.r 96),
    .mul 0 99 (.r 91) (.k 0x8c46eb20ffffffff), .mul 102 101 (.r 99) (.k 0x4000000000000000),
    .mul 104 103 (.r 99) (.k 0x224698fc0994a8dd), .mul 106 105 (.r 99) (.k 0x8c46eb2100000001),
    .add 107 108 (.r 106) (.r 103) (.k 0), .add 0 110 (.r 91) (.r 105) (.k 0), .add 111 112 (.r 93) (.r 107) (.r 110),
    .add 113 114 (.r 95) (.plus (.r 108) (.r 104)) (.r 112), .add 115 116 (.r 97) (.r 101) (.r 114),
    .mul 118 117 (.r 3) (.k 0x96d41af7ccfdaa9), .mul 120 119 (.r 3) (.k 0x7fae231004ccf590),
    .mul 122 121 (.r 3) (.k 0x67bb433d891a16e3), .mul 124 123 (.r 3) (.k 0xfc9678ff0000000f),
    .add 125 126 (.r 124) (.r 121) (.k 0), .add 127 128 (.r 122) (.r 119) (.r 126),
    .add 129 130 (.r 120) (.r 117) (.r 128), .add 131 132 (.r 111) (.r 123) (.k 0),
    .add 133 134 (.r 113) (.r 125) (.r 132), .add 135 136 (.r 115) (.r 127) (.r 134),
    .add 137 138 (.plus (.plus (.r 116) (.plus (.r 98) (.plus (.r 90) (.r 78)))) (.r 102)) (.r 129) (.r 136),
    .mul 0 139 (.r 131) (.k 0x8c46eb20ffffffff), .mul 142 141 (.r 139) (.k 0x4000000000000000),
    .mul 144 143 (.r 139) (.k 0x224698fc0994a8dd), .mul 146 145 (.r 139) (.k 0x8c46eb2100000001),
    .add 147 148 (.r 146) (.r 143) (.k 0), .add 0 150 (.r 131) (.r 145) (.k 0),
    .add 151 152 (.r 133) (.r 147) (.r 150), .add 153 154 (.r 135) (.plus (.r 148) (.r 144)) (.r 152),
    .add 155 156 (.r 137) (.r 141) (.r 154),
    .set 157 (.plus (.plus (.r 156) (.plus (.r 138) (.plus (.r 130) (.r 118)))) (.r 142)),
    .sub 158 159 (.r 151) (.k 0x8c46eb2100000001) (.k 0), .sub 160 161 (.r 153) (.k 0x224698fc0994a8dd) (.r 159),
    .sub 162 163 (.r 155) (.k 0) (.r 161), .sub 164 165 (.r 157) (.k 0x4000000000000000) (.r 163),
    .sub 0 167 (.k 0) (.k 0) (.r 165), .cmov 168 (.r 167) (.r 158) (.r 151), .cmov 169 (.r 167) (.r 160) (.r 153),
    .cmov 170 (.r 167) (.r 162) (.r 155), .cmov 171 (.r 167) (.r 164) (.r 157)]
  out := [.r 168, .r 169, .r 170, .r 171]

/-- the functions of the field -/
def code : FieldCode := ⟨mul, square, add, sub, opp, fromMontgomery, toMontgomery⟩

set_option maxRecDepth 10000 in
/-- the checker accepts the functions -/
theorem code_ok : code.ok Primes.pallasq = true := by decide +kernel

end Verif.Fiat.PastaFq

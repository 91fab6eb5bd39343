import Mathlib.Tactic.NormNum.Prime
import Verif.Common.Pocklington

/-!
# The moduli written in the repository are prime

Certificates for Pocklington's criterion, checked by the kernel.
-/

namespace Verif.Primes

theorem prime_2 : Nat.Prime 2 := by norm_num

theorem prime_3 : Nat.Prime 3 := by norm_num

theorem prime_7 : Nat.Prime 7 := by norm_num

theorem prime_13441 : Nat.Prime 13441 := by norm_num

theorem prime_5 : Nat.Prime 5 := by norm_num

theorem prime_29 : Nat.Prime 29 := by norm_num

theorem prime_31 : Nat.Prime 31 := by norm_num

theorem prime_7723 : Nat.Prime 7723 := by norm_num

theorem prime_5323 : Nat.Prime 5323 := by norm_num

theorem prime_2621 : Nat.Prime 2621 := by norm_num

theorem prime_24809 : Nat.Prime 24809 := by norm_num

theorem prime_173378833005251801 : Nat.Prime 173378833005251801 := by
  refine Pock.prime_of_check _ 58 [(2, 3, 3), (5, 2, 2), (2621, 1, 2), (24809, 1, 2)] (by decide +kernel) ?_
  simp only [List.forall_mem_cons, List.not_mem_nil, false_implies, implies_true, and_true]
  exact ⟨prime_2, prime_5, prime_2621, prime_24809⟩

theorem prime_22149492674086928081353 : Nat.Prime 22149492674086928081353 := by
  refine Pock.prime_of_check _ 75 [(2, 3, 5), (3, 1, 2), (5323, 1, 2), (173378833005251801, 1, 2)] (by decide +kernel) ?_
  simp only [List.forall_mem_cons, List.not_mem_nil, false_implies, implies_true, and_true]
  exact ⟨prime_2, prime_3, prime_5323, prime_173378833005251801⟩

theorem prime_132896956044521568488119 : Nat.Prime 132896956044521568488119 := by
  refine Pock.prime_of_check _ 77 [(2, 1, 3), (3, 1, 2), (22149492674086928081353, 1, 2)] (by decide +kernel) ?_
  simp only [List.forall_mem_cons, List.not_mem_nil, false_implies, implies_true, and_true]
  exact ⟨prime_2, prime_3, prime_22149492674086928081353⟩

theorem prime_11 : Nat.Prime 11 := by norm_num

theorem prime_1627 : Nat.Prime 1627 := by norm_num

theorem prime_2657 : Nat.Prime 2657 := by norm_num

theorem prime_4423 : Nat.Prime 4423 := by norm_num

theorem prime_41201 : Nat.Prime 41201 := by norm_num

theorem prime_96557 : Nat.Prime 96557 := by norm_num

theorem prime_255515944373312847190720520512484175977 : Nat.Prime 255515944373312847190720520512484175977 := by
  refine Pock.prime_of_check _ 128 [(2, 3, 3), (7, 2, 2), (11, 1, 2), (1627, 1, 2), (2657, 1, 2), (4423, 1, 2), (41201, 1, 2), (96557, 1, 2)] (by decide +kernel) ?_
  simp only [List.forall_mem_cons, List.not_mem_nil, false_implies, implies_true, and_true]
  exact ⟨prime_2, prime_7, prime_11, prime_1627, prime_2657, prime_4423, prime_41201, prime_96557⟩

theorem prime_205115282021455665897114700593932402728804164701536103180137503955397371 : Nat.Prime 205115282021455665897114700593932402728804164701536103180137503955397371 := by
  refine Pock.prime_of_check _ 237 [(2, 1, 2), (3, 1, 2), (5, 1, 5), (29, 2, 2), (31, 1, 2), (7723, 1, 2), (132896956044521568488119, 1, 2), (255515944373312847190720520512484175977, 1, 2)] (by decide +kernel) ?_
  simp only [List.forall_mem_cons, List.not_mem_nil, false_implies, implies_true, and_true]
  exact ⟨prime_2, prime_3, prime_5, prime_29, prime_31, prime_7723, prime_132896956044521568488119, prime_255515944373312847190720520512484175977⟩

theorem prime_115792089237316195423570985008687907853269984665640564039457584007908834671663 : Nat.Prime 115792089237316195423570985008687907853269984665640564039457584007908834671663 := by
  refine Pock.prime_of_check _ 256 [(2, 1, 3), (3, 1, 2), (7, 1, 3), (13441, 1, 2), (205115282021455665897114700593932402728804164701536103180137503955397371, 1, 2)] (by decide +kernel) ?_
  simp only [List.forall_mem_cons, List.not_mem_nil, false_implies, implies_true, and_true]
  exact ⟨prime_2, prime_3, prime_7, prime_13441, prime_205115282021455665897114700593932402728804164701536103180137503955397371⟩

theorem prime_149 : Nat.Prime 149 := by norm_num

theorem prime_631 : Nat.Prime 631 := by norm_num

theorem prime_16699 : Nat.Prime 16699 := by norm_num

theorem prime_85831 : Nat.Prime 85831 := by norm_num

theorem prime_107361793816595537 : Nat.Prime 107361793816595537 := by
  refine Pock.prime_of_check _ 57 [(2, 4, 3), (16699, 1, 2), (85831, 1, 2)] (by decide +kernel) ?_
  simp only [List.forall_mem_cons, List.not_mem_nil, false_implies, implies_true, and_true]
  exact ⟨prime_2, prime_16699, prime_85831⟩

theorem prime_17 : Nat.Prime 17 := by norm_num

theorem prime_59 : Nat.Prime 59 := by norm_num

theorem prime_4051 : Nat.Prime 4051 := by norm_num

theorem prime_120233 : Nat.Prime 120233 := by norm_num

theorem prime_174723607534414371449 : Nat.Prime 174723607534414371449 := by
  refine Pock.prime_of_check _ 68 [(2, 3, 3), (17, 1, 2), (59, 1, 2), (4051, 1, 2), (120233, 1, 2)] (by decide +kernel) ?_
  simp only [List.forall_mem_cons, List.not_mem_nil, false_implies, implies_true, and_true]
  exact ⟨prime_2, prime_17, prime_59, prime_4051, prime_120233⟩

theorem prime_115792089237316195423570985008687907852837564279074904382605163141518161494337 : Nat.Prime 115792089237316195423570985008687907852837564279074904382605163141518161494337 := by
  refine Pock.prime_of_check _ 256 [(2, 6, 5), (3, 1, 2), (149, 1, 2), (631, 1, 2), (107361793816595537, 1, 2), (174723607534414371449, 1, 2)] (by decide +kernel) ?_
  simp only [List.forall_mem_cons, List.not_mem_nil, false_implies, implies_true, and_true]
  exact ⟨prime_2, prime_3, prime_149, prime_631, prime_107361793816595537, prime_174723607534414371449⟩

theorem prime_257 : Nat.Prime 257 := by norm_num

theorem prime_641 : Nat.Prime 641 := by norm_num

theorem prime_1531 : Nat.Prime 1531 := by norm_num

theorem prime_65537 : Nat.Prime 65537 := by norm_num

theorem prime_490463 : Nat.Prime 490463 := by norm_num

theorem prime_6700417 : Nat.Prime 6700417 := by norm_num

theorem prime_2411 : Nat.Prime 2411 := by norm_num

theorem prime_23 : Nat.Prime 23 := by norm_num

theorem prime_107 : Nat.Prime 107 := by norm_num

theorem prime_204061199 : Nat.Prime 204061199 := by
  refine Pock.prime_of_check _ 28 [(2, 1, 11), (11, 1, 3), (23, 1, 2), (107, 1, 2)] (by decide +kernel) ?_
  simp only [List.forall_mem_cons, List.not_mem_nil, false_implies, implies_true, and_true]
  exact ⟨prime_2, prime_11, prime_23, prime_107⟩

theorem prime_34282281433 : Nat.Prime 34282281433 := by
  refine Pock.prime_of_check _ 35 [(2, 3, 5), (3, 1, 17), (7, 1, 3), (204061199, 1, 2)] (by decide +kernel) ?_
  simp only [List.forall_mem_cons, List.not_mem_nil, false_implies, implies_true, and_true]
  exact ⟨prime_2, prime_3, prime_7, prime_204061199⟩

theorem prime_53 : Nat.Prime 53 := by norm_num

theorem prime_173 : Nat.Prime 173 := by norm_num

theorem prime_197 : Nat.Prime 197 := by norm_num

theorem prime_66417393611 : Nat.Prime 66417393611 := by
  refine Pock.prime_of_check _ 36 [(2, 1, 2), (5, 1, 3), (53, 1, 2), (173, 1, 2), (197, 1, 2)] (by decide +kernel) ?_
  simp only [List.forall_mem_cons, List.not_mem_nil, false_implies, implies_true, and_true]
  exact ⟨prime_2, prime_5, prime_53, prime_173, prime_197⟩

theorem prime_11290956913871 : Nat.Prime 11290956913871 := by
  refine Pock.prime_of_check _ 44 [(2, 1, 13), (5, 1, 2), (17, 1, 2), (66417393611, 1, 2)] (by decide +kernel) ?_
  simp only [List.forall_mem_cons, List.not_mem_nil, false_implies, implies_true, and_true]
  exact ⟨prime_2, prime_5, prime_17, prime_66417393611⟩

theorem prime_774023187263532362759620327192479577272145303 : Nat.Prime 774023187263532362759620327192479577272145303 := by
  refine Pock.prime_of_check _ 150 [(2, 1, 3), (3, 2, 2), (2411, 1, 2), (34282281433, 1, 2), (11290956913871, 1, 2)] (by decide +kernel) ?_
  simp only [List.forall_mem_cons, List.not_mem_nil, false_implies, implies_true, and_true]
  exact ⟨prime_2, prime_3, prime_2411, prime_34282281433, prime_11290956913871⟩

theorem prime_835945042244614951780389953367877943453916927241 : Nat.Prime 835945042244614951780389953367877943453916927241 := by
  refine Pock.prime_of_check _ 160 [(2, 3, 7), (3, 3, 2), (5, 1, 2), (774023187263532362759620327192479577272145303, 1, 2)] (by decide +kernel) ?_
  simp only [List.forall_mem_cons, List.not_mem_nil, false_implies, implies_true, and_true]
  exact ⟨prime_2, prime_3, prime_5, prime_774023187263532362759620327192479577272145303⟩

theorem prime_115792089210356248762697446949407573530086143415290314195533631308867097853951 : Nat.Prime 115792089210356248762697446949407573530086143415290314195533631308867097853951 := by
  refine Pock.prime_of_check _ 256 [(2, 1, 3), (3, 1, 2), (5, 2, 2), (17, 1, 2), (257, 1, 2), (641, 1, 2), (1531, 1, 2), (65537, 1, 2), (490463, 1, 2), (6700417, 1, 2), (835945042244614951780389953367877943453916927241, 1, 2)] (by decide +kernel) ?_
  simp only [List.forall_mem_cons, List.not_mem_nil, false_implies, implies_true, and_true]
  exact ⟨prime_2, prime_3, prime_5, prime_17, prime_257, prime_641, prime_1531, prime_65537, prime_490463, prime_6700417, prime_835945042244614951780389953367877943453916927241⟩

theorem prime_71 : Nat.Prime 71 := by norm_num

theorem prime_131 : Nat.Prime 131 := by norm_num

theorem prime_373 : Nat.Prime 373 := by norm_num

theorem prime_3407 : Nat.Prime 3407 := by norm_num

theorem prime_17449 : Nat.Prime 17449 := by norm_num

theorem prime_38189 : Nat.Prime 38189 := by norm_num

theorem prime_9350987 : Nat.Prime 9350987 := by norm_num

theorem prime_187019741 : Nat.Prime 187019741 := by
  refine Pock.prime_of_check _ 28 [(2, 2, 2), (5, 1, 2), (9350987, 1, 2)] (by decide +kernel) ?_
  simp only [List.forall_mem_cons, List.not_mem_nil, false_implies, implies_true, and_true]
  exact ⟨prime_2, prime_5, prime_9350987⟩

theorem prime_311245691 : Nat.Prime 311245691 := by
  refine Pock.prime_of_check _ 29 [(2, 1, 2), (5, 1, 2), (7, 1, 2), (17, 1, 2), (29, 1, 2)] (by decide +kernel) ?_
  simp only [List.forall_mem_cons, List.not_mem_nil, false_implies, implies_true, and_true]
  exact ⟨prime_2, prime_5, prime_7, prime_17, prime_29⟩

theorem prime_622491383 : Nat.Prime 622491383 := by
  refine Pock.prime_of_check _ 30 [(2, 1, 5), (311245691, 1, 2)] (by decide +kernel) ?_
  simp only [List.forall_mem_cons, List.not_mem_nil, false_implies, implies_true, and_true]
  exact ⟨prime_2, prime_311245691⟩

theorem prime_126241 : Nat.Prime 126241 := by norm_num

theorem prime_3969899 : Nat.Prime 3969899 := by norm_num

theorem prime_1002328039319 : Nat.Prime 1002328039319 := by
  refine Pock.prime_of_check _ 40 [(2, 1, 19), (126241, 1, 2), (3969899, 1, 2)] (by decide +kernel) ?_
  simp only [List.forall_mem_cons, List.not_mem_nil, false_implies, implies_true, and_true]
  exact ⟨prime_2, prime_126241, prime_3969899⟩

theorem prime_115792089210356248762697446949407573529996955224135760342422259061068512044369 : Nat.Prime 115792089210356248762697446949407573529996955224135760342422259061068512044369 := by
  refine Pock.prime_of_check _ 256 [(2, 4, 7), (3, 1, 2), (71, 1, 2), (131, 1, 2), (373, 1, 2), (3407, 1, 2), (17449, 1, 2), (38189, 1, 2), (187019741, 1, 2), (622491383, 1, 2), (1002328039319, 1, 2)] (by decide +kernel) ?_
  simp only [List.forall_mem_cons, List.not_mem_nil, false_implies, implies_true, and_true]
  exact ⟨prime_2, prime_3, prime_71, prime_131, prime_373, prime_3407, prime_17449, prime_38189, prime_187019741, prime_622491383, prime_1002328039319⟩

theorem prime_65147 : Nat.Prime 65147 := by norm_num

theorem prime_353 : Nat.Prime 353 := by norm_num

theorem prime_57467 : Nat.Prime 57467 := by norm_num

theorem prime_132049 : Nat.Prime 132049 := by norm_num

theorem prime_1923133 : Nat.Prime 1923133 := by norm_num

theorem prime_223 : Nat.Prime 223 := by norm_num

theorem prime_4153 : Nat.Prime 4153 := by norm_num

theorem prime_31757755568855353 : Nat.Prime 31757755568855353 := by
  refine Pock.prime_of_check _ 55 [(2, 3, 5), (3, 1, 2), (31, 1, 2), (107, 1, 2), (223, 1, 2), (4153, 1, 2)] (by decide +kernel) ?_
  simp only [List.forall_mem_cons, List.not_mem_nil, false_implies, implies_true, and_true]
  exact ⟨prime_2, prime_3, prime_31, prime_107, prime_223, prime_4153⟩

theorem prime_74058212732561358302231226437062788676166966415465897661863160754340907 : Nat.Prime 74058212732561358302231226437062788676166966415465897661863160754340907 := by
  refine Pock.prime_of_check _ 236 [(2, 1, 2), (3, 1, 2), (353, 1, 2), (57467, 1, 2), (132049, 1, 2), (1923133, 1, 2), (31757755568855353, 1, 2)] (by decide +kernel) ?_
  simp only [List.forall_mem_cons, List.not_mem_nil, false_implies, implies_true, and_true]
  exact ⟨prime_2, prime_3, prime_353, prime_57467, prime_132049, prime_1923133, prime_31757755568855353⟩

theorem prime_57896044618658097711785492504343953926634992332820282019728792003956564819949 : Nat.Prime 57896044618658097711785492504343953926634992332820282019728792003956564819949 := by
  refine Pock.prime_of_check _ 255 [(2, 2, 2), (3, 1, 2), (65147, 1, 2), (74058212732561358302231226437062788676166966415465897661863160754340907, 1, 2)] (by decide +kernel) ?_
  simp only [List.forall_mem_cons, List.not_mem_nil, false_implies, implies_true, and_true]
  exact ⟨prime_2, prime_3, prime_65147, prime_74058212732561358302231226437062788676166966415465897661863160754340907⟩

theorem prime_58964693 : Nat.Prime 58964693 := by norm_num

theorem prime_30703 : Nat.Prime 30703 := by norm_num

theorem prime_82163 : Nat.Prime 82163 := by norm_num

theorem prime_3044861653679985063343 : Nat.Prime 3044861653679985063343 := by
  refine Pock.prime_of_check _ 72 [(2, 1, 3), (3, 1, 2), (11, 1, 2), (30703, 1, 2), (82163, 1, 2)] (by decide +kernel) ?_
  simp only [List.forall_mem_cons, List.not_mem_nil, false_implies, implies_true, and_true]
  exact ⟨prime_2, prime_3, prime_11, prime_30703, prime_82163⟩

theorem prime_198211423230930754013084525763697 : Nat.Prime 198211423230930754013084525763697 := by
  refine Pock.prime_of_check _ 108 [(2, 4, 5), (3, 1, 5), (23, 1, 2), (58964693, 1, 2), (3044861653679985063343, 1, 2)] (by decide +kernel) ?_
  simp only [List.forall_mem_cons, List.not_mem_nil, false_implies, implies_true, and_true]
  exact ⟨prime_2, prime_3, prime_23, prime_58964693, prime_3044861653679985063343⟩

theorem prime_269 : Nat.Prime 269 := by norm_num

theorem prime_73 : Nat.Prime 73 := by norm_num

theorem prime_307 : Nat.Prime 307 := by norm_num

theorem prime_292386187 : Nat.Prime 292386187 := by
  refine Pock.prime_of_check _ 29 [(2, 1, 2), (3, 4, 2), (307, 1, 2)] (by decide +kernel) ?_
  simp only [List.forall_mem_cons, List.not_mem_nil, false_implies, implies_true, and_true]
  exact ⟨prime_2, prime_3, prime_307⟩

theorem prime_213441916511 : Nat.Prime 213441916511 := by
  refine Pock.prime_of_check _ 38 [(2, 1, 13), (5, 1, 2), (73, 1, 2), (292386187, 1, 2)] (by decide +kernel) ?_
  simp only [List.forall_mem_cons, List.not_mem_nil, false_implies, implies_true, and_true]
  exact ⟨prime_2, prime_5, prime_73, prime_292386187⟩

theorem prime_1361 : Nat.Prime 1361 := by norm_num

theorem prime_2851 : Nat.Prime 2851 := by norm_num

theorem prime_41 : Nat.Prime 41 := by norm_num

theorem prime_43 : Nat.Prime 43 := by norm_num

theorem prime_531581 : Nat.Prime 531581 := by norm_num

theorem prime_1257559732178653 : Nat.Prime 1257559732178653 := by
  refine Pock.prime_of_check _ 51 [(2, 2, 2), (3, 1, 2), (7, 1, 2), (23, 1, 2), (531581, 1, 2)] (by decide +kernel) ?_
  simp only [List.forall_mem_cons, List.not_mem_nil, false_implies, implies_true, and_true]
  exact ⟨prime_2, prime_3, prime_7, prime_23, prime_531581⟩

theorem prime_4434155615661930479 : Nat.Prime 4434155615661930479 := by
  refine Pock.prime_of_check _ 62 [(2, 1, 17), (41, 1, 3), (43, 1, 2), (1257559732178653, 1, 2)] (by decide +kernel) ?_
  simp only [List.forall_mem_cons, List.not_mem_nil, false_implies, implies_true, and_true]
  exact ⟨prime_2, prime_41, prime_43, prime_1257559732178653⟩

theorem prime_172054593956031949258510691 : Nat.Prime 172054593956031949258510691 := by
  refine Pock.prime_of_check _ 88 [(2, 1, 2), (5, 1, 2), (1361, 1, 2), (2851, 1, 2), (4434155615661930479, 1, 2)] (by decide +kernel) ?_
  simp only [List.forall_mem_cons, List.not_mem_nil, false_implies, implies_true, and_true]
  exact ⟨prime_2, prime_5, prime_1361, prime_2851, prime_4434155615661930479⟩

theorem prime_19757330305831588566944191468367130476339 : Nat.Prime 19757330305831588566944191468367130476339 := by
  refine Pock.prime_of_check _ 134 [(2, 1, 2), (269, 1, 2), (213441916511, 1, 2), (172054593956031949258510691, 1, 2)] (by decide +kernel) ?_
  simp only [List.forall_mem_cons, List.not_mem_nil, false_implies, implies_true, and_true]
  exact ⟨prime_2, prime_269, prime_213441916511, prime_172054593956031949258510691⟩

theorem prime_276602624281642239937218680557139826668747 : Nat.Prime 276602624281642239937218680557139826668747 := by
  refine Pock.prime_of_check _ 138 [(2, 1, 2), (7, 1, 2), (19757330305831588566944191468367130476339, 1, 2)] (by decide +kernel) ?_
  simp only [List.forall_mem_cons, List.not_mem_nil, false_implies, implies_true, and_true]
  exact ⟨prime_2, prime_7, prime_19757330305831588566944191468367130476339⟩

theorem prime_7237005577332262213973186563042994240857116359379907606001950938285454250989 : Nat.Prime 7237005577332262213973186563042994240857116359379907606001950938285454250989 := by
  refine Pock.prime_of_check _ 253 [(2, 2, 2), (3, 1, 2), (11, 1, 2), (198211423230930754013084525763697, 1, 2), (276602624281642239937218680557139826668747, 1, 2)] (by decide +kernel) ?_
  simp only [List.forall_mem_cons, List.not_mem_nil, false_implies, implies_true, and_true]
  exact ⟨prime_2, prime_3, prime_11, prime_198211423230930754013084525763697, prime_276602624281642239937218680557139826668747⟩

theorem prime_19 : Nat.Prime 19 := by norm_num

theorem prime_10177 : Nat.Prime 10177 := by norm_num

theorem prime_125527 : Nat.Prime 125527 := by norm_num

theorem prime_859267 : Nat.Prime 859267 := by norm_num

theorem prime_906349 : Nat.Prime 906349 := by norm_num

theorem prime_52435875175126190479447740508185965837690552500527637822603658699938581184513 : Nat.Prime 52435875175126190479447740508185965837690552500527637822603658699938581184513 := by
  refine Pock.prime_of_check _ 255 [(2, 32, 5), (3, 1, 2), (11, 1, 2), (19, 1, 2), (10177, 1, 2), (125527, 1, 2), (859267, 1, 2), (906349, 2, 2)] (by decide +kernel) ?_
  simp only [List.forall_mem_cons, List.not_mem_nil, false_implies, implies_true, and_true]
  exact ⟨prime_2, prime_3, prime_11, prime_19, prime_10177, prime_125527, prime_859267, prime_906349⟩

theorem prime_47 : Nat.Prime 47 := by norm_num

theorem prime_52437899 : Nat.Prime 52437899 := by norm_num

theorem prime_89 : Nat.Prime 89 := by norm_num

theorem prime_941 : Nat.Prime 941 := by norm_num

theorem prime_13 : Nat.Prime 13 := by norm_num

theorem prime_7577 : Nat.Prime 7577 := by norm_num

theorem prime_9272813673901 : Nat.Prime 9272813673901 := by
  refine Pock.prime_of_check _ 44 [(2, 2, 2), (3, 1, 2), (5, 2, 2), (7, 1, 2), (7577, 1, 2)] (by decide +kernel) ?_
  simp only [List.forall_mem_cons, List.not_mem_nil, false_implies, implies_true, and_true]
  exact ⟨prime_2, prime_3, prime_5, prime_7, prime_7577⟩

theorem prime_1928745244171409 : Nat.Prime 1928745244171409 := by
  refine Pock.prime_of_check _ 51 [(2, 4, 3), (13, 1, 2), (9272813673901, 1, 2)] (by decide +kernel) ?_
  simp only [List.forall_mem_cons, List.not_mem_nil, false_implies, implies_true, and_true]
  exact ⟨prime_2, prime_13, prime_9272813673901⟩

theorem prime_7259797099061183477 : Nat.Prime 7259797099061183477 := by
  refine Pock.prime_of_check _ 63 [(2, 2, 2), (941, 1, 2), (1928745244171409, 1, 2)] (by decide +kernel) ?_
  simp only [List.forall_mem_cons, List.not_mem_nil, false_implies, implies_true, and_true]
  exact ⟨prime_2, prime_941, prime_1928745244171409⟩

theorem prime_2584487767265781317813 : Nat.Prime 2584487767265781317813 := by
  refine Pock.prime_of_check _ 72 [(2, 2, 2), (89, 1, 2), (7259797099061183477, 1, 2)] (by decide +kernel) ?_
  simp only [List.forall_mem_cons, List.not_mem_nil, false_implies, implies_true, and_true]
  exact ⟨prime_2, prime_89, prime_7259797099061183477⟩

theorem prime_1686913 : Nat.Prime 1686913 := by norm_num

theorem prime_475709467 : Nat.Prime 475709467 := by
  refine Pock.prime_of_check _ 29 [(2, 1, 2), (3, 1, 2), (47, 1, 2), (1686913, 1, 2)] (by decide +kernel) ?_
  simp only [List.forall_mem_cons, List.not_mem_nil, false_implies, implies_true, and_true]
  exact ⟨prime_2, prime_3, prime_47, prime_1686913⟩

theorem prime_467 : Nat.Prime 467 := by norm_num

theorem prime_16447 : Nat.Prime 16447 := by norm_num

theorem prime_409 : Nat.Prime 409 := by norm_num

theorem prime_43591 : Nat.Prime 43591 := by norm_num

theorem prime_927093389 : Nat.Prime 927093389 := by
  refine Pock.prime_of_check _ 30 [(2, 2, 2), (13, 1, 3), (409, 1, 2), (43591, 1, 2)] (by decide +kernel) ?_
  simp only [List.forall_mem_cons, List.not_mem_nil, false_implies, implies_true, and_true]
  exact ⟨prime_2, prime_13, prime_409, prime_43591⟩

theorem prime_64881703735777 : Nat.Prime 64881703735777 := by
  refine Pock.prime_of_check _ 46 [(2, 5, 5), (3, 7, 2), (927093389, 1, 2)] (by decide +kernel) ?_
  simp only [List.forall_mem_cons, List.not_mem_nil, false_implies, implies_true, and_true]
  exact ⟨prime_2, prime_3, prime_927093389⟩

theorem prime_92691255082156974996979 : Nat.Prime 92691255082156974996979 := by
  refine Pock.prime_of_check _ 77 [(2, 1, 2), (3, 1, 3), (31, 1, 2), (467, 1, 2), (16447, 1, 2), (64881703735777, 1, 2)] (by decide +kernel) ?_
  simp only [List.forall_mem_cons, List.not_mem_nil, false_implies, implies_true, and_true]
  exact ⟨prime_2, prime_3, prime_31, prime_467, prime_16447, prime_64881703735777⟩

theorem prime_3373 : Nat.Prime 3373 := by norm_num

theorem prime_51376543 : Nat.Prime 51376543 := by norm_num

theorem prime_43670061551 : Nat.Prime 43670061551 := by
  refine Pock.prime_of_check _ 36 [(2, 1, 7), (5, 2, 2), (17, 1, 2), (51376543, 1, 2)] (by decide +kernel) ?_
  simp only [List.forall_mem_cons, List.not_mem_nil, false_implies, implies_true, and_true]
  exact ⟨prime_2, prime_5, prime_17, prime_51376543⟩

theorem prime_113 : Nat.Prime 113 := by norm_num

theorem prime_755057 : Nat.Prime 755057 := by norm_num

theorem prime_3819663927398918131021 : Nat.Prime 3819663927398918131021 := by
  refine Pock.prime_of_check _ 72 [(2, 2, 2), (3, 2, 3), (5, 1, 3), (19, 1, 2), (113, 1, 2), (755057, 1, 2)] (by decide +kernel) ?_
  simp only [List.forall_mem_cons, List.not_mem_nil, false_implies, implies_true, and_true]
  exact ⟨prime_2, prime_3, prime_5, prime_19, prime_113, prime_755057⟩

theorem prime_1125266252156850182658904441386709967 : Nat.Prime 1125266252156850182658904441386709967 := by
  refine Pock.prime_of_check _ 120 [(2, 1, 5), (3373, 1, 2), (43670061551, 1, 2), (3819663927398918131021, 1, 2)] (by decide +kernel) ?_
  simp only [List.forall_mem_cons, List.not_mem_nil, false_implies, implies_true, and_true]
  exact ⟨prime_2, prime_3373, prime_43670061551, prime_3819663927398918131021⟩

theorem prime_15778400344354997994418419698270088123916926905054652752758194827714659 : Nat.Prime 15778400344354997994418419698270088123916926905054652752758194827714659 := by
  refine Pock.prime_of_check _ 234 [(2, 1, 2), (3, 1, 2), (53, 1, 2), (475709467, 1, 2), (92691255082156974996979, 1, 2), (1125266252156850182658904441386709967, 1, 2)] (by decide +kernel) ?_
  simp only [List.forall_mem_cons, List.not_mem_nil, false_implies, implies_true, and_true]
  exact ⟨prime_2, prime_3, prime_53, prime_475709467, prime_92691255082156974996979, prime_1125266252156850182658904441386709967⟩

theorem prime_4002409555221667393417789825735904156556882819939007885332058136124031650490837864442687629129015664037894272559787 : Nat.Prime 4002409555221667393417789825735904156556882819939007885332058136124031650490837864442687629129015664037894272559787 := by
  refine Pock.prime_of_check _ 381 [(2, 1, 2), (3, 2, 2), (11, 1, 2), (23, 1, 2), (47, 1, 2), (10177, 1, 2), (859267, 1, 2), (52437899, 1, 2), (2584487767265781317813, 1, 2), (15778400344354997994418419698270088123916926905054652752758194827714659, 1, 2)] (by decide +kernel) ?_
  simp only [List.forall_mem_cons, List.not_mem_nil, false_implies, implies_true, and_true]
  exact ⟨prime_2, prime_3, prime_11, prime_23, prime_47, prime_10177, prime_859267, prime_52437899, prime_2584487767265781317813, prime_15778400344354997994418419698270088123916926905054652752758194827714659⟩

theorem prime_463 : Nat.Prime 463 := by norm_num

theorem prime_14923 : Nat.Prime 14923 := by norm_num

theorem prime_1973 : Nat.Prime 1973 := by norm_num

theorem prime_897019 : Nat.Prime 897019 := by norm_num

theorem prime_417677162933 : Nat.Prime 417677162933 := by
  refine Pock.prime_of_check _ 39 [(2, 2, 2), (59, 1, 2), (1973, 1, 2), (897019, 1, 2)] (by decide +kernel) ?_
  simp only [List.forall_mem_cons, List.not_mem_nil, false_implies, implies_true, and_true]
  exact ⟨prime_2, prime_59, prime_1973, prime_897019⟩

theorem prime_539204044132271846773 : Nat.Prime 539204044132271846773 := by
  refine Pock.prime_of_check _ 69 [(2, 2, 2), (3, 5, 3), (89, 1, 2), (14923, 1, 2), (417677162933, 1, 2)] (by decide +kernel) ?_
  simp only [List.forall_mem_cons, List.not_mem_nil, false_implies, implies_true, and_true]
  exact ⟨prime_2, prime_3, prime_89, prime_14923, prime_417677162933⟩

theorem prime_2531 : Nat.Prime 2531 := by norm_num

theorem prime_115603 : Nat.Prime 115603 := by norm_num

theorem prime_1197907 : Nat.Prime 1197907 := by norm_num

theorem prime_41655379 : Nat.Prime 41655379 := by norm_num

theorem prime_22160661629 : Nat.Prime 22160661629 := by
  refine Pock.prime_of_check _ 35 [(2, 2, 2), (7, 1, 3), (19, 1, 2), (41655379, 1, 2)] (by decide +kernel) ?_
  simp only [List.forall_mem_cons, List.not_mem_nil, false_implies, implies_true, and_true]
  exact ⟨prime_2, prime_7, prime_19, prime_41655379⟩

theorem prime_8999194758858563409123804352480028797519453 : Nat.Prime 8999194758858563409123804352480028797519453 := by
  refine Pock.prime_of_check _ 143 [(2, 2, 2), (3, 4, 2), (11, 1, 2), (2531, 1, 2), (115603, 1, 2), (1197907, 1, 2), (22160661629, 1, 2)] (by decide +kernel) ?_
  simp only [List.forall_mem_cons, List.not_mem_nil, false_implies, implies_true, and_true]
  exact ⟨prime_2, prime_3, prime_11, prime_2531, prime_115603, prime_1197907, prime_22160661629⟩

theorem prime_28948022309329048855892746252171976963363056481941560715954676764349967630337 : Nat.Prime 28948022309329048855892746252171976963363056481941560715954676764349967630337 := by
  refine Pock.prime_of_check _ 255 [(2, 32, 5), (3, 1, 2), (463, 1, 2), (539204044132271846773, 1, 2), (8999194758858563409123804352480028797519453, 1, 2)] (by decide +kernel) ?_
  simp only [List.forall_mem_cons, List.not_mem_nil, false_implies, implies_true, and_true]
  exact ⟨prime_2, prime_3, prime_463, prime_539204044132271846773, prime_8999194758858563409123804352480028797519453⟩

theorem prime_1709 : Nat.Prime 1709 := by norm_num

theorem prime_24859 : Nat.Prime 24859 := by norm_num

theorem prime_359 : Nat.Prime 359 := by norm_num

theorem prime_958679 : Nat.Prime 958679 := by norm_num

theorem prime_4129989133 : Nat.Prime 4129989133 := by
  refine Pock.prime_of_check _ 32 [(2, 2, 2), (3, 1, 3), (359, 1, 2), (958679, 1, 2)] (by decide +kernel) ?_
  simp only [List.forall_mem_cons, List.not_mem_nil, false_implies, implies_true, and_true]
  exact ⟨prime_2, prime_3, prime_359, prime_958679⟩

theorem prime_80513981 : Nat.Prime 80513981 := by norm_num

theorem prime_5247740253619 : Nat.Prime 5247740253619 := by
  refine Pock.prime_of_check _ 43 [(2, 1, 2), (3, 3, 2), (17, 1, 2), (71, 1, 2), (80513981, 1, 2)] (by decide +kernel) ?_
  simp only [List.forall_mem_cons, List.not_mem_nil, false_implies, implies_true, and_true]
  exact ⟨prime_2, prime_3, prime_17, prime_71, prime_80513981⟩

theorem prime_1690502597179744445941507 : Nat.Prime 1690502597179744445941507 := by
  refine Pock.prime_of_check _ 81 [(2, 1, 2), (3, 1, 2), (13, 1, 2), (4129989133, 1, 2), (5247740253619, 1, 2)] (by decide +kernel) ?_
  simp only [List.forall_mem_cons, List.not_mem_nil, false_implies, implies_true, and_true]
  exact ⟨prime_2, prime_3, prime_13, prime_4129989133, prime_5247740253619⟩

theorem prime_28948022309329048855892746252171976963363056481941647379679742748393362948097 : Nat.Prime 28948022309329048855892746252171976963363056481941647379679742748393362948097 := by
  refine Pock.prime_of_check _ 255 [(2, 32, 5), (3, 2, 2), (1709, 1, 2), (24859, 1, 2), (1690502597179744445941507, 1, 2)] (by decide +kernel) ?_
  simp only [List.forall_mem_cons, List.not_mem_nil, false_implies, implies_true, and_true]
  exact ⟨prime_2, prime_3, prime_1709, prime_24859, prime_1690502597179744445941507⟩

/-- the secp256k1 field modulus (`pkg/core/curves/native/k256/fp/fp.go`) -/
abbrev k256p : ℕ := 0xfffffffffffffffffffffffffffffffffffffffffffffffffffffffefffffc2f

instance fact_k256p : Fact (Nat.Prime k256p) := ⟨prime_115792089237316195423570985008687907853269984665640564039457584007908834671663⟩

/-- the secp256k1 group order (`pkg/core/curves/native/k256/fq/fq.go`) -/
abbrev k256q : ℕ := 0xfffffffffffffffffffffffffffffffebaaedce6af48a03bbfd25e8cd0364141

instance fact_k256q : Fact (Nat.Prime k256q) := ⟨prime_115792089237316195423570985008687907852837564279074904382605163141518161494337⟩

/-- the P-256 field modulus (`pkg/core/curves/native/p256/fp/fp.go`) -/
abbrev p256p : ℕ := 0xffffffff00000001000000000000000000000000ffffffffffffffffffffffff

instance fact_p256p : Fact (Nat.Prime p256p) := ⟨prime_115792089210356248762697446949407573530086143415290314195533631308867097853951⟩

/-- the P-256 group order (`pkg/core/curves/native/p256/fq/fq.go`) -/
abbrev p256q : ℕ := 0xffffffff00000000ffffffffffffffffbce6faada7179e84f3b9cac2fc632551

instance fact_p256q : Fact (Nat.Prime p256q) := ⟨prime_115792089210356248762697446949407573529996955224135760342422259061068512044369⟩

/-- the Curve25519 field modulus -/
abbrev edp : ℕ := 0x7fffffffffffffffffffffffffffffffffffffffffffffffffffffffffffffed

instance fact_edp : Fact (Nat.Prime edp) := ⟨prime_57896044618658097711785492504343953926634992332820282019728792003956564819949⟩

/-- the Ed25519 group order (`pkg/core/curves/ed25519_curve.go`) -/
abbrev edl : ℕ := 0x1000000000000000000000000000000014def9dea2f79cd65812631a5cf5d3ed

instance fact_edl : Fact (Nat.Prime edl) := ⟨prime_7237005577332262213973186563042994240857116359379907606001950938285454250989⟩

/-- the BLS12-381 group order (`pkg/core/curves/native/bls12381/fq.go`) -/
abbrev blsr : ℕ := 0x73eda753299d7d483339d80809a1d80553bda402fffe5bfeffffffff00000001

instance fact_blsr : Fact (Nat.Prime blsr) := ⟨prime_52435875175126190479447740508185965837690552500527637822603658699938581184513⟩

/-- the BLS12-381 field modulus (`pkg/core/curves/native/bls12381/fp.go`) -/
abbrev blsp : ℕ := 0x1a0111ea397fe69a4b1ba7b6434bacd764774b84f38512bf6730d2a0f6b0f6241eabfffeb153ffffb9feffffffffaaab

instance fact_blsp : Fact (Nat.Prime blsp) := ⟨prime_4002409555221667393417789825735904156556882819939007885332058136124031650490837864442687629129015664037894272559787⟩

/-- the Pallas field modulus (`pkg/core/curves/native/pasta/fp/fp.go`) -/
abbrev pallasp : ℕ := 0x40000000000000000000000000000000224698fc094cf91b992d30ed00000001

instance fact_pallasp : Fact (Nat.Prime pallasp) := ⟨prime_28948022309329048855892746252171976963363056481941560715954676764349967630337⟩

/-- the Pallas group order (`pkg/core/curves/native/pasta/fq/fq.go`) -/
abbrev pallasq : ℕ := 0x40000000000000000000000000000000224698fc0994a8dd8c46eb2100000001

instance fact_pallasq : Fact (Nat.Prime pallasq) := ⟨prime_28948022309329048855892746252171976963363056481941647379679742748393362948097⟩

end Verif.Primes

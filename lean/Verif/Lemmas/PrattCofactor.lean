import Verif.Lemmas.Pratt

/-! The prime factors of the cofactor of the second curve (Pratt certificates). -/

namespace Verif.Pratt

theorem prime_5864401 : Nat.Prime 5864401 :=
  prime_of_check _ 38 23 [2, 2, 2, 2, 3, 3, 3, 3, 5, 5, 181]
    (by intro q hq; simp only [List.mem_cons, List.not_mem_nil, or_false] at hq
        rcases hq with rfl | rfl | rfl | rfl | rfl | rfl | rfl | rfl | rfl | rfl | rfl
        · norm_num
        · norm_num
        · norm_num
        · norm_num
        · norm_num
        · norm_num
        · norm_num
        · norm_num
        · norm_num
        · norm_num
        · norm_num)
    (by decide +kernel)

theorem prime_17367825521 : Nat.Prime 17367825521 :=
  prime_of_check _ 3 35 [2, 2, 2, 2, 5, 19, 19, 601379]
    (by intro q hq; simp only [List.mem_cons, List.not_mem_nil, or_false] at hq
        rcases hq with rfl | rfl | rfl | rfl | rfl | rfl | rfl | rfl
        · norm_num
        · norm_num
        · norm_num
        · norm_num
        · norm_num
        · norm_num
        · norm_num
        · norm_num)
    (by decide +kernel)

theorem prime_1875725156269 : Nat.Prime 1875725156269 :=
  prime_of_check _ 2 41 [2, 2, 3, 3, 3, 17367825521]
    (by intro q hq; simp only [List.mem_cons, List.not_mem_nil, or_false] at hq
        rcases hq with rfl | rfl | rfl | rfl | rfl | rfl
        · norm_num
        · norm_num
        · norm_num
        · norm_num
        · norm_num
        · exact prime_17367825521)
    (by decide +kernel)

theorem prime_677736056450657 : Nat.Prime 677736056450657 :=
  prime_of_check _ 3 50 [2, 2, 2, 2, 2, 7, 23, 83, 983, 1612327]
    (by intro q hq; simp only [List.mem_cons, List.not_mem_nil, or_false] at hq
        rcases hq with rfl | rfl | rfl | rfl | rfl | rfl | rfl | rfl | rfl | rfl
        · norm_num
        · norm_num
        · norm_num
        · norm_num
        · norm_num
        · norm_num
        · norm_num
        · norm_num
        · norm_num
        · norm_num)
    (by decide +kernel)

theorem prime_209661715479349446893 : Nat.Prime 209661715479349446893 :=
  prime_of_check _ 2 68 [2, 2, 77339, 677736056450657]
    (by intro q hq; simp only [List.mem_cons, List.not_mem_nil, or_false] at hq
        rcases hq with rfl | rfl | rfl | rfl
        · norm_num
        · norm_num
        · norm_num
        · exact prime_677736056450657)
    (by decide +kernel)

theorem prime_3458579658547348475946929 : Nat.Prime 3458579658547348475946929 :=
  prime_of_check _ 3 82 [2, 2, 2, 2, 1031, 209661715479349446893]
    (by intro q hq; simp only [List.mem_cons, List.not_mem_nil, or_false] at hq
        rcases hq with rfl | rfl | rfl | rfl | rfl | rfl
        · norm_num
        · norm_num
        · norm_num
        · norm_num
        · norm_num
        · exact prime_209661715479349446893)
    (by decide +kernel)

theorem prime_213235097339095295568608163219551 : Nat.Prime 213235097339095295568608163219551 :=
  prime_of_check _ 31 108 [2, 5, 5, 1233079, 3458579658547348475946929]
    (by intro q hq; simp only [List.mem_cons, List.not_mem_nil, or_false] at hq
        rcases hq with rfl | rfl | rfl | rfl | rfl
        · norm_num
        · norm_num
        · norm_num
        · norm_num
        · exact prime_3458579658547348475946929)
    (by decide +kernel)

theorem prime_5835139 : Nat.Prime 5835139 :=
  prime_of_check _ 3 23 [2, 3, 61, 107, 149]
    (by intro q hq; simp only [List.mem_cons, List.not_mem_nil, or_false] at hq
        rcases hq with rfl | rfl | rfl | rfl | rfl
        · norm_num
        · norm_num
        · norm_num
        · norm_num
        · norm_num)
    (by decide +kernel)

theorem prime_758568071 : Nat.Prime 758568071 :=
  prime_of_check _ 14 30 [2, 5, 13, 5835139]
    (by intro q hq; simp only [List.mem_cons, List.not_mem_nil, or_false] at hq
        rcases hq with rfl | rfl | rfl | rfl
        · norm_num
        · norm_num
        · norm_num
        · exact prime_5835139)
    (by decide +kernel)

theorem prime_1309000310535827101 : Nat.Prime 1309000310535827101 :=
  prime_of_check _ 2 61 [2, 2, 3, 5, 5, 43, 133769, 758568071]
    (by intro q hq; simp only [List.mem_cons, List.not_mem_nil, or_false] at hq
        rcases hq with rfl | rfl | rfl | rfl | rfl | rfl | rfl | rfl
        · norm_num
        · norm_num
        · norm_num
        · norm_num
        · norm_num
        · norm_num
        · norm_num
        · exact prime_758568071)
    (by decide +kernel)

theorem prime_197620364512881247228717050342013327560683201906968909 : Nat.Prime 197620364512881247228717050342013327560683201906968909 :=
  prime_of_check _ 2 178 [2, 2, 3, 59, 1309000310535827101, 213235097339095295568608163219551]
    (by intro q hq; simp only [List.mem_cons, List.not_mem_nil, or_false] at hq
        rcases hq with rfl | rfl | rfl | rfl | rfl | rfl
        · norm_num
        · norm_num
        · norm_num
        · norm_num
        · exact prime_1309000310535827101
        · exact prime_213235097339095295568608163219551)
    (by decide +kernel)

end Verif.Pratt

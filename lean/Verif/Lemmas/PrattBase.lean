import Verif.Lemmas.Pratt
import Verif.Spec.Curve

/-! The modulus of the base field is prime (Pratt certificates). -/

namespace Verif.Pratt

theorem prime_1263766531 : Nat.Prime 1263766531 :=
  prime_of_check _ 10 31 [2, 3, 5, 13, 911, 3557]
    (by intro q hq; simp only [List.mem_cons, List.not_mem_nil, or_false] at hq
        rcases hq with rfl | rfl | rfl | rfl | rfl | rfl
        · norm_num
        · norm_num
        · norm_num
        · norm_num
        · norm_num
        · norm_num)
    (by decide +kernel)

theorem prime_35385462869 : Nat.Prime 35385462869 :=
  prime_of_check _ 2 36 [2, 2, 7, 1263766531]
    (by intro q hq; simp only [List.mem_cons, List.not_mem_nil, or_false] at hq
        rcases hq with rfl | rfl | rfl | rfl
        · norm_num
        · norm_num
        · norm_num
        · exact prime_1263766531)
    (by decide +kernel)

theorem prime_2480874801745591 : Nat.Prime 2480874801745591 :=
  prime_of_check _ 6 52 [2, 3, 3, 5, 19, 41, 35385462869]
    (by intro q hq; simp only [List.mem_cons, List.not_mem_nil, or_false] at hq
        rcases hq with rfl | rfl | rfl | rfl | rfl | rfl | rfl
        · norm_num
        · norm_num
        · norm_num
        · norm_num
        · norm_num
        · norm_num
        · exact prime_35385462869)
    (by decide +kernel)

theorem prime_173171039 : Nat.Prime 173171039 :=
  prime_of_check _ 13 28 [2, 73, 89, 13327]
    (by intro q hq; simp only [List.mem_cons, List.not_mem_nil, or_false] at hq
        rcases hq with rfl | rfl | rfl | rfl
        · norm_num
        · norm_num
        · norm_num
        · norm_num)
    (by decide +kernel)

theorem prime_13427688667394608761327070753331941386769 : Nat.Prime 13427688667394608761327070753331941386769 :=
  prime_of_check _ 17 134 [2, 2, 2, 2, 3, 7, 11, 1853641, 4562087, 173171039, 2480874801745591]
    (by intro q hq; simp only [List.mem_cons, List.not_mem_nil, or_false] at hq
        rcases hq with rfl | rfl | rfl | rfl | rfl | rfl | rfl | rfl | rfl | rfl | rfl
        · norm_num
        · norm_num
        · norm_num
        · norm_num
        · norm_num
        · norm_num
        · norm_num
        · norm_num
        · norm_num
        · exact prime_173171039
        · exact prime_2480874801745591)
    (by decide +kernel)

theorem prime_11465965001 : Nat.Prime 11465965001 :=
  prime_of_check _ 3 34 [2, 2, 2, 5, 5, 5, 5, 7, 327599]
    (by intro q hq; simp only [List.mem_cons, List.not_mem_nil, or_false] at hq
        rcases hq with rfl | rfl | rfl | rfl | rfl | rfl | rfl | rfl | rfl
        · norm_num
        · norm_num
        · norm_num
        · norm_num
        · norm_num
        · norm_num
        · norm_num
        · norm_num
        · norm_num)
    (by decide +kernel)

theorem prime_bn256_base : Nat.Prime 21888242871839275222246405745257275088696311157297823662689037894645226208583 :=
  prime_of_check _ 3 254 [2, 3, 3, 13, 29, 67, 229, 311, 983, 11003, 405928799, 11465965001, 13427688667394608761327070753331941386769]
    (by intro q hq; simp only [List.mem_cons, List.not_mem_nil, or_false] at hq
        rcases hq with rfl | rfl | rfl | rfl | rfl | rfl | rfl | rfl | rfl | rfl | rfl | rfl | rfl
        · norm_num
        · norm_num
        · norm_num
        · norm_num
        · norm_num
        · norm_num
        · norm_num
        · norm_num
        · norm_num
        · norm_num
        · exact prime_405928799
        · exact prime_11465965001
        · exact prime_13427688667394608761327070753331941386769)
    (by decide +kernel)

end Verif.Pratt

namespace Verif.Spec

theorem Q_prime : Q.Prime := Pratt.prime_bn256_base

instance : Fact Q.Prime := ⟨Q_prime⟩

end Verif.Spec

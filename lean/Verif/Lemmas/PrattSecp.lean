import Verif.Lemmas.Pratt
import Verif.Spec.Secp

/-! The moduli of the two fields of secp256k1 are prime (Pratt certificates). -/

namespace Verif.Pratt

theorem secp_prime_107361793816595537 : Nat.Prime 107361793816595537 :=
  prime_of_check _ 3 57 [2, 2, 2, 2, 16699, 85831, 4681609]
    (by intro q hq; simp only [List.mem_cons, List.not_mem_nil, or_false] at hq
        rcases hq with rfl | rfl | rfl | rfl | rfl | rfl | rfl
        · norm_num
        · norm_num
        · norm_num
        · norm_num
        · norm_num
        · norm_num
        · norm_num)
    (by decide +kernel)

theorem secp_prime_174723607534414371449 : Nat.Prime 174723607534414371449 :=
  prime_of_check _ 3 68 [2, 2, 2, 17, 59, 4051, 120233, 44706919]
    (by intro q hq; simp only [List.mem_cons, List.not_mem_nil, or_false] at hq
        rcases hq with rfl | rfl | rfl | rfl | rfl | rfl | rfl | rfl
        · norm_num
        · norm_num
        · norm_num
        · norm_num
        · norm_num
        · norm_num
        · norm_num
        · norm_num)
    (by decide +kernel)

theorem secp_prime_545358713 : Nat.Prime 545358713 :=
  prime_of_check _ 5 30 [2, 2, 2, 41, 59, 28181]
    (by intro q hq; simp only [List.mem_cons, List.not_mem_nil, or_false] at hq
        rcases hq with rfl | rfl | rfl | rfl | rfl | rfl
        · norm_num
        · norm_num
        · norm_num
        · norm_num
        · norm_num
        · norm_num)
    (by decide +kernel)

theorem secp_prime_297159362677 : Nat.Prime 297159362677 :=
  prime_of_check _ 2 39 [2, 2, 3, 3, 11, 461, 1627771]
    (by intro q hq; simp only [List.mem_cons, List.not_mem_nil, or_false] at hq
        rcases hq with rfl | rfl | rfl | rfl | rfl | rfl | rfl
        · norm_num
        · norm_num
        · norm_num
        · norm_num
        · norm_num
        · norm_num
        · norm_num)
    (by decide +kernel)

theorem secp_prime_29047611873442575647497758179 : Nat.Prime 29047611873442575647497758179 :=
  prime_of_check _ 2 95 [2, 293, 305873, 545358713, 297159362677]
    (by intro q hq; simp only [List.mem_cons, List.not_mem_nil, or_false] at hq
        rcases hq with rfl | rfl | rfl | rfl | rfl
        · norm_num
        · norm_num
        · norm_num
        · exact secp_prime_545358713
        · exact secp_prime_297159362677)
    (by decide +kernel)

theorem secp_prime_341948486974166000522343609283189 : Nat.Prime 341948486974166000522343609283189 :=
  prime_of_check _ 2 109 [2, 2, 3, 3, 3, 109, 29047611873442575647497758179]
    (by intro q hq; simp only [List.mem_cons, List.not_mem_nil, or_false] at hq
        rcases hq with rfl | rfl | rfl | rfl | rfl | rfl | rfl
        · norm_num
        · norm_num
        · norm_num
        · norm_num
        · norm_num
        · norm_num
        · exact secp_prime_29047611873442575647497758179)
    (by decide +kernel)

theorem secp_prime_115792089237316195423570985008687907852837564279074904382605163141518161494337 : Nat.Prime 115792089237316195423570985008687907852837564279074904382605163141518161494337 :=
  prime_of_check _ 7 256 [2, 2, 2, 2, 2, 2, 3, 149, 631, 107361793816595537, 174723607534414371449, 341948486974166000522343609283189]
    (by intro q hq; simp only [List.mem_cons, List.not_mem_nil, or_false] at hq
        rcases hq with rfl | rfl | rfl | rfl | rfl | rfl | rfl | rfl | rfl | rfl | rfl | rfl
        · norm_num
        · norm_num
        · norm_num
        · norm_num
        · norm_num
        · norm_num
        · norm_num
        · norm_num
        · norm_num
        · exact secp_prime_107361793816595537
        · exact secp_prime_174723607534414371449
        · exact secp_prime_341948486974166000522343609283189)
    (by decide +kernel)

theorem secp_prime_173378833005251801 : Nat.Prime 173378833005251801 :=
  prime_of_check _ 6 58 [2, 2, 2, 5, 5, 2621, 24809, 13331831]
    (by intro q hq; simp only [List.mem_cons, List.not_mem_nil, or_false] at hq
        rcases hq with rfl | rfl | rfl | rfl | rfl | rfl | rfl | rfl
        · norm_num
        · norm_num
        · norm_num
        · norm_num
        · norm_num
        · norm_num
        · norm_num
        · norm_num)
    (by decide +kernel)

theorem secp_prime_22149492674086928081353 : Nat.Prime 22149492674086928081353 :=
  prime_of_check _ 5 75 [2, 2, 2, 3, 5323, 173378833005251801]
    (by intro q hq; simp only [List.mem_cons, List.not_mem_nil, or_false] at hq
        rcases hq with rfl | rfl | rfl | rfl | rfl | rfl
        · norm_num
        · norm_num
        · norm_num
        · norm_num
        · norm_num
        · exact secp_prime_173378833005251801)
    (by decide +kernel)

theorem secp_prime_132896956044521568488119 : Nat.Prime 132896956044521568488119 :=
  prime_of_check _ 6 77 [2, 3, 22149492674086928081353]
    (by intro q hq; simp only [List.mem_cons, List.not_mem_nil, or_false] at hq
        rcases hq with rfl | rfl | rfl
        · norm_num
        · norm_num
        · exact secp_prime_22149492674086928081353)
    (by decide +kernel)

theorem secp_prime_107590001 : Nat.Prime 107590001 :=
  prime_of_check _ 3 27 [2, 2, 2, 2, 5, 5, 5, 5, 7, 29, 53]
    (by intro q hq; simp only [List.mem_cons, List.not_mem_nil, or_false] at hq
        rcases hq with rfl | rfl | rfl | rfl | rfl | rfl | rfl | rfl | rfl | rfl | rfl
        · norm_num
        · norm_num
        · norm_num
        · norm_num
        · norm_num
        · norm_num
        · norm_num
        · norm_num
        · norm_num
        · norm_num
        · norm_num)
    (by decide +kernel)

theorem secp_prime_255515944373312847190720520512484175977 : Nat.Prime 255515944373312847190720520512484175977 :=
  prime_of_check _ 3 128 [2, 2, 2, 7, 7, 11, 1627, 2657, 4423, 41201, 96557, 7240687, 107590001]
    (by intro q hq; simp only [List.mem_cons, List.not_mem_nil, or_false] at hq
        rcases hq with rfl | rfl | rfl | rfl | rfl | rfl | rfl | rfl | rfl | rfl | rfl | rfl | rfl
        · norm_num
        · norm_num
        · norm_num
        · norm_num
        · norm_num
        · norm_num
        · norm_num
        · norm_num
        · norm_num
        · norm_num
        · norm_num
        · norm_num
        · exact secp_prime_107590001)
    (by decide +kernel)

theorem secp_prime_205115282021455665897114700593932402728804164701536103180137503955397371 : Nat.Prime 205115282021455665897114700593932402728804164701536103180137503955397371 :=
  prime_of_check _ 10 237 [2, 3, 5, 29, 29, 31, 7723, 132896956044521568488119, 255515944373312847190720520512484175977]
    (by intro q hq; simp only [List.mem_cons, List.not_mem_nil, or_false] at hq
        rcases hq with rfl | rfl | rfl | rfl | rfl | rfl | rfl | rfl | rfl
        · norm_num
        · norm_num
        · norm_num
        · norm_num
        · norm_num
        · norm_num
        · norm_num
        · exact secp_prime_132896956044521568488119
        · exact secp_prime_255515944373312847190720520512484175977)
    (by decide +kernel)

theorem secp_prime_115792089237316195423570985008687907853269984665640564039457584007908834671663 : Nat.Prime 115792089237316195423570985008687907853269984665640564039457584007908834671663 :=
  prime_of_check _ 3 256 [2, 3, 7, 13441, 205115282021455665897114700593932402728804164701536103180137503955397371]
    (by intro q hq; simp only [List.mem_cons, List.not_mem_nil, or_false] at hq
        rcases hq with rfl | rfl | rfl | rfl | rfl
        · norm_num
        · norm_num
        · norm_num
        · norm_num
        · exact secp_prime_205115282021455665897114700593932402728804164701536103180137503955397371)
    (by decide +kernel)

end Verif.Pratt

namespace Verif.Spec

theorem secpP_prime : Nat.Prime secpP := Pratt.secp_prime_115792089237316195423570985008687907853269984665640564039457584007908834671663

theorem secpQ_prime : Nat.Prime secpQ := Pratt.secp_prime_115792089237316195423570985008687907852837564279074904382605163141518161494337

instance : Fact secpP.Prime := ⟨secpP_prime⟩

instance : Fact secpQ.Prime := ⟨secpQ_prime⟩

/-- The points of secp256k1: of `y² = x³ + 7`. -/
abbrev SecpPt := Pt (7 : SecpBase)

end Verif.Spec

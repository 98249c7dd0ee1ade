import Verif.Lemmas.PairLinear
import Verif.Lemmas.PairOrder
import Verif.Lemmas.PointCodec

/-! The pairing as a map on points: bilinear, of order `P`, and not constant. -/

namespace Verif.Tower

open Verif.Spec WeierstrassCurve.Affine

/-- The affine coordinates of a point of the second curve. -/
def affOf2 : Pt B2 → Aff (Fq2 Fq)
  | .zero => ⟨0, 0⟩
  | .some x y _ => ⟨x, y⟩

theorem affOf2_is (B : Pt B2) : AffIs (affOf2 B) B := by
  cases B <;> rfl

theorem affOf2_of_is {q : Aff (Fq2 Fq)} {B : Pt B2} (h : AffIs q B) : affOf2 B = q := by
  cases B <;> exact h.symm

/-- The pairing on points. -/
noncomputable def E (A : G1) (B : Pt B2) : Fq12 Fq := if A = 0 ∨ B = 0 then 1 else fe (single (affOf A) (affOf2 B))

theorem E_zero_left (B : Pt B2) : E 0 B = 1 := if_pos (.inl rfl)

theorem E_zero_right (A : G1) : E A 0 = 1 := if_pos (.inr rfl)

theorem E_eq {A : G1} {B : Pt B2} {p : Aff Fq} {q : Aff (Fq2 Fq)} (hp : AffIs p A) (hq : AffIs q B) (hA : A ≠ 0) (hB : B ≠ 0) :
    E A B = fe (single p q) := by
  unfold E
  rw [if_neg (not_or.2 ⟨hA, hB⟩), affOf_of_is hp, affOf2_of_is hq]

theorem aff_eq {A : G1} {p : Aff Fq} (hp : AffIs p A) (hA : A ≠ 0) : p.y ^ 2 = p.x ^ 3 + 3 ∧ p.y ≠ 0 := by
  match A, hp, hA with
  | .zero, _, hA => exact absurd rfl hA
  | .some x y hn, hp, _ =>
    have h : p = ⟨x, y⟩ := hp
    subst h
    exact ⟨point_eq hn, y_ne_zero (point_eq hn)⟩

theorem E_ne (A : G1) {B : Pt B2} (hB : InG2 B) : E A B ≠ 0 := by
  unfold E
  split_ifs with h
  · exact one_ne_zero
  · obtain ⟨hA, h0⟩ := not_or.1 h
    exact fe_ne (single_ne (aff_eq (affOf_is A) hA).2 (affOf2_is B) hB h0)

theorem E_order (A : G1) {B : Pt B2} (hB : InG2 B) : E A B ^ P = 1 := by
  unfold E
  split_ifs with h
  · exact one_pow _
  · obtain ⟨hA, h0⟩ := not_or.1 h
    exact fe_order (single_ne (aff_eq (affOf_is A) hA).2 (affOf2_is B) hB h0)

theorem E_neg_left (A : G1) {B : Pt B2} (hB : InG2 B) : E A B * E (-A) B = 1 := by
  by_cases hA : A = 0
  · rw [hA, neg_zero, E_zero_left, one_mul]
  by_cases h0 : B = 0
  · rw [h0, E_zero_right, E_zero_right, one_mul]
  have hy := (aff_eq (affOf_is A) hA).2
  have hn : AffIs (⟨(affOf A).x, -(affOf A).y⟩ : Aff Fq) (-A) := affNeg_is (affOf_is A)
  rw [E_eq (affOf_is A) (affOf2_is B) hA h0, E_eq hn (affOf2_is B) (neg_ne_zero.2 hA) h0]
  have := (system_neg_left hy B).total (q := ![affOf2 B, affOf2 B]) (fun i => by fin_cases i; exacts [hy, neg_ne_zero.2 hy])
    (fun i => by fin_cases i; exacts [affOf2_is B, affOf2_is B]) (fun i => by fin_cases i; exacts [hB, hB])
    (fun i => by fin_cases i; exacts [h0, h0])
  rw [Fin.prod_univ_two, fe_mul] at this
  exact this

theorem E_neg_right (A : G1) {B : Pt B2} (hB : InG2 B) : E A B * E A (-B) = 1 := by
  by_cases hA : A = 0
  · rw [hA, E_zero_left, E_zero_left, one_mul]
  by_cases h0 : B = 0
  · rw [h0, neg_zero, E_zero_right, one_mul]
  have hy := (aff_eq (affOf_is A) hA).2
  have h0' := neg_ne_zero.2 h0
  rw [E_eq (affOf_is A) (affOf2_is B) hA h0, E_eq (affOf_is A) (affOf2_is (-B)) hA h0']
  have := (system_neg_right hy B).total (q := ![affOf2 B, affOf2 (-B)]) (fun i => by fin_cases i; exacts [hy, hy])
    (fun i => by fin_cases i; exacts [affOf2_is B, affOf2_is (-B)]) (fun i => by fin_cases i; exacts [hB, hB.neg])
    (fun i => by fin_cases i; exacts [h0, h0'])
  rw [Fin.prod_univ_two, fe_mul] at this
  exact this

theorem E_add_left (A A' : G1) {B : Pt B2} (hB : InG2 B) : E (A + A') B = E A B * E A' B := by
  by_cases h0 : B = 0
  · rw [h0, E_zero_right, E_zero_right, E_zero_right, one_mul]
  by_cases hA : A = 0
  · rw [hA, E_zero_left, zero_add, one_mul]
  by_cases hA' : A' = 0
  · rw [hA', E_zero_left, add_zero, mul_one]
  by_cases hs : A + A' = 0
  · rw [hs, E_zero_left, eq_neg_of_add_eq_zero_right hs, E_neg_left A hB]
  have hs' := neg_ne_zero.2 hs
  obtain ⟨l, n, hl⟩ := lineOf_exists smooth_three hA hA' hs
  have hy := (aff_eq (affOf_is A) hA).2
  have hy' := (aff_eq (affOf_is A') hA').2
  have hy'' := (aff_eq (affOf_is (-(A + A'))) hs').2
  have := (system_left (affOf_is A) (affOf_is A') (affOf_is (-(A + A'))) hl hB h0).total (q := ![affOf2 B, affOf2 B, affOf2 B])
    (fun i => by fin_cases i; exacts [hy, hy', hy''])
    (fun i => by fin_cases i; exacts [affOf2_is B, affOf2_is B, affOf2_is B]) (fun i => by fin_cases i; exacts [hB, hB, hB])
    (fun i => by fin_cases i; exacts [h0, h0, h0])
  rw [Fin.prod_univ_three, fe_mul, fe_mul] at this
  have e : E A B * E A' B * E (-(A + A')) B = 1 := by
    rw [E_eq (affOf_is A) (affOf2_is B) hA h0, E_eq (affOf_is A') (affOf2_is B) hA' h0,
      E_eq (affOf_is (-(A + A'))) (affOf2_is B) hs' h0]
    exact this
  exact mul_right_cancel₀ (E_ne (-(A + A')) hB) ((E_neg_left (A + A') hB).trans e.symm)

theorem E_add_right (A : G1) {B B' : Pt B2} (hB : InG2 B) (hB' : InG2 B') : E A (B + B') = E A B * E A B' := by
  by_cases hA : A = 0
  · rw [hA, E_zero_left, E_zero_left, E_zero_left, one_mul]
  by_cases h0 : B = 0
  · rw [h0, E_zero_right, zero_add, one_mul]
  by_cases h0' : B' = 0
  · rw [h0', E_zero_right, add_zero, mul_one]
  by_cases hs : B + B' = 0
  · rw [hs, E_zero_right, eq_neg_of_add_eq_zero_right hs, E_neg_right A hB]
  have hs' := neg_ne_zero.2 hs
  have hS := hB.add hB'
  obtain ⟨hc, hy⟩ := aff_eq (affOf_is A) hA
  have := (system_right hc hy hB hB' h0 h0' hs).total (q := ![affOf2 B, affOf2 B', affOf2 (-(B + B'))])
    (fun i => by fin_cases i; exacts [hy, hy, hy])
    (fun i => by fin_cases i; exacts [affOf2_is B, affOf2_is B', affOf2_is (-(B + B'))])
    (fun i => by fin_cases i; exacts [hB, hB', hS.neg])
    (fun i => by fin_cases i; exacts [h0, h0', hs'])
  rw [Fin.prod_univ_three, fe_mul, fe_mul] at this
  have e : E A B * E A B' * E A (-(B + B')) = 1 := by
    rw [E_eq (affOf_is A) (affOf2_is B) hA h0, E_eq (affOf_is A) (affOf2_is B') hA h0',
      E_eq (affOf_is A) (affOf2_is (-(B + B'))) hA hs']
    exact this
  exact mul_right_cancel₀ (E_ne A hS.neg) ((E_neg_right A hS).trans e.symm)

theorem InG2.zero : InG2 0 := ⟨0, (zero_nsmul _).symm⟩

theorem InG2.nsmul {B : Pt B2} (h : InG2 B) (k : Nat) : InG2 (k • B) := by
  obtain ⟨m, rfl⟩ := h
  exact ⟨m * k, (mul_nsmul _ _ _).symm⟩

theorem E_nsmul_left (A : G1) {B : Pt B2} (hB : InG2 B) : ∀ k : Nat, E (k • A) B = E A B ^ k
  | 0 => by rw [zero_nsmul, E_zero_left, pow_zero]
  | k + 1 => by rw [succ_nsmul, E_add_left _ _ hB, E_nsmul_left A hB k, pow_succ]

theorem E_nsmul_right (A : G1) {B : Pt B2} (hB : InG2 B) : ∀ k : Nat, E A (k • B) = E A B ^ k
  | 0 => by rw [zero_nsmul, E_zero_right, pow_zero]
  | k + 1 => by rw [succ_nsmul, E_add_right _ (hB.nsmul k) hB, E_nsmul_right A hB k, pow_succ]

/-! ### What the code computes -/

theorem isIdentity2_is {q : Aff (Fq2 Fq)} {B : Pt B2} (h : AffIs q B) : isIdentity2 q = decide (B = 0) := by
  rw [← isIdentity_aff smooth2 h]
  unfold isIdentity2 Aff.isIdentity
  rw [Bool.eq_iff_iff, Bool.and_eq_true, Bool.and_eq_true, Fq2.isZero_iff, Fq2.isZero_iff, decide_eq_true_iff, decide_eq_true_iff]

theorem live_is {p : Aff Fq} {q : Aff (Fq2 Fq)} {A : G1} {B : Pt B2} (hp : AffIs p A) (hq : AffIs q B) :
    live (p, q) = true ↔ A ≠ 0 ∧ B ≠ 0 := by
  unfold live
  rw [isIdentity_aff smooth_three hp, isIdentity2_is hq]
  simp

/-- The points of a list of pairs of coordinates. -/
def PairsAre : List (Aff Fq × Aff (Fq2 Fq)) → List (G1 × Pt B2) → Prop :=
  List.Forall₂ fun t u => AffIs t.1 u.1 ∧ AffIs t.2 u.2 ∧ InG2 u.2

theorem prod_live {ts : List (Aff Fq × Aff (Fq2 Fq))} {us : List (G1 × Pt B2)} (h : PairsAre ts us) :
    ((ts.filter live).map fun t => single t.1 t.2).prod ≠ 0 ∧
    fe ((ts.filter live).map fun t => single t.1 t.2).prod = (us.map fun u => E u.1 u.2).prod := by
  induction h with
  | nil => exact ⟨one_ne_zero, fe_one⟩
  | @cons t u ts us h _ ih =>
    obtain ⟨hp, hq, hB⟩ := h
    have hl := live_is hp hq
    by_cases hlive : live t = true
    · obtain ⟨hA, h0⟩ := hl.1 hlive
      have hn := single_ne (aff_eq hp hA).2 hq hB h0
      rw [List.filter_cons_of_pos hlive, List.map_cons, List.prod_cons, List.map_cons, List.prod_cons, fe_mul, ih.2,
        E_eq hp hq hA h0]
      exact ⟨mul_ne_zero hn ih.1, rfl⟩
    · rw [List.filter_cons_of_neg hlive, List.map_cons, List.prod_cons, ih.2]
      refine ⟨ih.1, ?_⟩
      have : E u.1 u.2 = 1 := by
        unfold E
        refine if_pos ?_
        by_contra hc
        exact hlive (hl.2 (not_or.1 hc))
      rw [this, one_mul]

theorem ok_bind {α β : Type} (x : α) (f : α → Except Panic β) : (Except.ok x >>= f) = f x := rfl

/-- Several pairs at once. -/
theorem joint_eq {ts : List (Aff Fq × Aff (Fq2 Fq))} {us : List (G1 × Pt B2)} (h : PairsAre ts us) :
    (multiMillerLoop (ts.map fun t => (t.1, G2Prepared.fromAffine decoded t.2)) >>= fun u => u.finalExponentiation decoded) =
      .ok (us.map fun u => E u.1 u.2).prod := by
  obtain ⟨h1, h2⟩ := prod_live h
  rw [multi_eq, ok_bind, finalExponentiation_eq, if_neg h1, ← h2, fe]

theorem pairing_eq {p : Aff Fq} {q : Aff (Fq2 Fq)} {A : G1} {B : Pt B2} (hp : AffIs p A) (hq : AffIs q B) (hB : InG2 B) :
    pairing decoded p q = .ok (E A B) := by
  have := joint_eq (ts := [(p, q)]) (us := [(A, B)]) (.cons ⟨hp, hq, hB⟩ .nil)
  rw [List.map_singleton, List.map_singleton, List.prod_singleton] at this
  exact this

/-! ### It is not constant -/

theorem generator_is : AffIs (⟨1, 2⟩ : Aff Fq) generator := rfl

theorem gen2_aff : AffIs (g2Generator : Aff (Fq2 Fq)) gen2 := rfl

theorem inG2_gen2 : InG2 gen2 := ⟨1, (one_nsmul _).symm⟩

/-- Whether a computation gives something else than one. -/
def notOne (r : Except Panic (Fq12 Fq)) : Bool :=
  match r with
  | .ok c => decide (c ≠ 1)
  | .error _ => false

theorem notOne_ok {c : Fq12 Fq} : notOne (.ok c) = true ↔ c ≠ 1 := by
  unfold notOne
  exact decide_eq_true_iff

theorem pairing_generators : notOne (pairing decoded (⟨1, 2⟩ : Aff Fq) g2Generator) = true := by decide +kernel

theorem E_generators : E generator gen2 ≠ 1 := by
  have h := pairing_generators
  rw [pairing_eq generator_is gen2_aff inG2_gen2] at h
  exact notOne_ok.1 h

theorem order_of_prime {x : Fq12 Fq} {n : Nat} (hn : n.Prime) (h : x ^ n = 1) (h1 : x ≠ 1) : orderOf x = n := by
  have : Fact n.Prime := ⟨hn⟩
  exact orderOf_eq_prime h h1

theorem order_E : orderOf (E generator gen2) = P := order_of_prime Fact.out (E_order _ inG2_gen2) E_generators

/-- Every point is a multiple of the generator. -/
theorem multiple (A : G1) : ∃ k : Nat, A = k • generator := by
  have h1 : addOrderOf generator = P := addOrderOf_eq_prime order_generator (Point.some_ne_zero _)
  have h2 : AddSubgroup.zmultiples generator = ⊤ := by
    rw [← AddSubgroup.card_eq_iff_eq_top, Nat.card_zmultiples, h1, card_points]
  have : A ∈ AddSubgroup.zmultiples generator := h2 ▸ AddSubgroup.mem_top A
  rw [← mem_multiples_iff_mem_zmultiples, AddSubmonoid.mem_multiples_iff] at this
  obtain ⟨k, hk⟩ := this
  exact ⟨k, hk.symm⟩

theorem E_one_iff (A : G1) {B : Pt B2} (hB : InG2 B) : E A B = 1 ↔ A = 0 ∨ B = 0 := by
  refine ⟨fun h => ?_, fun h => ?_⟩
  · obtain ⟨k, rfl⟩ := multiple A
    obtain ⟨m, rfl⟩ := hB
    rw [E_nsmul_left _ (inG2_gen2.nsmul m), E_nsmul_right _ inG2_gen2, ← pow_mul, ← orderOf_dvd_iff_pow_eq_one, order_E] at h
    rcases (Nat.Prime.dvd_mul Fact.out).1 h with ⟨c, hc⟩ | ⟨c, hc⟩
    · right
      rw [hc, mul_nsmul, order_gen2, nsmul_zero]
    · left
      rw [hc, mul_nsmul, order_all, nsmul_zero]
  · rcases h with rfl | rfl
    · exact E_zero_left B
    · exact E_zero_right A

end Verif.Tower

import Verif.Model.Shplonk
import Verif.Spec.Pairing

/-!
C70: the second group. C71: the pairing is defined for all points and gives elements of order `P`. C72: it is
bilinear. C73: it is not degenerate. C74: the joint pairing, and the check of the verifier. C75: the target group.
-/

namespace Verif.Props

open Spec Tower

/-! ### C70: the second group -/

/-- The curve of the second group is `y² = x³ + 3 / (9 + u)`; it has `P (2 Q - P)` points; the generator is one of
them, of order `P`. -/
theorem C70_curve : (g2B : Fq2 Fq) * ⟨9, 1⟩ = 3 ∧ Nat.card Twist = P * (2 * Q - P) ∧
    ∃ A : Twist, AffIs (g2Generator : Aff (Fq2 Fq)) A ∧ addOrderOf A = P :=
  ⟨by decide +kernel, card_points2, gen2, gen2_aff, addOrder_gen2⟩

/-- `is_torsion_free` tells whether a point is a multiple of the generator, which is the same as that `P` takes
it to 0. -/
theorem C70_torsion (p : Jac (Fq2 Fq)) (A B : Twist) (h : JacIs p A) (hg : AffIs (g2Generator : Aff (Fq2 Fq)) B) :
    (isTorsionFree2 p = true ↔ P • A = 0) ∧ (isTorsionFree2 p = true ↔ ∃ k : Nat, A = k • B) := by
  have : B = gen2 := aff_unique smooth2 hg gen2_aff
  subst this
  exact ⟨isTorsionFree2_iff h, (isTorsionFree2_iff h).trans (inG2_iff A).symm⟩

/-- `clear_cofactor` gives the multiple by the cofactor; this lies in the group; and every point of the group
comes from a point of the group. -/
theorem C70_cofactor (p : Jac (Fq2 Fq)) (A : Twist) (h : JacIs p A) :
    (∃ B : Twist, JacIs (clearCofactor2 p) B ∧ B = (2 * Q - P) • A ∧ P • B = 0) ∧
    (P • A = 0 → ∃ q : Jac (Fq2 Fq), ∃ B : Twist, JacIs q B ∧ P • B = 0 ∧ JacIs (clearCofactor2 q) A) := by
  obtain ⟨n, hn⟩ : ∃ n, n = cofactor := ⟨_, rfl⟩
  have hc : ∀ {q : Jac (Fq2 Fq)} {B : Twist}, JacIs q B → JacIs (clearCofactor2 q) (n • B) := fun h => clear_is h n hn
  refine ⟨⟨n • A, hc h, ?_, ?_⟩, fun h0 => ?_⟩
  · rw [hn]
    rfl
  · rw [hn]
    exact (cofactor_inG2 A).order
  · have hco : Nat.Coprime n P := by rw [hn]; exact coprime_cofactor.symm
    obtain ⟨m, -, hm⟩ := Nat.exists_mul_mod_eq_one_of_coprime hco (by decide +kernel)
    have e : n • (m • A) = A := by
      rw [← mul_nsmul', ← Nat.mod_add_div (n * m) P, hm, add_nsmul, one_nsmul, mul_nsmul, h0, nsmul_zero, add_zero]
    refine ⟨(affOf2 (m • A)).toCurve, m • A, toCurve_is smooth2 (affOf2_is _), ?_, ?_⟩
    · rw [nsmul_left_comm, h0, nsmul_zero]
    · exact jac_congr (hc (toCurve_is smooth2 (affOf2_is _))) e

/-- Not vacuous: there are points in the group and points outside. -/
example : ∃ p q : Jac (Fq2 Fq), ∃ A B : Twist, JacIs p A ∧ JacIs q B ∧ isTorsionFree2 p = true ∧ A ≠ 0 ∧ isTorsionFree2 q = false :=
  ⟨jac2, jacOther2, gen2, ptOther2, gen2_is, other2_is, (isTorsionFree2_iff gen2_is).2 order_gen2, gen2_ne, by decide +kernel⟩

/-! ### C71: the pairing is defined -/

/-- The pairing does not panic, for the coordinates of any point of the first curve and of any point of the
second group; the `P`-th power of the result is 1. -/
theorem C71_pairing (p : Aff Fq) (q : Aff (Fq2 Fq)) (A : G1) (B : Twist) (hp : AffIs p A) (hq : AffIs q B) (hB : P • B = 0) :
    ∃ c, pairing decoded p q = .ok c ∧ c ^ P = 1 :=
  ⟨E A B, pairing_eq hp hq ((inG2_iff B).2 hB), E_order A ((inG2_iff B).2 hB)⟩

/-- Not vacuous: the generators, with a result other than 1. -/
example : AffIs (⟨1, 2⟩ : Aff Fq) generator ∧ AffIs (g2Generator : Aff (Fq2 Fq)) gen2 ∧ P • gen2 = 0 ∧
    ∃ c, pairing decoded (⟨1, 2⟩ : Aff Fq) g2Generator = .ok c ∧ c ≠ 1 :=
  ⟨generator_is, gen2_aff, order_gen2, E generator gen2, pairing_eq generator_is gen2_aff inG2_gen2, E_generators⟩

/-! ### C72: the pairing is bilinear -/

/-- A sum in the first place gives the product. -/
theorem C72_left (p p' s : Aff Fq) (q : Aff (Fq2 Fq)) (A A' : G1) (B : Twist) (hp : AffIs p A) (hp' : AffIs p' A')
    (hs : AffIs s (A + A')) (hq : AffIs q B) (hB : P • B = 0) (c c' : Fq12 Fq) (hc : pairing decoded p q = .ok c)
    (hc' : pairing decoded p' q = .ok c') : pairing decoded s q = .ok (c * c') := by
  have h := (inG2_iff B).2 hB
  rw [pairing_eq hp hq h] at hc
  rw [pairing_eq hp' hq h] at hc'
  rw [pairing_eq hs hq h, E_add_left _ _ h, Except.ok.inj hc, Except.ok.inj hc']

/-- A sum in the second place gives the product. -/
theorem C72_right (p : Aff Fq) (q q' s : Aff (Fq2 Fq)) (A : G1) (B B' : Twist) (hp : AffIs p A) (hq : AffIs q B)
    (hq' : AffIs q' B') (hs : AffIs s (B + B')) (hB : P • B = 0) (hB' : P • B' = 0) (c c' : Fq12 Fq)
    (hc : pairing decoded p q = .ok c) (hc' : pairing decoded p q' = .ok c') : pairing decoded p s = .ok (c * c') := by
  have h := (inG2_iff B).2 hB
  have h' := (inG2_iff B').2 hB'
  rw [pairing_eq hp hq h] at hc
  rw [pairing_eq hp hq' h'] at hc'
  rw [pairing_eq hp hs (h.add h'), E_add_right _ h h', Except.ok.inj hc, Except.ok.inj hc']

/-- Scalars move to the exponent: `e(p * k, q * m) = e(p, q)^(k m)`, with the multiplications of the code; `k` and
`m` are given by their bytes. -/
theorem C72_scalar (p : Jac Fq) (q : Jac (Fq2 Fq)) (A : G1) (B : Twist) (hp : JacIs p A) (hq : JacIs q B) (hB : P • B = 0)
    (k m : List UInt8) (c : Fq12 Fq) (hc : pairing decoded p.toAffine q.toAffine = .ok c) :
    pairing decoded (p.mul k).toAffine (q.mul m).toAffine = .ok (c ^ (leNat k * leNat m)) := by
  have h := (inG2_iff B).2 hB
  rw [pairing_eq (toAffine_is hp) (toAffine_is hq) h] at hc
  rw [pairing_eq (toAffine_is (mul_is smooth_three hp k)) (toAffine_is (mul_is smooth2 hq m)) (h.nsmul _),
    E_nsmul_left _ (h.nsmul _), E_nsmul_right _ h, ← pow_mul, mul_comm, Except.ok.inj hc]

/-! ### C73: the pairing is not degenerate -/

/-- The result is 1 for the point at infinity in one of the places, and for no other points. -/
theorem C73_degenerate (p : Aff Fq) (q : Aff (Fq2 Fq)) (A : G1) (B : Twist) (hp : AffIs p A) (hq : AffIs q B) (hB : P • B = 0) :
    pairing decoded p q = .ok 1 ↔ A = 0 ∨ B = 0 := by
  have h := (inG2_iff B).2 hB
  rw [pairing_eq hp hq h, Except.ok.injEq]
  exact E_one_iff A h

/-- So the pairing with one point other than that at infinity tells all points apart, in both places. -/
theorem C73_injective (p p' : Aff Fq) (q q' : Aff (Fq2 Fq)) (A A' : G1) (B B' : Twist) (hp : AffIs p A) (hp' : AffIs p' A')
    (hq : AffIs q B) (hq' : AffIs q' B') (hB : P • B = 0) (hB' : P • B' = 0) :
    (B ≠ 0 → pairing decoded p q = pairing decoded p' q → p = p') ∧
    (A ≠ 0 → pairing decoded p q = pairing decoded p q' → q = q') := by
  have h := (inG2_iff B).2 hB
  have h' := (inG2_iff B').2 hB'
  constructor
  · intro h0 e
    rw [pairing_eq hp hq h, pairing_eq hp' hq h, Except.ok.injEq] at e
    have : E (A + -A') B = 1 := by rw [E_add_left _ _ h, e, E_neg_left _ h]
    have : A = A' := by
      rcases (E_one_iff _ h).1 this with h1 | h1
      · exact add_neg_eq_zero.1 h1
      · exact absurd h1 h0
    subst this
    rw [← affOf_of_is hp, affOf_of_is hp']
  · intro h0 e
    rw [pairing_eq hp hq h, pairing_eq hp hq' h', Except.ok.injEq] at e
    have : E A (B + -B') = 1 := by rw [E_add_right _ h h'.neg, e, E_neg_right _ h']
    have : B = B' := by
      rcases (E_one_iff _ (h.add h'.neg)).1 this with h1 | h1
      · exact absurd h1 h0
      · exact add_neg_eq_zero.1 h1
    subst this
    rw [← affOf2_of_is hq, affOf2_of_is hq']

/-! ### C74: the joint pairing and the check of the verifier -/

/-- The coordinates are those of points, the second ones in the second group. -/
def ArePoints (t : Aff Fq × Aff (Fq2 Fq)) : Prop := (∃ A : G1, AffIs t.1 A) ∧ ∃ B : Twist, AffIs t.2 B ∧ P • B = 0

/-- `multi_miller_loop` and the final exponentiation give the product of the pairings, for any number of pairs. -/
theorem C74_joint (ts : List (Aff Fq × Aff (Fq2 Fq))) (h : ∀ t ∈ ts, ArePoints t) :
    ∃ cs : List (Fq12 Fq), List.Forall₂ (fun t c => pairing decoded t.1 t.2 = .ok c) ts cs ∧
      (multiMillerLoop (ts.map fun t => (t.1, G2Prepared.fromAffine decoded t.2)) >>=
        fun u => u.finalExponentiation decoded) = .ok cs.prod := by
  obtain ⟨us, hus⟩ : ∃ us, PairsAre ts us := by
    induction ts with
    | nil => exact ⟨[], .nil⟩
    | cons t ts ih =>
      obtain ⟨us, hus⟩ := ih fun t ht => h t (List.mem_cons_of_mem _ ht)
      obtain ⟨⟨A, hA⟩, B, hB, h0⟩ := h t List.mem_cons_self
      exact ⟨(A, B) :: us, .cons ⟨hA, hB, (inG2_iff B).2 h0⟩ hus⟩
  refine ⟨us.map fun u => E u.1 u.2, ?_, joint_eq hus⟩
  clear h
  induction hus with
  | nil => exact .nil
  | cons h _ ih => exact .cons (pairing_eq h.1 h.2.1 h.2.2) ih

theorem pairingCheck_eq (L R : G1) (g s : G2) :
    pairingCheck decoded (affOf2 g.1) (affOf2 s.1) (affOf L) (affOf R) = .ok (decide (E L s.1 * E R (-g.1) = 1)) := by
  have hn : AffIs (⟨(affOf2 g.1).x, -(affOf2 g.1).y⟩ : Aff (Fq2 Fq)) (-g.1) := affNeg_is (affOf2_is g.1)
  have := joint_eq (ts := [(affOf L, affOf2 s.1), (affOf R, ⟨(affOf2 g.1).x, -(affOf2 g.1).y⟩)]) (us := [(L, s.1), (R, -g.1)])
    (.cons ⟨affOf_is L, affOf2_is s.1, G2.inG2 s⟩ (.cons ⟨affOf_is R, hn, (G2.inG2 g).neg⟩ .nil))
  simp only [List.map_cons, List.map_nil, List.prod_cons, List.prod_nil, mul_one] at this
  unfold pairingCheck
  rw [← bind_assoc, this]
  rfl

/-- The check of the verifier: with the points `g` and `s · g` of the second group in the parameters, `left` and
`right` pass if and only if `right = s · left`. -/
theorem C74_check (l r : Aff Fq) (g sg : Aff (Fq2 Fq)) (L R : G1) (B : Twist) (s : Nat) (hl : AffIs l L) (hr : AffIs r R)
    (hg : AffIs g B) (hsg : AffIs sg (s • B)) (hB : P • B = 0) (h0 : B ≠ 0) :
    ∃ b, pairingCheck decoded g sg l r = .ok b ∧ (b = true ↔ R = s • L) := by
  have h := (inG2_iff B).2 hB
  have hs : P • (s • B) = 0 := (h.nsmul s).order
  have := pairingCheck_eq L R ⟨B, hB⟩ ⟨s • B, hs⟩
  rw [affOf2_of_is hg, affOf2_of_is hsg, affOf_of_is hl, affOf_of_is hr] at this
  refine ⟨_, this, ?_⟩
  rw [decide_eq_true_iff, E_nsmul_right _ h, ← E_nsmul_left _ h]
  have e : E R (-B) = E (-R) B := by
    have h1 := E_neg_right R h
    rw [← E_neg_left R h] at h1
    exact mul_left_cancel₀ (E_ne R h) h1
  rw [e, ← E_add_left _ _ h, E_one_iff _ h, or_iff_left h0, add_neg_eq_zero]
  exact eq_comm

/-- The verifier of C51 to C56 and C61 to C64, with the pairing of the code, makes this check. -/
theorem C74_verifier (g2 sG2 : G2) (left right : List (Fr × G1)) :
    Shplonk.check bnPairing g2 sG2 left right = (do
      let L ← Shplonk.evalMsm left
      let R ← Shplonk.evalMsm right
      pairingCheck decoded (affOf2 g2.1) (affOf2 sG2.1) (affOf L) (affOf R)) := by
  unfold Shplonk.check
  refine bind_congr fun L => bind_congr fun R => ?_
  rw [pairingCheck_eq]
  have : (bnPairing L sG2 + bnPairing R (-g2) = 0) ↔ E L sG2.1 * E R (-g2.1) = 1 :=
    ⟨fun h => congrArg GT.val h, fun h => GT.ext h⟩
  exact congrArg Except.ok (decide_eq_decide.2 this)

/-! ### C75: the target group -/

/-- Elements whose `P`-th power is 1 satisfy the condition of C69, under which conjugation inverts. -/
theorem cyc_of_order {a : Fq12 Fq} (h : a ^ P = 1) : Cyc a := by
  obtain ⟨c, hc⟩ : ∃ c, Q ^ 4 - Q ^ 2 + 1 = P * c := ⟨(Q ^ 4 - Q ^ 2 + 1) / P, by decide +kernel⟩
  show a ^ (Q ^ 4 - Q ^ 2 + 1) = 1
  rw [hc, pow_mul, h, one_pow]

theorem gtMul_eq (a : Fq12 Fq) (s : Nat) : ∀ (n : Nat) (acc : Fq12 Fq),
    (List.range n).reverse.foldl (fun acc i => if s.testBit i then gtAdd (gtDouble acc) a else gtDouble acc) acc =
      acc ^ 2 ^ n * a ^ (s % 2 ^ n)
  | 0, acc => by simp [Nat.mod_one]
  | n + 1, acc => by
    rw [List.range_succ, List.reverse_append, List.reverse_singleton, List.singleton_append, List.foldl_cons, gtMul_eq a s n]
    have hd : gtDouble acc = acc ^ 2 := by
      show Fq12.square acc = _
      rw [Fq12.square_eq, pow_two]
    rw [hd, Nat.mod_pow_succ, Nat.testBit_eq_decide_div_mod_eq]
    rcases Nat.mod_two_eq_zero_or_one (s / 2 ^ n) with h | h <;> rw [h]
    · simp only [zero_ne_one, decide_false, Bool.false_eq_true, if_false, mul_zero, add_zero]
      rw [← pow_mul, ← Nat.pow_succ']
    · simp only [decide_true, if_true, mul_one]
      show (acc ^ 2 * a) ^ 2 ^ n * _ = _
      rw [mul_pow, ← pow_mul, ← Nat.pow_succ', mul_assoc, ← pow_add, Nat.add_comm (2 ^ n)]

/-- For results of pairings, or any elements whose `P`-th power is 1: `-a` is the inverse, `double` the square, and
`a * k` the power, for every scalar `k`. -/
theorem C75_group (a b : Fq12 Fq) (h : a ^ P = 1) (k : Fr) :
    gtAdd a (gtNeg a) = gtIdentity ∧ gtAdd a b = a * b ∧ gtDouble a = gtAdd a a ∧ gtMul a k.val = a ^ k.val ∧
    (gtIsIdentity a = true ↔ a = gtIdentity) := by
  refine ⟨?_, rfl, Fq12.square_eq a, ?_, decide_eq_true_iff⟩
  · show a * a.conjugate = 1
    rw [(cyc_of_order h).conjugate, mul_inv_cancel₀ (cyc_of_order h).ne_zero]
  · have hk : k.val % 2 ^ 255 = k.val := Nat.mod_eq_of_lt (lt_trans (ZMod.val_lt k) (by decide +kernel))
    have := gtMul_eq a k.val 255 1
    rw [one_pow, one_mul, hk] at this
    exact this

/-- So scalars of the target group go with those of the pairing: `e(p * k, q) = e(p, q) * k`. -/
theorem C75_scalar (p : Jac Fq) (q : Aff (Fq2 Fq)) (A : G1) (B : Twist) (hp : JacIs p A) (hq : AffIs q B) (hB : P • B = 0)
    (k : List UInt8) (hk : leNat k < P) (c : Fq12 Fq) (hc : pairing decoded p.toAffine q = .ok c) :
    pairing decoded (p.mul k).toAffine q = .ok (gtMul c (leNat k)) := by
  have h := (inG2_iff B).2 hB
  rw [pairing_eq (toAffine_is hp) hq h] at hc
  obtain rfl := Except.ok.inj hc
  rw [pairing_eq (toAffine_is (mul_is smooth_three hp k)) hq h, E_nsmul_left _ h]
  have := (C75_group (E A B) 1 (E_order A h) (leNat k : Fr)).2.2.2.1
  rw [ZMod.val_natCast, Nat.mod_eq_of_lt hk] at this
  rw [this]

/-- Not vacuous: an element other than 1. -/
example : ∃ a : Fq12 Fq, a ^ P = 1 ∧ a ≠ 1 := ⟨E generator gen2, E_order _ inG2_gen2, E_generators⟩

/-! ### C77: default values -/

/-- The default value of the target group is not the identity, and not in the group: no element takes it to the
identity. -/
theorem C77_refuted : (gtDefault : Fq12 Fq) ≠ gtIdentity ∧ ∀ c : Fq12 Fq, gtAdd gtDefault c ≠ gtIdentity :=
  ⟨fun h => zero_ne_one h, fun c h => zero_ne_one ((zero_mul c).symm.trans h)⟩

/-- Those of the two curves are the points at infinity. -/
theorem C77_partial : JacIs (Jac.default : Jac Fq) (0 : G1) ∧ AffIs (Aff.default : Aff Fq) (0 : G1) ∧
    JacIs (Jac.default : Jac (Fq2 Fq)) (0 : Twist) ∧ AffIs (Aff.default : Aff (Fq2 Fq)) (0 : Twist) :=
  ⟨jac_zero.2 rfl, rfl, jac_zero.2 rfl, rfl⟩

end Verif.Props

#print axioms Verif.Props.C70_curve
#print axioms Verif.Props.C70_torsion
#print axioms Verif.Props.C70_cofactor
#print axioms Verif.Props.C71_pairing
#print axioms Verif.Props.C72_left
#print axioms Verif.Props.C72_right
#print axioms Verif.Props.C72_scalar
#print axioms Verif.Props.C73_degenerate
#print axioms Verif.Props.C73_injective
#print axioms Verif.Props.C74_joint
#print axioms Verif.Props.C74_check
#print axioms Verif.Props.C74_verifier
#print axioms Verif.Props.C75_group
#print axioms Verif.Props.C75_scalar
#print axioms Verif.Props.C77_refuted
#print axioms Verif.Props.C77_partial

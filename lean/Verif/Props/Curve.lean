import Verif.Lemmas.CurveMul
import Verif.Lemmas.CurveOrder
import Verif.Lemmas.StoredField

/-!
C58: the formulas for points compute the group law. C59: the group of bn256 has as many points as there
are scalars. C60: each point has one encoding.
-/

namespace Verif.Props

open Spec FieldConsts

/-! C57, continued: the operations of the field of stored forms are those on limbs. -/

/-- Stored forms are a field with the operations on limbs, and standing for a residue is an isomorphism. -/
theorem C57_field :
    Function.Bijective FqLimbs.value ∧
    ∀ a b : FqLimbs,
      ((a + b).1 = fqConsts.add a.1 b.1 ∧ (a + b).value = a.value + b.value) ∧
      ((a - b).1 = fqConsts.sub a.1 b.1 ∧ (a - b).value = a.value - b.value) ∧
      ((a * b).1 = fqConsts.mul a.1 b.1 ∧ (a * b).value = a.value * b.value) ∧
      ((-a).1 = fqConsts.neg a.1 ∧ (-a).value = -a.value) ∧
      ((a * a).1 = fqConsts.square a.1 ∧ (a + a).1 = fqConsts.double a.1) ∧
      ((a⁻¹).1 = (fqInvert a.1).getD FieldConsts.zero ∧ (a⁻¹).value = (a.value)⁻¹) ∧
      ((0 : FqLimbs).1 = FieldConsts.zero ∧ (1 : FqLimbs).1 = fqConsts.one) := by
  have s := fq_setup
  refine ⟨FqLimbs.value_bijective, fun a b => ?_⟩
  have ha := a.stands
  have hb := b.stands
  have h0 : (0 : FqLimbs).1 = FieldConsts.zero := FqLimbs.of_stands (FqLimbs.value_zero ▸ s.zero)
  refine ⟨⟨FqLimbs.of_stands (by rw [FqLimbs.value_add]; exact s.add ha hb), FqLimbs.value_add a b⟩,
    ⟨FqLimbs.of_stands (by rw [FqLimbs.value_sub]; exact s.sub ha hb), FqLimbs.value_sub a b⟩,
    ⟨FqLimbs.of_stands (by rw [FqLimbs.value_mul]; exact s.mul ha hb), FqLimbs.value_mul a b⟩,
    ⟨FqLimbs.of_stands (by rw [FqLimbs.value_neg]; exact s.neg ha), FqLimbs.value_neg a⟩,
    ⟨FqLimbs.of_stands (by rw [FqLimbs.value_mul]; exact s.square ha),
      FqLimbs.of_stands (by rw [FqLimbs.value_add]; exact s.add ha ha)⟩,
    ⟨?_, FqLimbs.value_inv a⟩, h0, FqLimbs.of_stands (by rw [FqLimbs.value_one]; exact s.r)⟩
  have hi := C57_invert_fq ha
  by_cases h : a.value = 0
  · rw [hi.1 h]
    refine FqLimbs.of_stands ?_
    rw [FqLimbs.value_inv, h, inv_zero]
    exact s.zero
  · obtain ⟨t, e, ht⟩ := hi.2 h
    rw [e]
    refine FqLimbs.of_stands ?_
    rw [FqLimbs.value_inv]
    exact ht

/-! C58. -/

section group
variable {F : Type} [Field F] [DecidableEq F] {b : F}

/-- Doubling, addition, negation and subtraction in Jacobian coordinates. -/
theorem C58_jacobian (s : Smooth b) {p q : Jac F} {A B : Pt b} (hp : JacIs p A) (hq : JacIs q B) :
    JacIs p.double (2 • A) ∧ JacIs (p.add q) (A + B) ∧ JacIs p.neg (-A) ∧ JacIs (p.sub q) (A - B) ∧
    JacIs (Jac.identity : Jac F) (0 : Pt b) :=
  ⟨jac_congr (double_is s hp) (two_nsmul A).symm, add_is s hp hq, neg_is hp, sub_is s hp hq, rfl⟩

/-- Addition and subtraction when the second point, or both, are affine. -/
theorem C58_mixed (s : Smooth b) {p : Jac F} {q r : Aff F} {A B C : Pt b} (hp : JacIs p A) (hq : AffIs q B)
    (hr : AffIs r C) :
    JacIs (p.addMixed q) (A + B) ∧ JacIs (p.subMixed q) (A - B) ∧ JacIs (q.add r) (B + C) ∧
    JacIs (q.sub r) (B - C) ∧ AffIs q.neg (-B) ∧ AffIs (Aff.identity : Aff F) (0 : Pt b) :=
  ⟨addMixed_is s hp hq, jac_congr (addMixed_is s hp (affNeg_is hq)) (sub_eq_add_neg A B).symm, affAdd_is s hq hr,
    jac_congr (affAdd_is s hq (affNeg_is hr)) (sub_eq_add_neg B C).symm, affNeg_is hq, rfl⟩

/-- Sums of any number of points. -/
theorem C58_sum (s : Smooth b) {l : List (Jac F)} {L : List (Pt b)} (h : List.Forall₂ JacIs l L) :
    JacIs (Jac.sum l) L.sum := sum_is s h

/-- Multiplication by a scalar is repeated addition, as often as its representative says. -/
theorem C58_mul (s : Smooth b) {p : Jac F} {q : Aff F} {A B : Pt b} (hp : JacIs p A) (hq : AffIs q B)
    (bytes : List UInt8) :
    JacIs (p.mul bytes) (leNat bytes • A) ∧ JacIs (q.mul bytes) (leNat bytes • B) :=
  ⟨mul_is s hp bytes, affMul_is s hq bytes⟩

/-- Between the coordinate systems. -/
theorem C58_convert (s : Smooth b) {p : Jac F} {q : Aff F} {A B : Pt b} (hp : JacIs p A) (hq : AffIs q B) :
    AffIs p.toAffine A ∧ JacIs q.toCurve B := ⟨toAffine_is hp, toCurve_is s hq⟩

/-- Converting many points at once: each as if alone, never a panic unless the lengths differ. -/
theorem C58_batch (ps : List (Jac F)) (n : Nat) :
    Jac.batchNormalize ps n = if ps.length = n then .ok (ps.map Jac.toAffine) else .error .assert := by
  split
  · rename_i h
    rw [← h, batchNormalize_eq]
  · rename_i h
    unfold Jac.batchNormalize
    rw [if_pos h]

/-- Comparison decides whether the points are equal, whatever the coordinates; the tests for the point at
infinity are right. -/
theorem C58_eq (s : Smooth b) {p q : Jac F} {A B : Pt b} (hp : JacIs p A) (hq : JacIs q B) {r t : Aff F} {C D : Pt b}
    (hr : AffIs r C) (ht : AffIs t D) :
    (p.ctEq q = true ↔ A = B) ∧ (r.ctEq t = true ↔ C = D) ∧ (p.isIdentity = true ↔ A = 0) ∧
    (r.isIdentity = true ↔ C = 0) := by
  have h0 : ∀ {p : Jac F} {A : Pt b}, JacIs p A → (p.isIdentity = true ↔ A = 0) := by
    intro p A hp
    unfold Jac.isIdentity
    rw [decide_eq_true_iff]
    constructor
    · intro h
      exact jac_unique hp (jac_zero.2 h)
    · rintro rfl
      exact hp
  refine ⟨by rw [ctEq_is hp hq, decide_eq_true_iff], ?_, h0 hp, by rw [isIdentity_aff s hr, decide_eq_true_iff]⟩
  unfold Aff.ctEq
  rw [isIdentity_aff s hr, isIdentity_aff s ht]
  by_cases hC : C = 0 <;> by_cases hD : D = 0
  · simp [hC, hD]
  · simp [hC, Ne.symm hD, hD]
  · simp [hC, hD]
  · have e : r = t ↔ C = D := ⟨fun e => aff_unique s hr (e ▸ ht), fun e => by
      subst e
      cases C <;> exact hr.trans ht.symm⟩
    cases r
    cases t
    simp only [Aff.mk.injEq] at e
    simp [hC, hD, e]

/-- The test for being on the curve accepts exactly the coordinates that stand for a point, and they
stand for one only. -/
theorem C58_onCurve (s : Smooth b) (p : Jac F) (q : Aff F) :
    (p.isOnCurve b = true ↔ ∃! A : Pt b, JacIs p A) ∧ (q.isOnCurve b = true ↔ ∃! A : Pt b, AffIs q A) := by
  rw [onCurve_jac s, onCurve_aff s]
  exact ⟨⟨fun ⟨A, h⟩ => ⟨A, h, fun B hB => jac_unique hB h⟩, fun h => h.exists⟩,
    ⟨fun ⟨A, h⟩ => ⟨A, h, fun B hB => aff_unique s hB h⟩, fun h => h.exists⟩⟩

end group

/-- The curve of the code: the generator (1, 2) is on it, and so are its multiples. -/
example : Smooth (3 : Fq) ∧ JacIs (⟨1, 2, 1⟩ : Jac Fq) generator ∧ AffIs (⟨1, 2⟩ : Aff Fq) generator ∧
    (Jac.double (⟨1, 2, 1⟩ : Jac Fq)).toAffine.isOnCurve 3 = true ∧
    (Jac.double (⟨1, 2, 1⟩ : Jac Fq)).ctEq (Jac.add ⟨1, 2, 1⟩ ⟨4, 16, 2⟩) = true ∧
    (Jac.double (⟨1, 2, 1⟩ : Jac Fq)).ctEq ⟨1, 2, 1⟩ = false ∧
    ((⟨1, 2, 1⟩ : Jac Fq).isOnCurve 3 = true ∧ (⟨1, 3, 1⟩ : Jac Fq).isOnCurve 3 = false) :=
  ⟨smooth_three, ⟨by decide +kernel, by decide +kernel, by decide +kernel⟩, rfl, by decide +kernel, by decide +kernel,
    by decide +kernel, by decide +kernel, by decide +kernel⟩

/-! C59. -/

/-- The group has exactly as many points as the scalar field has elements; that number is prime. -/
theorem C59_order : Nat.card G1 = P ∧ Nat.Prime P ∧ ∀ A : G1, P • A = 0 :=
  ⟨card_points, Fact.out, order_all⟩

/-- Multiples by scalars add and multiply like scalars, and different scalars give different multiples. -/
theorem C59_scalars (x y : Fr) (A : G1) :
    (x + y).val • A = x.val • A + y.val • A ∧ (x * y).val • A = x.val • y.val • A ∧
    (A ≠ 0 → (x.val • A = y.val • A ↔ x = y)) := by
  have hmod : ∀ n : Nat, (n % P) • A = n • A := by
    intro n
    conv_rhs => rw [← Nat.div_add_mod n P, add_nsmul, mul_nsmul, order_all, nsmul_zero, zero_add]
  refine ⟨by rw [ZMod.val_add, hmod, add_nsmul], by rw [ZMod.val_mul, hmod, mul_comm, mul_nsmul], fun hA => ?_⟩
  refine ⟨fun h => ?_, fun h => by rw [h]⟩
  have ho : addOrderOf A = P := by
    have hd := addOrderOf_dvd_of_nsmul_eq_zero (order_all A)
    rcases (Nat.dvd_prime (Fact.out : Nat.Prime P)).1 hd with h1 | h1
    · exact absurd (AddMonoid.addOrderOf_eq_one_iff.1 h1) hA
    · exact h1
  have hm : x.val ≡ y.val [MOD addOrderOf A] := nsmul_eq_nsmul_iff_modEq.1 h
  rw [ho] at hm
  exact ZMod.val_injective P (Nat.ModEq.eq_of_lt_of_lt hm (ZMod.val_lt x) (ZMod.val_lt y))

/-- Every point other than that at infinity generates: each point is a multiple of it, by one scalar. The
generator of the code is one. -/
theorem C59_generator {B : G1} (hB : B ≠ 0) (A : G1) : ∃! x : Fr, A = x.val • B := by
  have hinj : Function.Injective fun x : Fr => x.val • B := fun x y h => ((C59_scalars x y B).2.2 hB).1 h
  have hcard : Nat.card Fr = Nat.card G1 := by rw [card_points, Nat.card_zmod]
  have hbij := (Nat.bijective_iff_injective_and_card _).2 ⟨hinj, hcard⟩
  obtain ⟨x, hx⟩ := hbij.2 A
  exact ⟨x, hx.symm, fun y hy => hinj (hy.symm.trans hx.symm)⟩

example : generator ≠ 0 := by
  intro h
  cases h

/-- No point other than that at infinity is its own negative. So formulas never meet y = 0. -/
theorem C59_no_two_torsion (A : G1) : A = -A ↔ A = 0 := by
  constructor
  · intro h
    refine no_two_torsion ?_
    nth_rewrite 1 [h]
    exact neg_add_cancel A
  · rintro rfl
    exact neg_zero.symm

/-! C60. -/

/-- Encoding, on limbs: 32 bytes, and decoding undoes it. -/
theorem C60_roundtrip {p : Aff FqLimbs} {A : G1} (h : AffIs (affValue p) A) :
    (p.toBytes storedIO).length = 32 ∧ Aff.fromBytes storedIO g1B (p.toBytes storedIO) = some p := by
  have e : p.toBytes storedIO = (affOf A).toBytes fqIO := by rw [affValue_toBytes, affOf_of_is h]
  have hl := (toBytes_nat A).1
  rw [e]
  refine ⟨hl, ?_⟩
  have hm := affValue_fromBytes hl g1B
  rw [g1B_value, fromBytes_toBytes] at hm
  obtain ⟨p', hp', e'⟩ := Option.map_eq_some_iff.1 hm
  rw [hp', affValue_injective (e'.trans (affOf_of_is h))]

/-- Any 32 bytes: either they are refused, or they decode to coordinates of a point of the curve whose
encoding they are. So no point has two encodings, and nothing off the curve is ever decoded. -/
theorem C60_canonical {bytes : List UInt8} (h : bytes.length = 32) {p : Aff FqLimbs}
    (hp : Aff.fromBytes storedIO g1B bytes = some p) :
    (∃ A : G1, AffIs (affValue p) A) ∧ p.toBytes storedIO = bytes := by
  have hm := affValue_fromBytes h g1B
  rw [hp, g1B_value, Option.map_some] at hm
  obtain ⟨A, hA, e⟩ := fromBytes_nat h hm.symm
  exact ⟨⟨A, hA⟩, by rw [affValue_toBytes, ← affOf_of_is hA, e]⟩

/-- The 32 bytes, read as a number: x, and 2^255 more if y is odd; 0 is the point at infinity. Nothing
else is accepted. -/
theorem C60_format {bytes : List UInt8} (h : bytes.length = 32) :
    (Aff.fromBytes storedIO g1B bytes).isSome = true ↔
      leNat bytes = 0 ∨ ∃ x y : Fq, y ^ 2 = x ^ 3 + 3 ∧
        leNat bytes = x.val + if y.val % 2 = 1 then 2 ^ 255 else 0 := by
  have hm := affValue_fromBytes h g1B
  rw [g1B_value] at hm
  have hs : (Aff.fromBytes storedIO g1B bytes).isSome = (Aff.fromBytes fqIO 3 bytes).isSome := by
    rw [← hm, Option.isSome_map]
  rw [hs]
  have key : ∀ A : G1, leNat bytes = leNat ((affOf A).toBytes fqIO) → (Aff.fromBytes fqIO 3 bytes).isSome = true := by
    intro A hA
    rw [bytes_ext h (toBytes_nat A).1 hA, fromBytes_toBytes]
    rfl
  constructor
  · intro h'
    obtain ⟨p, hp⟩ := Option.isSome_iff_exists.1 h'
    obtain ⟨A, -, e⟩ := fromBytes_nat h hp
    have hn := (toBytes_nat A).2
    rw [e] at hn
    cases A with
    | zero => exact .inl hn
    | some x y hxy =>
      refine .inr ⟨x, y, point_eq hxy, ?_⟩
      rw [hn]
      by_cases hy : y.val % 2 = 1 <;> simp [hy]
  · rintro (h0 | ⟨x, y, hxy, hn⟩)
    · exact key 0 (h0.trans (toBytes_nat 0).2.symm)
    · refine key (.some x y ((nonsingular_curve smooth_three).2 hxy)) ?_
      rw [(toBytes_nat _).2, hn]
      by_cases hy : y.val % 2 = 1 <;> simp [hy]

/-- Every point has coordinates for the transcript, the one at infinity too: it is not refused there. -/
theorem C60_coordinates (A : G1) : g1Codec.coords A =
    some (match A with
      | .zero => (List.replicate 32 0, List.replicate 32 0)
      | .some x y _ => (leBytes 32 x.val, leBytes 32 y.val)) := by
  show Aff.coordinates fqIO 3 (affOf A) = _
  unfold Aff.coordinates
  rw [if_pos ((onCurve_aff smooth_three _).2 ⟨A, affOf_is A⟩)]
  cases A with
  | zero => exact congrArg some (by decide +kernel)
  | some x y h => rfl

/-- The generator is encoded as the number 1; 2^255 + 1 is its negative; 0 is the point at infinity. The
number Q + 1 would be the generator again but is refused, and 2^255, a second form of infinity, is too. -/
example : (∀ n ∈ [0, 1, 2 ^ 255 + 1], (Aff.fromBytes storedIO g1B (leBytes 32 n)).isSome = true) ∧
    (∀ n ∈ [Q + 1, 2 ^ 255], (Aff.fromBytes storedIO g1B (leBytes 32 n)).isSome = false) := by
  have hlen : ∀ n, (leBytes 32 n).length = 32 := fun n => leBytes_length 32 n
  have hn : ∀ {n}, n < 256 ^ 32 → leNat (leBytes 32 n) = n := fun h => leNat_leBytes _ _ h
  constructor
  · intro n hmem
    rw [C60_format (hlen n)]
    simp only [List.mem_cons, List.not_mem_nil, or_false] at hmem
    rcases hmem with rfl | rfl | rfl
    · exact .inl (hn (by decide))
    · exact .inr ⟨1, 2, by decide +kernel, by rw [hn (by decide)]; decide +kernel⟩
    · exact .inr ⟨1, -2, by decide +kernel, by rw [hn (by decide)]; decide +kernel⟩
  · intro n hmem
    rw [← Bool.not_eq_true, C60_format (hlen n)]
    simp only [List.mem_cons, List.not_mem_nil, or_false] at hmem
    have hq : Q < 2 ^ 254 := Q_small
    rintro (h0 | ⟨x, y, hxy, he⟩)
    · rcases hmem with rfl | rfl <;> rw [hn (by decide)] at h0 <;> simp at h0
    · have hx : x.val < Q := ZMod.val_lt x
      rcases hmem with rfl | rfl
      · rw [hn (by decide)] at he
        split at he <;> omega
      · rw [hn (by decide)] at he
        have h0 : x.val = 0 := by split at he <;> omega
        have : x = 0 := (ZMod.val_eq_zero x).1 h0
        rw [this] at hxy
        exact three_not_square ⟨y, by rw [← pow_two, hxy]; ring⟩

#print axioms C57_field
#print axioms C58_jacobian
#print axioms C58_mixed
#print axioms C58_sum
#print axioms C58_mul
#print axioms C58_convert
#print axioms C58_batch
#print axioms C58_eq
#print axioms C58_onCurve
#print axioms C59_order
#print axioms C59_scalars
#print axioms C59_generator
#print axioms C59_no_two_torsion
#print axioms C60_roundtrip
#print axioms C60_canonical
#print axioms C60_format
#print axioms C60_coordinates

end Verif.Props

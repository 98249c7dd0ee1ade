import Verif.Lemmas.G2Codec
import Verif.Spec.Tower

/-! Property C95: the compressed encoding of points of G2. -/

namespace Verif.Props

open Spec Tower WeierstrassCurve.Affine

/-- Decoding, as the code does it. -/
noncomputable abbrev decode2 (bytes : List UInt8) : Except Panic (Option (Aff (Fq2 Fq))) := g2FromBytes decoded fqIO g2B bytes

/-- Encoding, as the code does it. -/
noncomputable abbrev encode2 (p : Aff (Fq2 Fq)) : List UInt8 := g2ToBytes decoded fqIO p

/-- C95, the part that holds: a point is encoded in 64 bytes, and decoded from them, if the first coordinate of its y is
not zero, or it is the point at infinity. Missing: the other points (`C95_not_all`). -/
theorem C95_roundtrip_partial {p : Aff (Fq2 Fq)} {A : Pt (g2B : Fq2 Fq)} (h : AffIs p A) (hy : A = 0 ∨ p.y.c0 ≠ 0) :
    (encode2 p).length = 64 ∧ decode2 (encode2 p) = .ok (some p) := by
  unfold decode2 encode2
  match A, h with
  | .zero, h =>
    have h' : p = ⟨0, 0⟩ := h
    subst h'
    rw [encode2_zero]
    refine ⟨by simp, ?_⟩
    show g2FromBytes decoded fqIO B2 (List.replicate 32 0 ++ List.replicate 32 0) = _
    rw [decode2_eq (by simp) (by simp)]
    have : leNat (List.replicate 32 0) = 0 := by decide
    rw [this, if_pos ⟨Q_prime.pos, by rw [Nat.zero_mod]; exact Q_prime.pos⟩, if_pos ⟨rfl, rfl⟩]
  | .some x y hn, h =>
    have h' : p = ⟨x, y⟩ := h
    subst h'
    have hy0 : y.c0 ≠ 0 := hy.resolve_left (Point.some_ne_zero hn)
    have he := point_eq hn
    obtain ⟨hi, h1, h2, h3⟩ := encode2_eq (y := y) (x2_ne_zero he)
    obtain ⟨t1, t2⟩ := top_sign (c1_small x) (odd0 y)
    rw [← h3] at t1 t2
    rw [h1]
    refine ⟨by rw [List.length_append, leBytes_length, h2], ?_⟩
    obtain ⟨w, w1, w2, w3⟩ := decode2_point (leBytes_length _ _) h2 he (c0_bytes x) t1
    rw [w1, same_odd0 w2 hy0 (by rw [w3 (fun hz => hy0 ((sq_c0 w2).1 hz)), t2])]

/-- C95: exactly these points cannot be told from others: two different points have the same encoding if and only if
they are negatives of each other and the first coordinate of y is zero. -/
theorem C95_same {p q : Aff (Fq2 Fq)} {A B : Pt (g2B : Fq2 Fq)} (hp : AffIs p A) (hq : AffIs q B) (hne : p ≠ q) :
    encode2 p = encode2 q ↔ q = p.neg ∧ p.y.c0 = 0 := by
  unfold encode2
  match A, hp, B, hq with
  | .zero, hp, .zero, hq => exact absurd (Eq.trans hp (Eq.symm hq)) hne
  | .zero, hp, .some x y hn, hq =>
    have hp' : p = ⟨0, 0⟩ := hp
    have hq' : q = ⟨x, y⟩ := hq
    subst hp' hq'
    have hx := x2_ne_zero (point_eq hn)
    obtain ⟨hi, h1, h2, h3⟩ := encode2_eq (y := y) hx
    constructor
    · intro h
      rw [h1, encode2_zero] at h
      obtain ⟨e1, e2⟩ := List.append_inj (show List.replicate 32 0 ++ List.replicate 32 0 = leBytes 32 x.c0.val ++ hi from h) (by rw [leBytes_length]; rfl)
      exfalso
      refine hx (Fq2.ext ((ZMod.val_eq_zero _).1 ?_) ((ZMod.val_eq_zero _).1 ?_))
      · rw [← c0_bytes, ← e1]
        decide
      · have : leNat hi = 0 := by rw [← e2]; decide
        omega
    · rintro ⟨h, -⟩
      exact absurd (congrArg Aff.x h) hx
  | .some x y hn, hp, .zero, hq =>
    have hq' : q = ⟨0, 0⟩ := hq
    have hp' : p = ⟨x, y⟩ := hp
    subst hp' hq'
    have hx := x2_ne_zero (point_eq hn)
    obtain ⟨hi, h1, h2, h3⟩ := encode2_eq (y := y) hx
    constructor
    · intro h
      rw [h1, encode2_zero] at h
      obtain ⟨e1, e2⟩ := List.append_inj (show List.replicate 32 0 ++ List.replicate 32 0 = leBytes 32 x.c0.val ++ hi from h.symm) (by rw [leBytes_length]; rfl)
      exfalso
      refine hx (Fq2.ext ((ZMod.val_eq_zero _).1 ?_) ((ZMod.val_eq_zero _).1 ?_))
      · rw [← c0_bytes, ← e1]
        decide
      · have : leNat hi = 0 := by rw [← e2]; decide
        omega
    · rintro ⟨h, -⟩
      exact absurd (congrArg Aff.x h).symm hx
  | .some x y hn, hp, .some x' y' hn', hq =>
    have hp' : p = ⟨x, y⟩ := hp
    have hq' : q = ⟨x', y'⟩ := hq
    subst hp' hq'
    obtain ⟨hi, h1, h2, h3⟩ := encode2_eq (y := y) (x2_ne_zero (point_eq hn))
    obtain ⟨hi', h1', h2', h3'⟩ := encode2_eq (y := y') (x2_ne_zero (point_eq hn'))
    rw [h1, h1']
    constructor
    · intro h
      obtain ⟨e1, e2⟩ := List.append_inj h (by rw [leBytes_length, leBytes_length])
      rw [← e2] at h3'
      obtain ⟨t1, t2⟩ := top_sign (c1_small x) (odd0 y)
      obtain ⟨t1', t2'⟩ := top_sign (c1_small x') (odd0 y')
      rw [← h3] at t1 t2
      rw [← h3'] at t1' t2'
      have hxx : x = x' := by
        refine Fq2.ext (ZMod.val_injective _ ?_) (ZMod.val_injective _ (t1.symm.trans t1'))
        exact (c0_bytes x).symm.trans ((congrArg leNat e1).trans (c0_bytes x'))
      subst hxx
      have hyy : y ^ 2 = y' ^ 2 := by rw [point_eq hn, point_eq hn']
      have ho : odd0 y = odd0 y' := t2.symm.trans t2'
      have hn0 : y ≠ y' := fun hh => hne (by rw [hh])
      have hc : y'.c0 = 0 := by
        by_contra hc
        exact hn0 (same_odd0 hyy hc ho)
      refine ⟨?_, (sq_c0 hyy).2 hc⟩
      rcases sq_eq_sq_iff_eq_or_eq_neg.1 hyy with hh | hh
      · exact absurd hh hn0
      · show (⟨x, y'⟩ : Aff (Fq2 Fq)) = ⟨x, -y⟩
        rw [hh, neg_neg]
    · rintro ⟨h, hc⟩
      have hx : x' = x := congrArg Aff.x h
      have hy : y' = -y := congrArg Aff.y h
      subst hx hy
      refine congrArg (leBytes 32 x'.c0.val ++ ·) (bytes_ext h2 h2' ?_)
      rw [h3, h3', odd0_zero hc, odd0_zero (y := -y) (by rw [Fq2.neg_c0, show y.c0 = 0 from hc, neg_zero])]

/-- A point of the curve with `y = 2 u`. -/
def oddPoint : Aff (Fq2 Fq) := ⟨⟨0x212674b7f97c2414f65afaca5625d64699dba35ce4ee98082f2a71af16337016,
  0x2f88f611c98b6e337516a903a502f6cfae23438e1ce7014e62f181dbc9fbf8b0⟩, ⟨0, 2⟩⟩

theorem oddPoint_on : oddPoint.y ^ 2 = oddPoint.x ^ 3 + g2B := by decide +kernel

/-- C95 is false: a point on the curve that is decoded as its negative, which is another one. -/
theorem C95_not_all : ∃ (p : Aff (Fq2 Fq)) (A : Pt (g2B : Fq2 Fq)), AffIs p A ∧ p ≠ p.neg ∧
    decode2 (encode2 p) = .ok (some p.neg) := by
  have hn := (nonsingular_curve smooth2).2 oddPoint_on
  have hn' : (curve B2).Nonsingular oddPoint.x (-oddPoint.y) := (nonsingular_curve smooth2).2 (by rw [neg_pow_two]; exact oddPoint_on)
  have hne : oddPoint ≠ oddPoint.neg := by decide +kernel
  have hs : encode2 oddPoint = encode2 oddPoint.neg :=
    (C95_same (p := oddPoint) (q := oddPoint.neg) (A := .some _ _ hn) (B := .some _ _ hn') rfl rfl hne).2 ⟨rfl, rfl⟩
  have hnn : oddPoint.neg.neg = oddPoint := by
    show (⟨oddPoint.x, - -oddPoint.y⟩ : Aff (Fq2 Fq)) = _
    rw [neg_neg]
  obtain ⟨hi, h1, h2, h3⟩ := encode2_eq (y := oddPoint.y) (x2_ne_zero oddPoint_on)
  obtain ⟨t1, -⟩ := top_sign (c1_small oddPoint.x) (odd0 oddPoint.y)
  rw [← h3] at t1
  obtain ⟨w, w1, w2, -⟩ := decode2_point (leBytes_length _ _) h2 oddPoint_on (c0_bytes oddPoint.x) t1
  rw [← h1] at w1
  rcases sq_eq_sq_iff_eq_or_eq_neg.1 w2 with rfl | rfl
  · refine ⟨oddPoint.neg, .some _ _ hn', rfl, fun h => hne ?_, ?_⟩
    · exact hnn.symm.trans h.symm
    · rw [← hs, hnn]
      exact w1
  · exact ⟨oddPoint, .some _ _ hn, rfl, hne, w1⟩

/-- C95: decoding panics exactly if one of the two numbers is too large. -/
theorem C95_panics {bytes : List UInt8} (h : bytes.length = 64) (e : Panic) :
    decode2 bytes = .error e ↔ e = .unwrap ∧ (Q ≤ leNat (bytes.take 32) ∨ Q ≤ leNat (bytes.drop 32) % 2 ^ 255) := by
  obtain ⟨lo, hi, rfl, hlo, hhi⟩ := split64 h
  rw [List.take_left' hlo, List.drop_left' hlo]
  show g2FromBytes decoded fqIO B2 (lo ++ hi) = _ ↔ _
  rw [decode2_eq hlo hhi]
  by_cases hc : leNat lo < Q ∧ leNat hi % 2 ^ 255 < Q
  · rw [if_pos hc]
    refine ⟨fun h => (by cases h), ?_⟩
    rintro ⟨-, h | h⟩
    · exact absurd hc.1 (not_lt.2 h)
    · exact absurd hc.2 (not_lt.2 h)
  · rw [if_neg hc]
    rw [not_and_or, not_lt, not_lt] at hc
    constructor
    · intro h
      cases h
      exact ⟨rfl, hc⟩
    · rintro ⟨rfl, -⟩
      rfl

/-- C95: which bytes are accepted. -/
theorem C95_accepts {bytes : List UInt8} (h : bytes.length = 64) :
    (∃ p, decode2 bytes = .ok (some p)) ↔ leNat bytes = 0 ∨ ∃ x y : Fq2 Fq, y ^ 2 = x ^ 3 + g2B ∧
      leNat (bytes.take 32) = x.c0.val ∧ leNat (bytes.drop 32) % 2 ^ 255 = x.c1.val := by
  obtain ⟨lo, hi, rfl, hlo, hhi⟩ := split64 h
  rw [List.take_left' hlo, List.drop_left' hlo, leNat_append]
  constructor
  · rintro ⟨p, hp⟩
    have hp' : g2FromBytes decoded fqIO B2 (lo ++ hi) = _ := hp
    rw [decode2_eq hlo hhi] at hp'
    split at hp'
    swap
    · cases hp'
    rename_i hc
    split at hp'
    · rename_i h0
      left
      rw [h0.1, h0.2]
      rfl
    · right
      obtain ⟨r, hr, -⟩ := Option.map_eq_some_iff.1 (Except.ok.inj hp')
      refine ⟨⟨(leNat lo : Nat), (leNat hi % 2 ^ 255 : Nat)⟩, r, ?_, ?_, ?_⟩
      · rw [pow_two]
        exact sqrt2_some hr
      · rw [ZMod.val_natCast, Nat.mod_eq_of_lt hc.1]
      · rw [ZMod.val_natCast, Nat.mod_eq_of_lt hc.2]
  · rintro (h0 | ⟨x, y, he, h0, h1⟩)
    · refine ⟨⟨0, 0⟩, ?_⟩
      show g2FromBytes decoded fqIO B2 (lo ++ hi) = _
      have e1 : leNat lo = 0 := by omega
      have e2 : leNat hi = 0 := by
        have h' : 256 ^ lo.length * leNat hi = 0 := by omega
        exact (Nat.mul_eq_zero.1 h').resolve_left (by positivity)
      rw [decode2_eq hlo hhi, e1, e2, if_pos ⟨Q_prime.pos, by rw [Nat.zero_mod]; exact Q_prime.pos⟩, if_pos ⟨rfl, rfl⟩]
    · obtain ⟨w, hw, -, -⟩ := decode2_point hlo hhi he h0 h1
      exact ⟨_, hw⟩

/-- C95: what is decoded is on the curve, and is encoded in the same bytes, unless it is one of the points above. -/
theorem C95_canonical {bytes : List UInt8} (h : bytes.length = 64) {p : Aff (Fq2 Fq)} (hp : decode2 bytes = .ok (some p)) :
    ∃ A : Pt (g2B : Fq2 Fq), AffIs p A ∧ (A = 0 ∨ p.y.c0 ≠ 0 → encode2 p = bytes) := by
  obtain ⟨lo, hi, rfl, hlo, hhi⟩ := split64 h
  have hp' : g2FromBytes decoded fqIO B2 (lo ++ hi) = _ := hp
  rcases (C95_accepts h).1 ⟨p, hp⟩ with h0 | ⟨x, y, he, h0, h1⟩
  · have hz := leNat_zero_iff.1 h0
    rw [h] at hz
    rw [hz] at hp'
    have h2 : decode2 (List.replicate 64 0) = .ok (some ⟨0, 0⟩) := by
      have := (C95_roundtrip_partial (p := ⟨0, 0⟩) (A := 0) rfl (Or.inl rfl)).2
      rw [show encode2 ⟨0, 0⟩ = List.replicate 64 0 from encode2_zero] at this
      exact this
    have h3 : p = ⟨0, 0⟩ := Option.some.inj (Except.ok.inj (hp'.symm.trans h2))
    refine ⟨0, h3, fun _ => ?_⟩
    rw [hz, h3]
    exact encode2_zero
  · rw [List.take_left' hlo] at h0
    rw [List.drop_left' hlo] at h1
    obtain ⟨w, w1, w2, w3⟩ := decode2_point hlo hhi he h0 h1
    have h3 : p = ⟨x, w⟩ := Option.some.inj (Except.ok.inj (hp'.symm.trans w1))
    have hn := (nonsingular_curve smooth2).2 (w2.trans he)
    refine ⟨.some x w hn, h3, fun hc => ?_⟩
    have hw : w.c0 ≠ 0 := by
      have := hc.resolve_left (Point.some_ne_zero hn)
      rwa [h3] at this
    obtain ⟨hi', e1, e2, e3⟩ := encode2_eq (y := w) (x2_ne_zero he)
    rw [h3]
    refine Eq.trans e1 ?_
    rw [bytes_ext (leBytes_length _ _) hlo ((c0_bytes x).trans h0.symm), bytes_ext e2 hhi]
    rw [e3, w3 hw, ← h1]
    have hlt : leNat hi < 256 ^ 32 := hhi ▸ leNat_lt hi
    by_cases hb : 2 ^ 255 ≤ leNat hi
    · rw [decide_eq_true hb]
      norm_num at *
      omega
    · rw [decide_eq_false hb]
      norm_num at *
      omega

/-- C95: that a point is in the group of order `P` is not checked. -/
theorem C95_subgroup : ∃ (bytes : List UInt8) (p : Aff (Fq2 Fq)) (A : Pt (g2B : Fq2 Fq)), bytes.length = 64 ∧
    decode2 bytes = .ok (some p) ∧ AffIs p A ∧ P • A ≠ 0 := by
  obtain ⟨q, A, h1, h2, h3⟩ : ∃ (q : Aff (Fq2 Fq)) (A : Pt (g2B : Fq2 Fq)), AffIs q A ∧ q.y.c0 ≠ 0 ∧ P • A ≠ 0 := by
    refine ⟨⟨jacOther2.x, jacOther2.y⟩, ptOther2, rfl, by decide +kernel, fun h => ?_⟩
    have := (isTorsionFree2_iff other2_is).2 h
    revert this
    decide +kernel
  exact ⟨encode2 q, q, A, (C95_roundtrip_partial h1 (Or.inr h2)).1, (C95_roundtrip_partial h1 (Or.inr h2)).2, h1, h3⟩

/-- The generator comes back. -/
example : decode2 (encode2 g2Generator) = .ok (some g2Generator) :=
  (C95_roundtrip_partial (A := gen2) rfl (Or.inr (by decide +kernel))).2

/-- A number that is too large, and x = 3, which is the coordinate of no point. -/
example : decode2 (List.replicate 32 255 ++ List.replicate 32 0) = .error .unwrap ∧
    decode2 (3 :: List.replicate 63 0) = .ok none := by decide +kernel

#print axioms C95_roundtrip_partial
#print axioms C95_not_all
#print axioms C95_same
#print axioms C95_panics
#print axioms C95_accepts
#print axioms C95_canonical
#print axioms C95_subgroup

end Verif.Props

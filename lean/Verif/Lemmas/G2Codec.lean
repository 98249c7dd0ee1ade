import Verif.Lemmas.PairOrder
import Verif.Lemmas.PointCodec
import Verif.Lemmas.Roots
import Verif.Model.G2Codec

/-! Encoding and decoding of points of the second curve. -/

namespace Verif.Spec

open WeierstrassCurve.Affine Tower

/-- Odd representative of the first coordinate. -/
def odd0 (y : Fq2 Fq) : Bool := decide (y.c0.val % 2 = 1)

theorem sign2_eq (y : Fq2 Fq) : (fq2IO decoded fqIO).sign y = odd0 y := by
  have h := sign_eq y.c0
  unfold FieldIO.sign at h ⊢
  unfold odd0
  rw [← h]
  rfl

theorem odd0_neg {y : Fq2 Fq} (h : y.c0 ≠ 0) : odd0 (-y) = !odd0 y := by
  unfold odd0
  rw [Fq2.neg_c0, parity_flip h]

theorem odd0_zero {y : Fq2 Fq} (h : y.c0 = 0) : odd0 y = false := by
  unfold odd0
  rw [h, ZMod.val_zero]
  rfl

/-- The constant of the curve is not a square. -/
theorem b2_not_square : ¬ IsSquare B2 := by
  intro h
  have h2 : Fq2.legendre B2 = -1 := by decide +kernel
  exact (legendre2_spec B2).2.2.1 h2 h

theorem x2_ne_zero {x y : Fq2 Fq} (h : y ^ 2 = x ^ 3 + B2) : x ≠ 0 := by
  rintro rfl
  exact b2_not_square ⟨y, by rw [← pow_two, h]; ring⟩

theorem y2_ne_zero {x y : Fq2 Fq} (h : y ^ 2 = x ^ 3 + B2) : y ≠ 0 := by
  rintro rfl
  have hn := (nonsingular_curve smooth2).2 h
  exact Point.some_ne_zero hn (no_two_torsion2 add_self_zero)

theorem fq2FromBytes_eq {lo hi : List UInt8} (hlo : lo.length = 32) :
    fq2FromBytes fqIO (lo ++ hi) =
      if leNat lo < Q ∧ leNat hi < Q then .ok ⟨(leNat lo : Nat), (leNat hi : Nat)⟩ else .error .unwrap := by
  unfold fq2FromBytes fqIO
  dsimp only
  rw [List.take_left' hlo, List.drop_left' hlo]
  by_cases h1 : leNat lo < Q <;> by_cases h2 : leNat hi < Q <;> simp [h1, h2]

theorem getLastD_append {lo hi : List UInt8} (h : hi.length = 32) :
    (lo ++ hi).dropLast = lo ++ hi.dropLast ∧ (lo ++ hi).getLastD 0 = hi.getLastD 0 := by
  have hne : hi ≠ [] := by rintro rfl; simp at h
  refine ⟨List.dropLast_append_of_ne_nil hne, ?_⟩
  rw [List.getLastD_eq_getLast?, List.getLastD_eq_getLast?, List.getLast?_append_of_ne_nil _ hne]

/-- What is decoded, in terms of two numbers. -/
theorem decode2_eq {lo hi : List UInt8} (hlo : lo.length = 32) (hhi : hi.length = 32) :
    g2FromBytes decoded fqIO B2 (lo ++ hi) =
      if leNat lo < Q ∧ leNat hi % 2 ^ 255 < Q then
        .ok (if leNat lo = 0 ∧ leNat hi = 0 then some ⟨0, 0⟩
          else (Fq2.sqrt decoded ((⟨(leNat lo : Nat), (leNat hi % 2 ^ 255 : Nat)⟩ : Fq2 Fq) ^ 3 + B2)).map fun y =>
            ⟨⟨(leNat lo : Nat), (leNat hi % 2 ^ 255 : Nat)⟩, if decide (2 ^ 255 ≤ leNat hi) != odd0 y then -y else y⟩)
      else .error .unwrap := by
  obtain ⟨h1, h2, h3⟩ := split_bytes hhi
  obtain ⟨g1, g2⟩ := getLastD_append (lo := lo) hhi
  have hr : fq2FromBytes fqIO ((lo ++ hi).dropLast ++ [(lo ++ hi).getLastD 0 &&& 0x7f]) =
      if leNat lo < Q ∧ leNat hi % 2 ^ 255 < Q then .ok ⟨(leNat lo : Nat), (leNat hi % 2 ^ 255 : Nat)⟩ else .error .unwrap := by
    rw [g1, g2, List.append_assoc, fq2FromBytes_eq hlo, h1]
  unfold g2FromBytes
  dsimp only
  rw [hr]
  by_cases hc : leNat lo < Q ∧ leNat hi % 2 ^ 255 < Q
  swap
  · rw [if_neg hc, if_neg hc]
    rfl
  rw [if_pos hc, if_pos hc]
  have hr' := hr
  rw [if_pos hc] at hr'
  show Except.ok _ = _
  refine congrArg Except.ok ?_
  unfold Aff.fromBytes
  simp only [Option.bind_eq_bind]
  have hio : (fq2IO decoded fqIO).fromBytes ((lo ++ hi).dropLast ++ [(lo ++ hi).getLastD 0 &&& 0x7f]) =
      some ⟨(leNat lo : Nat), (leNat hi % 2 ^ 255 : Nat)⟩ := by
    show (fq2FromBytes fqIO _).toOption = _
    rw [hr']
    rfl
  rw [hio, Option.bind_some, g2, h2]
  have hz : ((⟨(leNat lo : Nat), (leNat hi % 2 ^ 255 : Nat)⟩ : Fq2 Fq) = 0 ∧ decide (2 ^ 255 ≤ leNat hi) = false) ↔
      leNat lo = 0 ∧ leNat hi = 0 := by
    have e1 : ((leNat lo : Nat) : Fq) = 0 ↔ leNat lo = 0 := by
      rw [ZMod.natCast_eq_zero_iff]
      exact ⟨fun h => Nat.eq_zero_of_dvd_of_lt h hc.1, fun h => h ▸ dvd_zero _⟩
    have e2 : ((leNat hi % 2 ^ 255 : Nat) : Fq) = 0 ↔ leNat hi % 2 ^ 255 = 0 := by
      rw [ZMod.natCast_eq_zero_iff]
      exact ⟨fun h => Nat.eq_zero_of_dvd_of_lt h hc.2, fun h => h ▸ dvd_zero _⟩
    have e3 : ∀ a b : Fq, (⟨a, b⟩ : Fq2 Fq) = 0 ↔ a = 0 ∧ b = 0 := fun a b =>
      ⟨fun h => ⟨congrArg Fq2.c0 h, congrArg Fq2.c1 h⟩, fun h => Fq2.ext h.1 h.2⟩
    rw [e3, e1, e2, decide_eq_false_iff_not]
    constructor
    · rintro ⟨⟨a, b⟩, c⟩
      rw [Nat.mod_eq_of_lt (not_le.1 c)] at b
      exact ⟨a, b⟩
    · rintro ⟨a, b⟩
      rw [b]
      exact ⟨⟨a, by decide⟩, by decide⟩
  generalize (⟨(leNat lo : Nat), (leNat hi % 2 ^ 255 : Nat)⟩ : Fq2 Fq) = x at *
  by_cases h0 : leNat lo = 0 ∧ leNat hi = 0
  · rw [if_pos (hz.2 h0), if_pos h0]
    rfl
  · rw [if_neg (fun h => h0 (hz.1 h)), if_neg h0]
    have ex : sq x * x + B2 = x ^ 3 + B2 := by unfold sq; ring
    have hs : (fq2IO decoded fqIO).sqrt = Fq2.sqrt decoded := rfl
    rw [ex, hs]
    cases Fq2.sqrt decoded (x ^ 3 + B2) with
    | none => rfl
    | some y =>
      rw [Option.bind_some, Option.map_some, sign2_eq]
      rfl

/-- What is encoded, in terms of two numbers. -/
theorem encode2_eq {x y : Fq2 Fq} (h : x ≠ 0) : ∃ hi, g2ToBytes decoded fqIO ⟨x, y⟩ = leBytes 32 x.c0.val ++ hi ∧
    hi.length = 32 ∧ leNat hi = x.c1.val + 2 ^ 255 * (odd0 y).toNat := by
  have hv := ZMod.val_lt x.c1
  have hq := Q_small
  have hlen : (leBytes 32 x.c1.val).length = 32 := leBytes_length _ _
  have hval : leNat (leBytes 32 x.c1.val) = x.c1.val := leNat_leBytes _ _ (by norm_num at hq ⊢; omega)
  obtain ⟨h1, h2⟩ := join_bytes hlen (by rw [hval]; norm_num at hq ⊢; omega) (odd0 y)
  refine ⟨_, ?_, h2, by rw [h1, hval]⟩
  have h0 : (⟨x, y⟩ : Aff (Fq2 Fq)).isIdentity = false := by simp [Aff.isIdentity, h]
  obtain ⟨g1, g2⟩ := getLastD_append (lo := leBytes 32 x.c0.val) hlen
  unfold g2ToBytes Aff.toBytes
  rw [h0]
  simp only [sign2_eq]
  show (leBytes 32 x.c0.val ++ leBytes 32 x.c1.val).dropLast ++ [(leBytes 32 x.c0.val ++ leBytes 32 x.c1.val).getLastD 0 ||| _] = _
  rw [g1, g2, List.append_assoc]

theorem split64 {bytes : List UInt8} (h : bytes.length = 64) :
    ∃ lo hi : List UInt8, bytes = lo ++ hi ∧ lo.length = 32 ∧ hi.length = 32 :=
  ⟨bytes.take 32, bytes.drop 32, (List.take_append_drop 32 bytes).symm, by simp [h], by simp [h]⟩

theorem sqrt2_some {a y : Fq2 Fq} (h : Fq2.sqrt decoded a = some y) : y * y = a := by
  by_cases ha : IsSquare a
  · obtain ⟨r, hr, h2⟩ := (sqrt2_spec a).1 ha
    rw [hr] at h
    rw [← Option.some.inj h, h2]
  · rw [(sqrt2_spec a).2 ha] at h
    cases h

/-- Decoding of the coordinate of a point. -/
theorem decode2_point {lo hi : List UInt8} (hlo : lo.length = 32) (hhi : hi.length = 32) {x y : Fq2 Fq}
    (h : y ^ 2 = x ^ 3 + B2) (h0 : leNat lo = x.c0.val) (h1 : leNat hi % 2 ^ 255 = x.c1.val) :
    ∃ w, g2FromBytes decoded fqIO B2 (lo ++ hi) = .ok (some ⟨x, w⟩) ∧ w ^ 2 = y ^ 2 ∧
      (w.c0 ≠ 0 → odd0 w = decide (2 ^ 255 ≤ leNat hi)) := by
  have hx := x2_ne_zero h
  rw [decode2_eq hlo hhi, h0, h1, if_pos ⟨ZMod.val_lt _, ZMod.val_lt _⟩]
  have hn : ¬ (x.c0.val = 0 ∧ leNat hi = 0) := by
    rintro ⟨a, b⟩
    refine hx (Fq2.ext ((ZMod.val_eq_zero _).1 a) ((ZMod.val_eq_zero _).1 ?_))
    rw [← h1, b]
    rfl
  have hxe : (⟨(x.c0.val : Nat), (x.c1.val : Nat)⟩ : Fq2 Fq) = x :=
    Fq2.ext (ZMod.natCast_zmod_val _) (ZMod.natCast_zmod_val _)
  rw [if_neg hn, hxe, ← h]
  obtain ⟨r, hr, hr2⟩ := (sqrt2_spec (y ^ 2)).1 ⟨y, pow_two y⟩
  rw [hr, Option.map_some]
  refine ⟨_, rfl, ?_, ?_⟩
  · split
    · rw [neg_pow_two, pow_two, hr2]
    · rw [pow_two, hr2]
  · generalize decide (2 ^ 255 ≤ leNat hi) = v
    split
    · rename_i hb
      intro hw
      have hr0 : r.c0 ≠ 0 := fun hz => hw (by rw [Fq2.neg_c0, hz, neg_zero])
      rw [odd0_neg hr0]
      revert hb
      generalize odd0 r = u
      cases u <;> cases v <;> decide
    · rename_i hb
      intro _
      revert hb
      generalize odd0 r = u
      cases u <;> cases v <;> decide

theorem same_odd0 {y z : Fq2 Fq} (h : y ^ 2 = z ^ 2) (hz : z.c0 ≠ 0) (hp : odd0 y = odd0 z) : y = z := by
  rcases sq_eq_sq_iff_eq_or_eq_neg.1 h with h | h
  · exact h
  · rw [h, odd0_neg hz] at hp
    exact absurd hp (Bool.not_ne_self _)

theorem sq_c0 {y z : Fq2 Fq} (h : y ^ 2 = z ^ 2) : y.c0 = 0 ↔ z.c0 = 0 := by
  rcases sq_eq_sq_iff_eq_or_eq_neg.1 h with h | h
  · rw [h]
  · rw [h, Fq2.neg_c0, neg_eq_zero]

theorem c1_small (x : Fq2 Fq) : x.c1.val < 2 ^ 255 := by
  have hv := ZMod.val_lt x.c1
  have hq := Q_small
  norm_num at hq ⊢
  omega

theorem c0_bytes (x : Fq2 Fq) : leNat (leBytes 32 x.c0.val) = x.c0.val := by
  have hv := ZMod.val_lt x.c0
  have hq := Q_small
  exact leNat_leBytes _ _ (by norm_num at hq ⊢; omega)

theorem encode2_zero : g2ToBytes decoded fqIO (⟨0, 0⟩ : Aff (Fq2 Fq)) = List.replicate 64 0 := by
  unfold g2ToBytes Aff.toBytes
  have : (⟨0, 0⟩ : Aff (Fq2 Fq)).isIdentity = true := by simp [Aff.isIdentity]
  rw [this]
  rfl

/-- The numbers in an encoding determine x and the sign. -/
theorem top_sign {n : Nat} (h : n < 2 ^ 255) (b : Bool) : (n + 2 ^ 255 * b.toNat) % 2 ^ 255 = n ∧
    decide (2 ^ 255 ≤ n + 2 ^ 255 * b.toNat) = b := by
  refine ⟨by rw [Nat.add_mul_mod_self_left, Nat.mod_eq_of_lt h], ?_⟩
  cases b
  · rw [decide_eq_false_iff_not]
    simpa using h
  · rw [decide_eq_true_eq]
    simp

theorem leNat_zero_iff {l : List UInt8} : leNat l = 0 ↔ l = List.replicate l.length 0 := by
  induction l with
  | nil => simp [leNat]
  | cons a l ih =>
    rw [List.length_cons, List.replicate_succ, List.cons.injEq, ← ih, leNat]
    constructor
    · intro h
      exact ⟨UInt8.toNat_inj.1 (by show a.toNat = 0; omega), by omega⟩
    · rintro ⟨rfl, h⟩
      rw [h]
      rfl

end Verif.Spec

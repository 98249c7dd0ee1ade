import Mathlib.NumberTheory.LegendreSymbol.Basic
import Verif.Lemmas.CurveOrder
import Verif.Spec.PointCodec
import Verif.Spec.Transcript

/-! Encoding and decoding of points. -/

namespace Verif.Spec

open WeierstrassCurve.Affine

theorem getLast_split {l : List UInt8} (h : l ≠ []) : l = l.dropLast ++ [l.getLastD 0] := by
  conv_lhs => rw [← List.dropLast_append_getLast h]
  rw [List.getLastD_eq_getLast?, List.getLast?_eq_getLast_of_ne_nil h]
  rfl

theorem and7f (b : UInt8) : (b &&& 0x7f).toNat = b.toNat % 128 := by
  rw [UInt8.toNat_and]
  exact Nat.and_two_pow_sub_one_eq_mod b.toNat 7

theorem or80 {b : UInt8} (h : b.toNat < 128) : (b ||| 0x80).toNat = b.toNat + 128 := by
  rw [UInt8.toNat_or]
  show b.toNat ||| 2 ^ 7 * 1 = _
  rw [Nat.or_comm, ← Nat.two_pow_add_eq_or_of_lt h 1]
  omega

theorem bit7 (b : UInt8) : b.toNat.testBit 7 = decide (128 ≤ b.toNat) := by
  have h := b.toNat_lt
  rw [Nat.testBit_eq_decide_div_mod_eq]
  rw [decide_eq_decide]
  omega

/-- Splitting off the top bit. -/
theorem split_bytes {l : List UInt8} (h : l.length = 32) :
    leNat (l.dropLast ++ [l.getLastD 0 &&& 0x7f]) = leNat l % 2 ^ 255 ∧
      (l.getLastD 0).toNat.testBit 7 = decide (2 ^ 255 ≤ leNat l) ∧
      (l.dropLast ++ [l.getLastD 0 &&& 0x7f]).length = 32 := by
  have hne : l ≠ [] := by rintro rfl; simp at h
  have hd : l.dropLast.length = 31 := by simp [h]
  have hs := getLast_split hne
  have hl : leNat l = leNat l.dropLast + 256 ^ 31 * (l.getLastD 0).toNat := by
    conv_lhs => rw [hs]
    rw [leNat_append, hd]
    simp [leNat]
  have hlt : leNat l.dropLast < 256 ^ 31 := hd ▸ leNat_lt l.dropLast
  have hb := (l.getLastD 0).toNat_lt
  refine ⟨?_, ?_, by simp [h]⟩
  · rw [leNat_append, hd, hl]
    simp only [leNat, and7f, mul_zero, add_zero]
    generalize (l.getLastD 0).toNat = v at *
    generalize leNat l.dropLast = u at *
    norm_num at *
    omega
  · rw [bit7, hl, decide_eq_decide]
    generalize (l.getLastD 0).toNat = v at *
    generalize leNat l.dropLast = u at *
    norm_num at *
    omega

/-- Setting the top bit. -/
theorem join_bytes {l : List UInt8} (h : l.length = 32) (hl : leNat l < 2 ^ 255) (s : Bool) :
    leNat (l.dropLast ++ [l.getLastD 0 ||| (if s then 0x80 else 0)]) = leNat l + 2 ^ 255 * s.toNat ∧
      (l.dropLast ++ [l.getLastD 0 ||| (if s then 0x80 else 0)]).length = 32 := by
  have hne : l ≠ [] := by rintro rfl; simp at h
  have hd : l.dropLast.length = 31 := by simp [h]
  have hs := getLast_split hne
  have he : leNat l = leNat l.dropLast + 256 ^ 31 * (l.getLastD 0).toNat := by
    conv_lhs => rw [hs]
    rw [leNat_append, hd]
    simp [leNat]
  refine ⟨?_, by simp [h]⟩
  rw [leNat_append, hd, he]
  have hv : (l.getLastD 0).toNat < 128 := by
    rw [he] at hl
    generalize (l.getLastD 0).toNat = v at *
    norm_num at hl ⊢
    omega
  cases s
  · simp [leNat]
  · simp only [leNat, if_true, or80 hv, mul_zero, add_zero, Bool.toNat_true]
    generalize (l.getLastD 0).toNat = v at *
    norm_num
    omega

theorem bytes_ext {a b : List UInt8} (ha : a.length = 32) (hb : b.length = 32) (h : leNat a = leNat b) : a = b := by
  rw [← leBytes_leNat a, ← leBytes_leNat b, ha, hb, h]

theorem Q_small : Q < 2 ^ 254 := by decide +kernel

theorem sign_eq (y : Fq) : fqIO.sign y = decide (y.val % 2 = 1) := by
  unfold FieldIO.sign fqIO
  simp only [leBytes, List.getD_cons_zero]
  rw [Nat.testBit_zero, decide_eq_decide]
  rw [UInt8.toNat_ofNat']
  omega

/-- 3 is not a square. -/
theorem three_not_square : ¬ IsSquare (3 : Fq) := by
  intro h
  have h3 : (3 : Fq) ≠ 0 := by decide +kernel
  have he := (ZMod.euler_criterion Q h3).1 h
  have s := fq_setup
  have hp := s.pow (s.fromU64 (v := 3) (by norm_num))
    (e := ⟨0x9e10460b6c3e7ea3, 0xcbc0b548b438e546, 0xdc2822db40c0ac2e, 0x183227397098d014⟩)
    ((limbs_ok_iff _).2 (by decide +kernel))
  have e : Limbs.val ⟨0x9e10460b6c3e7ea3, 0xcbc0b548b438e546, 0xdc2822db40c0ac2e, 0x183227397098d014⟩ = Q / 2 := by
    decide +kernel
  rw [e] at hp
  have := (s.eq_iff hp s.r).2 he
  revert this
  decide +kernel

/-- The root found is one, and is found if there is one. -/
theorem sqrt_some {x y : Fq} (h : fqIO.sqrt x = some y) : y ^ 2 = x := by
  unfold fqIO at h
  dsimp only at h
  split at h
  · rename_i hr
    rw [← Option.some.inj h, pow_two]
    exact hr
  · cases h

theorem sqrt_of_square (w : Fq) : ∃ y, fqIO.sqrt (w ^ 2) = some y ∧ y ^ 2 = w ^ 2 := by
  have h4 : ((w ^ 2) ^ ((Q + 1) / 4)) * ((w ^ 2) ^ ((Q + 1) / 4)) = w ^ 2 := by
    have e2 : (Q + 1) / 4 + (Q + 1) / 4 + ((Q + 1) / 4 + (Q + 1) / 4) = Q + 1 := by decide +kernel
    rw [← pow_add, ← pow_mul, Nat.two_mul, e2, pow_succ, ZMod.pow_card, ← pow_two]
  refine ⟨(w ^ 2) ^ ((Q + 1) / 4), ?_, ?_⟩
  · unfold fqIO
    dsimp only
    rw [if_pos h4]
  · rw [pow_two]
    exact h4

theorem y_ne_zero {x y : Fq} (h : y ^ 2 = x ^ 3 + 3) : y ≠ 0 := by
  rintro rfl
  have hn := (nonsingular_curve smooth_three).2 h
  have : (Point.some x 0 hn : G1) + Point.some x 0 hn = 0 := by
    refine Point.add_self_of_Y_eq ?_
    rw [negY_curve, neg_zero]
  exact Point.some_ne_zero hn (no_two_torsion this)

theorem x_ne_zero {x y : Fq} (h : y ^ 2 = x ^ 3 + 3) : x ≠ 0 := by
  rintro rfl
  exact three_not_square ⟨y, by rw [← pow_two, h]; ring⟩

theorem affOf_is (A : G1) : AffIs (affOf A) A := by
  cases A <;> rfl

theorem pointOf_affOf (A : G1) : pointOf (affOf A) = some A := by
  have h : ∃ B : G1, AffIs (affOf A) B := ⟨A, affOf_is A⟩
  unfold pointOf
  rw [dif_pos h]
  exact congrArg some (aff_unique smooth_three h.choose_spec (affOf_is A))

theorem affOf_of_is {p : Aff Fq} {A : G1} (h : AffIs p A) : affOf A = p := by
  cases A <;> exact h.symm

theorem parity_flip {y : Fq} (h : y ≠ 0) : decide ((-y).val % 2 = 1) = !decide (y.val % 2 = 1) := by
  have := parity_neg h
  have h1 : (-y).val % 2 < 2 := Nat.mod_lt _ (by norm_num)
  have h2 : y.val % 2 < 2 := Nat.mod_lt _ (by norm_num)
  by_cases h3 : y.val % 2 = 1
  · simp only [h3, decide_true, Bool.not_true, decide_eq_false_iff_not]
    omega
  · simp only [h3, decide_false, Bool.not_false, decide_eq_true_eq]
    omega

/-- The encoding as a number. -/
theorem toBytes_nat (A : G1) : ((affOf A).toBytes fqIO).length = 32 ∧ leNat ((affOf A).toBytes fqIO) =
    match A with
    | .zero => 0
    | .some x y _ => x.val + 2 ^ 255 * (decide (y.val % 2 = 1)).toNat := by
  match A with
  | .zero =>
    have : (affOf (.zero : G1)).toBytes fqIO = List.replicate 32 0 := by
      simp [affOf, Aff.toBytes, Aff.isIdentity, fqIO]
    rw [this]
    exact ⟨by simp, by decide⟩
  | .some x y hn =>
    have hx := x_ne_zero (point_eq hn)
    have hv := ZMod.val_lt x
    have hq := Q_small
    have hlen : (leBytes 32 x.val).length = 32 := leBytes_length _ _
    have hval : leNat (leBytes 32 x.val) = x.val := leNat_leBytes _ _ (by norm_num at hq ⊢; omega)
    have : (affOf (.some x y hn : G1)).toBytes fqIO =
        (leBytes 32 x.val).dropLast ++ [(leBytes 32 x.val).getLastD 0 ||| (if decide (y.val % 2 = 1) then 0x80 else 0)] := by
      have h0 : (affOf (.some x y hn : G1)).isIdentity = false := by simp [affOf, Aff.isIdentity, hx]
      unfold Aff.toBytes
      rw [h0]
      simp only [affOf, sign_eq]
      rfl
    rw [this]
    obtain ⟨h1, h2⟩ := join_bytes hlen (by rw [hval]; norm_num at hq ⊢; omega) (decide (y.val % 2 = 1))
    exact ⟨h2, by rw [h1, hval]⟩

/-- Decoding, in terms of the number. -/
theorem fromBytes_nat {bytes : List UInt8} (h : bytes.length = 32) {p : Aff Fq}
    (hp : Aff.fromBytes fqIO 3 bytes = some p) : ∃ A : G1, AffIs p A ∧ (affOf A).toBytes fqIO = bytes := by
  obtain ⟨h1, h2, h3⟩ := split_bytes h
  have hlt : leNat bytes < 2 ^ 256 := by
    have := leNat_lt bytes
    rw [h] at this
    norm_num at this ⊢
    omega
  unfold Aff.fromBytes at hp
  simp only [Option.bind_eq_bind, h2] at hp
  have hio : fqIO.fromBytes (bytes.dropLast ++ [bytes.getLastD 0 &&& 0x7f]) =
      if leNat bytes % 2 ^ 255 < Q then some ((leNat bytes % 2 ^ 255 : Nat) : Fq) else none := by
    unfold fqIO
    dsimp only
    rw [h1]
  rw [hio] at hp
  split at hp
  swap
  · cases hp
  rename_i hQ
  rw [Option.bind_some] at hp
  have hxval : (((leNat bytes % 2 ^ 255 : Nat) : Fq)).val = leNat bytes % 2 ^ 255 := by
    rw [ZMod.val_natCast, Nat.mod_eq_of_lt hQ]
  generalize hx : ((leNat bytes % 2 ^ 255 : Nat) : Fq) = x at hp hxval
  split at hp
  · rename_i hc
    obtain ⟨hx0, hs⟩ := hc
    have hp' := Option.some.inj hp
    refine ⟨0, hp'.symm, ?_⟩
    obtain ⟨l1, l2⟩ := toBytes_nat 0
    refine bytes_ext l1 h ?_
    rw [l2]
    rw [hx0, ZMod.val_zero] at hxval
    rw [decide_eq_false_iff_not] at hs
    show 0 = _
    norm_num at hs hxval ⊢
    omega
  · rename_i hc
    cases hsq : fqIO.sqrt (sq x * x + 3) with
    | none => rw [hsq] at hp; cases hp
    | some y =>
      rw [hsq, Option.bind_some] at hp
      have hp' := Option.some.inj hp
      have hy := sqrt_some hsq
      have hy' : y ^ 2 = x ^ 3 + 3 := by rw [hy]; unfold sq; ring
      have y0 := y_ne_zero hy'
      rw [sign_eq] at hp'
      have hyw : ∃ w : Fq, p = ⟨x, w⟩ ∧ w ^ 2 = x ^ 3 + 3 ∧ decide (w.val % 2 = 1) = decide (2 ^ 255 ≤ leNat bytes) := by
        refine ⟨_, hp'.symm, ?_, ?_⟩
        · split
          · rw [neg_pow_two, hy']
          · exact hy'
        · split
          · rename_i hb
            rw [parity_flip y0]
            generalize decide (y.val % 2 = 1) = u at hb ⊢
            generalize decide (2 ^ 255 ≤ leNat bytes) = v at hb ⊢
            revert hb
            cases u <;> cases v <;> decide
          · rename_i hb
            generalize decide (y.val % 2 = 1) = u at hb ⊢
            generalize decide (2 ^ 255 ≤ leNat bytes) = v at hb ⊢
            revert hb
            cases u <;> cases v <;> decide
      obtain ⟨w, rfl, hw, hs⟩ := hyw
      refine ⟨.some x w ((nonsingular_curve smooth_three).2 hw), rfl, ?_⟩
      obtain ⟨l1, l2⟩ := toBytes_nat (.some x w ((nonsingular_curve smooth_three).2 hw))
      refine bytes_ext l1 h ?_
      rw [l2]
      dsimp only
      rw [hxval, hs]
      by_cases hb : 2 ^ 255 ≤ leNat bytes
      · rw [decide_eq_true hb]
        norm_num at *
        omega
      · rw [decide_eq_false hb]
        norm_num at *
        omega

/-- Decoding what was encoded. -/
theorem fromBytes_toBytes (A : G1) : Aff.fromBytes fqIO 3 ((affOf A).toBytes fqIO) = some (affOf A) := by
  obtain ⟨hl, hv⟩ := toBytes_nat A
  generalize hb : (affOf A).toBytes fqIO = bytes at hl hv
  obtain ⟨h1, h2, h3⟩ := split_bytes hl
  unfold Aff.fromBytes
  simp only [Option.bind_eq_bind, h2]
  have hio : fqIO.fromBytes (bytes.dropLast ++ [bytes.getLastD 0 &&& 0x7f]) =
      if leNat bytes % 2 ^ 255 < Q then some ((leNat bytes % 2 ^ 255 : Nat) : Fq) else none := by
    unfold fqIO
    dsimp only
    rw [h1]
  rw [hio]
  have hq := Q_small
  match A, hv with
  | .zero, hv =>
    dsimp only at hv
    rw [hv]
    have : (0 : Nat) < Q := by decide +kernel
    simp [this, affOf, Aff.identity]
  | .some x y hn, hv =>
    have he := point_eq hn
    have hx0 := x_ne_zero he
    have y0 := y_ne_zero he
    dsimp only at hv
    have hxl := ZMod.val_lt x
    have hm : leNat bytes % 2 ^ 255 = x.val := by
      rw [hv, Nat.add_mul_mod_self_left, Nat.mod_eq_of_lt]
      norm_num at hq ⊢
      omega
    have hs : decide (2 ^ 255 ≤ leNat bytes) = decide (y.val % 2 = 1) := by
      rw [hv]
      cases decide (y.val % 2 = 1)
      · rw [decide_eq_false_iff_not]
        norm_num at hq ⊢
        omega
      · rw [decide_eq_true_eq]
        norm_num
    rw [hm, hs, if_pos hxl, Option.bind_some, ZMod.natCast_zmod_val, if_neg (fun h => hx0 h.1)]
    obtain ⟨r, hr, hr2⟩ := sqrt_of_square y
    have harg : sq x * x + 3 = y ^ 2 := by rw [he]; unfold sq; ring
    rw [harg, hr, Option.bind_some, sign_eq]
    have hr0 : r ≠ 0 := by
      rintro rfl
      rw [zero_pow two_ne_zero] at hr2
      exact y0 (pow_eq_zero_iff two_ne_zero |>.1 hr2.symm)
    refine congrArg some ?_
    simp only [affOf, Aff.mk.injEq, true_and]
    by_cases hpar : decide (y.val % 2 = 1) = decide (r.val % 2 = 1)
    · rw [if_neg (by rw [hpar]; simp)]
      exact same_parity hr2 hpar.symm
    · rw [if_pos (by simpa [bne_iff_ne] using hpar)]
      refine same_parity (by rw [neg_pow_two, hr2]) ?_
      rw [parity_flip hr0]
      generalize decide (y.val % 2 = 1) = u at hpar ⊢
      generalize decide (r.val % 2 = 1) = v at hpar ⊢
      revert hpar
      cases u <;> cases v <;> decide

theorem codec_decode {bytes : List UInt8} (h : bytes.length = 32) {A : G1} (hd : g1Codec.fromBytes bytes = some A) :
    g1Codec.toBytes A = bytes := by
  unfold g1Codec at hd ⊢
  dsimp only at hd ⊢
  obtain ⟨p, h1, h2⟩ := Option.bind_eq_some_iff.1 hd
  obtain ⟨B, h3, h4⟩ := fromBytes_nat h h1
  have : p = affOf B := (affOf_of_is h3).symm
  rw [this, pointOf_affOf] at h2
  rw [← Option.some.inj h2]
  exact h4

/-- Whatever decodes is on the curve: decoding to a point never adds a failure. -/
theorem codec_fromBytes {bytes : List UInt8} (h : bytes.length = 32) :
    (g1Codec.fromBytes bytes).map affOf = Aff.fromBytes fqIO 3 bytes := by
  unfold g1Codec
  dsimp only
  cases hp : Aff.fromBytes fqIO 3 bytes with
  | none => rfl
  | some p =>
    obtain ⟨B, h3, -⟩ := fromBytes_nat h hp
    have : p = affOf B := (affOf_of_is h3).symm
    rw [this, Option.bind_some, pointOf_affOf]
    rfl

theorem g1Codec_lawful : Lawful g1Codec where
  length A := (toBytes_nat A).1
  decode A := by
    unfold g1Codec
    dsimp only
    rw [fromBytes_toBytes, Option.bind_some, pointOf_affOf]
  coords A x y h := by
    unfold g1Codec Aff.coordinates fqIO at h
    dsimp only at h
    split at h
    · have := Option.some.inj h
      rw [Prod.mk.injEq] at this
      exact ⟨by rw [← this.1, leBytes_length], by rw [← this.2, leBytes_length]⟩
    · cases h

/-- Every point has coordinates, also the one at infinity. -/
theorem g1Codec_coords (A : G1) : ∃ c, g1Codec.coords A = some c := by
  unfold g1Codec Aff.coordinates
  dsimp only
  rw [if_pos ((onCurve_aff smooth_three _).2 ⟨A, affOf_is A⟩)]
  exact ⟨_, rfl⟩

end Verif.Spec

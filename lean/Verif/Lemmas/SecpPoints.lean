import Mathlib.Data.List.GetD
import Mathlib.NumberTheory.LegendreSymbol.Basic
import Verif.Lemmas.CurveMul
import Verif.Lemmas.PointCodec
import Verif.Lemmas.Secp

/-! Helper lemmas: the points of secp256k1 and their encoding. -/

namespace Verif.Spec

open WeierstrassCurve.Affine

theorem smooth_seven : Smooth (7 : SecpBase) := ⟨by decide +kernel, by decide +kernel, by decide +kernel⟩

/-- A negative has the other parity. -/
theorem secp_parity_neg {y : SecpBase} (h : y ≠ 0) : (-y).val % 2 ≠ y.val % 2 := by
  have : NeZero y := ⟨h⟩
  rw [ZMod.val_neg_of_ne_zero]
  have h1 := ZMod.val_lt y
  have h2 : secpP % 2 = 1 := by decide +kernel
  omega

theorem secp_same_parity {y z : SecpBase} (h : y ^ 2 = z ^ 2) (hp : decide (y.val % 2 = 1) = decide (z.val % 2 = 1)) : y = z := by
  rcases sq_eq_sq_iff_eq_or_eq_neg.1 h with h | h
  · exact h
  · by_cases h0 : z = 0
    · rw [h, h0, neg_zero]
    · have := secp_parity_neg h0
      rw [← h] at this
      rw [decide_eq_decide] at hp
      omega

theorem secp_pow {a e r : Nat} (he : e < 2 ^ 300) (h : Pratt.powMod secpP 300 a e 1 % secpP = r) :
    (a : SecpBase) ^ e = (r : Nat) := by
  have := Pratt.powMod_cast secpP 300 a e 1 he
  rw [Nat.cast_one, one_mul] at this
  rw [← this, ← h, ZMod.natCast_mod]

/-- -7 is not a cube. -/
theorem secp_not_cube : (-7 : SecpBase) ^ ((secpP - 1) / 3) ≠ 1 := by
  have h7 : (-7 : SecpBase) = ((secpP - 7 : Nat) : SecpBase) := by decide +kernel
  rw [h7, secp_pow (e := (secpP - 1) / 3) (by decide +kernel) rfl]
  decide +kernel

/-- 7 is not a square. -/
theorem seven_not_square : ¬ IsSquare (7 : SecpBase) := by
  intro h
  have h7 : (7 : SecpBase) ≠ 0 := by decide +kernel
  have he := (ZMod.euler_criterion secpP h7).1 h
  rw [show (7 : SecpBase) = ((7 : Nat) : SecpBase) by rfl, secp_pow (e := secpP / 2) (by decide +kernel) rfl] at he
  revert he
  decide +kernel

theorem secp_y_ne {x y : SecpBase} (h : y ^ 2 = x ^ 3 + 7) : y ≠ 0 := by
  rintro rfl
  have hx : x ^ 3 = -7 := by linear_combination -h
  have x0 : x ≠ 0 := by
    rintro rfl
    exact absurd hx (by decide +kernel)
  have h1 : x ^ (secpP - 1) = 1 := ZMod.pow_card_sub_one_eq_one x0
  rw [show secpP - 1 = 3 * ((secpP - 1) / 3) by decide +kernel, pow_mul, hx] at h1
  exact secp_not_cube h1

theorem secp_x_ne {x y : SecpBase} (h : y ^ 2 = x ^ 3 + 7) : x ≠ 0 := by
  rintro rfl
  exact seven_not_square ⟨y, by rw [← pow_two, h]; ring⟩

/-- No point is its own negative, except the one at infinity. -/
theorem secp_no_two_torsion {A : SecpPt} (h : A + A = 0) : A = 0 := by
  match A, h with
  | .zero, _ => rfl
  | .some x y hn, h =>
    exfalso
    obtain ⟨hn', e⟩ := double_point smooth_seven (h1 := hn) (secp_y_ne (point_eq hn))
    rw [e] at h
    exact Point.some_ne_zero hn' h

/-- The generator. -/
def secpGen : SecpPt := .some secpX secpY ((nonsingular_curve smooth_seven).2 (by decide +kernel))

theorem secp_sign (y : SecpBase) : secpIO.sign y = decide (y.val % 2 = 1) := by
  unfold FieldIO.sign secpIO
  simp only [leBytes, List.getD_cons_zero]
  rw [Nat.testBit_zero, decide_eq_decide]
  rw [UInt8.toNat_ofNat']
  omega

theorem secp_sqrt_some {x y : SecpBase} (h : secpIO.sqrt x = some y) : y ^ 2 = x := by
  unfold secpIO at h
  dsimp only at h
  split at h
  · rename_i hr
    rw [← Option.some.inj h, pow_two]
    exact hr
  · cases h

theorem secp_sqrt_of_square (w : SecpBase) : ∃ y, secpIO.sqrt (w ^ 2) = some y ∧ y ^ 2 = w ^ 2 := by
  have h4 : ((w ^ 2) ^ ((secpP + 1) / 4)) * ((w ^ 2) ^ ((secpP + 1) / 4)) = w ^ 2 := by
    have e2 : (secpP + 1) / 4 + (secpP + 1) / 4 + ((secpP + 1) / 4 + (secpP + 1) / 4) = secpP + 1 := by decide +kernel
    rw [← pow_add, ← pow_mul, Nat.two_mul, e2, pow_succ, ZMod.pow_card, ← pow_two]
  refine ⟨(w ^ 2) ^ ((secpP + 1) / 4), ?_, ?_⟩
  · unfold secpIO
    dsimp only
    rw [if_pos h4]
  · rw [pow_two]
    exact h4

theorem secp_parity_flip {y : SecpBase} (h : y ≠ 0) : decide ((-y).val % 2 = 1) = !decide (y.val % 2 = 1) := by
  have := secp_parity_neg h
  have h1 : (-y).val % 2 < 2 := Nat.mod_lt _ (by norm_num)
  have h2 : y.val % 2 < 2 := Nat.mod_lt _ (by norm_num)
  by_cases h3 : y.val % 2 = 1
  · simp only [h3, decide_true, Bool.not_true, decide_eq_false_iff_not]
    omega
  · simp only [h3, decide_false, Bool.not_false, decide_eq_true_eq]
    omega

/-- The last of 33 bytes. -/
theorem split33 {bytes : List UInt8} (h : bytes.length = 33) :
    bytes = bytes.take 32 ++ [bytes.getD 32 0] ∧ (bytes.take 32).length = 32 ∧
      ∀ v, (bytes.set 32 v).take 32 = bytes.take 32 ∧ bytes.set 32 v = bytes.take 32 ++ [v] := by
  have h32 : 32 < bytes.length := by omega
  have hlen : (bytes.take 32).length = 32 := by rw [List.length_take, h]; rfl
  have hsplit : bytes = bytes.take 32 ++ [bytes.getD 32 0] := by
    conv_lhs => rw [← List.take_append_drop 32 bytes]
    rw [List.drop_eq_getElem_cons h32, List.drop_of_length_le (by omega), List.getD_eq_getElem _ _ h32]
  refine ⟨hsplit, hlen, fun v => ?_⟩
  have hset : bytes.set 32 v = bytes.take 32 ++ [v] := by
    conv_lhs => rw [hsplit]
    rw [List.set_append_right _ _ (by rw [hlen]), hlen]
    rfl
  refine ⟨?_, hset⟩
  rw [hset, List.take_left' hlen]

/-- The encoding of the point at infinity. -/
theorem secp_toBytes_zero {p : Aff SecpBase} (hp : AffIs p (0 : SecpPt)) : p.toBytesWide secpIO 33 = List.replicate 33 0 := by
  have : p = ⟨0, 0⟩ := hp
  rw [this]
  unfold Aff.toBytesWide
  simp [Aff.isIdentity]

/-- The encoding of any other point. -/
theorem secp_toBytes {x y : SecpBase} (he : y ^ 2 = x ^ 3 + 7) : (⟨x, y⟩ : Aff SecpBase).toBytesWide secpIO 33 =
    leBytes 32 x.val ++ [if decide (y.val % 2 = 1) then 0x80 else 0] := by
  have hx := secp_x_ne he
  have h0 : (⟨x, y⟩ : Aff SecpBase).isIdentity = false := by simp [Aff.isIdentity, hx]
  have hl : (leBytes 32 x.val).length = 32 := leBytes_length _ _
  unfold Aff.toBytesWide
  rw [h0]
  simp only [secp_sign]
  show ((leBytes 32 x.val ++ [0]).set 32 ((leBytes 32 x.val ++ [0]).getD 32 0 ||| _)) = _
  rw [List.set_append_right _ _ (by rw [hl]), hl, List.getD_append_right _ _ _ _ (by rw [hl]), hl]
  show _ ++ [(0 : UInt8) ||| _] = _
  rw [UInt8.zero_or]

/-- Decoding what was encoded, with anything in the low bits of the last byte. -/
theorem secp_decode {x y : SecpBase} (he : y ^ 2 = x ^ 3 + 7) (v : UInt8) (hv : v.toNat.testBit 7 = decide (y.val % 2 = 1)) :
    Aff.fromBytesWide secpIO 33 7 (leBytes 32 x.val ++ [v]) = some ⟨x, y⟩ := by
  have hl : (leBytes 32 x.val).length = 32 := leBytes_length _ _
  have hxl := ZMod.val_lt x
  have hp : secpP < 256 ^ 32 := by decide +kernel
  have y0 := secp_y_ne he
  unfold Aff.fromBytesWide
  simp only [Option.bind_eq_bind]
  rw [show 33 - 1 = 32 from rfl, List.getD_append_right _ _ _ _ (by rw [hl]), hl]
  show (secpIO.fromBytes (((leBytes 32 x.val ++ [v]).set 32 (v &&& 0x7f)).take 32)).bind _ = _
  rw [List.set_append_right _ _ (by rw [hl]), List.take_left' hl]
  have hio : secpIO.fromBytes (leBytes 32 x.val) = some x := by
    unfold secpIO
    dsimp only
    rw [leNat_leBytes _ _ (by omega), if_pos hxl, ZMod.natCast_zmod_val]
  rw [hio, Option.bind_some, if_neg (fun h => secp_x_ne he h.1)]
  obtain ⟨r, hr, hr2⟩ := secp_sqrt_of_square y
  have harg : sq x * x + 7 = y ^ 2 := by rw [he]; unfold sq; ring
  rw [harg, hr, Option.bind_some, secp_sign]
  show some (⟨x, if (v.toNat.testBit 7 != decide (r.val % 2 = 1)) = true then -r else r⟩ : Aff SecpBase) = _
  rw [hv]
  have hr0 : r ≠ 0 := by
    rintro rfl
    rw [zero_pow two_ne_zero] at hr2
    exact y0 (pow_eq_zero_iff two_ne_zero |>.1 hr2.symm)
  refine congrArg some ?_
  simp only [Aff.mk.injEq, true_and]
  by_cases hpar : decide (y.val % 2 = 1) = decide (r.val % 2 = 1)
  · rw [if_neg (by rw [hpar]; simp)]
    exact secp_same_parity hr2 hpar.symm
  · rw [if_pos (by simpa [bne_iff_ne] using hpar)]
    refine secp_same_parity (by rw [neg_pow_two, hr2]) ?_
    rw [secp_parity_flip hr0]
    generalize decide (y.val % 2 = 1) = u at hpar ⊢
    generalize decide (r.val % 2 = 1) = v at hpar ⊢
    revert hpar
    cases u <;> cases v <;> decide

/-- What decodes is a point, and the bytes are its encoding but for the low bits of the last byte. -/
theorem secp_decoded {bytes : List UInt8} (h : bytes.length = 33) {p : Aff SecpBase}
    (hp : Aff.fromBytesWide secpIO 33 7 bytes = some p) :
    ∃ A : SecpPt, AffIs p A ∧ p.toBytesWide secpIO 33 = bytes.set 32 (bytes.getD 32 0 &&& 0x80) := by
  obtain ⟨h1, h2, h3⟩ := split33 h
  have hand : ∀ v : UInt8, v &&& 0x80 = if v.toNat.testBit 7 then 0x80 else 0 := by
    intro v
    obtain ⟨⟨v⟩⟩ := v
    revert v
    decide +kernel
  rw [(h3 _).2, hand]
  unfold Aff.fromBytesWide at hp
  simp only [Option.bind_eq_bind] at hp
  rw [show 33 - 1 = 32 from rfl, show secpIO.size = 32 from rfl, (h3 _).1] at hp
  have hio : secpIO.fromBytes (bytes.take 32) =
      if leNat (bytes.take 32) < secpP then some ((leNat (bytes.take 32) : Nat) : SecpBase) else none := rfl
  rw [hio] at hp
  split at hp
  swap
  · cases hp
  rename_i hP
  rw [Option.bind_some] at hp
  have hxval : (((leNat (bytes.take 32) : Nat) : SecpBase)).val = leNat (bytes.take 32) := by
    rw [ZMod.val_natCast, Nat.mod_eq_of_lt hP]
  have hxb : leBytes 32 (leNat (bytes.take 32)) = bytes.take 32 := by
    have := leBytes_leNat (bytes.take 32)
    rwa [h2] at this
  generalize hx : ((leNat (bytes.take 32) : Nat) : SecpBase) = x at hp hxval
  split at hp
  · rename_i hc
    obtain ⟨hx0, hs⟩ := hc
    have hp' := Option.some.inj hp
    refine ⟨0, hp'.symm, ?_⟩
    rw [secp_toBytes_zero hp'.symm, ← hxb, ← hxval, hx0, ZMod.val_zero, hs]
    decide
  · cases hsq : secpIO.sqrt (sq x * x + 7) with
    | none => rw [hsq] at hp; cases hp
    | some y =>
      rw [hsq, Option.bind_some] at hp
      have hp' := Option.some.inj hp
      have hy := secp_sqrt_some hsq
      have hy' : y ^ 2 = x ^ 3 + 7 := by rw [hy]; unfold sq; ring
      have y0 := secp_y_ne hy'
      rw [secp_sign] at hp'
      have hyw : ∃ w : SecpBase, p = ⟨x, w⟩ ∧ w ^ 2 = x ^ 3 + 7 ∧
          decide (w.val % 2 = 1) = (bytes.getD 32 0).toNat.testBit 7 := by
        refine ⟨_, hp'.symm, ?_, ?_⟩
        · split
          · rw [neg_pow_two, hy']
          · exact hy'
        · generalize (bytes.getD 32 0).toNat.testBit 7 = v at *
          split
          · rename_i hb
            rw [secp_parity_flip y0]
            generalize decide (y.val % 2 = 1) = u at hb ⊢
            revert hb
            cases u <;> cases v <;> decide
          · rename_i hb
            generalize decide (y.val % 2 = 1) = u at hb ⊢
            revert hb
            cases u <;> cases v <;> decide
      obtain ⟨w, rfl, hw, hs⟩ := hyw
      refine ⟨.some x w ((nonsingular_curve smooth_seven).2 hw), rfl, ?_⟩
      rw [secp_toBytes hw, hxval, hxb, hs]

end Verif.Spec

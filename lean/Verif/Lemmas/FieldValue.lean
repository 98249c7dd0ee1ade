import Mathlib.Algebra.Field.ZMod
import Mathlib.FieldTheory.Finite.Basic
import Mathlib.Tactic.LinearCombination
import Verif.Lemmas.FieldArith
import Verif.Lemmas.KzgLemmas
import Verif.Spec.FieldArith

/-! Helper lemmas: the limb arithmetic in terms of field elements. -/

namespace Verif

open Spec

theorem W64_pow (p : Nat) : ((W64 : Nat) : ZMod p) ^ 4 = 2 ^ 256 := by
  rw [show W64 = 2 ^ 64 from rfl, Nat.cast_pow, Nat.cast_ofNat, ← pow_mul]

/-- What the constants have to satisfy. -/
structure Setup (c : FieldConsts) (p : Nat) : Prop where
  ok : c.modulus.Ok
  val : c.modulus.val = p
  inv : c.modulus.l0 * c.inv % W64 = W64 - 1
  small : 2 * p ≤ W64 ^ 4
  pos : 0 < p
  unit : ∃ i : ZMod p, 2 ^ 256 * i = 1
  r : Stands p c.r 1
  r2 : Stands p c.r2 (2 ^ 256)
  r3 : Stands p c.r3 (2 ^ 256 * 2 ^ 256)

theorem limbs_ok_iff (a : Limbs) : a.Ok ↔ (decide (a.l0 < W64) && decide (a.l1 < W64) && decide (a.l2 < W64) &&
    decide (a.l3 < W64)) = true := by
  simp [Limbs.Ok, and_assoc]

theorem fq_setup : Setup fqConsts Q where
  ok := fqModulus_ok
  val := by decide +kernel
  inv := by decide +kernel
  small := by decide +kernel
  pos := by decide +kernel
  unit := ⟨Rinv, montgomery_inverse⟩
  r := ⟨(limbs_ok_iff _).2 (by decide +kernel), by decide +kernel, by decide +kernel⟩
  r2 := ⟨(limbs_ok_iff _).2 (by decide +kernel), by decide +kernel, by decide +kernel⟩
  r3 := ⟨(limbs_ok_iff _).2 (by decide +kernel), by decide +kernel, by decide +kernel⟩

theorem fr_setup : Setup frConsts P where
  ok := frModulus_ok
  val := by decide +kernel
  inv := by decide +kernel
  small := by decide +kernel
  pos := by decide +kernel
  unit := ⟨((0x15ebf95182c5551cc8260de4aeb85d5d090ef5a9e111ec87dc5ba0056db1194e : Nat) : Fr), by decide +kernel⟩
  r := ⟨(limbs_ok_iff _).2 (by decide +kernel), by decide +kernel, by decide +kernel⟩
  r2 := ⟨(limbs_ok_iff _).2 (by decide +kernel), by decide +kernel, by decide +kernel⟩
  r3 := ⟨(limbs_ok_iff _).2 (by decide +kernel), by decide +kernel, by decide +kernel⟩

theorem setup_of {c : FieldConsts} {p : Nat} (h : Bn256Field c p) : Setup c p := by
  rcases h with ⟨rfl, rfl⟩ | ⟨rfl, rfl⟩
  · exact fq_setup
  · exact fr_setup

section

variable {c : FieldConsts} {p : Nat} (s : Setup c p)
include s

theorem Setup.cancel {x y : ZMod p} (h : x * 2 ^ 256 = y * 2 ^ 256) : x = y := by
  obtain ⟨i, hi⟩ := s.unit
  calc x = x * (2 ^ 256 * i) := by rw [hi, mul_one]
    _ = x * 2 ^ 256 * i := by ring
    _ = y * 2 ^ 256 * i := by rw [h]
    _ = y * (2 ^ 256 * i) := by ring
    _ = y := by rw [hi, mul_one]

theorem Setup.unique {a b : Limbs} {x : ZMod p} (ha : Stands p a x) (hb : Stands p b x) : a = b := by
  refine Limbs.ext_val ha.ok hb.ok ?_
  have h : ((a.val : Nat) : ZMod p) = ((b.val : Nat) : ZMod p) := ha.value.trans hb.value.symm
  rw [ZMod.natCast_eq_natCast_iff', Nat.mod_eq_of_lt ha.below, Nat.mod_eq_of_lt hb.below] at h
  exact h

theorem Setup.eq_iff {a b : Limbs} {x y : ZMod p} (ha : Stands p a x) (hb : Stands p b y) : a = b ↔ x = y := by
  constructor
  · rintro rfl
    exact s.cancel (ha.value.symm.trans hb.value)
  · rintro rfl
    exact s.unique ha hb

theorem Setup.exists_limbs (x : ZMod p) : ∃ a, Stands p a x := by
  have : NeZero p := ⟨s.pos.ne'⟩
  have hlt := ZMod.val_lt (x * 2 ^ 256)
  have hsm := s.small
  have hval : (Limbs.ofNat (x * 2 ^ 256).val).val = (x * 2 ^ 256).val := by
    have h4 : (x * 2 ^ 256).val < W64 ^ 4 := by omega
    generalize (x * 2 ^ 256).val = v at *
    simp only [Limbs.val, Limbs.ofNat, W64] at *
    omega
  refine ⟨Limbs.ofNat (x * 2 ^ 256).val, ?_, by rw [hval]; exact hlt, by rw [hval, ZMod.natCast_zmod_val]⟩
  have hW : ∀ x, x % W64 < W64 := fun x => Nat.mod_lt _ (by norm_num [W64])
  exact ⟨hW _, hW _, hW _, hW _⟩

theorem Setup.zero : Stands p FieldConsts.zero 0 :=
  ⟨by simp [FieldConsts.zero, Limbs.Ok], by simpa [FieldConsts.zero, Limbs.val] using s.pos,
    by simp [FieldConsts.zero, Limbs.val]⟩

theorem Setup.eq_zero {a : Limbs} {x : ZMod p} (ha : Stands p a x) : a = FieldConsts.zero ↔ x = 0 := s.eq_iff ha s.zero

theorem Setup.add {a b : Limbs} {x y : ZMod p} (ha : Stands p a x) (hb : Stands p b y) : Stands p (c.add a b) (x + y) := by
  obtain ⟨h1, h2, h3⟩ := FieldConsts.add_val s.ok (by rw [s.val]; exact s.small) ha.ok hb.ok (by rw [s.val]; exact ha.below)
    (by rw [s.val]; exact hb.below)
  rw [s.val] at h2 h3
  refine ⟨h1, h2, ?_⟩
  rw [(ZMod.natCast_eq_natCast_iff' _ _ _).2 h3, Nat.cast_add, ha.value, hb.value]
  ring

theorem Setup.sub {a b : Limbs} {x y : ZMod p} (ha : Stands p a x) (hb : Stands p b y) : Stands p (c.sub a b) (x - y) := by
  obtain ⟨h1, h2, h3⟩ := FieldConsts.sub_val s.ok ha.ok hb.ok
  rw [s.val] at h3
  have ha' := ha.below
  have hb' := hb.below
  by_cases h : b.val ≤ a.val
  · refine ⟨h1, by rw [h2 h]; omega, ?_⟩
    rw [h2 h, Nat.cast_sub h, ha.value, hb.value]
    ring
  · have e := h3 (by omega) (by omega)
    refine ⟨h1, by rw [e]; omega, ?_⟩
    rw [e, Nat.cast_sub (by omega), Nat.cast_add, ZMod.natCast_self, ha.value, hb.value]
    ring

theorem Setup.neg {a : Limbs} {x : ZMod p} (ha : Stands p a x) : Stands p (c.neg a) (-x) := by
  obtain ⟨h1, h2, h3⟩ := FieldConsts.neg_val s.ok ha.ok (by rw [s.val]; exact ha.below)
  rw [s.val] at h2 h3
  refine ⟨h1, h2, ?_⟩
  have : (((c.neg a).val + a.val : Nat) : ZMod p) = ((0 : Nat) : ZMod p) :=
    (ZMod.natCast_eq_natCast_iff' _ _ _).2 (by rw [h3, Nat.zero_mod])
  rw [Nat.cast_add, Nat.cast_zero, ha.value] at this
  linear_combination this

/-- `montgomery_reduce` divides by `2^256`. -/
theorem Setup.reduce {t : Limbs8} (ht : t.Ok) (hlt : t.val < W64 ^ 4 * p) {z : ZMod p}
    (hz : (t.val : ZMod p) = z * 2 ^ 256 * 2 ^ 256) : Stands p (c.montgomeryReduce t) z := by
  obtain ⟨h1, h2, h3⟩ := FieldConsts.montgomeryReduce_val s.ok s.inv (by rw [s.val]; exact s.small) ht (by rw [s.val]; exact hlt)
  rw [s.val] at h2 h3
  refine ⟨h1, h2, s.cancel ?_⟩
  rw [← hz, ← (ZMod.natCast_eq_natCast_iff' _ _ _).2 h3, Nat.cast_mul, Nat.cast_pow]
  rw [W64_pow]

/-- `mul` with any first factor. -/
theorem Setup.mul_any {a b : Limbs} {y z : ZMod p} (ha : a.Ok) (hb : Stands p b y) (hz : (a.val : ZMod p) * y = z * 2 ^ 256) :
    Stands p (c.mul a b) z := by
  obtain ⟨h1, h2⟩ := FieldConsts.mulWide_val ha hb.ok
  refine s.reduce h1 ?_ ?_
  · rw [h2]
    exact lt_of_le_of_lt (Nat.mul_le_mul_right _ (Limbs.val_lt ha).le) (Nat.mul_lt_mul_of_pos_left hb.below (by norm_num [W64]))
  · rw [h2, Nat.cast_mul, hb.value, ← hz]
    ring

theorem Setup.mul {a b : Limbs} {x y : ZMod p} (ha : Stands p a x) (hb : Stands p b y) : Stands p (c.mul a b) (x * y) :=
  s.mul_any ha.ok hb (by rw [ha.value]; ring)

theorem Setup.square {a : Limbs} {x : ZMod p} (ha : Stands p a x) : Stands p (c.square a) (x * x) := by
  obtain ⟨h1, h2⟩ := FieldConsts.squareWide_val ha.ok
  refine s.reduce h1 ?_ ?_
  · rw [h2]
    exact lt_of_le_of_lt (Nat.mul_le_mul_right _ (Limbs.val_lt ha.ok).le) (Nat.mul_lt_mul_of_pos_left ha.below (by norm_num [W64]))
  · rw [h2, Nat.cast_mul, ha.value]
    ring

theorem Setup.fromRaw {a : Limbs} (ha : a.Ok) : Stands p (c.fromRaw a) (a.val : ZMod p) := s.mul_any ha s.r2 rfl

theorem Setup.fromU64 {v : Nat} (hv : v < 2 ^ 64) : Stands p (c.fromU64 v) (v : ZMod p) := by
  refine s.mul_any (a := ⟨v, 0, 0, 0⟩) ?_ s.r2 (by simp [Limbs.val])
  simp only [Limbs.Ok, W64]
  omega

theorem Setup.fromU128 {v : Nat} (hv : v < 2 ^ 128) : Stands p (c.fromU128 v) (v : ZMod p) := by
  have h := s.fromRaw (a := ⟨v % W64, v / W64 % W64, 0, 0⟩) (by simp only [Limbs.Ok, W64]; omega)
  have e : Limbs.val ⟨v % W64, v / W64 % W64, 0, 0⟩ = v := by
    simp only [Limbs.val, W64]
    omega
  rw [e] at h
  exact h

theorem Setup.fromBool (b : Bool) : Stands p (c.fromBool b) (if b then 1 else 0) := by
  cases b
  · exact s.zero
  · exact s.r

theorem Setup.fromU512 {v : Limbs8} (hv : WideOk v) : Stands p (c.fromU512 v) (wideVal v : ZMod p) := by
  obtain ⟨h0, h1, h2, h3, h4, h5, h6, h7⟩ := hv
  have hlo := s.mul_any (a := ⟨v.l0, v.l1, v.l2, v.l3⟩) ⟨h0, h1, h2, h3⟩ s.r2 rfl
  have hhi := s.mul_any (a := ⟨v.l4, v.l5, v.l6, v.l7⟩) ⟨h4, h5, h6, h7⟩ s.r3
    (z := (Limbs.val ⟨v.l4, v.l5, v.l6, v.l7⟩ : ZMod p) * 2 ^ 256) (by ring)
  have h := s.add hlo hhi
  have e : ((Limbs.val ⟨v.l0, v.l1, v.l2, v.l3⟩ : Nat) : ZMod p) + (Limbs.val ⟨v.l4, v.l5, v.l6, v.l7⟩ : Nat) * 2 ^ 256 =
      (wideVal v : Nat) := by
    have : Limbs.val ⟨v.l0, v.l1, v.l2, v.l3⟩ + Limbs.val ⟨v.l4, v.l5, v.l6, v.l7⟩ * 2 ^ 256 = wideVal v := by
      simp only [Limbs.val, W64, wideVal]
      omega
    rw [← this, Nat.cast_add, Nat.cast_mul, Nat.cast_pow, Nat.cast_ofNat]
  rw [e] at h
  exact h

/-- The canonical form is the representative. -/
theorem Setup.canonical {a : Limbs} {x : ZMod p} (ha : Stands p a x) :
    (c.canonical a).Ok ∧ (c.canonical a).val = x.val := by
  have : NeZero p := ⟨s.pos.ne'⟩
  have hz : (0 : Nat) < W64 := by norm_num [W64]
  have e : Limbs8.val ⟨a.l0, a.l1, a.l2, a.l3, 0, 0, 0, 0⟩ = a.val := by
    simp [Limbs8.val, Limbs.val]
  obtain ⟨h1, h2, h3⟩ := FieldConsts.montgomeryReduce_val s.ok s.inv (by rw [s.val]; exact s.small)
    (t := ⟨a.l0, a.l1, a.l2, a.l3, 0, 0, 0, 0⟩) ⟨ha.ok.1, ha.ok.2.1, ha.ok.2.2.1, ha.ok.2.2.2, hz, hz, hz, hz⟩
    (by
      rw [e, s.val]
      exact lt_of_lt_of_le ha.below (Nat.le_mul_of_pos_left _ (by norm_num [W64])))
  rw [s.val] at h2 h3
  refine ⟨h1, ?_⟩
  have h : ((c.canonical a).val : ZMod p) = x := by
    refine s.cancel ?_
    rw [← ha.value, ← e, ← (ZMod.natCast_eq_natCast_iff' _ _ _).2 h3, Nat.cast_mul, Nat.cast_pow]
    rw [W64_pow]
    rfl
  rw [← h, ZMod.val_natCast]
  exact (Nat.mod_eq_of_lt h2).symm

end

theorem leBytes_add (m : Nat) : ∀ (n v : Nat), leBytes (n + m) v = leBytes n v ++ leBytes m (v / 256 ^ n)
  | 0, v => by simp [leBytes]
  | n + 1, v => by
    rw [Nat.succ_add]
    show UInt8.ofNat v :: leBytes (n + m) (v / 256) = UInt8.ofNat v :: (leBytes n (v / 256) ++ _)
    rw [leBytes_add m n (v / 256), Nat.div_div_eq_div_mul, pow_succ, Nat.mul_comm (256 ^ n)]

theorem leBytes_mod (n v : Nat) : leBytes n (v % 256 ^ n) = leBytes n v := by
  induction n generalizing v with
  | zero => rfl
  | succ n ih =>
    have h2 : v % 256 ^ (n + 1) / 256 = v / 256 % 256 ^ n := by
      rw [pow_succ, Nat.mul_comm, Nat.mod_mul_right_div_self]
    show UInt8.ofNat _ :: leBytes n _ = UInt8.ofNat v :: leBytes n _
    rw [h2, ih]
    congr 1
    rw [← UInt8.toNat_inj, UInt8.toNat_ofNat', UInt8.toNat_ofNat']
    exact Nat.mod_mod_of_dvd _ ⟨256 ^ n, by rw [pow_succ, Nat.mul_comm]⟩

theorem leBytes_limbs {a : Limbs} (ha : a.Ok) :
    leBytes 8 a.l0 ++ leBytes 8 a.l1 ++ leBytes 8 a.l2 ++ leBytes 8 a.l3 = leBytes 32 a.val := by
  obtain ⟨h0, h1, h2, h3⟩ := ha
  have e0 : leBytes 8 a.l0 = leBytes 8 a.val := by
    rw [← leBytes_mod 8 a.val]
    congr 1
    simp only [Limbs.val, W64] at *
    omega
  have e1 : leBytes 8 a.l1 = leBytes 8 (a.val / 256 ^ 8) := by
    rw [← leBytes_mod 8 (a.val / _)]
    congr 1
    simp only [Limbs.val, W64] at *
    omega
  have e2 : leBytes 8 a.l2 = leBytes 8 (a.val / 256 ^ 8 / 256 ^ 8) := by
    rw [← leBytes_mod 8 (a.val / _ / _)]
    congr 1
    simp only [Limbs.val, W64] at *
    omega
  have e3 : leBytes 8 a.l3 = leBytes 8 (a.val / 256 ^ 8 / 256 ^ 8 / 256 ^ 8) := by
    rw [← leBytes_mod 8 (a.val / _ / _ / _)]
    congr 1
    simp only [Limbs.val, W64] at *
    omega
  rw [e0, e1, e2, e3, show 32 = 8 + (8 + (8 + 8)) from rfl, leBytes_add, leBytes_add, leBytes_add]
  simp only [List.append_assoc]

theorem leNat_append (a b : List UInt8) : leNat (a ++ b) = leNat a + 256 ^ a.length * leNat b := by
  induction a with
  | nil => simp [leNat]
  | cons x a ih =>
    simp only [List.cons_append, leNat, ih, List.length_cons, pow_succ]
    ring

/-- The limbs of 32 bytes write the number the bytes write. -/
theorem limbsOf_val {b : List UInt8} (hb : b.length = 32) :
    (FieldConsts.limbsOf b).Ok ∧ (FieldConsts.limbsOf b).val = leNat b := by
  have h8 : ∀ n ≤ 24, leNat ((b.drop n).take 8) < 256 ^ 8 := by
    intro n hn
    have := leNat_lt ((b.drop n).take 8)
    rwa [List.length_take, List.length_drop, hb, Nat.min_eq_left (by omega)] at this
  have e : leNat b = leNat (b.take 8) + 256 ^ 8 * (leNat ((b.drop 8).take 8) + 256 ^ 8 * (leNat ((b.drop 16).take 8) +
      256 ^ 8 * leNat ((b.drop 24).take 8))) := by
    have l0 : (b.take 8).length = 8 := by rw [List.length_take, hb]; rfl
    have l1 : ((b.drop 8).take 8).length = 8 := by rw [List.length_take, List.length_drop, hb]; rfl
    have l2 : ((b.drop 16).take 8).length = 8 := by rw [List.length_take, List.length_drop, hb]; rfl
    have s0 := leNat_append (b.take 8) (b.drop 8)
    have s1 := leNat_append ((b.drop 8).take 8) ((b.drop 8).drop 8)
    have s2 := leNat_append ((b.drop 16).take 8) ((b.drop 16).drop 8)
    rw [List.take_append_drop, l0] at s0
    rw [List.take_append_drop, l1, List.drop_drop] at s1
    rw [List.take_append_drop, l2, List.drop_drop] at s2
    rw [s0, s1, s2, List.take_of_length_le (i := 8) (l := b.drop 24) (by rw [List.length_drop, hb])]
  have h0 := h8 0 (by omega)
  have h1 := h8 8 (by omega)
  have h2 := h8 16 (by omega)
  have h3 := h8 24 (by omega)
  rw [List.drop_zero] at h0
  rw [e]
  simp only [Limbs.Ok, Limbs.val, FieldConsts.limbsOf, W64]
  generalize leNat (b.take 8) = v0 at *
  generalize leNat ((b.drop 8).take 8) = v1 at *
  generalize leNat ((b.drop 16).take 8) = v2 at *
  generalize leNat ((b.drop 24).take 8) = v3 at *
  omega

section

variable {c : FieldConsts} {p : Nat} (s : Setup c p)
include s

theorem Setup.toRepr {a : Limbs} {x : ZMod p} (ha : Stands p a x) : c.toRepr a = leBytes 32 x.val := by
  obtain ⟨h1, h2⟩ := s.canonical ha
  unfold FieldConsts.toRepr
  dsimp only
  rw [leBytes_limbs h1, h2]

theorem Setup.getLower128 {a : Limbs} {x : ZMod p} (ha : Stands p a x) : c.getLower128 a = x.val % 2 ^ 128 := by
  obtain ⟨⟨h0, h1, h2, h3⟩, hv⟩ := s.canonical ha
  unfold FieldConsts.getLower128
  rw [Nat.or_comm, Nat.mul_comm, ← Nat.two_pow_add_eq_or_of_lt (by simpa [W64] using h0), ← hv]
  simp only [Limbs.val, W64] at *
  omega

theorem Setup.isOdd {a : Limbs} {x : ZMod p} (ha : Stands p a x) : c.isOdd a = decide (x.val % 2 = 1) := by
  unfold FieldConsts.isOdd
  rw [s.toRepr ha, show 32 = 31 + 1 from rfl]
  show (UInt8.ofNat x.val &&& 1 == 1) = _
  rw [Bool.eq_iff_iff, beq_iff_eq, decide_eq_true_eq, ← UInt8.toNat_inj, UInt8.toNat_and]
  show (UInt8.ofNat x.val).toNat &&& 1 = 1 ↔ _
  rw [Nat.and_one_is_mod, UInt8.toNat_ofNat']
  omega

theorem Setup.fromRepr {b : List UInt8} (hb : b.length = 32) :
    (leNat b < p → ∃ a, c.fromRepr b = some a ∧ Stands p a (leNat b : ZMod p)) ∧ (p ≤ leNat b → c.fromRepr b = none) := by
  obtain ⟨h1, h2⟩ := limbsOf_val hb
  obtain ⟨f, hf, e, ok, hv⟩ := sub_limbs h1 s.ok
  have hlt := Limbs.val_lt ok
  have hsm := s.small
  rw [s.val, h2] at hv
  have key : (f = 1 ↔ leNat b < p) := by
    have : f = 0 ∨ f = 1 := by omega
    generalize W64 ^ 4 = R at *
    rcases this with rfl | rfl <;> omega
  unfold FieldConsts.fromRepr
  dsimp only
  rw [e]
  have : f * (W64 - 1) % 256 % 2 = f := by
    have : f = 0 ∨ f = 1 := by omega
    rcases this with rfl | rfl <;> norm_num [W64]
  rw [this]
  constructor
  · intro h
    rw [if_pos (key.2 h)]
    refine ⟨_, rfl, ?_⟩
    have := s.fromRaw h1
    rw [h2] at this
    exact this
  · intro h
    rw [if_neg (fun h' => by have := key.1 h'; omega)]

theorem Setup.fromBytesWide {b : List UInt8} (hb : b.length = 64) : Stands p (c.fromBytesWide b) (leNat b : ZMod p) := by
  have hlo : FieldConsts.limbsOf b = FieldConsts.limbsOf (b.take 32) := by
    unfold FieldConsts.limbsOf
    rw [List.take_take, List.drop_take, List.drop_take, List.drop_take, List.take_take, List.take_take, List.take_take]
    rfl
  obtain ⟨⟨a0, a1, a2, a3⟩, hl⟩ := limbsOf_val (b := b.take 32) (by rw [List.length_take, hb]; rfl)
  obtain ⟨⟨b0, b1, b2, b3⟩, hh⟩ := limbsOf_val (b := b.drop 32) (by rw [List.length_drop, hb])
  unfold FieldConsts.fromBytesWide
  dsimp only
  rw [hlo]
  have := s.fromU512 (v := ⟨(FieldConsts.limbsOf (b.take 32)).l0, (FieldConsts.limbsOf (b.take 32)).l1,
    (FieldConsts.limbsOf (b.take 32)).l2, (FieldConsts.limbsOf (b.take 32)).l3, (FieldConsts.limbsOf (b.drop 32)).l0,
    (FieldConsts.limbsOf (b.drop 32)).l1, (FieldConsts.limbsOf (b.drop 32)).l2, (FieldConsts.limbsOf (b.drop 32)).l3⟩)
    ⟨a0, a1, a2, a3, b0, b1, b2, b3⟩
  have e : wideVal ⟨(FieldConsts.limbsOf (b.take 32)).l0, (FieldConsts.limbsOf (b.take 32)).l1,
    (FieldConsts.limbsOf (b.take 32)).l2, (FieldConsts.limbsOf (b.take 32)).l3, (FieldConsts.limbsOf (b.drop 32)).l0,
    (FieldConsts.limbsOf (b.drop 32)).l1, (FieldConsts.limbsOf (b.drop 32)).l2, (FieldConsts.limbsOf (b.drop 32)).l3⟩ = leNat b := by
    conv_rhs => rw [← List.take_append_drop 32 b, leNat_append, List.length_take, hb, ← hl, ← hh]
    simp only [wideVal, Limbs.val, W64]
    norm_num
    omega
  rw [e] at this
  exact this

theorem Setup.powBits {a : Limbs} {x : ZMod p} (ha : Stands p a x) : ∀ (bits : List Bool) {acc : Limbs} {e : Nat},
    Stands p acc (x ^ e) → Stands p (c.powBits a bits acc) (x ^ (bits.foldl (fun n b => 2 * n + b.toNat) e))
  | [], _, _, h => h
  | b :: bits, acc, e, h => by
    have h2 := s.square h
    rw [← pow_add, ← Nat.two_mul] at h2
    show Stands p (c.powBits a bits (if b then c.mul (c.square acc) a else c.square acc)) _
    refine Setup.powBits ha bits ?_
    cases b
    · exact h2
    · have := s.mul h2 ha
      rw [← pow_succ] at this
      exact this

end

theorem foldl_bits (w : Nat) : ∀ (n e : Nat), (((List.range n).map fun i => w.testBit i).reverse).foldl
    (fun n b => 2 * n + b.toNat) e = 2 ^ n * e + w % 2 ^ n
  | 0, e => by simp [Nat.mod_one]
  | n + 1, e => by
    rw [List.range_succ, List.map_append, List.reverse_append, List.foldl_append]
    show List.foldl _ (2 * e + (w.testBit n).toNat) _ = _
    rw [foldl_bits w n, Nat.mod_pow_succ, Nat.toNat_testBit]
    ring

theorem wordBits_foldl {w : Nat} (hw : w < 2 ^ 64) (e : Nat) :
    (FieldConsts.wordBits w).foldl (fun n b => 2 * n + b.toNat) e = 2 ^ 64 * e + w := by
  unfold FieldConsts.wordBits
  rw [foldl_bits, Nat.mod_eq_of_lt hw]

theorem Setup.pow {c : FieldConsts} {p : Nat} (s : Setup c p) {a e : Limbs} {x : ZMod p} (ha : Stands p a x) (he : e.Ok) :
    Stands p (c.pow a e) (x ^ e.val) := by
  have h := s.powBits ha (FieldConsts.wordBits e.l3 ++ FieldConsts.wordBits e.l2 ++ FieldConsts.wordBits e.l1 ++
    FieldConsts.wordBits e.l0) (acc := c.one) (e := 0) (by rw [pow_zero]; exact s.r)
  rw [List.foldl_append, List.foldl_append, List.foldl_append, wordBits_foldl he.2.2.2, wordBits_foldl he.2.2.1,
    wordBits_foldl he.2.1, wordBits_foldl he.1] at h
  have e' : 2 ^ 64 * (2 ^ 64 * (2 ^ 64 * (2 ^ 64 * 0 + e.l3) + e.l2) + e.l1) + e.l0 = e.val := by
    simp only [Limbs.val, W64]
    ring
  rw [e'] at h
  exact h

/-- Comparing from the most significant byte on compares the numbers. -/
theorem compareBytes_append (l : List (UInt8 × UInt8)) (r : List (UInt8 × UInt8)) :
    FieldConsts.compareBytes (l ++ r) = (FieldConsts.compareBytes l).then (FieldConsts.compareBytes r) := by
  induction l with
  | nil => rfl
  | cons x l ih =>
    obtain ⟨a, b⟩ := x
    simp only [List.cons_append, FieldConsts.compareBytes]
    cases compare a b
    · rfl
    · exact ih
    · rfl

theorem compare_leNat : ∀ (a b : List UInt8), a.length = b.length →
    FieldConsts.compareBytes (a.zip b).reverse = compare (leNat a) (leNat b)
  | [], [], _ => rfl
  | x :: a, y :: b, h => by
    rw [List.zip_cons_cons, List.reverse_cons, compareBytes_append, compare_leNat a b (by simpa using h)]
    have hx := x.toNat_lt
    have hy := y.toNat_lt
    have hc : FieldConsts.compareBytes [(x, y)] = compare x.toNat y.toNat := by
      show (match compare x y with | .eq => Ordering.eq | o => o) = _
      have : compare x y = compare x.toNat y.toNat := by
        show (if x < y then Ordering.lt else if x = y then .eq else .gt) = _
        rcases lt_trichotomy x.toNat y.toNat with h | h | h
        · rw [Nat.compare_eq_lt.2 h, if_pos (UInt8.lt_iff_toNat_lt.2 h)]
        · rw [Nat.compare_eq_eq.2 h, if_neg (fun h' => by have := UInt8.lt_iff_toNat_lt.1 h'; omega),
            if_pos (UInt8.toNat_inj.1 h)]
        · rw [Nat.compare_eq_gt.2 h, if_neg (fun h' => by have := UInt8.lt_iff_toNat_lt.1 h'; omega),
            if_neg (fun h' => by rw [h'] at h; omega)]
      rw [this]
      cases compare x.toNat y.toNat <;> rfl
    rw [hc]
    simp only [leNat]
    rcases lt_trichotomy (leNat a) (leNat b) with h | h | h
    · rw [Nat.compare_eq_lt.2 h]
      exact (Nat.compare_eq_lt.2 (by omega)).symm
    · rw [Nat.compare_eq_eq.2 h]
      show compare x.toNat y.toNat = _
      rw [h]
      rcases lt_trichotomy x.toNat y.toNat with h | h | h
      · rw [Nat.compare_eq_lt.2 h, Nat.compare_eq_lt.2 (by omega)]
      · rw [h, Nat.compare_eq_eq.2 rfl, Nat.compare_eq_eq.2 rfl]
      · rw [Nat.compare_eq_gt.2 h, Nat.compare_eq_gt.2 (by omega)]
    · rw [Nat.compare_eq_gt.2 h]
      exact (Nat.compare_eq_gt.2 (by omega)).symm

theorem Setup.cmp {c : FieldConsts} {p : Nat} (s : Setup c p) {a b : Limbs} {x y : ZMod p} (ha : Stands p a x)
    (hb : Stands p b y) : c.cmp a b = compare x.val y.val := by
  have : NeZero p := ⟨s.pos.ne'⟩
  have hsm := s.small
  have h1 := ZMod.val_lt x
  have h2 := ZMod.val_lt y
  have h3 : 2 * p ≤ 256 ^ 32 := by
    refine le_trans hsm ?_
    norm_num [W64]
  unfold FieldConsts.cmp
  rw [s.toRepr ha, s.toRepr hb, compare_leNat _ _ (by rw [leBytes_length, leBytes_length]), leNat_leBytes _ _ (by omega),
    leNat_leBytes _ _ (by omega)]

end Verif

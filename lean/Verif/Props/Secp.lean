import Mathlib.NumberTheory.LegendreSymbol.Basic
import Verif.Lemmas.SecpOrder
import Verif.Props.Roots

/-! Properties C110 and C111: the fields and the curve of secp256k1. -/

namespace Verif.Props

open Spec FieldConsts
open WeierstrassCurve.Affine (Point)

/-- C110. The primes of the two fields are prime. -/
theorem C110_prime {c : FieldConsts} {p : Nat} (h : SecpField c p) : p.Prime := by
  rcases h with ⟨-, rfl⟩ | ⟨-, rfl⟩
  · exact secpP_prime
  · exact secpQ_prime

/-- Every element has exactly one stored form, and every stored form stands for one element. -/
theorem C110_stored {c : FieldConsts} {p : Nat} (h : SecpField c p) :
    (∀ x : ZMod p, ∃! a, Stands p a x) ∧ ∀ a : Limbs, a.Ok → a.val < p → ∃! x : ZMod p, Stands p a x := by
  have s := dsetup_of h
  have hp := C110_prime h
  have : Fact p.Prime := ⟨hp⟩
  constructor
  · intro x
    obtain ⟨a, ha⟩ := s.exists_limbs x
    exact ⟨a, ha, fun b hb => s.unique hb ha⟩
  · intro a ok hlt
    obtain ⟨i, hi⟩ := s.unit
    refine ⟨a.val * i, ⟨ok, hlt, by rw [mul_assoc, mul_comm i, hi, mul_one]⟩, fun y hy => s.cancel ?_⟩
    rw [mul_assoc, mul_comm i, hi, mul_one, hy.value]

/-- The operations. -/
theorem C110_operations {c : FieldConsts} {p : Nat} (h : SecpField c p) {a b : Limbs} {x y : ZMod p} (ha : Stands p a x)
    (hb : Stands p b y) :
    Stands p (Dense.add c a b) (x + y) ∧ Stands p (c.sub a b) (x - y) ∧ Stands p (Dense.mul c a b) (x * y) ∧
      Stands p (c.neg a) (-x) ∧ Stands p (Dense.double c a) (2 * x) ∧ Stands p (Dense.square c a) (x ^ 2) ∧
      (a = b ↔ x = y) ∧ Stands p zero 0 ∧ Stands p c.one 1 := by
  have s := dsetup_of h
  refine ⟨s.add ha hb, s.sub ha hb, s.mul ha hb, s.neg ha, ?_, ?_, s.eq_iff ha hb, s.zero, s.r⟩
  · rw [two_mul]
    exact s.add ha ha
  · rw [pow_two]
    exact s.square ha

/-- Powers, with any exponent of four words. -/
theorem C110_pow {c : FieldConsts} {p : Nat} (h : SecpField c p) {a e : Limbs} {x : ZMod p} (ha : Stands p a x) (he : e.Ok) :
    Stands p (Dense.pow c a e) (x ^ e.val) ∧ Stands p (Dense.powVartime c a e) (x ^ e.val) :=
  ⟨(dsetup_of h).pow ha he, (dsetup_of h).powVartime ha he⟩

/-- Numbers are taken modulo the prime: from four words (canonical or not), from a `u64`, a `u128`, a
`bool`, eight words, or 64 bytes. -/
theorem C110_from {c : FieldConsts} {p : Nat} (h : SecpField c p) :
    (∀ v : Limbs, v.Ok → Stands p (Dense.fromRaw c v) (v.val : ZMod p)) ∧
    (∀ v < 2 ^ 64, Stands p (Dense.fromU64 c v) (v : ZMod p)) ∧
    (∀ v < 2 ^ 128, Stands p (Dense.fromU128 c v) (v : ZMod p)) ∧
    (∀ b : Bool, Stands p (Dense.fromBool c b) (if b then 1 else 0)) ∧
    (∀ v : Limbs8, WideOk v → Stands p (Dense.fromU512 c v) (wideVal v : ZMod p)) ∧
    ∀ b : List UInt8, b.length = 64 → Stands p (Dense.fromBytesWide c b) (leNat b : ZMod p) := by
  have s := dsetup_of h
  exact ⟨fun v hv => s.fromRaw hv, fun v hv => s.fromU64 hv, fun v hv => s.fromU128 hv, s.fromBool,
    fun v hv => s.fromU512 hv, fun b hb => s.fromBytesWide hb⟩

/-- The bytes of an element are those of its representative, and only the bytes of numbers below the prime
are read. -/
theorem C110_repr {c : FieldConsts} {p : Nat} (h : SecpField c p) :
    (∀ {a : Limbs} {x : ZMod p}, Stands p a x → Dense.toRepr c a = leBytes 32 x.val ∧ Dense.fromRepr c (Dense.toRepr c a) = some a) ∧
    ∀ b : List UInt8, b.length = 32 →
      (leNat b < p → ∃ a, Dense.fromRepr c b = some a ∧ Stands p a (leNat b : ZMod p) ∧ Dense.toRepr c a = b) ∧
      (p ≤ leNat b → Dense.fromRepr c b = none) := by
  have s := dsetup_of h
  have hp := C110_prime h
  have : Fact p.Prime := ⟨hp⟩
  have hsm : p ≤ 256 ^ 32 := le_trans s.small (by norm_num [W64])
  constructor
  · intro a x ha
    have hx := ZMod.val_lt x
    refine ⟨s.toRepr ha, ?_⟩
    rw [s.toRepr ha]
    obtain ⟨b, h1, h2⟩ := (s.fromRepr (b := leBytes 32 x.val) (leBytes_length _ _)).1
      (by rw [leNat_leBytes _ _ (by omega)]; exact hx)
    rw [leNat_leBytes _ _ (by omega), ZMod.natCast_zmod_val] at h2
    rw [h1, s.unique h2 ha]
  · intro b hb
    refine ⟨fun hlt => ?_, (s.fromRepr hb).2⟩
    obtain ⟨a, h1, h2⟩ := (s.fromRepr hb).1 hlt
    refine ⟨a, h1, h2, ?_⟩
    rw [s.toRepr h2, ZMod.val_natCast, Nat.mod_eq_of_lt hlt, ← hb, leBytes_leNat]

/-- Reading off: the low 128 bits, the parity, the order. -/
theorem C110_observe {c : FieldConsts} {p : Nat} (h : SecpField c p) {a b : Limbs} {x y : ZMod p} (ha : Stands p a x)
    (hb : Stands p b y) :
    Dense.getLower128 c a = x.val % 2 ^ 128 ∧ Dense.isOdd c a = decide (x.val % 2 = 1) ∧ Dense.cmp c a b = compare x.val y.val := by
  have s := dsetup_of h
  exact ⟨s.getLower128 ha, s.isOdd ha, s.cmp ha hb⟩

/-- Inversion in the base field. -/
theorem C110_invert_base {a : Limbs} {x : SecpBase} (ha : Stands secpP a x) :
    (x = 0 → secpFpInvert a = none) ∧ (x ≠ 0 → ∃ t, secpFpInvert a = some t ∧ Stands secpP t x⁻¹) := by
  have s := secpFp_setup
  unfold secpFpInvert
  dsimp only
  constructor
  · intro h
    rw [if_pos ((s.eq_zero ha).2 h)]
  · intro h
    rw [if_neg (fun h' => h ((s.eq_zero ha).1 h'))]
    refine ⟨_, rfl, ?_⟩
    have := s.powVartime ha (e := ⟨0xfffffffefffffc2d, 0xffffffffffffffff, 0xffffffffffffffff, 0xffffffffffffffff⟩)
      ((limbs_ok_iff _).2 (by decide +kernel))
    have e : Limbs.val ⟨0xfffffffefffffc2d, 0xffffffffffffffff, 0xffffffffffffffff, 0xffffffffffffffff⟩ = secpP - 2 := by
      decide +kernel
    rw [e] at this
    have hx : x ^ (secpP - 2) = x⁻¹ := by
      refine eq_inv_of_mul_eq_one_left ?_
      rw [← pow_succ, show secpP - 2 + 1 = secpP - 1 by decide +kernel]
      exact ZMod.pow_card_sub_one_eq_one h
    rwa [hx] at this

/-- Inversion in the scalar field. -/
theorem C110_invert_scalar {a : Limbs} {x : SecpScalar} (ha : Stands secpQ a x) :
    (x = 0 → secpFqInvert a = none) ∧ (x ≠ 0 → ∃ t, secpFqInvert a = some t ∧ Stands secpQ t x⁻¹) := by
  have s := secpFq_setup
  unfold secpFqInvert
  dsimp only
  constructor
  · intro h
    rw [if_pos ((s.eq_zero ha).2 h)]
  · intro h
    rw [if_neg (fun h' => h ((s.eq_zero ha).1 h'))]
    refine ⟨_, rfl, ?_⟩
    have := s.powVartime ha (e := ⟨0xbfd25e8cd036413f, 0xbaaedce6af48a03b, 0xfffffffffffffffe, 0xffffffffffffffff⟩)
      ((limbs_ok_iff _).2 (by decide +kernel))
    have e : Limbs.val ⟨0xbfd25e8cd036413f, 0xbaaedce6af48a03b, 0xfffffffffffffffe, 0xffffffffffffffff⟩ = secpQ - 2 := by
      decide +kernel
    rw [e] at this
    have hx : x ^ (secpQ - 2) = x⁻¹ := by
      refine eq_inv_of_mul_eq_one_left ?_
      rw [← pow_succ, show secpQ - 2 + 1 = secpQ - 1 by decide +kernel]
      exact ZMod.pow_card_sub_one_eq_one h
    rwa [hx] at this

/-- Square roots in the base field: found exactly if there is one. -/
theorem C110_sqrt_base {a : Limbs} {x : SecpBase} (ha : Stands secpP a x) :
    (IsSquare x → ∃ t y, secpFpSqrt a = some t ∧ Stands secpP t y ∧ y ^ 2 = x) ∧ (¬ IsSquare x → secpFpSqrt a = none) := by
  have s := secpFp_setup
  have hpow := s.pow ha (e := ⟨0xffffffffbfffff0c, 0xffffffffffffffff, 0xffffffffffffffff, 0x3fffffffffffffff⟩)
    ((limbs_ok_iff _).2 (by decide +kernel))
  have e : Limbs.val ⟨0xffffffffbfffff0c, 0xffffffffffffffff, 0xffffffffffffffff, 0x3fffffffffffffff⟩ = (secpP + 1) / 4 := by
    decide +kernel
  rw [e] at hpow
  have hsq := s.square hpow
  unfold secpFpSqrt
  dsimp only
  have hiff := s.eq_iff hsq ha
  constructor
  · rintro ⟨w, rfl⟩
    have h4 : ((w * w) ^ ((secpP + 1) / 4)) * ((w * w) ^ ((secpP + 1) / 4)) = w * w := by
      have e2 : (secpP + 1) / 4 + (secpP + 1) / 4 + ((secpP + 1) / 4 + (secpP + 1) / 4) = secpP + 1 := by decide +kernel
      rw [← pow_add, ← pow_two, ← pow_mul, Nat.two_mul, e2, pow_succ, ZMod.pow_card, ← pow_two, pow_two]
    rw [if_pos (hiff.2 h4)]
    exact ⟨_, _, rfl, hpow, by rw [pow_two]; exact h4⟩
  · intro h
    rw [if_neg (fun h' => h ⟨_, (hiff.1 h').symm⟩)]

theorem secpFqRoot_order : orderOf ((secpFqRoot.val : Nat) : SecpScalar) = 2 ^ secpFqS := by
  refine orderOf_eq_prime_pow (p := 2) (n := 5) ?_ ?_
  · decide +kernel
  · decide +kernel

/-- Square roots in the scalar field: found exactly if there is one. -/
theorem C110_sqrt_scalar (x : SecpScalar) :
    (IsSquare x → ∃ y, sqrtTonelli secpFqS ((secpFqRoot.val : Nat) : SecpScalar) secpFqExp x = some y ∧ y ^ 2 = x) ∧
      (¬ IsSquare x → sqrtTonelli secpFqS ((secpFqRoot.val : Nat) : SecpScalar) secpFqExp x = none) := by
  refine C94_tonelli secpFqS secpFqExp.val _ _ (by decide) ?_ secpFqRoot_order ((limbs_ok_iff _).2 (by decide +kernel)) rfl x
  rw [ZMod.card]
  decide +kernel

/-- The constants: the halves, the root of unity, which is a power of the generator and has order 64, and its inverse. -/
theorem C110_constants :
    ((secpFpTwoInv.val : Nat) : SecpBase) * 2 = 1 ∧ ((secpFqTwoInv.val : Nat) : SecpScalar) * 2 = 1 ∧
    orderOf ((secpFqRoot.val : Nat) : SecpScalar) = 64 ∧
    ((secpFqRoot.val : Nat) : SecpScalar) = ((secpFqGenerator.val : Nat) : SecpScalar) ^ ((secpQ - 1) / 64) ∧
    ((secpFqRoot.val : Nat) : SecpScalar) * ((secpFqRootInv.val : Nat) : SecpScalar) = 1 := by
  refine ⟨by decide +kernel, by decide +kernel, secpFqRoot_order, ?_, by decide +kernel⟩
  have := Pratt.powMod_cast secpQ 300 7 ((secpQ - 1) / 64) 1 (by decide +kernel)
  rw [Nat.cast_one, one_mul] at this
  show _ = ((7 : Nat) : SecpScalar) ^ _
  rw [← this]
  decide +kernel

/-- The group of points: it has as many elements as there are scalars, every point but the one at infinity generates
it, and the generator of the code is one. -/
theorem C110_group :
    Nat.card SecpPt = secpQ ∧ (∀ A : SecpPt, secpQ • A = 0) ∧
    (∀ A : SecpPt, A ≠ 0 → ∀ B : SecpPt, ∃ n : Nat, n < secpQ ∧ B = n • A) ∧
    AffIs ⟨((secpGenX.val : Nat) : SecpBase), ((secpGenY.val : Nat) : SecpBase)⟩ secpGen ∧ secpGen ≠ 0 := by
  refine ⟨secp_card, secp_order, fun A hA B => ?_, ?_, Point.some_ne_zero _⟩
  · have hA' : addOrderOf A = secpQ := addOrderOf_eq_prime (secp_order A) hA
    have htop : AddSubgroup.zmultiples A = ⊤ := by
      refine AddSubgroup.eq_top_of_card_eq _ ?_
      rw [Nat.card_zmultiples, hA', secp_card]
    have hB : B ∈ AddSubgroup.zmultiples A := by rw [htop]; trivial
    obtain ⟨k, hk⟩ := (mem_multiples_iff_mem_zmultiples (x := A) (y := B)).2 hB
    refine ⟨k % secpQ, Nat.mod_lt _ secpQ_prime.pos, ?_⟩
    rw [← hk, ← hA']
    exact (mod_addOrderOf_nsmul A k).symm
  · show (_ : Aff SecpBase) = ⟨secpX, secpY⟩
    decide +kernel

/-- 3 times 5 is 15, in stored form, and the inverse of 5 times 5 is one; the sum of two numbers near the prime wraps
above 256 bits. -/
example : Dense.mul secpFpConsts (Dense.fromU64 secpFpConsts 3) (Dense.fromU64 secpFpConsts 5) = Dense.fromU64 secpFpConsts 15 ∧
    (secpFpInvert (Dense.fromU64 secpFpConsts 5)).map (Dense.mul secpFpConsts (Dense.fromU64 secpFpConsts 5)) =
      some secpFpConsts.one ∧
    Dense.fromU64 secpFpConsts 3 = ⟨0x300000b73, 0, 0, 0⟩ ∧
    Dense.add secpFpConsts (secpFpConsts.neg secpFpConsts.one) (secpFpConsts.neg secpFpConsts.one) =
      secpFpConsts.neg (Dense.fromU64 secpFpConsts 2) ∧
    (secpFqInvert (Dense.fromU64 secpFqConsts 5)).map (Dense.mul secpFqConsts (Dense.fromU64 secpFqConsts 5)) =
      some secpFqConsts.one := by
  decide +kernel

/-- Elements and their stored forms exist. -/
example : SecpField secpFpConsts secpP ∧ Stands secpP ⟨0x300000b73, 0, 0, 0⟩ 3 ∧ SecpField secpFqConsts secpQ ∧
    Stands secpQ secpFqConsts.r 1 :=
  ⟨.inl ⟨rfl, rfl⟩, ⟨(limbs_ok_iff _).2 (by decide +kernel), by decide +kernel, by decide +kernel⟩, .inr ⟨rfl, rfl⟩,
    secpFq_setup.r⟩

/-- A root of 4 in both fields; the root of unity of the scalar field is no square. -/
example : (∃ t y, secpFpSqrt (Dense.fromU64 secpFpConsts 4) = some t ∧ Stands secpP t y ∧ y ^ 2 = 4) ∧
    (∃ y, sqrtTonelli secpFqS ((secpFqRoot.val : Nat) : SecpScalar) secpFqExp 4 = some y ∧ y ^ 2 = 4) ∧
    sqrtTonelli secpFqS ((secpFqRoot.val : Nat) : SecpScalar) secpFqExp ((secpFqRoot.val : Nat) : SecpScalar) = none :=
  ⟨(C110_sqrt_base (x := 4) (secpFp_setup.fromU64 (v := 4) (by norm_num))).1 ⟨2, by norm_num⟩,
    (C110_sqrt_scalar 4).1 ⟨2, by norm_num⟩, by decide +kernel⟩

/-- C111. Every point is written as 33 bytes, which are read back as the same point. -/
theorem C111_roundtrip {A : SecpPt} {p : Aff SecpBase} (hp : AffIs p A) :
    (p.toBytesWide secpIO 33).length = 33 ∧ Aff.fromBytesWide secpIO 33 7 (p.toBytesWide secpIO 33) = some p := by
  match A, hp with
  | .zero, hp =>
    rw [secp_toBytes_zero hp]
    refine ⟨List.length_replicate .., ?_⟩
    have : p = ⟨0, 0⟩ := hp
    rw [this]
    decide +kernel
  | .some x y hn, hp =>
    have : p = ⟨x, y⟩ := hp
    rw [this, secp_toBytes (point_eq hn)]
    refine ⟨by rw [List.length_append, leBytes_length]; rfl, secp_decode (point_eq hn) _ ?_⟩
    cases decide (y.val % 2 = 1) <;> decide

/-- C111. What is read from 33 bytes is a point of the curve. -/
theorem C111_sound {bytes : List UInt8} (h : bytes.length = 33) {p : Aff SecpBase}
    (hp : Aff.fromBytesWide secpIO 33 7 bytes = some p) : ∃ A : SecpPt, AffIs p A :=
  (secp_decoded h hp).imp fun _ h => h.1

/-- C111. Different points have different encodings. -/
theorem C111_injective {A B : SecpPt} {p q : Aff SecpBase} (hp : AffIs p A) (hq : AffIs q B)
    (h : p.toBytesWide secpIO 33 = q.toBytesWide secpIO 33) : p = q := by
  have h1 := (C111_roundtrip hp).2
  rw [h, (C111_roundtrip hq).2] at h1
  exact (Option.some.inj h1).symm

/-- C111. Reading ignores the low seven bits of the last byte: whatever they are, the same point is read. -/
theorem C111_ignored {bytes : List UInt8} (h : bytes.length = 33) (v : UInt8)
    (hv : v.toNat.testBit 7 = (bytes.getD 32 0).toNat.testBit 7) :
    Aff.fromBytesWide secpIO 33 7 (bytes.set 32 v) = Aff.fromBytesWide secpIO 33 7 bytes := by
  obtain ⟨h1, h2, h3⟩ := split33 h
  have hg : (bytes.set 32 v).getD 32 0 = v := by
    rw [(h3 v).2, List.getD_append_right _ _ _ _ (by rw [h2]), h2]
    rfl
  unfold Aff.fromBytesWide
  simp only [show 33 - 1 = 32 from rfl, show secpIO.size = 32 from rfl, hg, hv, List.set_set, (h3 _).1]

/-- C111. So two different strings are read as the same point, the generator. -/
theorem C111_not_unique : ∃ b b' : List UInt8, b.length = 33 ∧ b'.length = 33 ∧ b ≠ b' ∧
    Aff.fromBytesWide secpIO 33 7 b = some ⟨secpX, secpY⟩ ∧ Aff.fromBytesWide secpIO 33 7 b' = some ⟨secpX, secpY⟩ := by
  have h := C111_roundtrip (A := secpGen) (p := ⟨secpX, secpY⟩) rfl
  refine ⟨_, (Aff.toBytesWide secpIO 33 ⟨secpX, secpY⟩).set 32 1, h.1, by rw [List.length_set, h.1], by decide +kernel, h.2, ?_⟩
  rw [C111_ignored h.1 1 (by decide +kernel), h.2]

/-- C111. Apart from those bits the encoding is unique: what is read from 33 bytes is written as the same bytes with
the low seven bits of the last cleared. -/
theorem C111_unique_partial {bytes : List UInt8} (h : bytes.length = 33) {p : Aff SecpBase}
    (hp : Aff.fromBytesWide secpIO 33 7 bytes = some p) :
    p.toBytesWide secpIO 33 = bytes.set 32 (bytes.getD 32 0 &&& 0x80) :=
  (secp_decoded h hp).elim fun _ h => h.2

/-- The bytes and roots in terms of residues are those of the limbs. -/
theorem C111_io {a : Limbs} {x : SecpBase} (ha : Stands secpP a x) :
    secpIO.toBytes x = Dense.toRepr secpFpConsts a ∧
    (∀ b : List UInt8, b.length = 32 → (secpIO.fromBytes b = none ↔ Dense.fromRepr secpFpConsts b = none) ∧
      ∀ t, Dense.fromRepr secpFpConsts b = some t → ∃ y, secpIO.fromBytes b = some y ∧ Stands secpP t y) ∧
    (secpIO.sqrt x = none ↔ secpFpSqrt a = none) ∧
      ∀ t, secpFpSqrt a = some t → ∃ y, secpIO.sqrt x = some y ∧ Stands secpP t y := by
  have hf : SecpField secpFpConsts secpP := .inl ⟨rfl, rfl⟩
  have s := secpFp_setup
  refine ⟨((C110_repr hf).1 ha).1.symm, fun b hb => ?_, ?_⟩
  · obtain ⟨h1, h2⟩ := (C110_repr hf).2 b hb
    have hio : secpIO.fromBytes b = if leNat b < secpP then some ((leNat b : Nat) : SecpBase) else none := rfl
    rw [hio]
    by_cases hlt : leNat b < secpP
    · obtain ⟨t, h3, h4, -⟩ := h1 hlt
      rw [if_pos hlt, h3]
      refine ⟨by simp, fun t' ht' => ?_⟩
      cases ht'
      exact ⟨_, rfl, h4⟩
    · rw [if_neg hlt, h2 (by omega)]
      exact ⟨by simp, fun t ht => by cases ht⟩
  · have hpow := s.pow ha (e := ⟨0xffffffffbfffff0c, 0xffffffffffffffff, 0xffffffffffffffff, 0x3fffffffffffffff⟩)
      ((limbs_ok_iff _).2 (by decide +kernel))
    have e : Limbs.val ⟨0xffffffffbfffff0c, 0xffffffffffffffff, 0xffffffffffffffff, 0x3fffffffffffffff⟩ = (secpP + 1) / 4 := by
      decide +kernel
    rw [e] at hpow
    have hiff := s.eq_iff (s.square hpow) ha
    have hio : secpIO.sqrt x = if x ^ ((secpP + 1) / 4) * x ^ ((secpP + 1) / 4) = x then some (x ^ ((secpP + 1) / 4)) else none := by
      unfold secpIO
      dsimp only
    rw [hio]
    unfold secpFpSqrt
    dsimp only
    by_cases hx : x ^ ((secpP + 1) / 4) * x ^ ((secpP + 1) / 4) = x
    · rw [if_pos hx, if_pos (hiff.2 hx)]
      refine ⟨by simp, fun t' ht' => ?_⟩
      rw [← Option.some.inj ht']
      exact ⟨_, rfl, hpow⟩
    · rw [if_neg hx, if_neg (fun h => hx (hiff.1 h))]
      exact ⟨by simp, fun t ht => by cases ht⟩

/-- A point: the generator, with the last bytes of its encoding; and bytes that are no point, as the number is not
below the prime. -/
example : AffIs ⟨secpX, secpY⟩ secpGen ∧
    (Aff.toBytesWide secpIO 33 ⟨secpX, secpY⟩).drop 30 = [0xbe, 0x79, 0x00] ∧
    (Aff.toBytesWide secpIO 33 ⟨secpX, -secpY⟩).drop 30 = [0xbe, 0x79, 0x80] ∧
    Aff.fromBytesWide secpIO 33 7 (List.replicate 32 0xff ++ [0]) = none := by
  refine ⟨rfl, by decide +kernel, by decide +kernel, by decide +kernel⟩

#print axioms C110_prime
#print axioms C110_stored
#print axioms C110_operations
#print axioms C110_pow
#print axioms C110_from
#print axioms C110_repr
#print axioms C110_observe
#print axioms C110_invert_base
#print axioms C110_invert_scalar
#print axioms C110_sqrt_base
#print axioms C110_sqrt_scalar
#print axioms C110_constants
#print axioms C110_group
#print axioms C111_roundtrip
#print axioms C111_sound
#print axioms C111_injective
#print axioms C111_ignored
#print axioms C111_not_unique
#print axioms C111_unique_partial
#print axioms C111_io

end Verif.Props

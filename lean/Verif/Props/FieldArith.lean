import Mathlib.NumberTheory.LegendreSymbol.Basic
import Verif.Lemmas.FieldValue
import Verif.Lemmas.PrattBase
import Verif.Lemmas.VkLemmas
import Verif.Model.Transcript

/-! Property C57: the arithmetic on limbs is arithmetic in the two prime fields. -/

namespace Verif.Props

open Spec FieldConsts

/-- The primes of the two fields are prime. -/
theorem C57_prime {c : FieldConsts} {p : Nat} (h : Bn256Field c p) : p.Prime := by
  rcases h with ⟨-, rfl⟩ | ⟨-, rfl⟩
  · exact Q_prime
  · exact P_prime

/-- Every element has exactly one stored form, and every stored form stands for one element. -/
theorem C57_stored {c : FieldConsts} {p : Nat} (h : Bn256Field c p) :
    (∀ x : ZMod p, ∃! a, Stands p a x) ∧ ∀ a : Limbs, a.Ok → a.val < p → ∃! x : ZMod p, Stands p a x := by
  have s := setup_of h
  have hp := C57_prime h
  have : Fact p.Prime := ⟨hp⟩
  constructor
  · intro x
    obtain ⟨a, ha⟩ := s.exists_limbs x
    exact ⟨a, ha, fun b hb => s.unique hb ha⟩
  · intro a ok hlt
    obtain ⟨i, hi⟩ := s.unit
    refine ⟨a.val * i, ⟨ok, hlt, by rw [mul_assoc, mul_comm i, hi, mul_one]⟩, fun y hy => s.cancel ?_⟩
    rw [mul_assoc, mul_comm i, hi, mul_one, hy.value]

/-- The operations. -/
theorem C57_operations {c : FieldConsts} {p : Nat} (h : Bn256Field c p) {a b : Limbs} {x y : ZMod p} (ha : Stands p a x)
    (hb : Stands p b y) :
    Stands p (c.add a b) (x + y) ∧ Stands p (c.sub a b) (x - y) ∧ Stands p (c.mul a b) (x * y) ∧
      Stands p (c.neg a) (-x) ∧ Stands p (c.double a) (2 * x) ∧ Stands p (c.square a) (x ^ 2) ∧
      (a = b ↔ x = y) ∧ Stands p zero 0 ∧ Stands p c.one 1 := by
  have s := setup_of h
  refine ⟨s.add ha hb, s.sub ha hb, s.mul ha hb, s.neg ha, ?_, ?_, s.eq_iff ha hb, s.zero, s.r⟩
  · rw [two_mul]
    exact s.add ha ha
  · rw [sq]
    exact s.square ha

/-- Powers, with any exponent of four words. -/
theorem C57_pow {c : FieldConsts} {p : Nat} (h : Bn256Field c p) {a e : Limbs} {x : ZMod p} (ha : Stands p a x) (he : e.Ok) :
    Stands p (c.pow a e) (x ^ e.val) := (setup_of h).pow ha he

/-- Numbers are taken modulo the prime: from four words (canonical or not), from a `u64`, a `u128`, a
`bool`, eight words, or 64 bytes. -/
theorem C57_from {c : FieldConsts} {p : Nat} (h : Bn256Field c p) :
    (∀ v : Limbs, v.Ok → Stands p (c.fromRaw v) (v.val : ZMod p)) ∧
    (∀ v < 2 ^ 64, Stands p (c.fromU64 v) (v : ZMod p)) ∧
    (∀ v < 2 ^ 128, Stands p (c.fromU128 v) (v : ZMod p)) ∧
    (∀ b : Bool, Stands p (c.fromBool b) (if b then 1 else 0)) ∧
    (∀ v : Limbs8, WideOk v → Stands p (c.fromU512 v) (wideVal v : ZMod p)) ∧
    ∀ b : List UInt8, b.length = 64 → Stands p (c.fromBytesWide b) (leNat b : ZMod p) := by
  have s := setup_of h
  exact ⟨fun v hv => s.fromRaw hv, fun v hv => s.fromU64 hv, fun v hv => s.fromU128 hv, s.fromBool,
    fun v hv => s.fromU512 hv, fun b hb => s.fromBytesWide hb⟩

/-- The bytes of an element are those of its representative, and only the bytes of numbers below the prime
are read. -/
theorem C57_repr {c : FieldConsts} {p : Nat} (h : Bn256Field c p) :
    (∀ {a : Limbs} {x : ZMod p}, Stands p a x → c.toRepr a = leBytes 32 x.val ∧ c.fromRepr (c.toRepr a) = some a) ∧
    ∀ b : List UInt8, b.length = 32 →
      (leNat b < p → ∃ a, c.fromRepr b = some a ∧ Stands p a (leNat b : ZMod p) ∧ c.toRepr a = b) ∧
      (p ≤ leNat b → c.fromRepr b = none) := by
  have s := setup_of h
  have hp := C57_prime h
  have : Fact p.Prime := ⟨hp⟩
  have hsm : 2 * p ≤ 256 ^ 32 := le_trans s.small (by norm_num [W64])
  constructor
  · intro a x ha
    have hx := ZMod.val_lt x
    refine ⟨s.toRepr ha, ?_⟩
    rw [s.toRepr ha]
    obtain ⟨b, h1, h2⟩ := (s.fromRepr (b := leBytes 32 x.val) (leBytes_length _ _)).1
      (by rw [leNat_leBytes _ _ (by omega)]; exact hx)
    rw [leNat_leBytes _ _ (by omega), ZMod.natCast_zmod_val] at h2
    rw [h1, s.unique h2 ha]
  · intro b hb
    refine ⟨fun hlt => ?_, (s.fromRepr hb).2⟩
    obtain ⟨a, h1, h2⟩ := (s.fromRepr hb).1 hlt
    refine ⟨a, h1, h2, ?_⟩
    rw [s.toRepr h2, ZMod.val_natCast, Nat.mod_eq_of_lt hlt, ← hb, leBytes_leNat]

/-- Reading off: the low 128 bits, the parity, the order. -/
theorem C57_observe {c : FieldConsts} {p : Nat} (h : Bn256Field c p) {a b : Limbs} {x y : ZMod p} (ha : Stands p a x)
    (hb : Stands p b y) :
    c.getLower128 a = x.val % 2 ^ 128 ∧ c.isOdd a = decide (x.val % 2 = 1) ∧ c.cmp a b = compare x.val y.val := by
  have s := setup_of h
  exact ⟨s.getLower128 ha, s.isOdd ha, s.cmp ha hb⟩

/-- Inversion in the base field. -/
theorem C57_invert_fq {a : Limbs} {x : Fq} (ha : Stands Q a x) :
    (x = 0 → fqInvert a = none) ∧ (x ≠ 0 → ∃ t, fqInvert a = some t ∧ Stands Q t x⁻¹) := by
  have s := fq_setup
  unfold fqInvert
  dsimp only
  constructor
  · intro h
    rw [if_pos ((s.eq_zero ha).2 h)]
  · intro h
    rw [if_neg (fun h' => h ((s.eq_zero ha).1 h'))]
    refine ⟨_, rfl, ?_⟩
    have := s.pow ha (e := ⟨0x3c208c16d87cfd45, 0x97816a916871ca8d, 0xb85045b68181585d, 0x30644e72e131a029⟩)
      ((limbs_ok_iff _).2 (by decide +kernel))
    have e : Limbs.val ⟨0x3c208c16d87cfd45, 0x97816a916871ca8d, 0xb85045b68181585d, 0x30644e72e131a029⟩ = Q - 2 := by
      decide +kernel
    rw [e] at this
    have hx : x ^ (Q - 2) = x⁻¹ := by
      refine eq_inv_of_mul_eq_one_left ?_
      rw [← pow_succ, show Q - 2 + 1 = Q - 1 by decide +kernel]
      exact ZMod.pow_card_sub_one_eq_one h
    rwa [hx] at this

/-- Inversion in the scalar field. -/
theorem C57_invert_fr {a : Limbs} {x : Fr} (ha : Stands P a x) :
    (x = 0 → frInvert a = none) ∧ (x ≠ 0 → ∃ t, frInvert a = some t ∧ Stands P t x⁻¹) := by
  have s := fr_setup
  unfold frInvert
  dsimp only
  constructor
  · intro h
    rw [if_pos ((s.eq_zero ha).2 h)]
  · intro h
    rw [if_neg (fun h' => h ((s.eq_zero ha).1 h'))]
    refine ⟨_, rfl, ?_⟩
    have := s.pow ha (e := ⟨0x43e1f593efffffff, 0x2833e84879b97091, 0xb85045b68181585d, 0x30644e72e131a029⟩)
      ((limbs_ok_iff _).2 (by decide +kernel))
    have e : Limbs.val ⟨0x43e1f593efffffff, 0x2833e84879b97091, 0xb85045b68181585d, 0x30644e72e131a029⟩ = P - 2 := by
      decide +kernel
    rw [e] at this
    have hx : x ^ (P - 2) = x⁻¹ := by
      refine eq_inv_of_mul_eq_one_left ?_
      rw [← pow_succ, show P - 2 + 1 = P - 1 by decide +kernel]
      exact ZMod.pow_card_sub_one_eq_one h
    rwa [hx] at this

/-- Square roots in the base field: found exactly if there is one. -/
theorem C57_sqrt {a : Limbs} {x : Fq} (ha : Stands Q a x) :
    (IsSquare x → ∃ t y, fqSqrt a = some t ∧ Stands Q t y ∧ y ^ 2 = x) ∧ (¬ IsSquare x → fqSqrt a = none) := by
  have s := fq_setup
  have hpow := s.pow ha (e := ⟨0x4f082305b61f3f52, 0x65e05aa45a1c72a3, 0x6e14116da0605617, 0x0c19139cb84c680a⟩)
    ((limbs_ok_iff _).2 (by decide +kernel))
  have e : Limbs.val ⟨0x4f082305b61f3f52, 0x65e05aa45a1c72a3, 0x6e14116da0605617, 0x0c19139cb84c680a⟩ = (Q + 1) / 4 := by
    decide +kernel
  rw [e] at hpow
  have hsq := s.square hpow
  unfold fqSqrt
  dsimp only
  have hiff := s.eq_iff hsq ha
  constructor
  · rintro ⟨w, rfl⟩
    have h4 : ((w * w) ^ ((Q + 1) / 4)) * ((w * w) ^ ((Q + 1) / 4)) = w * w := by
      have e2 : (Q + 1) / 4 + (Q + 1) / 4 + ((Q + 1) / 4 + (Q + 1) / 4) = Q + 1 := by decide +kernel
      rw [← pow_add, ← sq, ← pow_mul, Nat.two_mul, e2, pow_succ, ZMod.pow_card, ← sq, sq]
    rw [if_pos (hiff.2 h4)]
    exact ⟨_, _, rfl, hpow, by rw [sq]; exact h4⟩
  · intro h
    rw [if_neg (fun h' => h ⟨_, (hiff.1 h').symm⟩)]

/-- The Legendre symbol. -/
theorem C57_legendre {a : Limbs} {x : Fq} (ha : Stands Q a x) :
    (fqLegendre a = 0 ↔ x = 0) ∧ (fqLegendre a = 1 ↔ x ≠ 0 ∧ IsSquare x) ∧ (fqLegendre a = -1 ↔ ¬ IsSquare x) := by
  have s := fq_setup
  have hpow := s.pow ha (e := ⟨0x9e10460b6c3e7ea3, 0xcbc0b548b438e546, 0xdc2822db40c0ac2e, 0x183227397098d014⟩)
    ((limbs_ok_iff _).2 (by decide +kernel))
  have e : Limbs.val ⟨0x9e10460b6c3e7ea3, 0xcbc0b548b438e546, 0xdc2822db40c0ac2e, 0x183227397098d014⟩ = Q / 2 := by
    decide +kernel
  rw [e] at hpow
  have hQ : Q / 2 ≠ 0 := by decide +kernel
  have h0 := s.eq_zero hpow
  have h1 := s.eq_iff hpow (show Stands Q fqConsts.one 1 from s.r)
  have hz : x ^ (Q / 2) = 0 ↔ x = 0 := pow_eq_zero_iff hQ
  unfold fqLegendre
  dsimp only
  by_cases h : x = 0
  · have hsq : IsSquare x := by rw [h]; exact IsSquare.zero
    rw [if_pos (h0.2 (hz.2 h))]
    simp [h]
  · have he := ZMod.euler_criterion Q h
    rw [if_neg (fun h' => h (hz.1 (h0.1 h')))]
    by_cases hs : IsSquare x
    · rw [if_pos (h1.2 (he.1 hs))]
      simp [h, hs]
    · rw [if_neg (fun h' => hs (he.2 (h1.1 h')))]
      simp [h, hs]

/-- The other models, which compute in `ZMod P`, agree with the limbs: stored form, bytes written to the
transcript, bytes read from a proof, challenges, casts, order. -/
theorem C57_models {a b : Limbs} {x y : Fr} (ha : Stands P a x) (hb : Stands P b y) :
    Fr.toStored x = a ∧ Fr.ofStored a = x ∧ Transcript.scalarBytes x = frConsts.toRepr a ∧
    (∀ hash absorbed, (hash (absorbed ++ [0])).length = 64 →
      Stands P (frConsts.fromBytesWide (hash (absorbed ++ [0]))) (Transcript.squeeze hash absorbed).1) ∧
    (∀ absorbed bytes rest, bytes.length = 32 →
      (Transcript.readScalar ⟨absorbed, bytes ++ rest⟩).map (fun r => Fr.toStored r.1) = frConsts.fromRepr bytes) ∧
    Fr.toUsize x = frConsts.getLower128 a % 2 ^ 64 ∧ Fr.toU8 x = frConsts.getLower128 a % 2 ^ 8 ∧
    Fr.lt x y = decide (frConsts.cmp a b = .lt) := by
  have s := fr_setup
  have hf : Bn256Field frConsts P := .inr ⟨rfl, rfl⟩
  have hst : ∀ z : Fr, Stands P (Fr.toStored z) z := fun z => ⟨ofNat_ok _, by
    rw [toStored_val]; exact ZMod.val_lt _, by
    rw [toStored_val, ZMod.natCast_val, ZMod.cast_id, Nat.cast_pow, Nat.cast_ofNat]⟩
  have h1 : Fr.toStored x = a := s.unique (hst x) ha
  have hobs := C57_observe hf ha hb
  refine ⟨h1, by rw [← h1, ofStored_toStored], ((C57_repr hf).1 ha).1.symm, fun hash absorbed hl =>
    s.fromBytesWide hl, fun absorbed bytes rest hl => ?_, ?_, ?_, ?_⟩
  · have hre : readExact 32 (bytes ++ rest) = some (bytes, rest) := by
      unfold readExact
      rw [if_neg (by rw [List.length_append, hl]; omega), ← hl, List.take_left, List.drop_left]
    unfold Transcript.readScalar
    simp only [hre, Option.bind_eq_bind, Option.bind_some]
    split
    · rename_i hlt
      obtain ⟨t, h2, h3, -⟩ := ((C57_repr hf).2 bytes hl).1 hlt
      rw [h2, ← s.unique (hst _) h3]
      rfl
    · rename_i hge
      rw [((C57_repr hf).2 bytes hl).2 (by omega)]
      rfl
  · rw [hobs.1]
    rfl
  · rw [hobs.1]
    rfl
  · rw [hobs.2.2]
    unfold Fr.lt
    simp only [Nat.compare_eq_lt]

/-- 3 times 5 is 15, in stored form; and the inverse of 5 times 5 is one. -/
example : fqConsts.mul (fqConsts.fromU64 3) (fqConsts.fromU64 5) = fqConsts.fromU64 15 ∧
    (fqInvert (fqConsts.fromU64 5)).map (fqConsts.mul (fqConsts.fromU64 5)) = some fqConsts.one ∧
    fqConsts.fromU64 3 = ⟨0x7a17caa950ad28d7, 0x1f6ac17ae15521b9, 0x334bea4e696bd284, 0x2a1f6744ce179d8e⟩ := by
  decide +kernel

/-- Elements and their stored forms exist: 3 is stored as these limbs. -/
example : Bn256Field fqConsts Q ∧
    Stands Q ⟨0x7a17caa950ad28d7, 0x1f6ac17ae15521b9, 0x334bea4e696bd284, 0x2a1f6744ce179d8e⟩ 3 :=
  ⟨.inl ⟨rfl, rfl⟩, (limbs_ok_iff _).2 (by decide +kernel), by decide +kernel, by decide +kernel⟩

#print axioms C57_prime
#print axioms C57_stored
#print axioms C57_operations
#print axioms C57_pow
#print axioms C57_from
#print axioms C57_repr
#print axioms C57_observe
#print axioms C57_invert_fq
#print axioms C57_invert_fr
#print axioms C57_sqrt
#print axioms C57_legendre
#print axioms C57_models

end Verif.Props

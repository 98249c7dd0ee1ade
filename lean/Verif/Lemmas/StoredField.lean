import Verif.Lemmas.PointCodec
import Verif.Props.FieldArith
import Verif.Spec.StoredField

/-! Arithmetic on stored forms, and decoding points on limbs. -/

namespace Verif.Spec

open FieldConsts

namespace FqLimbs

theorem equiv_apply (a : FqLimbs) : equiv a = a.value := rfl

theorem value_add (a b : FqLimbs) : (a + b).value = a.value + b.value := equiv.apply_symm_apply _
theorem value_sub (a b : FqLimbs) : (a - b).value = a.value - b.value := equiv.apply_symm_apply _
theorem value_mul (a b : FqLimbs) : (a * b).value = a.value * b.value := equiv.apply_symm_apply _
theorem value_neg (a : FqLimbs) : (-a).value = -a.value := equiv.apply_symm_apply _
theorem value_inv (a : FqLimbs) : (a⁻¹).value = (a.value)⁻¹ := equiv.apply_symm_apply _
theorem value_zero : (0 : FqLimbs).value = 0 := equiv.apply_symm_apply _
theorem value_one : (1 : FqLimbs).value = 1 := equiv.apply_symm_apply _

theorem value_inj {a b : FqLimbs} : a.value = b.value ↔ a = b :=
  ⟨fun h => value_bijective.1 h, fun h => by rw [h]⟩

theorem value_eq_zero {a : FqLimbs} : a.value = 0 ↔ a = 0 := by rw [← value_inj, value_zero]

/-- Limbs that stand for the value of a stored form are that form. -/
theorem of_stands {l : Limbs} {a : FqLimbs} (h : Stands Q l a.value) : a.1 = l := fq_setup.unique a.stands h

theorem check_stands {l : Limbs} {x : Fq} (h : Stands Q l x) : (check l).map value = some x := by
  have hc : check l = some ⟨l, h.ok, h.below⟩ := by
    unfold check
    rw [dif_pos ⟨h.ok, h.below⟩]
  rw [hc]
  refine congrArg some ?_
  have hs := FqLimbs.stands ⟨l, h.ok, h.below⟩
  exact fq_setup.cancel (hs.value.symm.trans h.value)

theorem value_ofSmall (n : Nat) (h : n < W64) : (ofSmall n h).value = (n : Fq) := by
  have st := fq_setup.fromRaw (a := ⟨n, 0, 0, 0⟩) ⟨h, zero_lt_W64, zero_lt_W64, zero_lt_W64⟩
  have hs := (ofSmall n h).stands
  refine (fq_setup.cancel (hs.value.symm.trans st.value)).trans ?_
  have : Limbs.val ⟨n, 0, 0, 0⟩ = n := by simp [Limbs.val]
  rw [this]

end FqLimbs

theorem g1B_value : g1B.value = 3 := FqLimbs.value_ofSmall 3 _

open FqLimbs

theorem storedIO_fromBytes {b : List UInt8} (h : b.length = 32) :
    (storedIO.fromBytes b).map value = fqIO.fromBytes b := by
  have hf : Bn256Field fqConsts Q := .inl ⟨rfl, rfl⟩
  unfold storedIO fqIO
  dsimp only
  split
  · rename_i hlt
    obtain ⟨a, h1, h2, -⟩ := ((Props.C57_repr hf).2 b h).1 hlt
    rw [h1, Option.bind_some, check_stands h2]
  · rename_i hge
    rw [((Props.C57_repr hf).2 b h).2 (by omega)]
    rfl

theorem storedIO_toBytes (a : FqLimbs) : storedIO.toBytes a = fqIO.toBytes a.value :=
  ((Props.C57_repr (.inl ⟨rfl, rfl⟩)).1 a.stands).1

theorem storedIO_sign (a : FqLimbs) : storedIO.sign a = fqIO.sign a.value := by
  unfold FieldIO.sign
  rw [storedIO_toBytes]

/-- The root found on limbs is the power. -/
theorem storedIO_sqrt (a : FqLimbs) : (storedIO.sqrt a).map value = fqIO.sqrt a.value := by
  have s := fq_setup
  have ha := a.stands
  have hpow := s.pow ha (e := ⟨0x4f082305b61f3f52, 0x65e05aa45a1c72a3, 0x6e14116da0605617, 0x0c19139cb84c680a⟩)
    ((limbs_ok_iff _).2 (by decide +kernel))
  have e : Limbs.val ⟨0x4f082305b61f3f52, 0x65e05aa45a1c72a3, 0x6e14116da0605617, 0x0c19139cb84c680a⟩ = (Q + 1) / 4 := by
    decide +kernel
  rw [e] at hpow
  have hiff := s.eq_iff (s.square hpow) ha
  unfold storedIO fqIO fqSqrt
  dsimp only
  by_cases h : a.value ^ ((Q + 1) / 4) * a.value ^ ((Q + 1) / 4) = a.value
  · rw [if_pos (hiff.2 h), if_pos h, Option.bind_some, check_stands hpow]
  · rw [if_neg (fun h' => h (hiff.1 h')), if_neg h]
    rfl

/-- Coordinates as residues. -/
def affValue (p : Aff FqLimbs) : Aff Fq := ⟨p.x.value, p.y.value⟩

theorem affValue_injective {p q : Aff FqLimbs} (h : affValue p = affValue q) : p = q := by
  cases p
  cases q
  unfold affValue at h
  simp only [Aff.mk.injEq] at h
  rw [value_inj.1 h.1, value_inj.1 h.2]

/-- Decoding with two descriptions of a field that agree gives points that agree. -/
theorem fromBytes_map {F K : Type} [Field F] [DecidableEq F] [Field K] [DecidableEq K] (io : FieldIO F)
    (io' : FieldIO K) (v : F → K) (v0 : ∀ {a}, v a = 0 ↔ a = 0) (vadd : ∀ a b, v (a + b) = v a + v b)
    (vmul : ∀ a b, v (a * b) = v a * v b) (vneg : ∀ a, v (-a) = -v a) {bytes : List UInt8}
    (hb : (io.fromBytes (bytes.dropLast ++ [bytes.getLastD 0 &&& 0x7f])).map v
      = io'.fromBytes (bytes.dropLast ++ [bytes.getLastD 0 &&& 0x7f]))
    (hs : ∀ a, io.sign a = io'.sign (v a)) (hr : ∀ a, (io.sqrt a).map v = io'.sqrt (v a)) (b : F) :
    (Aff.fromBytes io b bytes).map (fun p => (⟨v p.x, v p.y⟩ : Aff K)) = Aff.fromBytes io' (v b) bytes := by
  unfold Aff.fromBytes
  simp only [Option.bind_eq_bind]
  rw [← hb]
  cases io.fromBytes (bytes.dropLast ++ [bytes.getLastD 0 &&& 0x7f]) with
  | none => rfl
  | some x =>
    simp only [Option.bind_some, Option.map_some]
    by_cases hc : x = 0 ∧ (bytes.getLastD 0).toNat.testBit 7 = false
    · rw [if_pos hc, if_pos ⟨v0.2 hc.1, hc.2⟩]
      simp [Aff.identity, v0.2 rfl]
    · rw [if_neg hc, if_neg (fun h' => hc ⟨v0.1 h'.1, h'.2⟩)]
      have harg : sq (v x) * v x + v b = v (sq x * x + b) := by
        unfold sq
        rw [vadd, vmul, vmul]
      rw [harg, ← hr]
      cases io.sqrt (sq x * x + b) with
      | none => rfl
      | some y =>
        simp only [Option.bind_some, Option.map_some]
        rw [hs]
        refine congrArg some (congrArg _ ?_)
        split
        · exact vneg y
        · rfl

theorem affValue_fromBytes {bytes : List UInt8} (h : bytes.length = 32) (b : FqLimbs) :
    (Aff.fromBytes storedIO b bytes).map affValue = Aff.fromBytes fqIO b.value bytes :=
  fromBytes_map storedIO fqIO value value_eq_zero value_add value_mul value_neg
    (storedIO_fromBytes (split_bytes h).2.2) storedIO_sign storedIO_sqrt b

theorem affValue_isIdentity (p : Aff FqLimbs) : (affValue p).isIdentity = p.isIdentity := by
  unfold Aff.isIdentity affValue
  dsimp only
  rw [decide_eq_decide.2 value_eq_zero, decide_eq_decide.2 value_eq_zero]

theorem affValue_toBytes (p : Aff FqLimbs) : p.toBytes storedIO = (affValue p).toBytes fqIO := by
  unfold Aff.toBytes
  rw [affValue_isIdentity]
  have h1 : storedIO.toBytes p.x = fqIO.toBytes (affValue p).x := storedIO_toBytes _
  have h2 : storedIO.sign p.y = fqIO.sign (affValue p).y := storedIO_sign _
  rw [h1, h2]
  rfl

end Verif.Spec

import Mathlib.Algebra.Module.NatInt
import Mathlib.Algebra.BigOperators.Ring.List
import Verif.Lemmas.CurveGroup
import Verif.Lemmas.FieldValue

/-! Multiplication by a scalar, and normalising many points at once. -/

namespace Verif.Spec

open WeierstrassCurve.Affine

theorem scalarBits_foldl : ∀ (bytes : List UInt8) (e : Nat),
    (scalarBits bytes).foldl (fun n b => 2 * n + b.toNat) e = 256 ^ bytes.length * e + leNat bytes
  | [], e => by simp [scalarBits, leNat]
  | b :: bs, e => by
    have h : scalarBits (b :: bs) = scalarBits bs ++ ((List.range 8).map fun i => b.toNat.testBit i).reverse := by
      unfold scalarBits
      rw [List.reverse_cons, List.flatMap_append, List.flatMap_singleton, List.map_reverse]
    have hb : b.toNat % 2 ^ 8 = b.toNat := Nat.mod_eq_of_lt b.toNat_lt
    rw [h, List.foldl_append, scalarBits_foldl bs, foldl_bits, hb, leNat, List.length_cons, pow_succ]
    ring

variable {F : Type} [Field F] [DecidableEq F]

/-- Double and add. -/
theorem ladder_is {b : F} (s : Smooth b) {A : Pt b} {step : Jac F → Jac F}
    (hstep : ∀ {acc : Jac F} {B : Pt b}, JacIs acc B → JacIs (step acc) (B + A)) :
    ∀ (bits : List Bool) {acc : Jac F} {n : Nat}, JacIs acc (n • A) →
      JacIs (bits.foldl (fun acc bit => let acc := acc.double; if bit then step acc else acc) acc)
        (bits.foldl (fun n b => 2 * n + b.toNat) n • A)
  | [], _, _, h => h
  | bit :: bits, acc, n, h => by
    rw [List.foldl_cons, List.foldl_cons]
    refine ladder_is s hstep bits ?_
    have hd : JacIs acc.double ((2 * n) • A) := jac_congr (double_is s h) (by rw [two_mul, add_nsmul])
    cases bit
    · simpa using hd
    · refine jac_congr (hstep hd) ?_
      rw [add_nsmul]
      simp

theorem mul_is {b : F} (s : Smooth b) {p : Jac F} {A : Pt b} (h : JacIs p A) (bytes : List UInt8) :
    JacIs (p.mul bytes) (leNat bytes • A) := by
  have := ladder_is s (A := A) (step := fun acc => acc.add p) (fun hacc => add_is s hacc h) (scalarBits bytes)
    (acc := Jac.identity) (n := 0) (jac_congr (jac_zero.2 rfl) (zero_nsmul A).symm)
  rwa [scalarBits_foldl, mul_zero, zero_add] at this

theorem affMul_is {b : F} (s : Smooth b) {p : Aff F} {A : Pt b} (h : AffIs p A) (bytes : List UInt8) :
    JacIs (p.mul bytes) (leNat bytes • A) := by
  have := ladder_is s (A := A) (step := fun acc => acc.addMixed p) (fun hacc => addMixed_is s hacc h) (scalarBits bytes)
    (acc := Jac.identity) (n := 0) (jac_congr (jac_zero.2 rfl) (zero_nsmul A).symm)
  rwa [scalarBits_foldl, mul_zero, zero_add] at this

/-- The z-coordinate, or one at infinity. -/
def zOr (p : Jac F) : F := if p.isIdentity then 1 else p.z

theorem zOr_ne (p : Jac F) : zOr p ≠ 0 := by
  unfold zOr Jac.isIdentity
  split
  · exact one_ne_zero
  · rename_i h
    simpa using h

theorem prefix_step (acc : F) (p : Jac F) : (if p.isIdentity then acc else acc * p.z) = acc * zOr p := by
  unfold zOr
  split <;> simp

theorem prefixProducts_len : ∀ (ps : List (Jac F)) (acc : F), (Jac.prefixProducts acc ps).1.length = ps.length
  | [], _ => rfl
  | p :: ps, acc => by simp [Jac.prefixProducts, prefixProducts_len ps]

theorem prefixProducts_snd : ∀ (ps : List (Jac F)) (acc : F), (Jac.prefixProducts acc ps).2 = acc * (ps.map zOr).prod
  | [], acc => by simp [Jac.prefixProducts]
  | p :: ps, acc => by
    simp only [Jac.prefixProducts, prefix_step]
    rw [prefixProducts_snd ps, List.map_cons, List.prod_cons, mul_assoc]

/-- Going back, the running inverse is that of the products so far. -/
theorem normalizeBack_append (acc : F) : ∀ (l m : List (Jac F × F)), Jac.normalizeBack acc (l ++ m) =
    Jac.normalizeBack acc l ++ Jac.normalizeBack (acc * (l.map fun e => zOr e.1).prod) m
  | [], m => by simp [Jac.normalizeBack]
  | (p, qx) :: l, m => by
    simp only [List.cons_append, Jac.normalizeBack, prefix_step, List.map_cons, List.prod_cons]
    rw [normalizeBack_append _ l m, mul_assoc]

theorem toAffine_eq (p : Jac F) : p.toAffine = if p.isIdentity then Aff.identity else ⟨p.x * sq p.z⁻¹, p.y * (sq p.z⁻¹ * p.z⁻¹)⟩ := by
  unfold Jac.toAffine Jac.isIdentity
  dsimp only
  by_cases h : p.z = 0 <;> simp [h]

theorem normalize_all : ∀ (ps : List (Jac F)) (acc : F), acc ≠ 0 →
    (Jac.normalizeBack (acc * (ps.map zOr).prod)⁻¹ (ps.zip (Jac.prefixProducts acc ps).1).reverse).reverse =
      ps.map Jac.toAffine
  | [], _, _ => by simp [Jac.normalizeBack]
  | p :: ps, acc, h => by
    have hz := zOr_ne p
    simp only [Jac.prefixProducts, prefix_step, List.zip_cons_cons, List.reverse_cons, List.map_cons, List.prod_cons]
    rw [normalizeBack_append, List.reverse_append, ← mul_assoc, normalize_all ps (acc * zOr p) (mul_ne_zero h hz)]
    have hzip : (((ps.zip (Jac.prefixProducts (acc * zOr p) ps).1).reverse.map fun e => zOr e.1)).prod = (ps.map zOr).prod := by
      rw [List.map_reverse, List.prod_reverse]
      congr 1
      have : (fun e : Jac F × F => zOr e.1) = zOr ∘ Prod.fst := rfl
      rw [this, ← List.map_map, List.map_fst_zip (by rw [prefixProducts_len])]
    rw [hzip]
    have hprod : (ps.map zOr).prod ≠ 0 := by
      refine List.prod_ne_zero fun h0 => ?_
      obtain ⟨q, -, hq⟩ := List.mem_map.1 h0
      exact zOr_ne q hq
    have e : (acc * zOr p * (ps.map zOr).prod)⁻¹ * (ps.map zOr).prod = (acc * zOr p)⁻¹ := by
      field_simp
    rw [e]
    simp only [Jac.normalizeBack, List.reverse_cons, List.reverse_nil, List.nil_append, List.singleton_append]
    congr 1
    rw [toAffine_eq]
    have e2 : acc * (acc * zOr p)⁻¹ = (zOr p)⁻¹ := by field_simp
    rw [e2]
    unfold zOr
    split <;> rfl

/-- Normalising many points gives the affine coordinates of each. -/
theorem batchNormalize_eq (ps : List (Jac F)) : Jac.batchNormalize ps ps.length = .ok (ps.map Jac.toAffine) := by
  unfold Jac.batchNormalize
  rw [if_neg (by simp)]
  dsimp only
  have hprod : (Jac.prefixProducts 1 ps).2 ≠ 0 := by
    rw [prefixProducts_snd, one_mul]
    refine List.prod_ne_zero fun h0 => ?_
    obtain ⟨q, -, hq⟩ := List.mem_map.1 h0
    exact zOr_ne q hq
  rw [if_neg hprod, prefixProducts_snd, normalize_all ps 1 one_ne_zero]

end Verif.Spec

import Verif.Model.EccTables
import Mathlib.Algebra.BigOperators.Fin

/-! Interpolation over any field. -/

namespace Verif.Gadget.Tables

open Finset

variable {F : Type} [Field F]

/-- The value of a polynomial. -/
def valueAt (l : List F) (x : F) : F := l.foldr (fun c acc => c + x * acc) 0

theorem valueAt_nil (x : F) : valueAt [] x = 0 := rfl

theorem valueAt_cons (c : F) (l : List F) (x : F) : valueAt (c :: l) x = c + x * valueAt l x := rfl

theorem valueAt_append_zero (l : List F) (x : F) : valueAt (l ++ [0]) x = valueAt l x := by
  induction l with
  | nil => simp [valueAt]
  | cons c l ih => rw [List.cons_append, valueAt_cons, valueAt_cons, ih]

theorem valueAt_combine (s t x : F) : ∀ (a b : List F), a.length = b.length →
    valueAt ((a.zip b).map fun (p : F × F) => p.1 * s + p.2 * t) x = valueAt a x * s + valueAt b x * t
  | [], [], _ => by simp [valueAt]
  | c :: a, d :: b, h => by
    rw [List.zip_cons_cons, List.map_cons, valueAt_cons, valueAt_combine s t x a b (by simpa using h), valueAt_cons, valueAt_cons]
    ring

theorem valueAt_zeros (n : Nat) (x : F) : valueAt (List.replicate n 0) x = 0 := by
  induction n with
  | zero => rfl
  | succ n ih => rw [List.replicate_succ, valueAt_cons, ih]; simp

theorem getD_lt {α : Type} (l : List α) (d : α) {i : Nat} (h : i < l.length) : l.getD i d = l[i] := by
  rw [List.getD_eq_getElem?_getD, List.getElem?_eq_getElem h]; rfl

theorem timesFactor_spec (tmp : List F) (denom xk x : F) :
    valueAt (timesFactor tmp denom xk) x = valueAt tmp x * (denom * (x - xk)) ∧
    (timesFactor tmp denom xk).length = tmp.length + 1 := by
  constructor
  · unfold timesFactor
    rw [valueAt_combine _ _ _ _ _ (by simp), valueAt_append_zero, valueAt_cons]
    ring
  · simp [timesFactor]

theorem basis_spec (xj x : F) : ∀ (others tmp : List F),
    valueAt (others.foldl (fun tmp xk => timesFactor tmp (xj - xk)⁻¹ xk) tmp) x
      = valueAt tmp x * (others.map fun xk => (xj - xk)⁻¹ * (x - xk)).prod ∧
    (others.foldl (fun tmp xk => timesFactor tmp (xj - xk)⁻¹ xk) tmp).length
      = tmp.length + others.length := by
  intro others
  induction others with
  | nil => intro tmp; simp
  | cons xk others ih =>
    intro tmp
    have h := timesFactor_spec tmp (xj - xk)⁻¹ xk x
    obtain ⟨h1, h2⟩ := ih (timesFactor tmp (xj - xk)⁻¹ xk)
    refine ⟨?_, ?_⟩
    · rw [List.foldl_cons, h1, h.1, List.map_cons, List.prod_cons]; ring
    · rw [List.foldl_cons, h2, h.2]; simp; omega

theorem final_spec (x : F) : ∀ (polys : List (List F × F)) (final : List F),
    (∀ p ∈ polys, p.1.length = final.length) →
    valueAt (polys.foldl (fun final p => (final.zip p.1).map fun c => c.1 + c.2 * p.2) final) x
      = valueAt final x + (polys.map fun p => valueAt p.1 x * p.2).sum ∧
    (polys.foldl (fun final p => (final.zip p.1).map fun c => c.1 + c.2 * p.2) final).length
      = final.length := by
  intro polys
  induction polys with
  | nil => intro final _; simp
  | cons p polys ih =>
    intro final hl
    have hp := hl p (by simp)
    have hlen : ((final.zip p.1).map fun (c : F × F) => c.1 + c.2 * p.2).length
        = final.length := by simp [hp]
    obtain ⟨h1, h2⟩ := ih _ (fun q hq => by rw [hlen]; exact hl q (by simp [hq]))
    refine ⟨?_, by rw [List.foldl_cons, h2, hlen]⟩
    rw [List.foldl_cons, h1]
    have := valueAt_combine 1 p.2 x final p.1 hp.symm
    simp only [mul_one] at this
    rw [this, List.map_cons, List.sum_cons]; ring

theorem mem_otherPoints (points : List F) (j : Nat) (y : F) :
    y ∈ otherPoints points j ↔ ∃ i, i ≠ j ∧ points[i]? = some y := by
  unfold otherPoints
  rw [List.mem_map]
  constructor
  · rintro ⟨⟨a, i⟩, h, rfl⟩
    rw [List.mem_filter, List.mem_zipIdx_iff_getElem?] at h
    exact ⟨i, by simpa using h.2, h.1⟩
  · rintro ⟨i, h1, h2⟩
    exact ⟨(y, i), by rw [List.mem_filter, List.mem_zipIdx_iff_getElem?]; exact ⟨h2, by simpa using h1⟩,
      rfl⟩

theorem length_otherPoints (points : List F) (j : Nat) (hj : j < points.length) :
    (otherPoints points j).length + 1 = points.length := by
  unfold otherPoints
  rw [List.length_map]
  have h := List.length_eq_length_filter_add (l := points.zipIdx) (fun p => decide (p.2 = j))
  have h1 : (points.zipIdx.filter fun p => decide (p.2 = j)).length = 1 := by
    have : ∀ (l : List F) (s : Nat), s ≤ j → j < s + l.length →
        ((l.zipIdx s).filter fun p => decide (p.2 = j)).length = 1 := by
      intro l
      induction l with
      | nil => intro s h1 h2; simp at h2; omega
      | cons a l ih =>
        intro s h1 h2
        rw [List.zipIdx_cons, List.filter_cons]
        by_cases hs : s = j
        · subst hs
          rw [if_pos (by simp), List.length_cons]
          have : (l.zipIdx (s + 1)).filter (fun p => decide (p.2 = s)) = [] := by
            rw [List.filter_eq_nil_iff]
            intro p hp
            have := List.le_snd_of_mem_zipIdx hp
            simp; omega
          rw [this]; rfl
        · rw [if_neg (by simpa using hs)]
          exact ih (s + 1) (by omega) (by simp at h2; omega)
    exact this points 0 (by omega) (by omega)
  rw [h1, List.length_zipIdx] at h
  have h2 : (points.zipIdx.filter fun p => decide (p.2 ≠ j)).length
      = (points.zipIdx.filter fun p => !decide (p.2 = j)).length := by
    congr 2; funext p; simp
  rw [h2]; omega

theorem sum_single (f : Nat → F) (n i : Nat) (hi : i < n) (h0 : ∀ j < n, j ≠ i → f j = 0) :
    ((List.range n).map f).sum = f i := by
  have : ((List.range n).map f).sum = ∑ j ∈ range n, f j := by
    rw [Finset.sum_range, ← List.sum_ofFn, List.ofFn_eq_map, ← List.map_coe_finRange_eq_range, List.map_map]
    rfl
  rw [this]
  exact sum_eq_single i (fun j hj hne => h0 j (mem_range.1 hj) hne)
    (fun h => absurd (mem_range.2 hi) h)

theorem interpolate_spec (points evals : List F) (hl : points.length = evals.length)
    (hn : points.Nodup) :
    ∃ c, interpolate points evals = .ok c ∧ c.length = points.length ∧
      ∀ (i : Nat) (h1 : i < points.length) (h2 : i < evals.length),
        valueAt c points[i] = evals[i] := by
  unfold interpolate
  rw [if_neg (by simp [hl])]
  split
  · next h1 =>
    refine ⟨_, rfl, by simp [h1], ?_⟩
    intro i hi hi2
    have : i = 0 := by omega
    subst this
    rw [valueAt_cons, valueAt_nil, getD_lt _ _ hi2]; simp
  · refine ⟨_, rfl, ?_, ?_⟩
    · have := (final_spec 0 ((points.zipIdx.map fun p =>
        (otherPoints points p.2).foldl (fun tmp xk => timesFactor tmp (p.1 - xk)⁻¹ xk) [1]).zip evals)
        (List.replicate points.length 0) ?_).2
      · rw [this]; simp
      · intro p hp
        have hp1 := (List.of_mem_zip hp).1
        rw [List.mem_map] at hp1
        obtain ⟨⟨a, j⟩, hj, he⟩ := hp1
        rw [← he, (basis_spec a 0 _ [1]).2, List.length_replicate]
        rw [List.mem_zipIdx_iff_getElem?] at hj
        have := length_otherPoints points j (List.getElem?_eq_some_iff.1 hj).1
        simp only [List.length_cons, List.length_nil] at *
        omega
    · intro i hi hi2
      rw [(final_spec points[i] _ (List.replicate points.length 0) ?_).1]
      · have hz := valueAt_zeros points.length points[i]
        rw [hz, zero_add]
        have hmap : (((points.zipIdx.map fun p =>
            (otherPoints points p.2).foldl (fun tmp xk => timesFactor tmp (p.1 - xk)⁻¹ xk) [1]).zip
            evals).map fun p => valueAt p.1 points[i] * p.2)
            = (List.range points.length).map fun j =>
              ((otherPoints points j).map fun xk =>
                (points.getD j 0 - xk)⁻¹ * (points[i] - xk)).prod * evals.getD j 0 := by
          apply List.ext_getElem
          · simp [hl]
          · intro j h1 h2
            have hj : j < points.length := by simpa using h2
            simp only [List.getElem_map, List.getElem_zip, List.getElem_zipIdx, List.getElem_range,
              Nat.zero_add]
            rw [(basis_spec _ _ _ [1]).1, getD_lt _ _ hj, getD_lt _ _ (by omega), valueAt_cons,
              valueAt_nil]
            simp
        rw [hmap, sum_single _ _ i hi]
        · have : ((otherPoints points i).map fun xk =>
              (points.getD i 0 - xk)⁻¹ * (points[i] - xk)).prod = 1 := by
            apply List.prod_eq_one
            intro y hy
            rw [List.mem_map] at hy
            obtain ⟨xk, hk, rfl⟩ := hy
            rw [mem_otherPoints] at hk
            obtain ⟨m, hm, he⟩ := hk
            obtain ⟨hml, he⟩ := List.getElem?_eq_some_iff.1 he
            rw [getD_lt _ _ hi]
            apply inv_mul_cancel₀
            rw [sub_ne_zero, ← he]
            intro hc
            exact hm ((List.Nodup.getElem_inj_iff hn).1 hc.symm)
          rw [this, one_mul, getD_lt _ _ hi2]
        · intro j hj hne
          have : (0 : F) ∈ (otherPoints points j).map fun xk =>
              (points.getD j 0 - xk)⁻¹ * (points[i] - xk) := by
            rw [List.mem_map]
            refine ⟨points[i], ?_, by simp⟩
            rw [mem_otherPoints]
            exact ⟨i, fun h => hne h.symm, List.getElem?_eq_getElem hi⟩
          rw [List.prod_eq_zero this, zero_mul]
      · intro p hp
        have hp1 := (List.of_mem_zip hp).1
        rw [List.mem_map] at hp1
        obtain ⟨⟨a, j⟩, hj, he⟩ := hp1
        rw [← he, (basis_spec a 0 _ [1]).2, List.length_replicate]
        rw [List.mem_zipIdx_iff_getElem?] at hj
        have := length_otherPoints points j (List.getElem?_eq_some_iff.1 hj).1
        simp only [List.length_cons, List.length_nil] at *
        omega


end Verif.Gadget.Tables

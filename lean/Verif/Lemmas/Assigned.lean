import Verif.Spec.Assigned
import Mathlib.Tactic.Ring
import Mathlib.Tactic.FieldSimp

namespace Verif

open Spec

variable {F : Type} [Field F] [DecidableEq F]

namespace Fraction

theorem evaluate_worth (a : Fraction F) : a.evaluate = worth a := by
  cases a with
  | zero => rfl
  | trivial x => rfl
  | rational n d =>
    simp only [evaluate, worth]
    by_cases h1 : d = 1
    · subst h1; simp
    · by_cases h0 : d = 0
      · simp [h0]
      · simp [h1, h0, div_eq_mul_inv]

theorem isZero_iff (a : Fraction F) : a.isZero = true ↔ worth a = 0 := by
  cases a with
  | zero => simp [isZero, worth]
  | trivial x => simp [isZero, worth]
  | rational n d => by_cases h : d = 0 <;> simp [isZero, worth, h]

theorem eq_iff (a b : Fraction F) : a.eq b = true ↔ worth a = worth b := by
  cases a with
  | zero =>
    cases b with
    | zero => simp [eq, worth]
    | trivial y => simp [eq, isZero, worth, eq_comm]
    | rational n d =>
      have := isZero_iff (rational n d)
      simp only [eq, this]
      exact eq_comm
  | trivial x =>
    cases b with
    | zero => simp [eq, isZero, worth]
    | trivial y => simp [eq, worth]
    | rational n d =>
      by_cases h : d = 0
      · simp [eq, worth, h, isZero]
      · simp [eq, worth, h, eq_div_iff]
  | rational n d =>
    cases b with
    | zero => exact isZero_iff (rational n d)
    | trivial y =>
      by_cases h : d = 0
      · simp [eq, worth, h, isZero, eq_comm]
      · simp only [eq, worth, h, if_false, decide_eq_true_eq, div_eq_iff h]
        exact eq_comm
    | rational n' d' =>
      by_cases h : d = 0
      · simp only [eq, h, if_true, isZero_iff]
        simp [worth, eq_comm]
      · by_cases h' : d' = 0
        · simp only [eq, h, h', if_true, if_false, isZero_iff]
          simp [worth]
        · simp [eq, worth, h, h', div_eq_div_iff, mul_comm]

theorem neg_worth (a : Fraction F) : worth a.neg = -worth a := by
  cases a with
  | zero => simp [neg, worth]
  | trivial x => rfl
  | rational n d => by_cases h : d = 0 <;> simp [neg, worth, h, neg_div]

theorem add_worth (a b : Fraction F) : worth (a.add b) = worth a + worth b := by
  cases a with
  | zero => cases b <;> simp [add, worth]
  | trivial x =>
    cases b with
    | zero => simp [add, worth]
    | trivial y => rfl
    | rational n d =>
      by_cases h : d = 0
      · simp [add, worth, h]
      · simp only [add, worth, h, if_false]; field_simp; ring
  | rational n d =>
    cases b with
    | zero => simp [add, worth]
    | trivial y =>
      by_cases h : d = 0
      · simp [add, worth, h]
      · simp only [add, worth, h, if_false]; field_simp
    | rational n' d' =>
      by_cases h : d = 0
      · simp [add, worth, h]
      · by_cases h' : d' = 0
        · simp [add, worth, h, h']
        · simp only [add, worth, h, h', if_false, mul_eq_zero, or_self]; field_simp

theorem sub_worth (a b : Fraction F) : worth (a.sub b) = worth a - worth b := by
  rw [sub, add_worth, neg_worth, sub_eq_add_neg]

theorem mul_worth (a b : Fraction F) : worth (a.mul b) = worth a * worth b := by
  cases a with
  | zero => cases b <;> simp [mul, worth]
  | trivial x =>
    cases b with
    | zero => simp [mul, worth]
    | trivial y => rfl
    | rational n d =>
      by_cases h : d = 0
      · simp [mul, worth, h]
      · simp only [mul, worth, h, if_false]; field_simp
  | rational n d =>
    cases b with
    | zero => simp [mul, worth]
    | trivial y =>
      by_cases h : d = 0
      · simp [mul, worth, h]
      · simp only [mul, worth, h, if_false]; field_simp
    | rational n' d' =>
      by_cases h : d = 0
      · simp [mul, worth, h]
      · by_cases h' : d' = 0
        · simp [mul, worth, h, h']
        · simp only [mul, worth, h, h', if_false, mul_eq_zero, or_self]; field_simp

theorem double_worth (a : Fraction F) : worth a.double = 2 * worth a := by
  cases a with
  | zero => simp [double, worth]
  | trivial x => simp [double, worth, two_mul]
  | rational n d =>
    by_cases h : d = 0
    · simp [double, worth, h]
    · simp only [double, worth, h, if_false]; field_simp; ring

theorem square_worth (a : Fraction F) : worth a.square = worth a ^ 2 := by
  cases a with
  | zero => simp [square, worth]
  | trivial x => simp [square, worth, sq]
  | rational n d =>
    by_cases h : d = 0
    · simp [square, worth, h]
    · simp only [square, worth, h, if_false, mul_eq_zero, or_self]; field_simp

theorem cube_worth (a : Fraction F) : worth a.cube = worth a ^ 3 := by
  rw [cube, mul_worth, square_worth]; ring

theorem invert_worth (a : Fraction F) :
    worth a.invert = if worth a = 0 then 0 else 1 / worth a := by
  cases a with
  | zero => simp [invert, worth]
  | trivial x => by_cases h : x = 0 <;> simp [invert, worth, h]
  | rational n d =>
    by_cases h : d = 0
    · simp [invert, worth, h]
    · by_cases hn : n = 0 <;> simp [invert, worth, h, hn]

end Fraction

theorem inFractions_worth (x : Nat → Fraction F) (f : Formula) :
    worth (f.inFractions x) = f.inField fun i => worth (x i) := by
  induction f with
  | input i => rfl
  | neg a ha => rw [Formula.inFractions, Fraction.neg_worth, ha, Formula.inField]
  | add a b ha hb => rw [Formula.inFractions, Fraction.add_worth, ha, hb, Formula.inField]
  | sub a b ha hb => rw [Formula.inFractions, Fraction.sub_worth, ha, hb, Formula.inField]
  | mul a b ha hb => rw [Formula.inFractions, Fraction.mul_worth, ha, hb, Formula.inField]
  | double a ha => rw [Formula.inFractions, Fraction.double_worth, ha, Formula.inField]
  | square a ha => rw [Formula.inFractions, Fraction.square_worth, ha, Formula.inField]
  | cube a ha => rw [Formula.inFractions, Fraction.cube_worth, ha, Formula.inField]
  | invert a ha => rw [Formula.inFractions, Fraction.invert_worth, ha, Formula.inField]

theorem batchProducts_ne (l : List F) (acc : F) (h : acc ≠ 0) : (batchProducts l acc).2 ≠ 0 := by
  induction l generalizing acc with
  | nil => exact h
  | cons p ps ih =>
    simp only [batchProducts]
    apply ih
    by_cases hp : p = 0
    · simpa [hp] using h
    · simp [hp, h]

theorem batchBack_products (l : List F) (acc : F) (h : acc ≠ 0) :
    batchBack (batchProducts l acc).1 (batchProducts l acc).2⁻¹ = (l.map (·⁻¹), acc⁻¹) := by
  induction l generalizing acc with
  | nil => rfl
  | cons p ps ih =>
    simp only [batchProducts, batchBack]
    by_cases hp : p = 0
    · simp only [hp, if_true]
      rw [ih acc h]; simp
    · simp only [hp, if_false]
      rw [ih (acc * p) (mul_ne_zero h hp)]
      simp only [List.map_cons, Prod.mk.injEq, List.cons.injEq, and_true]
      constructor <;> field_simp

theorem batchInvert_eq (l : List F) : batchInvert l = .ok (l.map (·⁻¹)) := by
  rw [batchInvert]
  simp only [batchProducts_ne l 1 one_ne_zero, if_false, batchBack_products l 1 one_ne_zero]

theorem putBack_eq (ds : List (Option F)) (rest : List F) :
    putBack ds ((ds.filterMap id).map (·⁻¹) ++ rest) = (ds.map (Option.map (·⁻¹)), rest) := by
  induction ds with
  | nil => rfl
  | cons d ds ih =>
    cases d with
    | none =>
      have : (none :: ds : List (Option F)).filterMap id = ds.filterMap id := rfl
      rw [this, putBack, ih]; rfl
    | some d =>
      have : (some d :: ds : List (Option F)).filterMap id = d :: ds.filterMap id := rfl
      rw [this, List.map_cons, List.cons_append, putBack, ih]; rfl

theorem putBackAll_eq (fs : List (List (Option F))) :
    putBackAll fs ((fs.flatMap fun f => f.filterMap id).map (·⁻¹)) =
      fs.map fun f => f.map (Option.map (·⁻¹)) := by
  induction fs with
  | nil => rfl
  | cons f fs ih =>
    rw [List.flatMap_cons, List.map_append, putBackAll, putBack_eq]
    simp only [ih, List.map_cons]

theorem numerator_worth (a : Fraction F) :
    a.numerator * ((a.denominator.map (·⁻¹)).getD 1) = worth a := by
  cases a with
  | zero => simp [Fraction.numerator, worth]
  | trivial x => simp [Fraction.numerator, Fraction.denominator, worth]
  | rational n d =>
    by_cases h : d = 0 <;> simp [Fraction.numerator, Fraction.denominator, worth, h, div_eq_mul_inv]

theorem invertPoly_eq (p : List (Fraction F)) :
    invertPoly p ((p.map Fraction.denominator).map fun d => (d.map (·⁻¹)).getD 1) =
      .ok (p.map worth) := by
  rw [invertPoly, if_neg (by simp)]
  congr 1
  induction p with
  | nil => rfl
  | cons a p ih =>
    simp only [List.map_cons, List.zip_cons_cons, numerator_worth]
    rw [ih]

theorem batchInvertAssigned_eq (l : List (List (Fraction F))) :
    batchInvertAssigned l = .ok (l.map fun p => p.map worth) := by
  rw [batchInvertAssigned]
  simp only [batchInvert_eq]
  change ((l.zip (putBackAll _ _)).mapM _ : Except Panic _) = _
  rw [putBackAll_eq]
  induction l with
  | nil => rfl
  | cons p l ih =>
    simp only [List.map_cons, List.zip_cons_cons, List.mapM_cons, List.map_map] at ih ⊢
    have h := invertPoly_eq p
    simp only [List.map_map] at h
    have e : ((fun x : Option F => x.getD 1) ∘ (Option.map fun x => x⁻¹) ∘ Fraction.denominator) =
        ((fun d : Option F => (d.map (·⁻¹)).getD 1) ∘ (Fraction.denominator (F := F))) := rfl
    rw [e, h]
    change ((fun r : List (List F) => List.map worth p :: r) <$> (_ : Except Panic _)) = _
    rw [ih]; rfl

end Verif

import Verif.Lemmas.Assigned
import Verif.Model.Fr

/-! C89: values of cells may be given as fractions; they are what they stand for. -/

namespace Verif.Props

open Verif.Spec

variable {F : Type} [Field F] [DecidableEq F]

/-- C89. `evaluate` gives the element a fraction stands for. -/
theorem C89_evaluate (a : Fraction F) : a.evaluate = worth a := a.evaluate_worth

/-- C89. Whatever is computed with fractions, in any order, stands for the same computed in the
field. -/
theorem C89_formula (x : Nat → Fraction F) (f : Formula) :
    (f.inFractions x).evaluate = f.inField fun i => (x i).evaluate := by
  simp only [Fraction.evaluate_worth]
  exact inFractions_worth x f

/-- C89. Two fractions are equal, and a fraction is zero, exactly if what they stand for is. -/
theorem C89_equal (a b : Fraction F) :
    (a.eq b = true ↔ a.evaluate = b.evaluate) ∧ (a.isZero = true ↔ a.evaluate = 0) := by
  simp only [Fraction.evaluate_worth]
  exact ⟨a.eq_iff b, a.isZero_iff⟩

/-- C89. Inverting the denominators of all columns at once gives what evaluating each cell does. It does
not panic, whatever denominators are zero. -/
theorem C89_batch (columns : List (List (Fraction F))) :
    batchInvertAssigned columns = .ok (columns.map fun c => c.map Fraction.evaluate) := by
  rw [batchInvertAssigned_eq, show (Fraction.evaluate : Fraction F → F) = worth from
    funext Fraction.evaluate_worth]

/-- A fraction with denominator zero next to others. -/
example : batchInvertAssigned
    [[.rational 6 (3 : Fr), .rational 5 0], [.zero, .trivial 7, .rational 1 1]] =
      .ok [[2, 0], [0, 7, 1]] := by
  rw [C89_batch]
  simp only [List.map_cons, List.map_nil, Fraction.evaluate]
  decide +kernel

/-- A formula with a division by zero on the way: `1 / (x - x) + 1 / x` at `x = 3/6`. -/
example : (Formula.inFractions (fun _ => .rational (3 : Fr) 6)
    (.add (.invert (.sub (.input 0) (.input 0))) (.invert (.input 0)))).evaluate = 2 := by
  rw [C89_formula]
  simp only [Formula.inField, Fraction.evaluate]
  decide +kernel

end Verif.Props

#print axioms Verif.Props.C89_evaluate
#print axioms Verif.Props.C89_formula
#print axioms Verif.Props.C89_equal
#print axioms Verif.Props.C89_batch

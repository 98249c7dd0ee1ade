import Mathlib.Tactic.Ring
import Mathlib.Tactic.LinearCombination
import Mathlib.Tactic.FieldSimp
import Verif.Model.Tower

/-! The operations of the code on Fq2, Fq6 and Fq12 make commutative rings, over any field. -/

namespace Verif.Tower

set_option linter.unusedSectionVars false

variable {F : Type} [Field F] [DecidableEq F]

namespace Fq2

@[simp] theorem zero_c0 : (0 : Fq2 F).c0 = 0 := rfl
@[simp] theorem zero_c1 : (0 : Fq2 F).c1 = 0 := rfl
@[simp] theorem one_c0 : (1 : Fq2 F).c0 = 1 := rfl
@[simp] theorem one_c1 : (1 : Fq2 F).c1 = 0 := rfl
@[simp] theorem add_c0 (a b : Fq2 F) : (a + b).c0 = a.c0 + b.c0 := rfl
@[simp] theorem add_c1 (a b : Fq2 F) : (a + b).c1 = a.c1 + b.c1 := rfl
@[simp] theorem sub_c0 (a b : Fq2 F) : (a - b).c0 = a.c0 - b.c0 := rfl
@[simp] theorem sub_c1 (a b : Fq2 F) : (a - b).c1 = a.c1 - b.c1 := rfl
@[simp] theorem neg_c0 (a : Fq2 F) : (-a).c0 = -a.c0 := rfl
@[simp] theorem neg_c1 (a : Fq2 F) : (-a).c1 = -a.c1 := rfl
@[simp] theorem mul_c0 (a b : Fq2 F) : (a * b).c0 = a.c0 * b.c0 - a.c1 * b.c1 := by
  show b.c0 * a.c0 - b.c1 * a.c1 = _
  ring
@[simp] theorem mul_c1 (a b : Fq2 F) : (a * b).c1 = a.c0 * b.c1 + a.c1 * b.c0 := by
  show (b.c0 + b.c1) * (a.c0 + a.c1) - (b.c0 * a.c0 + b.c1 * a.c1) = _
  ring

instance : CommRing (Fq2 F) where
  add_assoc a b c := by ext <;> simp <;> ring
  zero_add a := by ext <;> simp
  add_zero a := by ext <;> simp
  add_comm a b := by ext <;> simp <;> ring
  neg_add_cancel a := by ext <;> simp
  sub_eq_add_neg a b := by ext <;> simp <;> ring
  mul_assoc a b c := by ext <;> simp <;> ring
  one_mul a := by ext <;> simp
  mul_one a := by ext <;> simp
  zero_mul a := by ext <;> simp
  mul_zero a := by ext <;> simp
  left_distrib a b c := by ext <;> simp <;> ring
  right_distrib a b c := by ext <;> simp <;> ring
  mul_comm a b := by ext <;> simp <;> ring
  nsmul := nsmulRec
  zsmul := zsmulRec

/-- The base field inside. -/
def of : F →+* Fq2 F where
  toFun x := ⟨x, 0⟩
  map_one' := rfl
  map_zero' := rfl
  map_add' x y := by ext <;> simp
  map_mul' x y := by ext <;> simp

@[simp] theorem of_c0 (x : F) : (of x).c0 = x := rfl
@[simp] theorem of_c1 (x : F) : (of x).c1 = 0 := rfl

/-- 9 + u. -/
def xi : Fq2 F := ⟨9, 1⟩

theorem mulAssign_eq (a b : Fq2 F) : a.mulAssign b = a * b := by
  show a.mulAssign b = b.mulAssign a
  unfold mulAssign
  ext <;> dsimp only <;> ring

theorem square_eq (a : Fq2 F) : a.square = a * a := by
  ext
  · show (-a.c1 + a.c0) * (a.c0 + a.c1) - a.c0 * a.c1 + a.c0 * a.c1 = (a * a).c0
    rw [mul_c0]
    ring
  · show a.c0 * a.c1 + a.c0 * a.c1 = (a * a).c1
    rw [mul_c1]
    ring

theorem double_eq (a : Fq2 F) : a.double = a + a := rfl

theorem mulByNonresidue_eq (a : Fq2 F) : a.mulByNonresidue = xi * a := by
  ext
  · simp [mulByNonresidue, double, xi]
    ring
  · simp [mulByNonresidue, double, xi]
    ring

theorem isZero_iff (a : Fq2 F) : a.isZero = true ↔ a = 0 := by
  unfold isZero
  rw [Bool.and_eq_true, decide_eq_true_iff, decide_eq_true_iff]
  exact ⟨fun h => by ext <;> simp [h.1, h.2], fun h => by rw [h]; exact ⟨rfl, rfl⟩⟩

theorem norm_mul (a b : Fq2 F) : (a * b).norm = a.norm * b.norm := by
  unfold norm
  rw [mul_c0, mul_c1]
  ring

theorem mul_conjugate (a : Fq2 F) : a * a.conjugate = of a.norm := by
  ext
  · simp [conjugate, norm]
    ring
  · simp [conjugate]
    ring

theorem norm_ne_zero (hF : ∀ x : F, x ^ 2 ≠ -1) {a : Fq2 F} (h : a ≠ 0) : a.norm ≠ 0 := by
  intro hn
  unfold norm at hn
  by_cases h1 : a.c1 = 0
  · rw [h1] at hn
    have h0 : a.c0 = 0 := by simpa using hn
    exact h (by ext <;> simp [h0, h1])
  · refine hF (a.c0 / a.c1) ?_
    field_simp
    linear_combination hn

/-- The code's inversion. -/
theorem invert_eq (a : Fq2 F) : a.invert = if a.norm = 0 then none else some (of a.norm⁻¹ * a.conjugate) := by
  have e : a.c0 * a.c0 + a.c1 * a.c1 = a.norm := add_comm _ _
  unfold invert
  dsimp only
  rw [e]
  split
  · rfl
  · congr 1
    ext <;> simp [conjugate] <;> ring

end Fq2


namespace Fq6

open Fq2 (xi)

@[simp] theorem zero_c0 : (0 : Fq6 F).c0 = 0 := rfl
@[simp] theorem zero_c1 : (0 : Fq6 F).c1 = 0 := rfl
@[simp] theorem zero_c2 : (0 : Fq6 F).c2 = 0 := rfl
@[simp] theorem one_c0 : (1 : Fq6 F).c0 = 1 := rfl
@[simp] theorem one_c1 : (1 : Fq6 F).c1 = 0 := rfl
@[simp] theorem one_c2 : (1 : Fq6 F).c2 = 0 := rfl
@[simp] theorem add_c0 (a b : Fq6 F) : (a + b).c0 = a.c0 + b.c0 := rfl
@[simp] theorem add_c1 (a b : Fq6 F) : (a + b).c1 = a.c1 + b.c1 := rfl
@[simp] theorem add_c2 (a b : Fq6 F) : (a + b).c2 = a.c2 + b.c2 := rfl
@[simp] theorem sub_c0 (a b : Fq6 F) : (a - b).c0 = a.c0 - b.c0 := rfl
@[simp] theorem sub_c1 (a b : Fq6 F) : (a - b).c1 = a.c1 - b.c1 := rfl
@[simp] theorem sub_c2 (a b : Fq6 F) : (a - b).c2 = a.c2 - b.c2 := rfl
@[simp] theorem neg_c0 (a : Fq6 F) : (-a).c0 = -a.c0 := rfl
@[simp] theorem neg_c1 (a : Fq6 F) : (-a).c1 = -a.c1 := rfl
@[simp] theorem neg_c2 (a : Fq6 F) : (-a).c2 = -a.c2 := rfl

theorem mulAssign_c (a b : Fq6 F) : a.mulAssign b = ⟨a.c0 * b.c0 + xi * (a.c1 * b.c2 + a.c2 * b.c1),
    a.c0 * b.c1 + a.c1 * b.c0 + xi * (a.c2 * b.c2), a.c0 * b.c2 + a.c1 * b.c1 + a.c2 * b.c0⟩ := by
  unfold mulAssign
  dsimp only
  rw [Fq2.mulByNonresidue_eq, Fq2.mulByNonresidue_eq]
  refine Fq6.ext ?_ ?_ ?_ <;> dsimp only <;> ring

@[simp] theorem mul_c0 (a b : Fq6 F) : (a * b).c0 = a.c0 * b.c0 + xi * (a.c1 * b.c2 + a.c2 * b.c1) := by
  show (b.mulAssign a).c0 = _
  rw [mulAssign_c]
  dsimp only
  ring
@[simp] theorem mul_c1 (a b : Fq6 F) : (a * b).c1 = a.c0 * b.c1 + a.c1 * b.c0 + xi * (a.c2 * b.c2) := by
  show (b.mulAssign a).c1 = _
  rw [mulAssign_c]
  dsimp only
  ring
@[simp] theorem mul_c2 (a b : Fq6 F) : (a * b).c2 = a.c0 * b.c2 + a.c1 * b.c1 + a.c2 * b.c0 := by
  show (b.mulAssign a).c2 = _
  rw [mulAssign_c]
  dsimp only
  ring

instance : CommRing (Fq6 F) where
  add_assoc a b c := by refine Fq6.ext ?_ ?_ ?_ <;> simp <;> ring
  zero_add a := by refine Fq6.ext ?_ ?_ ?_ <;> simp
  add_zero a := by refine Fq6.ext ?_ ?_ ?_ <;> simp
  add_comm a b := by refine Fq6.ext ?_ ?_ ?_ <;> simp <;> ring
  neg_add_cancel a := by refine Fq6.ext ?_ ?_ ?_ <;> simp
  sub_eq_add_neg a b := by refine Fq6.ext ?_ ?_ ?_ <;> simp <;> ring
  mul_assoc a b c := by refine Fq6.ext ?_ ?_ ?_ <;> simp <;> ring
  one_mul a := by refine Fq6.ext ?_ ?_ ?_ <;> simp
  mul_one a := by refine Fq6.ext ?_ ?_ ?_ <;> simp
  zero_mul a := by refine Fq6.ext ?_ ?_ ?_ <;> simp
  mul_zero a := by refine Fq6.ext ?_ ?_ ?_ <;> simp
  left_distrib a b c := by refine Fq6.ext ?_ ?_ ?_ <;> simp <;> ring
  right_distrib a b c := by refine Fq6.ext ?_ ?_ ?_ <;> simp <;> ring
  mul_comm a b := by refine Fq6.ext ?_ ?_ ?_ <;> simp <;> ring
  nsmul := nsmulRec
  zsmul := zsmulRec

/-- Fq2 inside. -/
def of : Fq2 F →+* Fq6 F where
  toFun x := ⟨x, 0, 0⟩
  map_one' := rfl
  map_zero' := rfl
  map_add' x y := by refine Fq6.ext ?_ ?_ ?_ <;> simp
  map_mul' x y := by refine Fq6.ext ?_ ?_ ?_ <;> simp

@[simp] theorem of_c0 (x : Fq2 F) : (of x).c0 = x := rfl
@[simp] theorem of_c1 (x : Fq2 F) : (of x).c1 = 0 := rfl
@[simp] theorem of_c2 (x : Fq2 F) : (of x).c2 = 0 := rfl

/-- v. -/
def v : Fq6 F := ⟨0, 1, 0⟩

theorem mulAssign_eq (a b : Fq6 F) : a.mulAssign b = a * b := by
  show a.mulAssign b = b.mulAssign a
  rw [mulAssign_c, mulAssign_c]
  refine Fq6.ext ?_ ?_ ?_ <;> dsimp only <;> ring

theorem square_eq (a : Fq6 F) : a.square = a * a := by
  unfold square
  dsimp only
  rw [Fq2.mulByNonresidue_eq, Fq2.mulByNonresidue_eq, Fq2.double_eq, Fq2.double_eq, Fq2.square_eq, Fq2.square_eq, Fq2.square_eq]
  refine Fq6.ext ?_ ?_ ?_ <;> simp <;> ring

theorem double_eq (a : Fq6 F) : a.double = a + a := rfl

theorem mulByNonresidue_eq (a : Fq6 F) : a.mulByNonresidue = v * a := by
  unfold mulByNonresidue
  rw [Fq2.mulByNonresidue_eq]
  refine Fq6.ext ?_ ?_ ?_ <;> simp [v]

theorem mulBy1_eq (a : Fq6 F) (c1 : Fq2 F) : a.mulBy1 c1 = a * ⟨0, c1, 0⟩ := by
  unfold mulBy1
  dsimp only
  rw [Fq2.mulByNonresidue_eq]
  refine Fq6.ext ?_ ?_ ?_ <;> simp <;> ring

theorem mulBy01_eq (a : Fq6 F) (c0 c1 : Fq2 F) : a.mulBy01 c0 c1 = a * ⟨c0, c1, 0⟩ := by
  unfold mulBy01
  dsimp only
  rw [Fq2.mulByNonresidue_eq]
  refine Fq6.ext ?_ ?_ ?_ <;> simp <;> ring

/-- The product of the conjugates over Fq2. -/
def norm (a : Fq6 F) : Fq2 F := a.c0 ^ 3 + xi * a.c1 ^ 3 + xi ^ 2 * a.c2 ^ 3 - 3 * xi * a.c0 * a.c1 * a.c2

/-- The product of the other conjugates. -/
def adj (a : Fq6 F) : Fq6 F := ⟨a.c0 ^ 2 - xi * a.c1 * a.c2, xi * a.c2 ^ 2 - a.c0 * a.c1, a.c1 ^ 2 - a.c0 * a.c2⟩

theorem mul_adj (a : Fq6 F) : a * a.adj = of a.norm := by
  refine Fq6.ext ?_ ?_ ?_
  · rw [mul_c0, of_c0]
    dsimp only [adj, norm]
    ring
  · rw [mul_c1, of_c1]
    dsimp only [adj]
    ring
  · rw [mul_c2, of_c2]
    dsimp only [adj]
    ring

theorem norm_mul (a b : Fq6 F) : (a * b).norm = a.norm * b.norm := by
  unfold norm
  rw [mul_c0, mul_c1, mul_c2]
  ring

theorem invert_eq (a : Fq6 F) : a.invert = a.norm.invert.map fun t => of t * a.adj := by
  unfold invert
  dsimp only
  simp only [Fq2.mulByNonresidue_eq, Fq2.square_eq]
  have e : xi * (a.c2 * (xi * (a.c2 * a.c2) - a.c0 * a.c1) + a.c1 * (a.c1 * a.c1 - a.c0 * a.c2)) +
      a.c0 * (-(xi * a.c2 * a.c1) + a.c0 * a.c0) = a.norm := by
    unfold norm
    ring
  rw [e]
  congr 1
  funext t
  refine Fq6.ext ?_ ?_ ?_ <;> simp [adj] <;> ring

end Fq6

namespace Fq12

@[simp] theorem zero_c0 : (0 : Fq12 F).c0 = 0 := rfl
@[simp] theorem zero_c1 : (0 : Fq12 F).c1 = 0 := rfl
@[simp] theorem one_c0 : (1 : Fq12 F).c0 = 1 := rfl
@[simp] theorem one_c1 : (1 : Fq12 F).c1 = 0 := rfl
@[simp] theorem add_c0 (a b : Fq12 F) : (a + b).c0 = a.c0 + b.c0 := rfl
@[simp] theorem add_c1 (a b : Fq12 F) : (a + b).c1 = a.c1 + b.c1 := rfl
@[simp] theorem sub_c0 (a b : Fq12 F) : (a - b).c0 = a.c0 - b.c0 := rfl
@[simp] theorem sub_c1 (a b : Fq12 F) : (a - b).c1 = a.c1 - b.c1 := rfl
@[simp] theorem neg_c0 (a : Fq12 F) : (-a).c0 = -a.c0 := rfl
@[simp] theorem neg_c1 (a : Fq12 F) : (-a).c1 = -a.c1 := rfl

open Fq6 (v)

theorem mulAssign_c (a b : Fq12 F) :
    a.mulAssign b = ⟨a.c0 * b.c0 + v * (a.c1 * b.c1), a.c0 * b.c1 + a.c1 * b.c0⟩ := by
  unfold mulAssign
  dsimp only
  rw [Fq6.mulByNonresidue_eq]
  refine Fq12.ext ?_ ?_ <;> dsimp only <;> ring

@[simp] theorem mul_c0 (a b : Fq12 F) : (a * b).c0 = a.c0 * b.c0 + v * (a.c1 * b.c1) := by
  show (b.mulAssign a).c0 = _
  rw [mulAssign_c]
  dsimp only
  ring
@[simp] theorem mul_c1 (a b : Fq12 F) : (a * b).c1 = a.c0 * b.c1 + a.c1 * b.c0 := by
  show (b.mulAssign a).c1 = _
  rw [mulAssign_c]
  dsimp only
  ring

instance : CommRing (Fq12 F) where
  add_assoc a b c := by refine Fq12.ext ?_ ?_ <;> simp <;> ring
  zero_add a := by refine Fq12.ext ?_ ?_ <;> simp
  add_zero a := by refine Fq12.ext ?_ ?_ <;> simp
  add_comm a b := by refine Fq12.ext ?_ ?_ <;> simp <;> ring
  neg_add_cancel a := by refine Fq12.ext ?_ ?_ <;> simp
  sub_eq_add_neg a b := by refine Fq12.ext ?_ ?_ <;> simp <;> ring
  mul_assoc a b c := by refine Fq12.ext ?_ ?_ <;> simp <;> ring
  one_mul a := by refine Fq12.ext ?_ ?_ <;> simp
  mul_one a := by refine Fq12.ext ?_ ?_ <;> simp
  zero_mul a := by refine Fq12.ext ?_ ?_ <;> simp
  mul_zero a := by refine Fq12.ext ?_ ?_ <;> simp
  left_distrib a b c := by refine Fq12.ext ?_ ?_ <;> simp <;> ring
  right_distrib a b c := by refine Fq12.ext ?_ ?_ <;> simp <;> ring
  mul_comm a b := by refine Fq12.ext ?_ ?_ <;> simp <;> ring
  nsmul := nsmulRec
  zsmul := zsmulRec

/-- Fq6 inside. -/
def of : Fq6 F →+* Fq12 F where
  toFun x := ⟨x, 0⟩
  map_one' := rfl
  map_zero' := rfl
  map_add' x y := by refine Fq12.ext ?_ ?_ <;> simp
  map_mul' x y := by refine Fq12.ext ?_ ?_ <;> simp

@[simp] theorem of_c0 (x : Fq6 F) : (of x).c0 = x := rfl
@[simp] theorem of_c1 (x : Fq6 F) : (of x).c1 = 0 := rfl

/-- w. -/
def w : Fq12 F := ⟨0, 1⟩

theorem mulAssign_eq (a b : Fq12 F) : a.mulAssign b = a * b := by
  show a.mulAssign b = b.mulAssign a
  rw [mulAssign_c, mulAssign_c]
  refine Fq12.ext ?_ ?_ <;> dsimp only <;> ring

theorem square_eq (a : Fq12 F) : a.square = a * a := by
  unfold square
  dsimp only
  rw [Fq6.mulByNonresidue_eq, Fq6.mulByNonresidue_eq]
  refine Fq12.ext ?_ ?_ <;> simp <;> ring

theorem double_eq (a : Fq12 F) : a.double = a + a := rfl

theorem mulBy014_eq (a : Fq12 F) (c0 c1 c4 : Fq2 F) : a.mulBy014 c0 c1 c4 = a * ⟨⟨c0, c1, 0⟩, ⟨0, c4, 0⟩⟩ := by
  unfold mulBy014
  dsimp only
  rw [Fq6.mulBy01_eq, Fq6.mulBy01_eq, Fq6.mulBy1_eq, Fq6.mulByNonresidue_eq]
  have e : (⟨c0, c1 + c4, 0⟩ : Fq6 F) = ⟨c0, c1, 0⟩ + ⟨0, c4, 0⟩ := by
    refine Fq6.ext ?_ ?_ ?_ <;> simp
  rw [e]
  refine Fq12.ext ?_ ?_ <;> simp <;> ring

theorem mulBy034_eq (a : Fq12 F) (c0 c3 c4 : Fq2 F) : a.mulBy034 c0 c3 c4 = a * ⟨⟨c0, 0, 0⟩, ⟨c3, c4, 0⟩⟩ := by
  unfold mulBy034
  dsimp only
  rw [Fq6.mulBy01_eq, Fq6.mulBy01_eq, Fq6.mulByNonresidue_eq]
  have e : (⟨c0 + c3, c4, 0⟩ : Fq6 F) = ⟨c0, 0, 0⟩ + ⟨c3, c4, 0⟩ := by
    refine Fq6.ext ?_ ?_ ?_ <;> simp
  have e' : (⟨a.c0.c0 * c0, a.c0.c1 * c0, a.c0.c2 * c0⟩ : Fq6 F) = a.c0 * ⟨c0, 0, 0⟩ := by
    refine Fq6.ext ?_ ?_ ?_ <;> simp
  rw [e, e']
  refine Fq12.ext ?_ ?_ <;> simp <;> ring

/-- The product with the conjugate over Fq6. -/
def norm (a : Fq12 F) : Fq6 F := a.c0 * a.c0 - v * (a.c1 * a.c1)

theorem mul_conjugate (a : Fq12 F) : a * a.conjugate = of a.norm := by
  refine Fq12.ext ?_ ?_ <;> simp [conjugate, norm] <;> ring

theorem invert_eq (a : Fq12 F) : a.invert = a.norm.invert.map fun t => of t * a.conjugate := by
  unfold invert
  dsimp only
  rw [Fq6.square_eq, Fq6.square_eq, Fq6.mulByNonresidue_eq]
  congr 1
  funext t
  rw [Fq6.mulAssign_eq, Fq6.mulAssign_eq]
  refine Fq12.ext ?_ ?_
  · simp [conjugate]
  · show -(t * a.c1) = _
    simp [conjugate]

end Fq12

end Verif.Tower

import Verif.Lemmas.EccIncomplete
import Verif.Lemmas.EccPallas
import Verif.Props.Pow5

/-!
C106 (points brought into a circuit are on the curve), C107 (complete addition is the addition of points), C108 (incomplete
addition is the addition of different points, and says nothing when the points are the same).
-/

namespace Verif.Props

open Verif.Gadget Verif.Spec.Gadget Verif.Spec Verif.Spec.Ecc Verif.Lemmas.Ecc Verif.Lemmas.Gadget
open Verif.FloorPlanner (Call)

variable {F : Type} [Field F] {b : F}

/-- The curve of the chips is Pallas: y² = x³ + 5. It has no point with a coordinate zero. -/
theorem C106_pallas : Usable (5 : ZMod pallasBase) := usable_pallas

/-- **C106 (soundness).** Whatever the prover puts into the cells: if the constraints hold, the cells contain exactly one point
of the curve, the identity as (0, 0). -/
theorem C106_point (s : Smooth b) (c : WitnessPoint) (region offset : Nat) (value : Option (AffinePoint F))
    (table : Nat → List F) (w : Content F) (hs : Sat (c.chip b) table w region (c.point region value offset).1) :
    ∃! P : Pt b, Holds w (c.point region value offset).2 P := by
  obtain ⟨P, hP⟩ := point_sound s hs
  exact ⟨P, hP, fun Q hQ => coords_injective s (hQ.symm.trans hP)⟩

/-- **C106 (soundness, not the identity).** -/
theorem C106_non_identity (s : Smooth b) (c : WitnessPoint) (region offset : Nat) (value : Option (AffinePoint F))
    (calls : Calls F) (out : EccPoint F) (h : c.pointNonId region value offset = .ok (calls, out)) (table : Nat → List F)
    (w : Content F) (hs : Sat (c.chip b) table w region calls) : ∃! P : Pt b, P ≠ 0 ∧ Holds w out P := by
  obtain ⟨P, h0, hP⟩ := pointNonId_sound s h hs
  exact ⟨P, ⟨h0, hP⟩, fun Q hQ => coords_injective s (hQ.2.symm.trans hP)⟩

/-- **C106 (completeness).** For every point, a prover who writes what the chip assigns meets the constraints, and the cells
contain the point. -/
theorem C106_complete (c : WitnessPoint) (hne : c.qPoint ≠ c.qPointNonId) (region offset : Nat) (P : Pt b)
    (table : Nat → List F) (w : Content F) (hf : Follows w region (c.point region (some (affine P)) offset).1) :
    Sat (c.chip b) table w region (c.point region (some (affine P)) offset).1 ∧
      KnownPoint w (c.point region (some (affine P)) offset).2 ∧ Holds w (c.point region (some (affine P)) offset).2 P := by
  match P, hf with
  | .zero, hf => exact assignXY_complete (P := (0 : Pt b)) hne (Or.inl rfl) hf
  | .some x y hn, hf => exact assignXY_complete (P := .some x y hn) hne (Or.inl rfl) hf

/-- **C106 (completeness, not the identity).** The identity is refused with an error; every other point is accepted. -/
theorem C106_non_identity_complete (c : WitnessPoint) (hne : c.qPoint ≠ c.qPointNonId) (region offset : Nat) (P : Pt b)
    (table : Nat → List F) :
    (P = 0 → c.pointNonId region (some (affine P)) offset = .error .error) ∧
    (P ≠ 0 → ∃ calls out, c.pointNonId region (some (affine P)) offset = .ok (calls, out) ∧
      ∀ w, Follows w region calls → Sat (c.chip b) table w region calls ∧ KnownPoint w out ∧ Holds w out P) := by
  match P with
  | .zero => exact ⟨fun _ => rfl, fun h => absurd rfl h⟩
  | .some x y hn =>
    refine ⟨fun h => absurd h (WeierstrassCurve.Affine.Point.some_ne_zero hn), fun h => ?_⟩
    exact ⟨_, _, rfl, fun w hf => assignXY_complete (P := .some x y hn) hne (Or.inr ⟨rfl, h⟩) hf⟩

/-- **C106 (keys).** What depends on keys is the same for all points, and for none; gates read only cells of the region. -/
theorem C106_keys (c : WitnessPoint) (region offset : Nat) (v v' : Option (AffinePoint F)) :
    List.Forall₂ SameCall (c.point region v offset).1 (c.point region v' offset).1 ∧
    SameCells (c.point region v offset).2 (c.point region v' offset).2 ∧
    Covered (c.chip b) (c.point region v offset).1 ∧
    ∀ calls out calls' out', c.pointNonId region v offset = .ok (calls, out) →
      c.pointNonId region v' offset = .ok (calls', out') →
      List.Forall₂ SameCall calls calls' ∧ SameCells out out' ∧ Covered (c.chip b) calls := by
  refine ⟨assignXY_same, ⟨rfl, rfl⟩, assignXY_covered, ?_⟩
  intro calls out calls' out' h h'
  obtain ⟨-, _, -, rfl, rfl⟩ := pointNonId_ok h
  obtain ⟨-, _, -, rfl, rfl⟩ := pointNonId_ok h'
  exact ⟨assignXY_same, ⟨rfl, rfl⟩, assignXY_covered⟩

/-! C107. -/

variable [DecidableEq F]

/-- **C107 (soundness).** Whatever the prover puts into the cells: if the constraints hold and the cells given contain points,
the cells returned contain their sum. This is so for all points: equal ones, opposite ones and the identity. -/
theorem C107_sound (u : Usable b) (c : AddComplete) (region offset : Nat) (p q : EccPoint F) (table : Nat → List F)
    (w : Content F) (hs : Sat c.chip table w region (c.assign region p q offset).1) (P Q : Pt b) (hp : Holds w p P)
    (hq : Holds w q Q) : Holds w (c.assign region p q offset).2 (P + Q) :=
  add_sound u (fun _ h => h) hs.enforced
    (fun _ he => sat_gate hs (s := c.qAdd) List.mem_cons_self he (add_enable.2 ⟨rfl, rfl⟩)) hp hq

/-- **C107 (completeness).** For all points a prover who writes what the chip assigns meets the constraints. -/
theorem C107_complete (u : Usable b) (c : AddComplete) (region offset : Nat) (p q : EccPoint F) (table : Nat → List F)
    (w : Content F) (P Q : Pt b) (kp : KnownPoint w p) (kq : KnownPoint w q) (hp : Holds w p P) (hq : Holds w q Q)
    (hf : Follows w region (c.assign region p q offset).1) :
    Sat c.chip table w region (c.assign region p q offset).1 ∧ KnownPoint w (c.assign region p q offset).2 := by
  obtain ⟨h1, h2, h3⟩ := add_complete u (sel := enabled (c.assign region p q offset).1) hf kp kq hp hq
  refine ⟨⟨h1, gates_of fun g hg e he o ho => ?_, fun l hl => by cases hl⟩, h3⟩
  obtain ⟨-, rfl⟩ := add_enable.1 ho
  simp only [AddComplete.chip, List.mem_cons, List.not_mem_nil, or_false] at hg
  subst hg
  exact h2 e he

/-- **C107 (keys).** -/
theorem C107_keys (c : AddComplete) (region offset : Nat) (p p' q q' : EccPoint F) (hp : SameCells p p')
    (hq : SameCells q q') :
    List.Forall₂ SameCall (c.assign region p q offset).1 (c.assign region p' q' offset).1 ∧
      SameCells (c.assign region p q offset).2 (c.assign region p' q' offset).2 ∧
      Covered c.chip (c.assign region p q offset).1 := by
  refine ⟨(add_same hp hq).1, (add_same hp hq).2, ?_⟩
  intro g hg row hrow e he r hr
  obtain ⟨o, ho, rfl⟩ := enabled_iff.1 hrow
  obtain ⟨-, rfl⟩ := add_enable.1 ho
  simp only [AddComplete.chip, List.mem_cons, List.not_mem_nil, or_false] at hg
  subst hg
  exact add_covered (fun _ h => h) he hr

/-! C108. -/

/-- **C108 (soundness, partial).** If the points are not the identity and neither equal nor opposite, the cells returned
contain their sum. Missing: what a user would expect, that equal points are refused (`C108_equal` shows the opposite). -/
theorem C108_sound_partial (c : AddIncomplete) (region offset : Nat) (p q : EccPoint F) (calls : Calls F) (out : EccPoint F)
    (h : c.assign region p q offset = .ok (calls, out)) (table : Nat → List F) (w : Content F)
    (hs : Sat c.chip table w region calls) (P Q : Pt b) (hp : Holds w p P) (hq : Holds w q Q) (hP : P ≠ 0) (hQ : Q ≠ 0)
    (h1 : Q ≠ P) (h2 : Q ≠ -P) : Holds w out (P + Q) := by
  obtain ⟨xr, yr, rfl, rfl, -, -⟩ := incomplete_ok h
  obtain ⟨e1, e2⟩ := incomplete_eqs hs
  have hp1 : w.at p.x.cell = (coords P).1 := congrArg Prod.fst hp
  have hp2 : w.at p.y.cell = (coords P).2 := congrArg Prod.snd hp
  have hq1 : w.at q.x.cell = (coords Q).1 := congrArg Prod.fst hq
  have hq2 : w.at q.y.cell = (coords Q).2 := congrArg Prod.snd hq
  rw [hp1, hp2, hq1, hq2] at e1 e2
  have hx : (coords P).1 ≠ (coords Q).1 := fun e => (same_x hP hQ e).elim h1 h2
  have := incompleteEqs_sound hP hQ hx e1 e2
  show (w region (.advice c.xQR) ((offset + 1 : Nat) : Int), w region (.advice c.yQR) ((offset + 1 : Nat) : Int)) = _
  push_cast
  exact this

/-- **C108 (opposite points).** No prover meets the constraints for a point, with both coordinates not zero, and its
opposite. -/
theorem C108_opposite (u : Usable b) (c : AddIncomplete) (region offset : Nat) (p q : EccPoint F) (calls : Calls F)
    (out : EccPoint F) (h : c.assign region p q offset = .ok (calls, out)) (table : Nat → List F) (w : Content F) (P : Pt b)
    (hP : P ≠ 0) (hp : Holds w p P) (hq : Holds w q (-P)) : ¬ Sat c.chip table w region calls := by
  intro hs
  obtain ⟨xr, yr, rfl, rfl, -, -⟩ := incomplete_ok h
  obtain ⟨e1, -⟩ := incomplete_eqs hs
  have hp1 : w.at p.x.cell = (coords P).1 := congrArg Prod.fst hp
  have hp2 : w.at p.y.cell = (coords P).2 := congrArg Prod.snd hp
  have hq1 : w.at q.x.cell = (coords (-P)).1 := congrArg Prod.fst hq
  have hq2 : w.at q.y.cell = (coords (-P)).2 := congrArg Prod.snd hq
  rw [hp1, hp2, hq1, hq2, coords_neg, sub_self, mul_zero] at e1
  have : (2 * (coords P).2) ^ 2 = 0 := by linear_combination -e1
  exact mul_ne_zero u.smooth.two (coords_y_ne u hP) (pow_eq_zero_iff two_ne_zero |>.1 this)

/-- **C108 (equal points).** If both points are the same, the constraints hold whatever the cells returned contain. -/
theorem C108_equal (c : AddIncomplete) (region offset : Nat) (p q : EccPoint F) (calls : Calls F) (out : EccPoint F)
    (h : c.assign region p q offset = .ok (calls, out)) (table : Nat → List F) (w : Content F)
    (he : ∀ k ∈ calls, Enforced w region k) (P : Pt b) (hp : Holds w p P) (hq : Holds w q P) :
    Sat c.chip table w region calls := by
  obtain ⟨xr, yr, rfl, rfl, -, -⟩ := incomplete_ok h
  have hp1 : w.at p.x.cell = (coords P).1 := congrArg Prod.fst hp
  have hp2 : w.at p.y.cell = (coords P).2 := congrArg Prod.snd hp
  have hq1 : w.at q.x.cell = (coords P).1 := congrArg Prod.fst hq
  have hq2 : w.at q.y.cell = (coords P).2 := congrArg Prod.snd hq
  refine incomplete_sat ?_ ?_ ?_ ?_ ?_ ?_
  · exact he (.equal ⟨region, offset, .advice c.xP⟩ p.x.cell) (List.mem_of_getElem? (i := 2) rfl)
  · exact he (.equal ⟨region, offset, .advice c.yP⟩ p.y.cell) (List.mem_of_getElem? (i := 4) rfl)
  · exact he (.equal ⟨region, offset, .advice c.xQR⟩ q.x.cell) (List.mem_of_getElem? (i := 6) rfl)
  · exact he (.equal ⟨region, offset, .advice c.yQR⟩ q.y.cell) (List.mem_of_getElem? (i := 8) rfl)
  · rw [hp1, hp2, hq1, hq2]; ring
  · rw [hp1, hp2, hq1, hq2]; ring

/-- The columns and selector of the witness of `C108_not_sound`. -/
def badAdd : AddIncomplete := ⟨⟨0, false⟩, 0, 1, 2, 3⟩

/-- What a dishonest prover writes: the point (-1, 2) twice, and 7 in both cells of the sum. -/
def badContent : Content (ZMod pallasBase) := fun r col row =>
  if r = 1 ∧ row = 1 then 7 else if col = .advice 0 ∨ col = .advice 2 then -1 else 2

/-- **C108 (not sound).** On Pallas: the constraints hold for two cells with the point (-1, 2) and a "sum" that is not even on
the curve. The calls are those of key generation, and those of every prover, up to the values assigned (`C108_keys`). -/
theorem C108_not_sound : ¬ ∀ (c : AddIncomplete) (region offset : Nat) (p q : EccPoint (ZMod pallasBase))
    (calls : Calls (ZMod pallasBase)) (out : EccPoint (ZMod pallasBase)) (table : Nat → List (ZMod pallasBase))
    (w : Content (ZMod pallasBase)) (P Q : Pt (5 : ZMod pallasBase)),
    c.assign region p q offset = .ok (calls, out) → Sat c.chip table w region calls → Holds w p P → Holds w q Q →
    P ≠ 0 → Q ≠ 0 → ∃ R : Pt (5 : ZMod pallasBase), Holds w out R := by
  intro hall
  let p : EccPoint (ZMod pallasBase) := ⟨⟨⟨0, 0, .advice 0⟩, none⟩, ⟨⟨0, 0, .advice 1⟩, none⟩⟩
  have ha : badAdd.assign 1 p p 0 = .ok (incompleteCalls badAdd 1 p p 0 none none,
      ⟨⟨⟨1, 1, .advice 2⟩, none⟩, ⟨⟨1, 1, .advice 3⟩, none⟩⟩) := rfl
  have hp : Holds badContent p pallasGen := rfl
  have hs := C108_equal badAdd 1 0 p p _ _ ha (fun _ => []) badContent (by
    intro k hk
    simp only [incompleteCalls, copyAdvice, List.mem_cons, List.mem_append, List.not_mem_nil, or_false] at hk
    rcases hk with rfl | ((((((rfl | rfl) | rfl | rfl) | rfl | rfl) | rfl | rfl) | rfl) | rfl) <;> trivial)
    pallasGen hp hp
  obtain ⟨R, hR⟩ := hall badAdd 1 0 p p _ _ (fun _ => []) badContent pallasGen pallasGen ha hs hp hp pallasGen_ne pallasGen_ne
  have e : coords R = (7, 7) := hR.symm
  by_cases h0 : R = 0
  · subst h0
    rw [coords_zero] at e
    revert e
    decide +kernel
  · have := coords_curve h0
    rw [e] at this
    revert this
    decide +kernel

/-- **C108 (completeness and errors).** Where the values are known, an error is returned if a point is the identity or the first
coordinates are the same; otherwise a prover who writes what the chip assigns meets the constraints. -/
theorem C108_complete (c : AddIncomplete) (region offset : Nat) (p q : EccPoint F) (table : Nat → List F)
    (w : Content F) (P Q : Pt b) (s : Smooth b) (kp : KnownPoint w p) (kq : KnownPoint w q) (hp : Holds w p P)
    (hq : Holds w q Q) :
    ((P = 0 ∨ Q = 0 ∨ Q = P ∨ Q = -P) → c.assign region p q offset = .error .error) ∧
    (P ≠ 0 → Q ≠ 0 → Q ≠ P → Q ≠ -P → ∃ calls out, c.assign region p q offset = .ok (calls, out) ∧
      (Follows w region calls → Sat c.chip table w region calls ∧ KnownPoint w out)) := by
  have hp1 : w.at p.x.cell = (coords P).1 := congrArg Prod.fst hp
  have hp2 : w.at p.y.cell = (coords P).2 := congrArg Prod.snd hp
  have hq1 : w.at q.x.cell = (coords Q).1 := congrArg Prod.fst hq
  have hq2 : w.at q.y.cell = (coords Q).2 := congrArg Prod.snd hq
  have v1 : p.x.value = some (coords P).1 := by rw [kp.1, hp1]
  have v2 : p.y.value = some (coords P).2 := by rw [kp.2, hp2]
  have v3 : q.x.value = some (coords Q).1 := by rw [kq.1, hq1]
  have v4 : q.y.value = some (coords Q).2 := by rw [kq.2, hq2]
  constructor
  · intro h
    refine incomplete_error.1 ⟨_, _, _, _, v1, v2, v3, v4, ?_⟩
    rcases h with rfl | rfl | rfl | rfl
    · exact Or.inl ⟨rfl, rfl⟩
    · exact Or.inr (Or.inl ⟨rfl, rfl⟩)
    · exact Or.inr (Or.inr rfl)
    · refine Or.inr (Or.inr ?_)
      rw [coords_neg]
  · intro hP hQ h1 h2
    have hx : (coords P).1 ≠ (coords Q).1 := fun e => (same_x hP hQ e).elim h1 h2
    have nz : ∀ {R : Pt b}, R ≠ 0 → ¬ ((coords R).1 = 0 ∧ (coords R).2 = 0) := by
      intro R hR h
      have := coords_curve hR
      rw [h.1, h.2] at this
      exact s.b (by simpa using this.symm)
    have hne : ¬ Exceptional p q := by
      rintro ⟨a, a', d, d', e1, e2, e3, e4, h⟩
      rw [v1, Option.some.injEq] at e1
      rw [v2, Option.some.injEq] at e2
      rw [v3, Option.some.injEq] at e3
      rw [v4, Option.some.injEq] at e4
      rw [← e1, ← e2, ← e3, ← e4] at h
      rcases h with h | h | h
      · exact nz hP h
      · exact nz hQ h
      · exact hx h
    obtain ⟨xr, yr, ha, rfl, rfl⟩ := (incomplete_error (c := c) (region := region) (offset := offset)).2 hne
    refine ⟨_, _, ha, fun hf => ?_⟩
    have hz : zip4 p.x.value p.y.value q.x.value q.y.value =
        some ((coords P).1, (coords P).2, (coords Q).1, (coords Q).2) := by rw [v1, v2, v3, v4]; rfl
    simp only [hz, Option.map_some, incompleteSum hP hQ hx] at hf ⊢
    have get : ∀ {col o : Nat} {v : F}, Call.advice col o (some v) ∈ incompleteCalls c region p q offset
        (some (coords (P + Q)).1) (some (coords (P + Q)).2) → w region (.advice col) o = v :=
      fun h => (Option.some.inj (hf.1 _ _ _ h)).symm
    have g1 : w region (.advice c.xP) offset = (coords P).1 := get (v1 ▸ List.mem_of_getElem? (i := 1) rfl)
    have g2 : w region (.advice c.yP) offset = (coords P).2 := get (v2 ▸ List.mem_of_getElem? (i := 3) rfl)
    have g3 : w region (.advice c.xQR) offset = (coords Q).1 := get (v3 ▸ List.mem_of_getElem? (i := 5) rfl)
    have g4 : w region (.advice c.yQR) offset = (coords Q).2 := get (v4 ▸ List.mem_of_getElem? (i := 7) rfl)
    have g5 : w region (.advice c.xQR) (offset + 1 : Nat) = (coords (P + Q)).1 := get (List.mem_of_getElem? (i := 9) rfl)
    have g6 : w region (.advice c.yQR) (offset + 1 : Nat) = (coords (P + Q)).2 := get (List.mem_of_getElem? (i := 10) rfl)
    refine ⟨incomplete_sat (g1.trans hp1.symm) (g2.trans hp2.symm) (g3.trans hq1.symm) (g4.trans hq2.symm) ?_ ?_, ?_, ?_⟩
    · push_cast at g5
      rw [hp1, hp2, hq1, hq2, g5]
      exact (incompleteEqs_complete hP hQ hx).1
    · push_cast at g5 g6
      rw [hp1, hp2, hq1, hq2, g5, g6]
      exact (incompleteEqs_complete hP hQ hx).2
    · exact congrArg some g5.symm
    · exact congrArg some g6.symm

/-- **C108 (errors depend on values).** With values that are not known, as in key generation, there is no error. -/
theorem C108_error (c : AddIncomplete) (region offset : Nat) (p q : EccPoint F) :
    c.assign region p q offset = .error .error ↔ Exceptional p q := by
  refine ⟨fun h => ?_, fun h => incomplete_error.1 h⟩
  by_contra hne
  obtain ⟨_, _, h', _⟩ := (incomplete_error (c := c) (region := region) (offset := offset)).2 hne
  rw [h'] at h
  cases h

/-- **C108 (keys).** -/
theorem C108_keys (c : AddIncomplete) (region offset : Nat) (p p' q q' : EccPoint F) (hp : SameCells p p')
    (hq : SameCells q q') (calls calls' : Calls F) (out out' : EccPoint F)
    (h : c.assign region p q offset = .ok (calls, out)) (h' : c.assign region p' q' offset = .ok (calls', out')) :
    List.Forall₂ SameCall calls calls' ∧ SameCells out out' ∧ Covered c.chip calls := by
  obtain ⟨_, _, rfl, rfl, -, -⟩ := incomplete_ok h
  obtain ⟨_, _, rfl, rfl, -, -⟩ := incomplete_ok h'
  exact ⟨incomplete_same hp hq, ⟨rfl, rfl⟩, incomplete_covered⟩

/-! Examples: y² = x³ + 3 over the field of 7 elements, which has 13 points. -/

theorem smooth_small : Smooth (3 : ZMod 7) := ⟨by decide, by decide, by decide⟩

theorem usable_small : Usable (3 : ZMod 7) := ⟨smooth_small, by decide, by decide⟩

/-- The points (1, 2) and (3, 3). -/
def smallP : Pt (3 : ZMod 7) := .some 1 2 ((nonsingular_curve smooth_small).2 (by decide))
/-- See `smallP`. -/
def smallQ : Pt (3 : ZMod 7) := .some 3 3 ((nonsingular_curve smooth_small).2 (by decide))

/-- Complete addition in the small instance. -/
def smallAdd : AddComplete := ⟨⟨0, false⟩, 4, 0, 1, 2, 3, 5, 6, 7, 8⟩

/-- The cells of the two points, outside the region of the addition. -/
def smallCell (P : Pt (3 : ZMod 7)) (row : Nat) : EccPoint (ZMod 7) :=
  ⟨⟨⟨100, row, .advice 0⟩, some (coords P).1⟩, ⟨⟨100, row, .advice 1⟩, some (coords P).2⟩⟩

/-- What is in those cells. -/
def smallOthers (P Q : Pt (3 : ZMod 7)) : Content (ZMod 7) := fun _ col row =>
  let R := if row = 0 then P else Q
  if col = .advice 0 then (coords R).1 else (coords R).2

/-- What an honest prover writes when adding two points. -/
def smallContent (P Q : Pt (3 : ZMod 7)) : Content (ZMod 7) :=
  written [(smallAdd.assign 0 (smallCell P 0) (smallCell Q 1) 0).1] (smallOthers P Q)

theorem small_add (P Q : Pt (3 : ZMod 7)) (hf : followsB (smallContent P Q) 0
    (smallAdd.assign 0 (smallCell P 0) (smallCell Q 1) 0).1 = true) :
    Sat smallAdd.chip (fun _ => []) (smallContent P Q) 0 (smallAdd.assign 0 (smallCell P 0) (smallCell Q 1) 0).1 ∧
    Holds (smallContent P Q) (smallAdd.assign 0 (smallCell P 0) (smallCell Q 1) 0).2 (P + Q) := by
  have hp : Holds (smallContent P Q) (smallCell P 0) P := rfl
  have hq : Holds (smallContent P Q) (smallCell Q 1) Q := rfl
  have := C107_complete usable_small smallAdd 0 0 (smallCell P 0) (smallCell Q 1) (fun _ => []) (smallContent P Q) P Q
    ⟨rfl, rfl⟩ ⟨rfl, rfl⟩ hp hq
    (follows_of hf)
  exact ⟨this.1, C107_sound usable_small smallAdd 0 0 _ _ _ _ this.1 P Q hp hq⟩

/-- Different points, a point and itself, a point and its opposite, and a point and the identity. -/
example : (∃ w out, Holds (b := 3) w out (smallP + smallQ) ∧ w.at out.x.cell = 5) ∧
    Holds (smallContent smallP smallP) (smallAdd.assign 0 (smallCell smallP 0) (smallCell smallP 1) 0).2 (smallP + smallP) ∧
    Holds (smallContent smallP (-smallP)) (smallAdd.assign 0 (smallCell smallP 0) (smallCell (-smallP) 1) 0).2
      (smallP + -smallP) ∧
    Holds (smallContent smallP 0) (smallAdd.assign 0 (smallCell smallP 0) (smallCell 0 1) 0).2 (smallP + 0) :=
  ⟨⟨_, _, (small_add smallP smallQ (by decide +kernel)).2, by decide +kernel⟩,
    (small_add smallP smallP (by decide +kernel)).2, (small_add smallP (-smallP) (by decide +kernel)).2,
    (small_add smallP 0 (by decide +kernel)).2⟩

/-- A witnessed point in the small instance: the constraints hold for (1, 2) and for the identity. -/
example : ∀ P ∈ [smallP, 0], ∃ w, Sat (WitnessPoint.chip ⟨⟨0, false⟩, ⟨1, false⟩, 0, 1⟩ (3 : ZMod 7)) (fun _ => []) w 0
    (WitnessPoint.point ⟨⟨0, false⟩, ⟨1, false⟩, 0, 1⟩ 0 (some (affine P)) 0).1 := by
  intro P hP
  refine ⟨written [(WitnessPoint.point ⟨⟨0, false⟩, ⟨1, false⟩, 0, 1⟩ 0 (some (affine P)) 0).1] (fun _ _ _ => 0),
    (C106_complete ⟨⟨0, false⟩, ⟨1, false⟩, 0, 1⟩ (by decide) 0 0 P _ _ (follows_of ?_)).1⟩
  simp only [List.mem_cons, List.not_mem_nil, or_false] at hP
  rcases hP with rfl | rfl <;> decide +kernel

/-- Incomplete addition of two points of the small instance. -/
example : ∃ calls out w, badAdd.assign 0 (smallCell smallP 0) (smallCell smallQ 1) 0 = .ok (calls, out) ∧
    Sat badAdd.chip (fun _ => []) w 0 calls ∧ Holds w out (smallP + smallQ) := by
  have hP : smallP ≠ 0 := WeierstrassCurve.Affine.Point.some_ne_zero _
  have hQ : smallQ ≠ 0 := WeierstrassCurve.Affine.Point.some_ne_zero _
  have h1 : smallQ ≠ smallP := fun e => by
    have := congrArg coords e
    revert this; decide +kernel
  have h2 : smallQ ≠ -smallP := fun e => by
    have := congrArg coords e
    revert this; decide +kernel
  let calls := incompleteCalls badAdd 0 (smallCell smallP 0) (smallCell smallQ 1) 0 (some 5) (some 3)
  let w := written [calls] (smallOthers smallP smallQ)
  obtain ⟨k, out, h, hk⟩ := (C108_complete badAdd 0 0 (smallCell smallP 0) (smallCell smallQ 1) (fun _ => []) w smallP smallQ
    smooth_small ⟨rfl, rfl⟩ ⟨rfl, rfl⟩ rfl rfl).2 hP hQ h1 h2
  have e : k = calls := by
    obtain ⟨xr, yr, rfl, -, rfl, rfl⟩ := incomplete_ok h
    show incompleteCalls _ _ _ _ _ _ _ = incompleteCalls _ _ _ _ _ _ _
    congr 1 <;> decide +kernel
  subst e
  have hs := hk (follows_of (by decide +kernel))
  exact ⟨_, out, w, h, hs.1, C108_sound_partial badAdd 0 0 _ _ _ _ h _ _ hs.1 smallP smallQ rfl rfl hP hQ h1 h2⟩

end Verif.Props

#print axioms Verif.Props.C106_pallas
#print axioms Verif.Props.C106_point
#print axioms Verif.Props.C106_non_identity
#print axioms Verif.Props.C106_complete
#print axioms Verif.Props.C106_non_identity_complete
#print axioms Verif.Props.C106_keys
#print axioms Verif.Props.C107_sound
#print axioms Verif.Props.C107_complete
#print axioms Verif.Props.C107_keys
#print axioms Verif.Props.C108_sound_partial
#print axioms Verif.Props.C108_opposite
#print axioms Verif.Props.C108_equal
#print axioms Verif.Props.C108_not_sound
#print axioms Verif.Props.C108_complete
#print axioms Verif.Props.C108_error
#print axioms Verif.Props.C108_keys

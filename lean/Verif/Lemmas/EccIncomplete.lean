import Verif.Lemmas.EccChip

namespace Verif.Lemmas.Ecc

open Verif.Gadget Verif.Spec.Gadget Verif.Lemmas.Gadget Verif.Spec Verif.Spec.Ecc
open Verif.FloorPlanner (Call)

variable {F : Type} [Field F] [DecidableEq F] {b : F} {table : Nat → List F} {w : Content F} {region offset : Nat}

/-- The calls that are made when nothing is wrong. -/
def incompleteCalls (c : AddIncomplete) (region : Nat) (p q : EccPoint F) (offset : Nat) (xr yr : Option F) : Calls F :=
  .enable c.qAddIncomplete offset ::
      ((copyAdvice region p.x c.xP offset).1 ++ (copyAdvice region p.y c.yP offset).1 ++
      (copyAdvice region q.x c.xQR offset).1 ++ (copyAdvice region q.y c.yQR offset).1 ++
      [.advice c.xQR (offset + 1) xr] ++ [.advice c.yQR (offset + 1) yr])

omit [Field F] [DecidableEq F] in
theorem any_zip4 {f : F × F × F × F → Bool} {a b c d : Option F} :
    (zip4 a b c d).any f = true ↔ ∃ xp yp xq yq, a = some xp ∧ b = some yp ∧ c = some xq ∧ d = some yq ∧
      f (xp, yp, xq, yq) = true := by
  unfold zip4
  constructor
  · intro h
    split at h
    · exact ⟨_, _, _, _, rfl, rfl, rfl, rfl, h⟩
    · cases h
  · rintro ⟨xp, yp, xq, yq, rfl, rfl, rfl, rfl, h⟩
    exact h

theorem incomplete_error {c : AddIncomplete} {p q : EccPoint F} :
    (Exceptional p q → c.assign region p q offset = .error .error) ∧
    (¬ Exceptional p q → ∃ xr yr, c.assign region p q offset =
      .ok (incompleteCalls c region p q offset xr yr,
        ⟨⟨⟨region, offset + 1, .advice c.xQR⟩, xr⟩, ⟨⟨region, offset + 1, .advice c.yQR⟩, yr⟩⟩) ∧
      xr = ((zip4 p.x.value p.y.value q.x.value q.y.value).map
        fun (xp, yp, xq, yq) => AddIncomplete.sum xp yp xq yq).map Prod.fst ∧
      yr = ((zip4 p.x.value p.y.value q.x.value q.y.value).map
        fun (xp, yp, xq, yq) => AddIncomplete.sum xp yp xq yq).map Prod.snd) := by
  have key : ((zip4 p.x.value p.y.value q.x.value q.y.value).any fun (xp, yp, xq, yq) =>
      (xp = 0 ∧ yp = 0) ∨ (xq = 0 ∧ yq = 0) ∨ xp = xq) = true ↔ Exceptional p q := by
    rw [any_zip4]
    simp only [decide_eq_true_eq]
    rfl
  constructor
  · intro h
    unfold AddIncomplete.assign
    simp only []
    rw [if_pos (key.2 h)]
  · intro h
    unfold AddIncomplete.assign
    simp only []
    rw [if_neg (fun h' => h (key.1 h'))]
    exact ⟨_, _, rfl, rfl, rfl⟩

theorem incomplete_ok {c : AddIncomplete} {p q : EccPoint F} {calls : Calls F} {out : EccPoint F}
    (h : c.assign region p q offset = .ok (calls, out)) : ∃ xr yr,
      calls = incompleteCalls c region p q offset xr yr ∧
      out = ⟨⟨⟨region, offset + 1, .advice c.xQR⟩, xr⟩, ⟨⟨region, offset + 1, .advice c.yQR⟩, yr⟩⟩ ∧
      xr = ((zip4 p.x.value p.y.value q.x.value q.y.value).map
        fun (xp, yp, xq, yq) => AddIncomplete.sum xp yp xq yq).map Prod.fst ∧
      yr = ((zip4 p.x.value p.y.value q.x.value q.y.value).map
        fun (xp, yp, xq, yq) => AddIncomplete.sum xp yp xq yq).map Prod.snd := by
  by_cases he : Exceptional p q
  · rw [incomplete_error.1 he] at h; cases h
  · obtain ⟨xr, yr, h', h1, h2⟩ := incomplete_error.2 he
    rw [h'] at h
    rw [Except.ok.injEq, Prod.mk.injEq] at h
    exact ⟨xr, yr, h.1.symm, h.2.symm, h1, h2⟩

omit [DecidableEq F] in
/-- The gate of incomplete addition, in terms of the cells given. -/
theorem incomplete_eqs {c : AddIncomplete} {p q : EccPoint F} {xr yr : Option F}
    (hs : Sat c.chip table w region (incompleteCalls c region p q offset xr yr)) :
    (w region (.advice c.xQR) (offset + 1) + w.at q.x.cell + w.at p.x.cell) * (w.at p.x.cell - w.at q.x.cell) *
      (w.at p.x.cell - w.at q.x.cell) = (w.at p.y.cell - w.at q.y.cell) ^ 2 ∧
    (w region (.advice c.yQR) (offset + 1) + w.at q.y.cell) * (w.at p.x.cell - w.at q.x.cell) =
      (w.at p.y.cell - w.at q.y.cell) * (w.at q.x.cell - w region (.advice c.xQR) (offset + 1)) := by
  have c1 : w region (.advice c.xP) offset = w.at p.x.cell :=
    hs.enforced (.equal ⟨region, offset, .advice c.xP⟩ p.x.cell) (List.mem_of_getElem? (i := 2) rfl)
  have c2 : w region (.advice c.yP) offset = w.at p.y.cell :=
    hs.enforced (.equal ⟨region, offset, .advice c.yP⟩ p.y.cell) (List.mem_of_getElem? (i := 4) rfl)
  have c3 : w region (.advice c.xQR) offset = w.at q.x.cell :=
    hs.enforced (.equal ⟨region, offset, .advice c.xQR⟩ q.x.cell) (List.mem_of_getElem? (i := 6) rfl)
  have c4 : w region (.advice c.yQR) offset = w.at q.y.cell :=
    hs.enforced (.equal ⟨region, offset, .advice c.yQR⟩ q.y.cell) (List.mem_of_getElem? (i := 8) rfl)
  have h1 := sat_gate hs (s := c.qAddIncomplete) (List.mem_cons_self) (List.mem_cons_self) (o := offset) (List.mem_cons_self)
  have h2 := sat_gate hs (s := c.qAddIncomplete) (List.mem_cons_self) (List.mem_cons_of_mem _ (List.mem_cons_self))
    (o := offset) (List.mem_cons_self)
  simp only [eval_mul, eval_sub, eval_add, eval_advice, eval_square, add_zero, c1, c2, c3, c4] at h1 h2
  exact ⟨by linear_combination h1, by linear_combination h2⟩

omit [Field F] [DecidableEq F] in
theorem incomplete_enable {c : AddIncomplete} {p q : EccPoint F} {xr yr : Option F} {s : Selector} {o : Nat} :
    Call.enable s o ∈ incompleteCalls c region p q offset xr yr ↔ s = c.qAddIncomplete ∧ o = offset := by
  simp [incompleteCalls, copyAdvice]

omit [DecidableEq F] in
theorem incomplete_sat {c : AddIncomplete} {p q : EccPoint F} {xr yr : Option F}
    (c1 : w region (.advice c.xP) offset = w.at p.x.cell) (c2 : w region (.advice c.yP) offset = w.at p.y.cell)
    (c3 : w region (.advice c.xQR) offset = w.at q.x.cell) (c4 : w region (.advice c.yQR) offset = w.at q.y.cell)
    (e1 : (w region (.advice c.xQR) (offset + 1) + w.at q.x.cell + w.at p.x.cell) * (w.at p.x.cell - w.at q.x.cell) *
      (w.at p.x.cell - w.at q.x.cell) = (w.at p.y.cell - w.at q.y.cell) ^ 2)
    (e2 : (w region (.advice c.yQR) (offset + 1) + w.at q.y.cell) * (w.at p.x.cell - w.at q.x.cell) =
      (w.at p.y.cell - w.at q.y.cell) * (w.at q.x.cell - w region (.advice c.xQR) (offset + 1))) :
    Sat c.chip table w region (incompleteCalls c region p q offset xr yr) := by
  refine ⟨?_, gates_of fun g hg e he o ho => ?_, fun l hl => by cases hl⟩
  · intro k hk
    simp only [incompleteCalls, copyAdvice, List.mem_cons, List.mem_append, List.not_mem_nil, or_false] at hk
    rcases hk with rfl | ((((((rfl | rfl) | rfl | rfl) | rfl | rfl) | rfl | rfl) | rfl) | rfl)
    · trivial
    · trivial
    · exact c1
    · trivial
    · exact c2
    · trivial
    · exact c3
    · trivial
    · exact c4
    · trivial
    · trivial
  · obtain ⟨-, rfl⟩ := incomplete_enable.1 ho
    simp only [AddIncomplete.chip, List.mem_cons, List.not_mem_nil, or_false] at hg
    subst hg
    simp only [List.mem_cons, List.not_mem_nil, or_false] at he
    rcases he with rfl | rfl
    · simp only [eval_mul, eval_sub, eval_add, eval_advice, eval_square, add_zero, c1, c2, c3, c4]
      linear_combination e1
    · simp only [eval_mul, eval_sub, eval_add, eval_advice, eval_square, add_zero, c1, c2, c3, c4]
      linear_combination e2

/-- What the gate says about points with different first coordinates. -/
theorem incompleteEqs_sound {P Q : Pt b} (hP : P ≠ 0) (hQ : Q ≠ 0) (hx : (coords P).1 ≠ (coords Q).1) {xr yr : F}
    (e1 : (xr + (coords Q).1 + (coords P).1) * ((coords P).1 - (coords Q).1) * ((coords P).1 - (coords Q).1) =
      ((coords P).2 - (coords Q).2) ^ 2)
    (e2 : (yr + (coords Q).2) * ((coords P).1 - (coords Q).1) = ((coords P).2 - (coords Q).2) * ((coords Q).1 - xr)) :
    (xr, yr) = coords (P + Q) := by
  have hd : (coords P).1 - (coords Q).1 ≠ 0 := sub_ne_zero.2 hx
  obtain ⟨l, hl⟩ : ∃ l, (coords P).2 - (coords Q).2 = l * ((coords P).1 - (coords Q).1) :=
    ⟨((coords P).2 - (coords Q).2) / ((coords P).1 - (coords Q).1), (div_mul_cancel₀ _ hd).symm⟩
  rw [coords_add hP hQ hx (l := l) (by linear_combination hl)]
  rw [hl] at e1 e2
  have h1 : xr = l ^ 2 - (coords P).1 - (coords Q).1 := by
    apply mul_right_cancel₀ hd
    apply mul_right_cancel₀ hd
    linear_combination e1
  have h2 : yr = l * ((coords P).1 - xr) - (coords P).2 := by
    apply mul_right_cancel₀ hd
    linear_combination e2 + ((coords P).1 - (coords Q).1) * hl
  rw [Prod.mk.injEq, ← h1]
  exact ⟨rfl, h2⟩

theorem incompleteSum {P Q : Pt b} (hP : P ≠ 0) (hQ : Q ≠ 0) (hx : (coords P).1 ≠ (coords Q).1) :
    AddIncomplete.sum (coords P).1 (coords P).2 (coords Q).1 (coords Q).2 = coords (P + Q) := by
  have hd : (coords Q).1 - (coords P).1 ≠ 0 := sub_ne_zero.2 (Ne.symm hx)
  rw [coords_add hP hQ hx (l := ((coords Q).2 - (coords P).2) * ((coords Q).1 - (coords P).1)⁻¹)
    (by field_simp)]
  rfl

theorem incompleteEqs_complete {P Q : Pt b} (hP : P ≠ 0) (hQ : Q ≠ 0) (hx : (coords P).1 ≠ (coords Q).1) :
    ((coords (P + Q)).1 + (coords Q).1 + (coords P).1) * ((coords P).1 - (coords Q).1) * ((coords P).1 - (coords Q).1) =
      ((coords P).2 - (coords Q).2) ^ 2 ∧
    ((coords (P + Q)).2 + (coords Q).2) * ((coords P).1 - (coords Q).1) =
      ((coords P).2 - (coords Q).2) * ((coords Q).1 - (coords (P + Q)).1) := by
  have hd : (coords P).1 - (coords Q).1 ≠ 0 := sub_ne_zero.2 hx
  obtain ⟨l, hl⟩ : ∃ l, (coords P).2 - (coords Q).2 = l * ((coords P).1 - (coords Q).1) :=
    ⟨((coords P).2 - (coords Q).2) / ((coords P).1 - (coords Q).1), (div_mul_cancel₀ _ hd).symm⟩
  rw [coords_add hP hQ hx (l := l) (by linear_combination hl)]
  rw [hl]
  constructor
  · ring
  · linear_combination -((coords P).1 - (coords Q).1) * hl

omit [Field F] [DecidableEq F] in
theorem incomplete_covered {c : AddIncomplete} {p q : EccPoint F} {xr yr : Option F} :
    Covered c.chip (incompleteCalls c region p q offset xr yr) := by
  intro g hg row hrow e he r hr
  obtain ⟨o, ho, rfl⟩ := enabled_iff.1 hrow
  obtain ⟨-, rfl⟩ := incomplete_enable.1 ho
  have put : ∀ {col o' : Nat} {v : Option F}, Call.advice col o' v ∈ incompleteCalls c region p q o xr yr →
      assigns (incompleteCalls c region p q o xr yr) (.advice col) o' := fun h => Or.inl ⟨_, _, _, h, rfl, rfl⟩
  simp only [AddIncomplete.chip, List.mem_cons, List.not_mem_nil, or_false] at hg
  subst hg
  have hr' : r ∈ ([(.advice c.xP, 0), (.advice c.yP, 0), (.advice c.xQR, 0), (.advice c.yQR, 0),
      (.advice c.xQR, 1), (.advice c.yQR, 1)] : List (Col × Int)) := by
    simp only [List.mem_cons, List.not_mem_nil, or_false] at he
    rcases he with rfl | rfl <;> simp at hr ⊢ <;> tauto
  simp only [List.mem_cons, List.not_mem_nil, or_false] at hr'
  rcases hr' with rfl | rfl | rfl | rfl | rfl | rfl
  · simpa using put (col := c.xP) (o' := o) (List.mem_of_getElem? (i := 1) rfl)
  · simpa using put (col := c.yP) (o' := o) (List.mem_of_getElem? (i := 3) rfl)
  · simpa using put (col := c.xQR) (o' := o) (List.mem_of_getElem? (i := 5) rfl)
  · simpa using put (col := c.yQR) (o' := o) (List.mem_of_getElem? (i := 7) rfl)
  · simpa using put (col := c.xQR) (o' := o + 1) (List.mem_of_getElem? (i := 9) rfl)
  · simpa using put (col := c.yQR) (o' := o + 1) (List.mem_of_getElem? (i := 10) rfl)

omit [Field F] [DecidableEq F] in
theorem incomplete_same {c : AddIncomplete} {p p' q q' : EccPoint F} {xr yr xr' yr' : Option F} (hp : SameCells p p')
    (hq : SameCells q q') : List.Forall₂ SameCall (incompleteCalls c region p q offset xr yr)
      (incompleteCalls c region p' q' offset xr' yr') := by
  refine .cons (.refl _) ?_
  refine List.rel_append (List.rel_append (List.rel_append (List.rel_append (List.rel_append
    (copy_same hp.1) (copy_same hp.2)) (copy_same hq.1)) (copy_same hq.2)) ?_) ?_
  · exact .cons (.advice ..) .nil
  · exact .cons (.advice ..) .nil

end Verif.Lemmas.Ecc

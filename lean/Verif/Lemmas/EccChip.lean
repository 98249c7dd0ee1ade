import Verif.Lemmas.Ecc

namespace Verif.Lemmas.Ecc

open Verif.Gadget Verif.Spec.Gadget Verif.Lemmas.Gadget Verif.Spec Verif.Spec.Ecc
open Verif.FloorPlanner (Call)

variable {F : Type} [Field F] {b : F} {table : Nat → List F} {w : Content F} {region offset : Nat}

/-! Witnessed points. -/

theorem eval_curveEqn (c : WitnessPoint) (sel : Selector → Int → Bool) (v : Col → Int → F) (row : Int) :
    (c.curveEqn b).eval sel v row = v (.advice c.y) row ^ 2 - v (.advice c.x) row ^ 3 - b := by
  simp [WitnessPoint.curveEqn]
  ring

theorem point_sound (s : Smooth b) {c : WitnessPoint} {value : Option (AffinePoint F)}
    (hs : Sat (c.chip b) table w region (c.point region value offset).1) :
    ∃ P : Pt b, Holds w (c.point region value offset).2 P := by
  have h1 := sat_gate hs (s := c.qPoint) (List.mem_cons_self) (List.mem_cons_self) (o := offset) (List.mem_cons_self)
  have h2 := sat_gate hs (s := c.qPoint) (List.mem_cons_self) (List.mem_cons_of_mem _ (List.mem_cons_self)) (o := offset)
    (List.mem_cons_self)
  rw [eval_mul, eval_curveEqn, mul_eq_zero] at h1 h2
  simp only [eval_advice, add_zero] at h1 h2
  by_cases he : w region (.advice c.y) offset ^ 2 - w region (.advice c.x) offset ^ 3 - b = 0
  · obtain ⟨P, -, hP⟩ := exists_point s (x := w region (.advice c.x) offset) (y := w region (.advice c.y) offset)
      (by linear_combination he)
    exact ⟨P, hP.symm⟩
  · refine ⟨0, ?_⟩
    show (w region (.advice c.x) offset, w region (.advice c.y) offset) = (0, 0)
    rw [h1.resolve_right he, h2.resolve_right he]

omit [Field F] in
theorem pointNonId_ok {c : WitnessPoint} {value : Option (AffinePoint F)} {calls : Calls F} {out : EccPoint F}
    (h : c.pointNonId region value offset = .ok (calls, out)) :
    value ≠ some none ∧ ∃ v : Option (F × F), value = v.map some ∧
      calls = .enable c.qPointNonId offset :: (c.assignXY region v offset).1 ∧ out = (c.assignXY region v offset).2 := by
  match value, h with
  | some (some xy), h =>
    simp only [WitnessPoint.pointNonId, Except.ok.injEq, Prod.mk.injEq] at h
    exact ⟨by simp, some xy, rfl, h.1.symm, h.2.symm⟩
  | none, h =>
    simp only [WitnessPoint.pointNonId, Except.ok.injEq, Prod.mk.injEq] at h
    exact ⟨by simp, none, rfl, h.1.symm, h.2.symm⟩

theorem pointNonId_sound (s : Smooth b) {c : WitnessPoint} {value : Option (AffinePoint F)} {calls : Calls F}
    {out : EccPoint F} (h : c.pointNonId region value offset = .ok (calls, out))
    (hs : Sat (c.chip b) table w region calls) : ∃ P : Pt b, P ≠ 0 ∧ Holds w out P := by
  obtain ⟨-, v, -, rfl, rfl⟩ := pointNonId_ok h
  have h1 := sat_gate hs (s := c.qPointNonId) (List.mem_cons_of_mem _ (List.mem_cons_self)) (List.mem_cons_self) (o := offset)
    (List.mem_cons_self)
  rw [eval_curveEqn] at h1
  obtain ⟨P, h0, hP⟩ := exists_point s (x := w region (.advice c.x) offset) (y := w region (.advice c.y) offset)
    (by linear_combination h1)
  exact ⟨P, h0, hP.symm⟩

omit [Field F] in
theorem assignXY_calls {c : WitnessPoint} {v : Option (F × F)} :
    (c.assignXY region v offset).1 = [.advice c.x offset (v.map Prod.fst), .advice c.y offset (v.map Prod.snd)] := rfl

/-- The gates hold for what is assigned. -/
theorem assignXY_complete {c : WitnessPoint} (hne : c.qPoint ≠ c.qPointNonId) {P : Pt b} {sel : Selector}
    (hsel : sel = c.qPoint ∨ (sel = c.qPointNonId ∧ P ≠ 0))
    (hf : Follows w region (.enable sel offset :: (c.assignXY region (some (coords P)) offset).1)) :
    Sat (c.chip b) table w region (.enable sel offset :: (c.assignXY region (some (coords P)) offset).1) ∧
      KnownPoint w (c.assignXY region (some (coords P)) offset).2 ∧
      Holds w (c.assignXY region (some (coords P)) offset).2 P := by
  have h1 := hf.1 c.x offset (some (coords P).1) (by simp [assignXY_calls])
  have h2 := hf.1 c.y offset (some (coords P).2) (by simp [assignXY_calls])
  have e1 : w region (.advice c.x) offset = (coords P).1 := (Option.some.inj h1).symm
  have e2 : w region (.advice c.y) offset = (coords P).2 := (Option.some.inj h2).symm
  refine ⟨⟨?_, ?_, ?_⟩, ⟨?_, ?_⟩, ?_⟩
  · intro k hk
    simp only [assignXY_calls, List.mem_cons, List.not_mem_nil, or_false] at hk
    rcases hk with rfl | rfl | rfl <;> trivial
  · refine gates_of fun g hg e he o ho => ?_
    simp only [assignXY_calls, List.mem_cons, List.not_mem_nil, or_false, Call.enable.injEq, reduceCtorEq] at ho
    obtain ⟨hg1, rfl⟩ := ho
    by_cases hP : P = 0
    · have hq : sel = c.qPoint := hsel.resolve_right fun h => h.2 hP
      subst hP
      simp only [WitnessPoint.chip, List.mem_cons, List.not_mem_nil, or_false] at hg
      rcases hg with rfl | rfl
      · simp only [List.mem_cons, List.not_mem_nil, or_false] at he
        rcases he with rfl | rfl
        · simp [e1, coords_zero]
        · simp [e2, coords_zero]
      · exact absurd (hq.symm.trans hg1.symm) hne
    · have hc := coords_curve hP
      have heq : (c.curveEqn b).eval (enabled (.enable sel o :: (c.assignXY region (some (coords P)) o).1)) (w region) o = 0 := by
        rw [eval_curveEqn, e1, e2, hc]; ring
      simp only [WitnessPoint.chip, List.mem_cons, List.not_mem_nil, or_false] at hg
      rcases hg with rfl | rfl
      · simp only [List.mem_cons, List.not_mem_nil, or_false] at he
        rcases he with rfl | rfl
        · rw [eval_mul, heq, mul_zero]
        · rw [eval_mul, heq, mul_zero]
      · simp only [List.mem_cons, List.not_mem_nil, or_false] at he
        subst he
        exact heq
  · intro l hl; cases hl
  · exact h1
  · exact h2
  · show (w region (.advice c.x) offset, w region (.advice c.y) offset) = _
    rw [e1, e2]

omit [Field F] in
theorem assignXY_covered {c : WitnessPoint} {sel : Selector} {v : Option (F × F)} [Field F] :
    Covered (c.chip b) (.enable sel offset :: (c.assignXY region v offset).1) := by
  intro g hg row hrow e he q hq
  obtain ⟨o, ho, rfl⟩ := enabled_iff.1 hrow
  simp only [assignXY_calls, List.mem_cons, List.not_mem_nil, or_false, Call.enable.injEq, reduceCtorEq] at ho
  obtain ⟨-, rfl⟩ := ho
  have : q = (.advice c.x, 0) ∨ q = (.advice c.y, 0) := by
    simp only [WitnessPoint.chip, List.mem_cons, List.not_mem_nil, or_false] at hg
    rcases hg with rfl | rfl <;> simp only [List.mem_cons, List.not_mem_nil, or_false] at he
    · rcases he with rfl | rfl <;> simp [WitnessPoint.curveEqn] at hq <;> tauto
    · subst he
      simp [WitnessPoint.curveEqn] at hq
      tauto
  rcases this with rfl | rfl
  · exact Or.inl ⟨c.x, o, v.map Prod.fst, by simp [assignXY_calls], rfl, by simp⟩
  · exact Or.inl ⟨c.y, o, v.map Prod.snd, by simp [assignXY_calls], rfl, by simp⟩

omit [Field F] in
theorem assignXY_same {c : WitnessPoint} {sel : Selector} {v v' : Option (F × F)} :
    List.Forall₂ SameCall (.enable sel offset :: (c.assignXY region v offset).1)
      (.enable sel offset :: (c.assignXY region v' offset).1) :=
  .cons (.refl _) (.cons (.advice ..) (.cons (.advice ..) .nil))

/-! Complete addition. -/

variable [DecidableEq F]

omit [DecidableEq F] in
theorem mem_polys {c : AddComplete} {sel : Selector → Int → Bool} {row : Int} :
    (∀ e ∈ (c.polys : List (Verif.Gadget.Expr F)), e.eval sel (w region) row = 0) ↔
      AddEqs (w region (.advice c.xP) row) (w region (.advice c.yP) row) (w region (.advice c.xQR) row)
        (w region (.advice c.yQR) row) (w region (.advice c.xQR) (row + 1)) (w region (.advice c.yQR) (row + 1))
        (w region (.advice c.lambda) row) (w region (.advice c.alpha) row) (w region (.advice c.beta) row)
        (w region (.advice c.gamma) row) (w region (.advice c.delta) row) := by
  constructor
  · intro h
    simp only [AddComplete.polys, List.mem_cons, List.not_mem_nil, or_false, forall_eq_or_imp, forall_eq, eval_mul, eval_sub,
      eval_add, eval_const, eval_advice, eval_square, add_zero] at h
    obtain ⟨h1, h2, h3, h4, h5, h6, h7, h8, h9, h10, h11, h12⟩ := h
    exact ⟨h1, h2, h3, h4, h5, h6, h7, h8, h9, h10, h11, h12⟩
  · intro h
    simp only [AddComplete.polys, List.mem_cons, List.not_mem_nil, or_false, forall_eq_or_imp, forall_eq, eval_mul, eval_sub,
      eval_add, eval_const, eval_advice, eval_square, add_zero]
    exact ⟨h.e1, h.e2, h.e3a, h.e3b, h.e3c, h.e3d, h.e4a, h.e4b, h.e5a, h.e5b, h.e6a, h.e6b⟩

/-- What the calls enforce, and the gate, in terms of the cells. Here the calls may be part of a larger region. -/
theorem add_sound (u : Usable b) {c : AddComplete} {p q : EccPoint F} {P Q : Pt b} {calls : Calls F}
    (hsub : ∀ k ∈ (c.assign region p q offset).1, k ∈ calls)
    (henf : ∀ k ∈ calls, Enforced w region k)
    (hgate : ∀ e ∈ (c.polys : List (Verif.Gadget.Expr F)), e.eval (enabled calls) (w region) offset = 0)
    (hp : Holds w p P) (hq : Holds w q Q) : Holds w (c.assign region p q offset).2 (P + Q) := by
  have c1 : w region (.advice c.xP) offset = w.at p.x.cell :=
    henf _ (hsub (.equal ⟨region, offset, .advice c.xP⟩ p.x.cell) (by simp [AddComplete.assign, copyAdvice]))
  have c2 : w region (.advice c.yP) offset = w.at p.y.cell :=
    henf _ (hsub (.equal ⟨region, offset, .advice c.yP⟩ p.y.cell) (by simp [AddComplete.assign, copyAdvice]))
  have c3 : w region (.advice c.xQR) offset = w.at q.x.cell :=
    henf _ (hsub (.equal ⟨region, offset, .advice c.xQR⟩ q.x.cell) (by simp [AddComplete.assign, copyAdvice]))
  have c4 : w region (.advice c.yQR) offset = w.at q.y.cell :=
    henf _ (hsub (.equal ⟨region, offset, .advice c.yQR⟩ q.y.cell) (by simp [AddComplete.assign, copyAdvice]))
  have h := mem_polys.1 hgate
  have hp1 : w.at p.x.cell = (coords P).1 := congrArg Prod.fst hp
  have hp2 : w.at p.y.cell = (coords P).2 := congrArg Prod.snd hp
  have hq1 : w.at q.x.cell = (coords Q).1 := congrArg Prod.fst hq
  have hq2 : w.at q.y.cell = (coords Q).2 := congrArg Prod.snd hq
  rw [c1, c2, c3, c4, hp1, hp2, hq1, hq2] at h
  have := addEqs_sound u h
  show (w region (.advice c.xQR) ((offset + 1 : Nat) : Int), w region (.advice c.yQR) ((offset + 1 : Nat) : Int)) = _
  push_cast
  exact this

omit [Field F] [DecidableEq F] in
theorem zip4_known {p q : EccPoint F} (hp : KnownPoint w p) (hq : KnownPoint w q) :
    zip4 p.x.value p.y.value q.x.value q.y.value =
      some (w.at p.x.cell, w.at p.y.cell, w.at q.x.cell, w.at q.y.cell) := by
  rw [hp.1, hp.2, hq.1, hq.2]; rfl

/-- A prover who writes what is assigned meets the gate; the calls may be part of a larger region. -/
theorem add_complete (u : Usable b) {c : AddComplete} {p q : EccPoint F} {P Q : Pt b} {sel : Selector → Int → Bool}
    (hf : Follows w region (c.assign region p q offset).1) (kp : KnownPoint w p) (kq : KnownPoint w q)
    (hp : Holds w p P) (hq : Holds w q Q) :
    (∀ k ∈ (c.assign region p q offset).1, Enforced w region k) ∧
    (∀ e ∈ (c.polys : List (Verif.Gadget.Expr F)), e.eval sel (w region) offset = 0) ∧
    KnownPoint w (c.assign region p q offset).2 := by
  have hp1 : w.at p.x.cell = (coords P).1 := congrArg Prod.fst hp
  have hp2 : w.at p.y.cell = (coords P).2 := congrArg Prod.snd hp
  have hq1 : w.at q.x.cell = (coords Q).1 := congrArg Prod.fst hq
  have hq2 : w.at q.y.cell = (coords Q).2 := congrArg Prod.snd hq
  have hz : zip4 p.x.value p.y.value q.x.value q.y.value =
      some ((coords P).1, (coords P).2, (coords Q).1, (coords Q).2) := by
    rw [zip4_known kp kq, hp1, hp2, hq1, hq2]
  have v1 : p.x.value = some (coords P).1 := by rw [kp.1, hp1]
  have v2 : p.y.value = some (coords P).2 := by rw [kp.2, hp2]
  have v3 : q.x.value = some (coords Q).1 := by rw [kq.1, hq1]
  have v4 : q.y.value = some (coords Q).2 := by rw [kq.2, hq2]
  have get : ∀ {col o : Nat} {v : F}, Call.advice col o (some v) ∈ (c.assign region p q offset).1 →
      w region (.advice col) o = v := fun h => (Option.some.inj (hf.1 _ _ _ h)).symm
  have g1 : w region (.advice c.xP) offset = (coords P).1 := get (by simp [AddComplete.assign, copyAdvice, v1])
  have g2 : w region (.advice c.yP) offset = (coords P).2 := get (by simp [AddComplete.assign, copyAdvice, v2])
  have g3 : w region (.advice c.xQR) offset = (coords Q).1 := get (by simp [AddComplete.assign, copyAdvice, v3])
  have g4 : w region (.advice c.yQR) offset = (coords Q).2 := get (by simp [AddComplete.assign, copyAdvice, v4])
  have g5 : w region (.advice c.alpha) offset = ((coords Q).1 - (coords P).1)⁻¹ :=
    get (by simp [AddComplete.assign, copyAdvice, v1, v3])
  have g6 : w region (.advice c.beta) offset = (coords P).1⁻¹ := get (by simp [AddComplete.assign, copyAdvice, v1])
  have g7 : w region (.advice c.gamma) offset = (coords Q).1⁻¹ := get (by simp [AddComplete.assign, copyAdvice, v3])
  have g8 : w region (.advice c.delta) offset =
      if (coords Q).1 = (coords P).1 then ((coords Q).2 + (coords P).2)⁻¹ else 0 :=
    get (by simp [AddComplete.assign, copyAdvice, hz])
  have g9 : w region (.advice c.lambda) offset =
      AddComplete.slope (coords P).1 (coords P).2 (coords Q).1 (coords Q).2 :=
    get (by simp [AddComplete.assign, copyAdvice, hz])
  have g10 : w region (.advice c.xQR) (offset + 1 : Nat) =
      (AddComplete.sum (coords P).1 (coords P).2 (coords Q).1 (coords Q).2).1 :=
    get (by simp [AddComplete.assign, copyAdvice, assignAdvice, hz])
  have g11 : w region (.advice c.yQR) (offset + 1 : Nat) =
      (AddComplete.sum (coords P).1 (coords P).2 (coords Q).1 (coords Q).2).2 :=
    get (by simp [AddComplete.assign, copyAdvice, assignAdvice, hz])
  refine ⟨?_, ?_, ?_, ?_⟩
  · intro k hk
    simp only [AddComplete.assign, copyAdvice, assignAdvice, List.mem_cons, List.mem_append, List.not_mem_nil, or_false] at hk
    have e1 : w.at ⟨region, offset, .advice c.xP⟩ = w.at p.x.cell := g1.trans hp1.symm
    have e2 : w.at ⟨region, offset, .advice c.yP⟩ = w.at p.y.cell := g2.trans hp2.symm
    have e3 : w.at ⟨region, offset, .advice c.xQR⟩ = w.at q.x.cell := g3.trans hq1.symm
    have e4 : w.at ⟨region, offset, .advice c.yQR⟩ = w.at q.y.cell := g4.trans hq2.symm
    rcases hk with rfl | (((((((rfl | rfl) | rfl | rfl) | rfl | rfl) | rfl | rfl) | rfl | rfl | rfl | rfl | rfl) | rfl) | rfl) <;>
      first | trivial
  · rw [mem_polys, g1, g2, g3, g4, g5, g6, g7, g8, g9]
    push_cast at g10 g11
    rw [g10, g11]
    exact addEqs_complete u
  · show Option.map Prod.fst (Option.map _ (zip4 _ _ _ _)) = _
    rw [hz]
    exact congrArg some g10.symm
  · show Option.map Prod.snd (Option.map _ (zip4 _ _ _ _)) = _
    rw [hz]
    exact congrArg some g11.symm

theorem add_enable {c : AddComplete} {p q : EccPoint F} {s : Selector} {o : Nat} :
    Call.enable s o ∈ (c.assign region p q offset).1 ↔ s = c.qAdd ∧ o = offset := by
  simp [AddComplete.assign, copyAdvice, assignAdvice]

omit [DecidableEq F] in
theorem add_queries {c : AddComplete} {e : Verif.Gadget.Expr F} (he : e ∈ (c.polys : List (Verif.Gadget.Expr F)))
    {r : Col × Int} (hr : r ∈ e.queries) : r ∈ ([(.advice c.xP, 0), (.advice c.yP, 0), (.advice c.xQR, 0), (.advice c.yQR, 0),
      (.advice c.xQR, 1), (.advice c.yQR, 1), (.advice c.lambda, 0), (.advice c.alpha, 0), (.advice c.beta, 0),
      (.advice c.gamma, 0), (.advice c.delta, 0)] : List (Col × Int)) := by
  simp only [AddComplete.polys, List.mem_cons, List.not_mem_nil, or_false] at he
  rcases he with rfl | rfl | rfl | rfl | rfl | rfl | rfl | rfl | rfl | rfl | rfl | rfl <;>
    simp at hr ⊢ <;> tauto

theorem add_covered {c : AddComplete} {p q : EccPoint F} {calls : Calls F}
    (hsub : ∀ k ∈ (c.assign region p q offset).1, k ∈ calls)
    {e : Verif.Gadget.Expr F} (he : e ∈ (c.polys : List (Verif.Gadget.Expr F))) {r : Col × Int} (hr : r ∈ e.queries) :
    assigns calls r.1 ((offset : Int) + r.2) := by
  have put : ∀ {col o : Nat} {v : Option F}, Call.advice col o v ∈ (c.assign region p q offset).1 →
      assigns calls (.advice col) o := fun h => Or.inl ⟨_, _, _, hsub _ h, rfl, rfl⟩
  have hr := add_queries he hr
  simp only [List.mem_cons, List.not_mem_nil, or_false] at hr
  rcases hr with rfl | rfl | rfl | rfl | rfl | rfl | rfl | rfl | rfl | rfl | rfl
  · simpa using put (col := c.xP) (o := offset) (List.mem_of_getElem? (i := 1) rfl)
  · simpa using put (col := c.yP) (o := offset) (List.mem_of_getElem? (i := 3) rfl)
  · simpa using put (col := c.xQR) (o := offset) (List.mem_of_getElem? (i := 5) rfl)
  · simpa using put (col := c.yQR) (o := offset) (List.mem_of_getElem? (i := 7) rfl)
  · simpa using put (col := c.xQR) (o := offset + 1) (List.mem_of_getElem? (i := 14) rfl)
  · simpa using put (col := c.yQR) (o := offset + 1) (List.mem_of_getElem? (i := 15) rfl)
  · simpa using put (col := c.lambda) (o := offset) (List.mem_of_getElem? (i := 13) rfl)
  · simpa using put (col := c.alpha) (o := offset) (List.mem_of_getElem? (i := 9) rfl)
  · simpa using put (col := c.beta) (o := offset) (List.mem_of_getElem? (i := 10) rfl)
  · simpa using put (col := c.gamma) (o := offset) (List.mem_of_getElem? (i := 11) rfl)
  · simpa using put (col := c.delta) (o := offset) (List.mem_of_getElem? (i := 12) rfl)

omit [Field F] [DecidableEq F] in
theorem copy_same {a a' : Assigned F} (h : a.cell = a'.cell) {col : Nat} :
    List.Forall₂ SameCall (copyAdvice region a col offset).1 (copyAdvice region a' col offset).1 := by
  unfold copyAdvice
  rw [h]
  exact .cons (.advice ..) (.cons (.refl _) .nil)

theorem add_same {c : AddComplete} {p p' q q' : EccPoint F} (hp : SameCells p p') (hq : SameCells q q') :
    List.Forall₂ SameCall (c.assign region p q offset).1 (c.assign region p' q' offset).1 ∧
      SameCells (c.assign region p q offset).2 (c.assign region p' q' offset).2 := by
  refine ⟨?_, rfl, rfl⟩
  refine .cons (.refl _) ?_
  refine List.rel_append (List.rel_append (List.rel_append (List.rel_append (List.rel_append (List.rel_append
    (copy_same hp.1) (copy_same hp.2)) (copy_same hq.1)) (copy_same hq.2)) ?_) ?_) ?_
  · exact .cons (.advice ..) (.cons (.advice ..) (.cons (.advice ..) (.cons (.advice ..) (.cons (.advice ..) .nil))))
  · exact .cons (.advice ..) .nil
  · exact .cons (.advice ..) .nil

end Verif.Lemmas.Ecc

import Verif.Spec.Evaluation
import Mathlib.Data.ZMod.Basic
import Mathlib.Tactic.Ring

/-! Lemmas on the prover's expression graph. -/

namespace Verif.Graph

open Spec

theorem indexList_ok {v : List α} {i : Nat} {x : α} : indexList v i = .ok x ↔ v[i]? = some x := by
  unfold indexList
  cases v[i]? <;> simp

theorem indexList_mono {v w : List α} (h : v <+: w) {i : Nat} {x : α} (hx : indexList v i = .ok x) :
    indexList w i = .ok x := by
  rw [indexList_ok] at *
  obtain ⟨t, rfl⟩ := h
  rw [List.getElem?_append_left (by
    by_contra hc
    rw [List.getElem?_eq_none (by omega)] at hx
    cases hx), hx]

theorem indexColumn_mono {cols : List (List Fr)} {v w : List Nat} (h : v <+: w) {c r : Nat} {x : Fr}
    (hx : indexColumn cols v c r = .ok x) : indexColumn cols w c r = .ok x := by
  unfold indexColumn at *
  cases h1 : indexList cols c with
  | error e => rw [h1] at hx; cases hx
  | ok col =>
    rw [h1] at hx
    dsimp only at hx ⊢
    cases h2 : indexList v r with
    | error e => rw [h2] at hx; cases hx
    | ok row =>
      rw [h2] at hx
      rw [indexList_mono h h2]
      exact hx

theorem get_mono {r r' : List Nat} {k k' m m' : List Fr} (hr : r <+: r') (hk : k <+: k')
    (hm : m <+: m') {x : GraphInput} {s : ValueSource} {v : Fr} (h : s.get r k m x = .ok v) :
    s.get r' k' m' x = .ok v := by
  cases s <;> simp only [ValueSource.get] at * <;>
    first | exact h | exact indexList_mono hk h | exact indexList_mono hm h | exact indexColumn_mono hr h

theorem hornerLoop_mono {f f' : ValueSource → Except Panic Fr}
    (hf : ∀ s v, f s = .ok v → f' s = .ok v) (x : Fr) : ∀ (l : List ValueSource) (acc v : Fr),
    hornerLoop f x acc l = .ok v → hornerLoop f' x acc l = .ok v
  | [], _, _, h => h
  | s :: l, acc, v, h => by
    simp only [hornerLoop] at *
    cases h1 : f s with
    | error e => rw [h1] at h; cases h
    | ok w =>
      rw [h1] at h
      rw [hf _ _ h1]
      exact hornerLoop_mono hf x l _ _ h

theorem evaluate_mono {f f' : ValueSource → Except Panic Fr}
    (hf : ∀ s v, f s = .ok v → f' s = .ok v) (c : Calculation) (v : Fr)
    (h : c.evaluate f = .ok v) : c.evaluate f' = .ok v := by
  cases c with
  | store a => exact hf _ _ h
  | horner s p q =>
    simp only [Calculation.evaluate] at *
    cases h1 : f q with
    | error e => rw [h1] at h; cases h
    | ok w =>
      cases h2 : f s with
      | error e => rw [h1, h2] at h; cases h
      | ok u =>
        rw [h1, h2] at h
        rw [hf _ _ h1, hf _ _ h2]
        exact hornerLoop_mono hf _ _ _ _ h
  | add a b | sub a b | mul a b =>
    simp only [Calculation.evaluate] at *
    cases h1 : f a with
    | error e => rw [h1] at h; cases h
    | ok w =>
      cases h2 : f b with
      | error e => rw [h1, h2] at h; cases h
      | ok u =>
        rw [h1, h2] at h
        rw [hf _ _ h1, hf _ _ h2]
        exact h
  | square a | double a | negate a =>
    simp only [Calculation.evaluate] at *
    cases h1 : f a with
    | error e => rw [h1] at h; cases h
    | ok w =>
      rw [h1] at h
      rw [hf _ _ h1]
      exact h

/-- Rotations of a graph at a row. -/
def rots (g : Graph) (idx size : Nat) : List Nat := g.rotations.map fun r => rotationIdx idx r size

/-- `vals` are the values of the calculations of `g`; its targets are numbered in order. -/
structure Good (g : Graph) (x : GraphInput) (idx size : Nat) (vals : List Fr) : Prop where
  consts : [0, 1, 2] <+: g.constants
  len : vals.length = g.calculations.length
  num : g.numIntermediates = g.calculations.length
  target : ∀ (i : Nat) c t, g.calculations[i]? = some (c, t) → t = i
  value : ∀ (i : Nat) c t v, g.calculations[i]? = some (c, t) → vals[i]? = some v →
    c.evaluate (ValueSource.get (g.rots idx size) g.constants (vals.take i) x) = .ok v

/-- The value of a source in a graph. -/
def Val (g : Graph) (x : GraphInput) (idx size : Nat) (vals : List Fr) (s : ValueSource) (v : Fr) :
    Prop :=
  s.get (g.rots idx size) g.constants vals x = .ok v

/-- `g'` extends `g`. -/
structure Ext (g g' : Graph) : Prop where
  constants : g.constants <+: g'.constants
  rotations : g.rotations <+: g'.rotations
  calculations : g.calculations <+: g'.calculations

theorem Ext.refl (g : Graph) : Ext g g := ⟨(List.prefix_refl _), (List.prefix_refl _), (List.prefix_refl _)⟩
theorem Ext.trans {a b c : Graph} (h : Ext a b) (h' : Ext b c) : Ext a c :=
  ⟨h.1.trans h'.1, h.2.trans h'.2, h.3.trans h'.3⟩

theorem rots_mono {g g' : Graph} (h : g.rotations <+: g'.rotations) (idx size : Nat) :
    g.rots idx size <+: g'.rots idx size := h.map _

theorem Val.mono {g g' : Graph} {x idx size vals vals' s v} (h : Val g x idx size vals s v)
    (he : Ext g g') (hv : vals <+: vals') : Val g' x idx size vals' s v :=
  get_mono (rots_mono he.rotations _ _) he.constants hv h

/-- Adding something yields an extension in which the returned source has value `v`. -/
def Adds (g : Graph) (x : GraphInput) (idx size : Nat) (r : ValueSource × Graph) (v : Fr)
    (vals : List Fr) : Prop :=
  ∃ vals', Ext g r.2 ∧ vals <+: vals' ∧ Good r.2 x idx size vals' ∧ Val r.2 x idx size vals' r.1 v

theorem addConstant_adds {g : Graph} {x idx size vals} (h : Good g x idx size vals) (c : Fr) :
    Adds g x idx size (g.addConstant c) c vals := by
  unfold addConstant
  cases hf : g.constants.findIdx? (· == c) with
  | some i =>
    refine ⟨vals, .refl _, (List.prefix_refl _), h, ?_⟩
    rw [List.findIdx?_eq_some_iff_getElem] at hf
    obtain ⟨hi, h1, -⟩ := hf
    simp only [Val, ValueSource.get, indexList_ok]
    rw [List.getElem?_eq_getElem hi]
    simpa using h1
  | none =>
    have he : Ext g { g with constants := g.constants ++ [c] } :=
      ⟨List.prefix_append _ _, (List.prefix_refl _), (List.prefix_refl _)⟩
    refine ⟨vals, he, (List.prefix_refl _), ⟨h.consts.trans (List.prefix_append _ _), h.len, h.num, h.target, ?_⟩, ?_⟩
    · intro i c' t v h1 h2
      exact evaluate_mono (fun s w hw => get_mono (List.prefix_refl _) (List.prefix_append _ _) (List.prefix_refl _) hw) _ _
        (h.value i c' t v h1 h2)
    · simp [Val, ValueSource.get, indexList_ok]

theorem addRotation_ext {g : Graph} {x idx size vals} (h : Good g x idx size vals) (r : Int) :
    Ext g (g.addRotation r).2 ∧ Good (g.addRotation r).2 x idx size vals ∧
      ((g.addRotation r).2.rots idx size)[(g.addRotation r).1]? = some (rotationIdx idx r size) := by
  unfold addRotation
  cases hf : g.rotations.findIdx? (· == r) with
  | some i =>
    refine ⟨.refl _, h, ?_⟩
    rw [List.findIdx?_eq_some_iff_getElem] at hf
    obtain ⟨hi, h1, -⟩ := hf
    have h1 : g.rotations[i] = r := by simpa using h1
    simp [rots, hi, h1]
  | none =>
    have he : Ext g { g with rotations := g.rotations ++ [r] } :=
      ⟨(List.prefix_refl _), List.prefix_append _ _, (List.prefix_refl _)⟩
    refine ⟨he, ⟨h.consts, h.len, h.num, h.target, ?_⟩, ?_⟩
    · intro i c' t v h1 h2
      exact evaluate_mono (fun s w hw => get_mono (rots_mono he.rotations _ _) (List.prefix_refl _) (List.prefix_refl _) hw) _ _
        (h.value i c' t v h1 h2)
    · simp [rots]

theorem addCalculation_adds {g : Graph} {x idx size vals} (h : Good g x idx size vals)
    (c : Calculation) (v : Fr)
    (hv : c.evaluate (ValueSource.get (g.rots idx size) g.constants vals x) = .ok v) :
    Adds g x idx size (g.addCalculation c) v vals := by
  unfold addCalculation
  cases hf : g.calculations.find? (fun i => i.1 == c) with
  | some p =>
    obtain ⟨c', t⟩ := p
    refine ⟨vals, .refl _, (List.prefix_refl _), h, ?_⟩
    have hm := List.mem_of_find?_eq_some hf
    have hc : c' = c := by simpa using List.find?_some hf
    subst hc
    obtain ⟨i, hi, e⟩ := List.mem_iff_getElem.1 hm
    have e' : g.calculations[i]? = some (c', t) := by rw [List.getElem?_eq_getElem hi, e]
    have ht : t = i := h.target i c' t e'
    subst ht
    have hi' : t < vals.length := by rw [h.len]; exact hi
    have h1 := h.value t c' t (vals[t]) e' (List.getElem?_eq_getElem hi')
    have h2 := evaluate_mono (f' := ValueSource.get (g.rots idx size) g.constants vals x)
      (fun s w hw => get_mono (List.prefix_refl _) (List.prefix_refl _) (List.take_prefix _ _) hw) _ _ h1
    rw [hv] at h2
    injection h2 with h2
    simp only [Val, ValueSource.get, indexList_ok]
    rw [List.getElem?_eq_getElem hi', h2]
  | none =>
    refine ⟨vals ++ [v], ⟨(List.prefix_refl _), (List.prefix_refl _), List.prefix_append _ _⟩, List.prefix_append _ _, ?_, ?_⟩
    · refine ⟨h.consts, by simp [h.len], by simp [h.num], ?_, ?_⟩
      · intro i c' t hi
        dsimp only at hi
        rw [List.getElem?_append] at hi
        split at hi
        · exact h.target i c' t hi
        · rename_i hlt
          have h0 : i - g.calculations.length = 0 := by
            by_contra h0
            rw [List.getElem?_eq_none (by simp; omega)] at hi
            cases hi
          rw [h0] at hi
          simp at hi
          rw [← hi.2, h.num]
          omega
      · intro i c' t w hi hw
        dsimp only at hi
        rw [List.getElem?_append] at hi
        split at hi
        · rename_i hlt
          have hlt' : i < vals.length := by rw [h.len]; exact hlt
          rw [List.getElem?_append_left hlt'] at hw
          rw [List.take_append_of_le_length (by omega)]
          exact h.value i c' t w hi hw
        · rename_i hlt
          have h0 : i - g.calculations.length = 0 := by
            by_contra h0
            rw [List.getElem?_eq_none (by simp; omega)] at hi
            cases hi
          rw [h0] at hi
          simp at hi
          have hi' : i = vals.length := by rw [h.len]; omega
          subst hi'
          simp at hw
          subst hw
          rw [List.take_append_of_le_length (by omega), List.take_length, ← hi.1]
          exact hv
    · simp [Val, ValueSource.get, indexList_ok, h.num, ← h.len]

theorem const_val {g : Graph} {x idx size vals} (h : Good g x idx size vals) {i : Nat} {c v : Fr}
    (hi : [(0 : Fr), 1, 2][i]? = some c) (hv : Val g x idx size vals (.constant i) v) : v = c := by
  simp only [Val, ValueSource.get] at hv
  have := indexList_mono h.consts (indexList_ok.2 hi)
  rw [hv] at this
  injection this

theorem Val.const0 {g : Graph} {x idx size vals} (h : Good g x idx size vals) :
    Val g x idx size vals (.constant 0) 0 := indexList_mono h.consts (indexList_ok.2 rfl)

/-- The two operands of an operation and what is returned for it. -/
theorem Adds.same {g : Graph} {x idx size vals s v} (h : Good g x idx size vals)
    (hs : Val g x idx size vals s v) : Adds g x idx size (s, g) v vals :=
  ⟨vals, .refl _, (List.prefix_refl _), h, hs⟩

theorem addSum_adds {g : Graph} {x idx size vals a b va vb} (h : Good g x idx size vals)
    (ha : Val g x idx size vals a va) (hb : Val g x idx size vals b vb) :
    Adds g x idx size (g.addSum a b) (va + vb) vals := by
  unfold Val at ha hb
  unfold addSum
  split_ifs with h1 h2 h3
  · subst h1
    rw [const_val h rfl ha, zero_add]
    exact .same h hb
  · subst h2
    rw [const_val h rfl hb, add_zero]
    exact .same h ha
  · exact addCalculation_adds h _ _ (by simp only [Calculation.evaluate, ha, hb]; rfl)
  · rw [add_comm]
    exact addCalculation_adds h _ _ (by simp only [Calculation.evaluate, ha, hb]; rfl)

theorem addDifference_adds {g : Graph} {x idx size vals a b va vb} (h : Good g x idx size vals)
    (ha : Val g x idx size vals a va) (hb : Val g x idx size vals b vb) :
    Adds g x idx size (g.addDifference a b) (va - vb) vals := by
  unfold Val at ha hb
  unfold addDifference
  split_ifs with h1 h2
  · subst h1
    rw [const_val h rfl ha, zero_sub]
    exact addCalculation_adds h _ _ (by simp only [Calculation.evaluate, hb]; rfl)
  · subst h2
    rw [const_val h rfl hb, sub_zero]
    exact .same h ha
  · exact addCalculation_adds h _ _ (by simp only [Calculation.evaluate, ha, hb]; rfl)

theorem addProduct_adds {g : Graph} {x idx size vals a b va vb} (h : Good g x idx size vals)
    (ha : Val g x idx size vals a va) (hb : Val g x idx size vals b vb) :
    Adds g x idx size (g.addProduct a b) (va * vb) vals := by
  unfold addProduct
  split_ifs with h1 h2 h3 h4 h5 h6 h7
  · have : va * vb = 0 := by
      rcases h1 with h1 | h1 <;> subst h1
      · rw [const_val h rfl ha, zero_mul]
      · rw [const_val h rfl hb, mul_zero]
    rw [this]
    exact .same h (.const0 h)
  · subst h2
    rw [const_val h rfl ha, one_mul]
    exact .same h hb
  · subst h3
    rw [const_val h rfl hb, mul_one]
    exact .same h ha
  · subst h4
    rw [const_val h rfl ha, two_mul]
    exact addCalculation_adds h _ _ (by unfold Val at hb; simp only [Calculation.evaluate, hb]; rfl)
  · subst h5
    rw [const_val h rfl hb, mul_two]
    exact addCalculation_adds h _ _ (by unfold Val at ha; simp only [Calculation.evaluate, ha]; rfl)
  · subst h6
    unfold Val at ha hb
    rw [ha] at hb
    injection hb with hb
    subst hb
    exact addCalculation_adds h _ _ (by simp only [Calculation.evaluate, ha]; rfl)
  · unfold Val at ha hb
    exact addCalculation_adds h _ _ (by simp only [Calculation.evaluate, ha, hb]; rfl)
  · unfold Val at ha hb
    rw [mul_comm]
    exact addCalculation_adds h _ _ (by simp only [Calculation.evaluate, ha, hb]; rfl)

theorem addNegation_adds {g : Graph} {x idx size vals a va} (h : Good g x idx size vals)
    (ha : Val g x idx size vals a va) : Adds g x idx size (g.addNegation a) (-va) vals := by
  unfold addNegation
  split_ifs with h1
  · subst h1
    have := const_val h rfl ha
    rw [this, neg_zero]
    rw [this] at ha
    exact .same h ha
  · unfold Val at ha
    exact addCalculation_adds h _ _ (by simp only [Calculation.evaluate, ha]; rfl)

theorem Adds.step {g g' : Graph} {x idx size vals vals'} {r : ValueSource × Graph} {v : Fr}
    (he : Ext g g') (hv : vals <+: vals') (h : Adds g' x idx size r v vals') :
    Adds g x idx size r v vals := by
  obtain ⟨w, h1, h2, h3, h4⟩ := h
  exact ⟨w, he.trans h1, hv.trans h2, h3, h4⟩

/-- The input of a graph shows the columns of a circuit. -/
structure Shows (x : GraphInput) (cs : Grid) (nf na ni nc n : Nat) : Prop where
  fixed : x.fixed = columnsOf nf n cs.fixed
  advice : x.advice = columnsOf na n cs.advice
  instance_ : x.instance_ = columnsOf ni n cs.instance_
  challenges : x.challenges = (List.range nc).map cs.challenge

theorem rotationIdx_lt (idx : Nat) (r : Int) {n : Nat} (hn : 0 < n) : rotationIdx idx r n < n := by
  unfold rotationIdx
  have h1 := Int.emod_nonneg ((idx : Int) + r) (b := (n : Int)) (by omega)
  have h2 := Int.emod_lt_of_pos ((idx : Int) + r) (b := (n : Int)) (by omega)
  omega

theorem indexColumn_of {m n : Nat} (hn : 0 < n) (f : Nat → Nat → Fr) {c : Nat} (hc : c < m)
    {rs : List Nat} {i idx : Nat} {r : Int} (hi : rs[i]? = some (rotationIdx idx r n)) :
    indexColumn (columnsOf m n f) rs c i = .ok (f c (rotate n idx r)) := by
  have h := rotationIdx_lt idx r hn
  unfold indexColumn columnsOf indexList
  simp [hc, hi, h]
  rfl

section
variable {x : GraphInput} {cg : Grid} {nf na ni nc n : Nat}

/-- Adding an expression succeeds and returns a source with its value. -/
def AddsExpr (x : GraphInput) (cg : Grid) (n idx : Nat) (e : Expr) : Prop :=
  ∀ (g : Graph) (vals : List Fr), Good g x idx n vals →
    ∃ r, addExpression e g = .ok r ∧ Adds g x idx n r (e.eval n cg idx) vals

theorem addStore {idx : Nat} {g : Graph} {vals : List Fr} (hg : Good g x idx n vals) {r : Int}
    (src : Nat → ValueSource) (v : Fr)
    (h : ∀ (rs : List Nat) (k m : List Fr) (i : Nat), rs[i]? = some (rotationIdx idx r n) →
      (src i).get rs k m x = .ok v) :
    Adds g x idx n ((g.addRotation r).2.addCalculation (.store (src (g.addRotation r).1))) v vals := by
  obtain ⟨h1, h2, h3⟩ := addRotation_ext hg r
  exact .step h1 (List.prefix_refl _) (addCalculation_adds h2 _ _ (h _ _ _ _ h3))

theorem neg_expr {idx : Nat} {a : Expr} (h : AddsExpr x cg n idx a) : AddsExpr x cg n idx (.neg a) := by
  intro g vals hg
  by_cases hc : ∃ c, a = .const c
  · obtain ⟨c, rfl⟩ := hc
    exact ⟨_, rfl, addConstant_adds hg _⟩
  · obtain ⟨⟨s, g'⟩, e, vals', h1, h2, h3, h4⟩ := h g vals hg
    refine ⟨_, ?_, .step h1 h2 (addNegation_adds h3 h4)⟩
    have : addExpression (.neg a) g = (do
        let (ra, g) ← addExpression a g
        return g.addNegation ra) := by
      cases a with
      | const c => exact absurd ⟨c, rfl⟩ hc
      | _ => rfl
    rw [this, e]
    rfl

theorem sum_neg_expr {idx : Nat} {a b : Expr} (ha : AddsExpr x cg n idx a)
    (hb : AddsExpr x cg n idx b) : AddsExpr x cg n idx (.sum a (.neg b)) := by
  intro g vals hg
  obtain ⟨⟨s, g'⟩, e, vals', h1, h2, h3, h4⟩ := ha g vals hg
  obtain ⟨⟨s', g''⟩, e', vals'', h1', h2', h3', h4'⟩ := hb g' vals' h3
  refine ⟨g''.addDifference s s', ?_, ?_⟩
  · rw [addExpression, e]
    show (addExpression b g' >>= _) = _
    rw [e']
    rfl
  · have := addDifference_adds h3' (h4.mono h1' h2') h4'
    rw [sub_eq_add_neg] at this
    exact .step (h1.trans h1') (h2.trans h2') this

theorem sum_expr {idx : Nat} {a b : Expr} (ha : AddsExpr x cg n idx a)
    (hb : AddsExpr x cg n idx b) (hn : ∀ b', b ≠ .neg b') : AddsExpr x cg n idx (.sum a b) := by
  intro g vals hg
  obtain ⟨⟨s, g'⟩, e, vals', h1, h2, h3, h4⟩ := ha g vals hg
  obtain ⟨⟨s', g''⟩, e', vals'', h1', h2', h3', h4'⟩ := hb g' vals' h3
  refine ⟨g''.addSum s s', ?_, .step (h1.trans h1') (h2.trans h2')
    (addSum_adds h3' (h4.mono h1' h2') h4')⟩
  have : addExpression (.sum a b) g = (do
      let (ra, g) ← addExpression a g
      let (rb, g) ← addExpression b g
      return g.addSum ra rb) := by
    cases b with
    | neg b' => exact absurd rfl (hn b')
    | _ => rfl
  rw [this, e]
  show (addExpression b g' >>= _) = _
  rw [e']
  rfl

theorem product_expr {idx : Nat} {a b : Expr} (ha : AddsExpr x cg n idx a)
    (hb : AddsExpr x cg n idx b) : AddsExpr x cg n idx (.product a b) := by
  intro g vals hg
  obtain ⟨⟨s, g'⟩, e, vals', h1, h2, h3, h4⟩ := ha g vals hg
  obtain ⟨⟨s', g''⟩, e', vals'', h1', h2', h3', h4'⟩ := hb g' vals' h3
  refine ⟨g''.addProduct s s', ?_, .step (h1.trans h1') (h2.trans h2')
    (addProduct_adds h3' (h4.mono h1' h2') h4')⟩
  rw [addExpression, e]
  show (addExpression b g' >>= _) = _
  rw [e']
  rfl

theorem scaled_expr {idx : Nat} {a : Expr} (f : Fr) (ha : AddsExpr x cg n idx a) :
    AddsExpr x cg n idx (.scaled a f) := by
  intro g vals hg
  rw [addExpression]
  simp only [Expr.eval]
  by_cases hf0 : f = 0
  · rw [if_pos hf0, hf0, mul_zero]
    exact ⟨_, rfl, .same hg (.const0 hg)⟩
  rw [if_neg hf0]
  by_cases hf1 : f = 1
  · rw [if_pos hf1, hf1, mul_one]
    exact ha g vals hg
  rw [if_neg hf1]
  obtain ⟨vals', h1, h2, h3, h4⟩ := addConstant_adds hg f
  obtain ⟨⟨s', g''⟩, e', vals'', h1', h2', h3', h4'⟩ := ha _ vals' h3
  have h5 := h4.mono h1' h2'
  refine ⟨g''.addCalculation (.mul s' (g.addConstant f).1), ?_, .step (h1.trans h1') (h2.trans h2')
    (addCalculation_adds h3' _ _ ?_)⟩
  · show (addExpression a (g.addConstant f).2 >>= _) = _
    rw [e']
    rfl
  · unfold Val at h4' h5
    simp only [Calculation.evaluate, h4', h5]
    rfl

theorem addExpression_ok (hs : Shows x cg nf na ni nc n) (hn : 0 < n) (idx : Nat) :
    ∀ e : Expr, Mentions nf na ni nc e →
      AddsExpr x cg n idx e ∧ ∀ a, e = .neg a → AddsExpr x cg n idx a := by
  intro e
  induction e with
  | const c => exact fun _ => ⟨fun g vals hg => ⟨_, rfl, addConstant_adds hg c⟩, by intro a h; cases h⟩
  | selector s => exact fun h => h.elim
  | fixed c r =>
    refine fun hm => ⟨fun g vals hg => ⟨_, rfl, addStore hg (ValueSource.fixed c) _ ?_⟩,
      by intro a h; cases h⟩
    intro rs k m i hi
    simp only [ValueSource.get, hs.fixed]
    exact indexColumn_of hn _ hm hi
  | advice c r =>
    refine fun hm => ⟨fun g vals hg => ⟨_, rfl, addStore hg (ValueSource.advice c) _ ?_⟩,
      by intro a h; cases h⟩
    intro rs k m i hi
    simp only [ValueSource.get, hs.advice]
    exact indexColumn_of hn _ hm hi
  | instance_ c r =>
    refine fun hm => ⟨fun g vals hg => ⟨_, rfl, addStore hg (ValueSource.instance_ c) _ ?_⟩,
      by intro a h; cases h⟩
    intro rs k m i hi
    simp only [ValueSource.get, hs.instance_]
    exact indexColumn_of hn _ hm hi
  | challenge i =>
    intro hm
    have hm : i < nc := hm
    refine ⟨fun g vals hg => ⟨_, rfl, addCalculation_adds hg _ _ ?_⟩, by intro a h; cases h⟩
    simp [Calculation.evaluate, ValueSource.get, indexList_ok, hs.challenges, hm, Expr.eval]
  | neg a ih =>
    intro hm
    exact ⟨neg_expr (ih hm).1, by rintro _ ⟨⟩; exact (ih hm).1⟩
  | sum a b iha ihb =>
    intro hm
    refine ⟨?_, by intro a h; cases h⟩
    by_cases hb : ∃ b', b = .neg b'
    · obtain ⟨b', rfl⟩ := hb
      exact sum_neg_expr (iha hm.1).1 ((ihb hm.2).2 _ rfl)
    · exact sum_expr (iha hm.1).1 (ihb hm.2).1 (by intro b' h; exact hb ⟨b', h⟩)
  | product a b iha ihb =>
    intro hm
    exact ⟨product_expr (iha hm.1).1 (ihb hm.2).1, by intro a h; cases h⟩
  | scaled a f ih =>
    intro hm
    exact ⟨scaled_expr f (ih hm).1, by intro a h; cases h⟩

theorem addExpressions_ok (hs : Shows x cg nf na ni nc n) (hn : 0 < n) (idx : Nat) :
    ∀ (es : List Expr) (_ : ∀ e ∈ es, Mentions nf na ni nc e) (g : Graph) (vals : List Fr),
      Good g x idx n vals → ∃ rs g' vals', addExpressions es g = .ok (rs, g') ∧ Ext g g' ∧
        vals <+: vals' ∧ Good g' x idx n vals' ∧
        List.Forall₂ (fun r e => Val g' x idx n vals' r (Expr.eval n cg idx e)) rs es := by
  intro es
  induction es with
  | nil => exact fun _ g vals h => ⟨[], g, vals, rfl, .refl _, List.prefix_refl _, h, .nil⟩
  | cons e es ih =>
    intro hm g vals hg
    obtain ⟨⟨r, g'⟩, h0, vals', h1, h2, h3, h4⟩ :=
      (addExpression_ok hs hn idx e (hm e (by simp))).1 g vals hg
    obtain ⟨rs, g'', vals'', h0', h1', h2', h3', h4'⟩ := ih (fun e he => hm e (by simp [he])) g' vals' h3
    refine ⟨r :: rs, g'', vals'', ?_, h1.trans h1', h2.trans h2', h3', .cons (h4.mono h1' h2') h4'⟩
    rw [addExpressions, h0]
    show (addExpressions es g' >>= _) = _
    rw [h0']
    rfl

end

theorem hornerLoop_ok {get : ValueSource → Except Panic Fr} (f : Fr) {α : Type} (ev : α → Fr) :
    ∀ {rs : List ValueSource} {es : List α}, List.Forall₂ (fun r e => get r = .ok (ev e)) rs es →
      ∀ acc, hornerLoop get f acc rs = .ok (horner f acc (es.map ev))
  | [], [], _, _ => rfl
  | _ :: _, _ :: _, .cons h t, acc => by
    rw [hornerLoop, h]
    exact hornerLoop_ok f ev t _

/-- Running the calculations leaves their values, whatever was there before. -/
theorem runCalculations_ok {g : Graph} {x idx size vals} (h : Good g x idx size vals) :
    ∀ (m : Nat) (data : List Fr), m ≤ g.calculations.length → data.length = g.calculations.length →
      data.take (g.calculations.length - m) = vals.take (g.calculations.length - m) →
      runCalculations (g.rots idx size) g.constants x
        (g.calculations.drop (g.calculations.length - m)) data = .ok vals := by
  intro m
  induction m with
  | zero =>
    intro data _ hl hp
    rw [Nat.sub_zero, List.drop_length]
    rw [Nat.sub_zero, ← hl, List.take_length, hl, ← h.len, List.take_length] at hp
    rw [hp]
    rfl
  | succ m ih =>
    intro data hm hl hp
    have hi : g.calculations.length - (m + 1) < g.calculations.length := by omega
    rw [List.drop_eq_getElem_cons hi]
    generalize hgi : g.calculations[g.calculations.length - (m + 1)] = p
    obtain ⟨c, t⟩ := p
    have he : g.calculations[g.calculations.length - (m + 1)]? = some (c, t) := by
      rw [List.getElem?_eq_getElem hi, hgi]
    have ht := h.target _ _ _ he
    have hiv : g.calculations.length - (m + 1) < vals.length := by rw [h.len]; exact hi
    have hv := h.value _ c t _ he (List.getElem?_eq_getElem hiv)
    rw [← hp] at hv
    have hv := evaluate_mono (f' := ValueSource.get (g.rots idx size) g.constants data x)
      (fun s w hw => get_mono (List.prefix_refl _) (List.prefix_refl _) (List.take_prefix _ _) hw) _ _ hv
    rw [runCalculations, hv]
    dsimp only
    rw [if_pos (by omega), show g.calculations.length - (m + 1) + 1 = g.calculations.length - m by omega]
    refine ih _ (by omega) (by simpa using hl) ?_
    rw [ht, show g.calculations.length - m = g.calculations.length - (m + 1) + 1 by omega]
    apply List.ext_getElem?
    intro i
    simp only [List.getElem?_take, List.getElem?_set]
    have hp' := congrArg (·[i]?) hp
    simp only [List.getElem?_take] at hp'
    by_cases h1 : i < g.calculations.length - (m + 1)
    · rw [if_pos h1, if_pos h1] at hp'
      have hA : i < g.calculations.length - (m + 1) + 1 := by omega
      rw [if_pos hA, if_pos hA, if_neg (by omega), hp']
    · by_cases h2 : i = g.calculations.length - (m + 1)
      · subst h2
        rw [if_pos (Nat.lt_succ_self _), if_pos rfl, if_pos (by omega),
          if_pos (Nat.lt_succ_self _), List.getElem?_eq_getElem hiv]
      · have hA : ¬ i < g.calculations.length - (m + 1) + 1 := by omega
        rw [if_neg hA, if_neg hA]

theorem evaluate_ok {g : Graph} {x idx size vals} (h : Good g x idx size vals) {data : List Fr}
    (hd : data.length = g.numIntermediates) {c : Calculation} {t : Nat} {v : Fr}
    (hl : g.calculations.getLast? = some (c, t)) (hv : Val g x idx size vals (.intermediate t) v) :
    g.evaluate data x idx size = .ok (v, vals) := by
  unfold evaluate
  have := runCalculations_ok h g.calculations.length data (Nat.le_refl _) (by rw [hd, h.num]) (by simp)
  rw [Nat.sub_self, List.drop_zero] at this
  unfold rots at this
  simp only [this, hl]
  show (indexList vals t >>= _) = _
  have hv : indexList vals t = .ok v := hv
  rw [hv]
  rfl

theorem good_default (x : GraphInput) (idx size : Nat) : Good {} x idx size [] :=
  ⟨List.prefix_refl _, rfl, rfl, by simp, by simp⟩

/-- A source that is a constant or an intermediate. -/
def IsRef : ValueSource → Prop
  | .constant _ => True
  | .intermediate _ => True
  | _ => False

/-- A calculation that is neither the sum with `beta` nor the one that starts at the previous value. -/
def Plain : Calculation → Prop
  | .add _ b => b ≠ .beta
  | .horner s _ _ => s ≠ .previousValue
  | _ => True

def AllPlain (g : Graph) : Prop := ∀ c ∈ g.calculations, Plain c.1

theorem isRef_ne {s : ValueSource} (h : IsRef s) : s ≠ .beta := by rintro rfl; exact h

theorem addConstant_plain {g : Graph} (h : AllPlain g) (c : Fr) :
    IsRef (g.addConstant c).1 ∧ AllPlain (g.addConstant c).2 := by
  unfold addConstant
  split <;> exact ⟨trivial, h⟩

theorem addRotation_plain {g : Graph} (h : AllPlain g) (r : Int) : AllPlain (g.addRotation r).2 := by
  unfold addRotation
  split <;> exact h

theorem addCalculation_plain {g : Graph} (h : AllPlain g) {c : Calculation} (hc : Plain c) :
    IsRef (g.addCalculation c).1 ∧ AllPlain (g.addCalculation c).2 := by
  unfold addCalculation
  split
  · exact ⟨trivial, h⟩
  · refine ⟨trivial, ?_⟩
    intro c' hc'
    rcases List.mem_append.1 hc' with h' | h'
    · exact h _ h'
    · simp at h'
      rw [h']
      exact hc

theorem addSum_plain {g : Graph} (h : AllPlain g) {a b : ValueSource} (ha : IsRef a) (hb : IsRef b) :
    IsRef (g.addSum a b).1 ∧ AllPlain (g.addSum a b).2 := by
  unfold addSum
  split_ifs
  · exact ⟨hb, h⟩
  · exact ⟨ha, h⟩
  · exact addCalculation_plain h (isRef_ne hb)
  · exact addCalculation_plain h (isRef_ne ha)

theorem addDifference_plain {g : Graph} (h : AllPlain g) {a b : ValueSource} (ha : IsRef a) :
    IsRef (g.addDifference a b).1 ∧ AllPlain (g.addDifference a b).2 := by
  unfold addDifference
  split_ifs
  · exact addCalculation_plain h trivial
  · exact ⟨ha, h⟩
  · exact addCalculation_plain h trivial

theorem addProduct_plain {g : Graph} (h : AllPlain g) {a b : ValueSource} (ha : IsRef a)
    (hb : IsRef b) : IsRef (g.addProduct a b).1 ∧ AllPlain (g.addProduct a b).2 := by
  unfold addProduct
  split_ifs
  · exact ⟨trivial, h⟩
  · exact ⟨hb, h⟩
  · exact ⟨ha, h⟩
  all_goals exact addCalculation_plain h trivial

theorem addNegation_plain {g : Graph} (h : AllPlain g) {a : ValueSource} (ha : IsRef a) :
    IsRef (g.addNegation a).1 ∧ AllPlain (g.addNegation a).2 := by
  unfold addNegation
  split_ifs
  · exact ⟨ha, h⟩
  · exact addCalculation_plain h trivial

theorem bind_pair {α β γ : Type} {m : Except Panic (α × β)} {f : α → β → Except Panic γ} {r : γ}
    (h : (m >>= fun p => f p.1 p.2) = .ok r) : ∃ a b, m = .ok (a, b) ∧ f a b = .ok r := by
  cases m with
  | error e => cases h
  | ok p => exact ⟨p.1, p.2, rfl, h⟩

/-- Adding an expression keeps calculations plain. -/
def PlainExpr (e : Expr) : Prop :=
  ∀ (g : Graph) (r : ValueSource × Graph), AllPlain g → addExpression e g = .ok r →
    IsRef r.1 ∧ AllPlain r.2

theorem addExpression_plain : ∀ e : Expr, PlainExpr e ∧ ∀ a, e = .neg a → PlainExpr a := by
  intro e
  induction e with
  | const c =>
    refine ⟨?_, by intro a h; cases h⟩
    intro g r hg h
    cases h
    exact addConstant_plain hg c
  | selector s => exact ⟨(by intro g r hg h; cases h), by intro a h; cases h⟩
  | fixed c r | advice c r | instance_ c r =>
    refine ⟨?_, by intro a h; cases h⟩
    intro g r hg h
    cases h
    exact addCalculation_plain (addRotation_plain hg _) trivial
  | challenge i =>
    refine ⟨?_, by intro a h; cases h⟩
    intro g r hg h
    cases h
    exact addCalculation_plain hg trivial
  | neg a ih =>
    refine ⟨?_, by rintro _ ⟨⟩; exact ih.1⟩
    intro g r hg h
    by_cases hc : ∃ c, a = .const c
    · obtain ⟨c, rfl⟩ := hc
      cases h
      exact addConstant_plain hg _
    · have : addExpression (.neg a) g = (addExpression a g >>= fun p => .ok (p.2.addNegation p.1)) := by
        cases a with
        | const c => exact absurd ⟨c, rfl⟩ hc
        | _ => rfl
      rw [this] at h
      obtain ⟨s, g', h1, h2⟩ := bind_pair (f := fun a (b : Graph) => .ok (b.addNegation a)) h
      cases h2
      obtain ⟨h3, h4⟩ := ih.1 g _ hg h1
      exact addNegation_plain h4 h3
  | sum a b iha ihb =>
    refine ⟨?_, by intro a h; cases h⟩
    intro g r hg h
    by_cases hb : ∃ b', b = .neg b'
    · obtain ⟨b', rfl⟩ := hb
      rw [addExpression] at h
      obtain ⟨s, g', h1, h2⟩ := bind_pair (f := fun s (g : Graph) => addExpression b' g >>= fun p =>
        .ok (p.2.addDifference s p.1)) h
      obtain ⟨s', g'', h3, h4⟩ := bind_pair (f := fun a (b : Graph) => .ok (b.addDifference s a)) h2
      cases h4
      obtain ⟨h5, h6⟩ := iha.1 g _ hg h1
      obtain ⟨h7, h8⟩ := ihb.2 _ rfl g' _ h6 h3
      exact addDifference_plain h8 h5
    · have : addExpression (.sum a b) g = (addExpression a g >>= fun p => addExpression b p.2 >>=
          fun q => .ok (q.2.addSum p.1 q.1)) := by
        cases b with
        | neg b' => exact absurd ⟨b', rfl⟩ hb
        | _ => rfl
      rw [this] at h
      obtain ⟨s, g', h1, h2⟩ := bind_pair (f := fun s (g : Graph) => addExpression b g >>= fun p =>
        .ok (p.2.addSum s p.1)) h
      obtain ⟨s', g'', h3, h4⟩ := bind_pair (f := fun a (b : Graph) => .ok (b.addSum s a)) h2
      cases h4
      obtain ⟨h5, h6⟩ := iha.1 g _ hg h1
      obtain ⟨h7, h8⟩ := ihb.1 g' _ h6 h3
      exact addSum_plain h8 h5 h7
  | product a b iha ihb =>
    refine ⟨?_, by intro a h; cases h⟩
    intro g r hg h
    rw [addExpression] at h
    obtain ⟨s, g', h1, h2⟩ := bind_pair (f := fun s (g : Graph) => addExpression b g >>= fun p =>
      .ok (p.2.addProduct s p.1)) h
    obtain ⟨s', g'', h3, h4⟩ := bind_pair (f := fun a (b : Graph) => .ok (b.addProduct s a)) h2
    cases h4
    obtain ⟨h5, h6⟩ := iha.1 g _ hg h1
    obtain ⟨h7, h8⟩ := ihb.1 g' _ h6 h3
    exact addProduct_plain h8 h5 h7
  | scaled a f ih =>
    refine ⟨?_, by intro a h; cases h⟩
    intro g r hg h
    rw [addExpression] at h
    split_ifs at h
    · cases h
      exact ⟨trivial, hg⟩
    · exact ih.1 g r hg h
    · obtain ⟨s, g', h1, h2⟩ := bind_pair (f := fun s (g' : Graph) =>
        .ok (g'.addCalculation (.mul s (g.addConstant f).1))) h
      cases h2
      obtain ⟨h5, h6⟩ := ih.1 _ _ (addConstant_plain hg f).2 h1
      exact addCalculation_plain h6 trivial

theorem addExpressions_plain : ∀ (es : List Expr) (g : Graph) (rs : List ValueSource) (g' : Graph),
    AllPlain g → addExpressions es g = .ok (rs, g') → AllPlain g' := by
  intro es
  induction es with
  | nil => intro g rs g' hg h; cases h; exact hg
  | cons e es ih =>
    intro g rs g' hg h
    rw [addExpressions] at h
    obtain ⟨s, g1, h1, h2⟩ := bind_pair (f := fun s (g : Graph) => addExpressions es g >>= fun p =>
      .ok (s :: p.1, p.2)) h
    obtain ⟨s', g2, h3, h4⟩ := bind_pair (f := fun a (b : Graph) => .ok (s :: a, b)) h2
    cases h4
    exact ih _ _ _ ((addExpression_plain e).1 g _ hg h1).2 h3

/-- A calculation that is not there is put at the end. -/
theorem addCalculation_last {g : Graph} {c : Calculation} (h : ∀ p ∈ g.calculations, p.1 ≠ c) :
    (g.addCalculation c).1 = .intermediate g.numIntermediates ∧
    (g.addCalculation c).2.calculations.getLast? = some (c, g.numIntermediates) ∧
    (g.addCalculation c).2.calculations = g.calculations ++ [(c, g.numIntermediates)] := by
  unfold addCalculation
  rw [List.find?_eq_none.2 (by intro p hp; simpa using h p hp)]
  simp

theorem evaluate_last {g : Graph} {x idx size vals} (h : Good g x idx size vals)
    {c : Calculation} {v : Fr} (hn : ∀ p ∈ g.calculations, p.1 ≠ c)
    (hv : c.evaluate (ValueSource.get (g.rots idx size) g.constants vals x) = .ok v)
    {data : List Fr} (hd : data.length = (g.addCalculation c).2.numIntermediates) :
    ∃ data', data'.length = data.length ∧
      (g.addCalculation c).2.evaluate data x idx size = .ok (v, data') := by
  obtain ⟨vals', h1, h2, h3, h4⟩ := addCalculation_adds h c v hv
  obtain ⟨h5, h6, -⟩ := addCalculation_last hn
  rw [h5] at h4
  exact ⟨vals', by rw [h3.len, hd, h3.num], evaluate_ok h3 hd h6 h4⟩

section
variable {x : GraphInput} {cg : Grid} {nf na ni nc n : Nat}

theorem addCompressed_ok (hs : Shows x cg nf na ni nc n) (hn : 0 < n) (idx : Nat) (es : List Expr)
    (hm : ∀ e ∈ es, Mentions nf na ni nc e) (g : Graph) (vals : List Fr) (hg : Good g x idx n vals) :
    ∃ r, addCompressed es g = .ok r ∧ Adds g x idx n r
      (horner x.theta 0 (es.map fun e => e.eval n cg idx)) vals := by
  obtain ⟨rs, g', vals', h1, h2, h3, h4, h5⟩ := addExpressions_ok hs hn idx es hm g vals hg
  refine ⟨g'.addCalculation (.horner (.constant 0) rs .theta), ?_, .step h2 h3
    (addCalculation_adds h4 _ _ ?_)⟩
  · rw [addCompressed, h1]
    rfl
  · have h0 : ValueSource.get (g'.rots idx n) g'.constants vals' x (.constant 0) = .ok 0 :=
      Val.const0 h4
    simp only [Calculation.evaluate, h0]
    exact hornerLoop_ok _ _ h5 _

theorem addCompressed_plain (es : List Expr) (g : Graph) (r : ValueSource × Graph)
    (hg : AllPlain g) (h : addCompressed es g = .ok r) : IsRef r.1 ∧ AllPlain r.2 := by
  rw [addCompressed] at h
  obtain ⟨s, g1, h1, h2⟩ := bind_pair (f := fun s (g : Graph) =>
    .ok (g.addCalculation (.horner (.constant 0) s .theta))) h
  cases h2
  exact addCalculation_plain (addExpressions_plain es g _ _ hg h1) (by intro h; cases h)

theorem ofGates_ok (gates : List (List Expr)) (hn : 0 < n) :
    (∀ gate ∈ gates, ∀ e ∈ gate, Mentions nf na ni nc e) → (∃ x, Shows x cg nf na ni nc n) →
    ∃ G, ofGates gates = .ok G ∧ ∀ x, Shows x cg nf na ni nc n → ∀ idx data,
      data.length = G.numIntermediates → ∃ data', data'.length = data.length ∧
        G.evaluate data x idx n =
          .ok (horner x.y x.previous (gates.flatten.map fun e => e.eval n cg idx), data') := by
  intro hm ⟨x0, hs0⟩
  have hm' : ∀ e ∈ gates.flatten, Mentions nf na ni nc e := by
    intro e he
    obtain ⟨g, hg, h⟩ := List.mem_flatten.1 he
    exact hm g hg e h
  obtain ⟨rs, g', -, h1, -⟩ := addExpressions_ok hs0 hn 0 gates.flatten hm' {} []
    (good_default x0 0 n)
  refine ⟨(g'.addCalculation (.horner .previousValue rs .y)).2, by rw [ofGates, h1]; rfl, ?_⟩
  intro x hs idx data hd
  obtain ⟨rs', g'', vals', h1', h2, h3, h4, h5⟩ := addExpressions_ok hs hn idx gates.flatten hm' {} []
    (good_default x idx n)
  rw [h1] at h1'
  cases h1'
  have hp : AllPlain g' := addExpressions_plain _ _ _ _ (by intro c hc; cases hc) h1
  refine evaluate_last h4 ?_ ?_ hd
  · intro p hp' hc
    have := hp p hp'
    rw [hc] at this
    exact this rfl
  · simp only [Calculation.evaluate, ValueSource.get]
    exact hornerLoop_ok _ _ h5 _

theorem ofLookup_ok (l : Lookup) (hn : 0 < n) (hi : ∀ e ∈ l.input, Mentions nf na ni nc e)
    (ht : ∀ e ∈ l.table, Mentions nf na ni nc e) : (∃ x, Shows x cg nf na ni nc n) →
    ∃ G, ofLookup l = .ok G ∧ ∀ x, Shows x cg nf na ni nc n → ∀ idx data,
      data.length = G.numIntermediates → ∃ data', data'.length = data.length ∧
        G.evaluate data x idx n =
          .ok ((horner x.theta 0 (l.input.map fun e => e.eval n cg idx) + x.beta) *
            (horner x.theta 0 (l.table.map fun e => e.eval n cg idx) + x.gamma), data') := by
  intro ⟨x0, hs0⟩
  obtain ⟨⟨s1, g1⟩, e1, v1, -, -, k1, -⟩ := addCompressed_ok hs0 hn 0 l.input hi {} []
    (good_default x0 0 n)
  obtain ⟨⟨s2, g2⟩, e2, -⟩ := addCompressed_ok hs0 hn 0 l.table ht g1 v1 k1
  have p0 : AllPlain ({} : Graph) := by intro c hc; cases hc
  obtain ⟨r1, p1⟩ := addCompressed_plain _ _ _ p0 e1
  obtain ⟨r2, p2⟩ := addCompressed_plain _ _ _ p1 e2
  obtain ⟨r3, p3⟩ := addCalculation_plain p2 (c := .add s2 .gamma) (by intro h; cases h)
  have hnew : ∀ p ∈ (g2.addCalculation (.add s2 .gamma)).2.calculations, p.1 ≠ .add s1 .beta := by
    intro p hp hc
    have := p3 p hp
    rw [hc] at this
    exact this rfl
  obtain ⟨q1, q2, q3⟩ := addCalculation_last hnew
  refine ⟨(((g2.addCalculation (.add s2 .gamma)).2.addCalculation (.add s1 .beta)).2.addCalculation
    (.mul ((g2.addCalculation (.add s2 .gamma)).2.addCalculation (.add s1 .beta)).1
      (g2.addCalculation (.add s2 .gamma)).1)).2,
    by rw [ofLookup, e1]; show (addCompressed l.table g1 >>= _) = _; rw [e2]; rfl, ?_⟩
  intro x hs idx data hd
  obtain ⟨_, e1', v1, x1, y1, k1, w1⟩ := addCompressed_ok hs hn idx l.input hi {} []
    (good_default x idx n)
  rw [e1] at e1'
  cases e1'
  obtain ⟨_, e2', v2, x2, y2, k2, w2⟩ := addCompressed_ok hs hn idx l.table ht g1 v1 k1
  rw [e2] at e2'
  cases e2'
  have w1 := w1.mono x2 y2
  obtain ⟨v3, x3, y3, k3, w3⟩ := addCalculation_adds k2 (.add s2 .gamma)
    (horner x.theta 0 (l.table.map fun e => e.eval n cg idx) + x.gamma)
    (by unfold Val at w2; simp only [Calculation.evaluate, w2]; rfl)
  have w1 := w1.mono x3 y3
  obtain ⟨v4, x4, y4, k4, w4⟩ := addCalculation_adds k3 (.add s1 .beta)
    (horner x.theta 0 (l.input.map fun e => e.eval n cg idx) + x.beta)
    (by unfold Val at w1; simp only [Calculation.evaluate, w1]; rfl)
  have w3 := w3.mono x4 y4
  refine evaluate_last k4 ?_ ?_ hd
  · -- a product of the newest intermediate cannot have been there
    intro p hp hc
    rw [q3] at hp
    rcases List.mem_append.1 hp with hp | hp
    · obtain ⟨i, hi, e⟩ := List.mem_iff_getElem.1 hp
      obtain ⟨c, t⟩ := p
      simp only at hc
      have e' : (g2.addCalculation (.add s2 .gamma)).2.calculations[i]? = some (c, t) := by
        rw [List.getElem?_eq_getElem hi, e]
      have hl : i < v3.length := by rw [k3.len]; exact hi
      have := k3.value i c t _ e' (List.getElem?_eq_getElem hl)
      rw [hc, q1] at this
      simp only [Calculation.evaluate, ValueSource.get] at this
      rw [k3.num] at this
      have h0 : indexList (v3.take i)
          (g2.addCalculation (.add s2 .gamma)).2.calculations.length = .error .index := by
        unfold indexList
        rw [List.getElem?_eq_none (by simp; omega)]
      rw [h0] at this
      cases this
    · simp at hp
      rw [hp] at hc
      cases hc
  · unfold Val at w3 w4
    simp only [Calculation.evaluate, w3, w4]
    rfl

end

end Verif.Graph

import Verif.Model.Layout

/-! Effect of region operations (helper for the property theorems). -/

namespace Verif

/-- The value an operation writes to an advice cell. -/
def Op.value (c o : Nat) : Op → Option Fr
  | .advice c' o' v => if c = c' ∧ o = o' then some v else none
  | .fromInstance _ _ c' o' v => if c = c' ∧ o = o' then some v else none
  | _ => none

/-- The last value a list of operations writes to an advice cell. -/
def valueAt : List Op → Nat → Nat → Option Fr
  | [], _, _ => none
  | o :: os, c, r => (valueAt os c r).or (o.value c r)

/-- Whether an operation enables the selector with index `i` in row `r`. -/
def Op.enables (i r : Nat) : Op → Bool
  | .enable s o => decide (i = s.index ∧ r = o)
  | _ => false

/-- Whether a list of operations enables a selector. -/
def selAt (os : List Op) (i r : Nat) : Bool := os.any (Op.enables i r)

/-- The copies an operation makes (region at row 0, all regions at row 0). -/
def Op.copies : Op → List ((Col × Nat) × (Col × Nat))
  | .fromInstance i r c o _ => [((.advice c, o), (.instance_ i, r))]
  | .equal x y => [((x.col, x.offset), (y.col, y.offset))]
  | _ => []

/-- Whether an operation succeeds (region at row 0). -/
def Op.fits (usable : Nat) (perm : List Col) (k : Nat) : Op → Prop
  | .enable _ o => o < usable
  | .advice _ o _ => o < usable
  | .fromInstance i r c o _ => r < usable ∧ o < usable ∧ .advice c ∈ perm ∧ .instance_ i ∈ perm
  | .equal x y => x.region < k ∧ y.region < k ∧ x.offset < usable ∧ y.offset < usable ∧
      x.col ∈ perm ∧ y.col ∈ perm

theorem valueAt_append (a b : List Op) (c r : Nat) :
    valueAt (a ++ b) c r = (valueAt b c r).or (valueAt a c r) := by
  induction a with
  | nil => simp [valueAt]
  | cons o a ih => simp only [List.cons_append, valueAt, ih]; rw [Option.or_assoc]

theorem selAt_append (a b : List Op) (i r : Nat) :
    selAt (a ++ b) i r = (selAt a i r || selAt b i r) := by
  simp [selAt]

theorem valueAt_none {os : List Op} {c : Nat} (h : ∀ o ∈ os, ∀ r, o.value c r = none) (r : Nat) :
    valueAt os c r = none := by
  induction os with
  | nil => rfl
  | cons o os ih =>
    simp only [valueAt]
    rw [ih (fun o ho => h o (List.mem_cons_of_mem _ ho)), h o (by simp)]; rfl

theorem selAt_false {os : List Op} {i : Nat} (h : ∀ o ∈ os, ∀ r, o.enables i r = false) (r : Nat) :
    selAt os i r = false := by
  unfold selAt
  rw [List.any_eq_false]
  intro o ho
  rw [h o ho]; simp

/-- The region columns of a list of operations are among `cols`. -/
def Within (cols : List RegionColumn) (os : List Op) : Prop :=
  ∀ o ∈ os, ∀ c, o.column = some c → c ∈ cols

theorem Within.value_none {cols : List RegionColumn} {os : List Op} (h : Within cols os) {c : Nat}
    (hc : RegionColumn.col (.advice c) ∉ cols) (r : Nat) : valueAt os c r = none := by
  refine valueAt_none ?_ r
  intro o ho r
  have := h o ho
  cases o with
  | advice c' o' v =>
    simp only [Op.value]
    by_cases e : c = c'
    · subst e; exact absurd (this _ rfl) hc
    · rw [if_neg (by simp [e])]
  | fromInstance i r' c' o' v =>
    simp only [Op.value]
    by_cases e : c = c'
    · subst e; exact absurd (this _ rfl) hc
    · rw [if_neg (by simp [e])]
  | enable s o => rfl
  | equal x y => rfl

theorem Within.sel_false {cols : List RegionColumn} {os : List Op} (h : Within cols os) {i : Nat}
    (hc : ∀ b, RegionColumn.sel ⟨i, b⟩ ∉ cols) (r : Nat) : selAt os i r = false := by
  refine selAt_false ?_ r
  intro o ho r
  have := h o ho
  cases o with
  | enable s o =>
    simp only [Op.enables]
    by_cases e : i = s.index
    · subst e; exact absurd (this _ rfl) (hc s.simple)
    · simp [e]
  | _ => rfl

/-- Values of a table written row by row. -/
theorem valueAt_rows {α : Type} (f : Nat → α → List Op) (c d : Nat) (v : α → Fr)
    (h : ∀ i x o, valueAt (f i x) c o = if o = i + d then some (v x) else none) (xs : List α) :
    ∀ k o, valueAt ((xs.zipIdx k).flatMap fun x => f x.2 x.1) c o =
      if o < k + d then none else (xs[o - (k + d)]?).map v := by
  induction xs with
  | nil => intro k o; simp [valueAt]
  | cons x xs ih =>
    intro k o
    rw [List.zipIdx_cons, List.flatMap_cons, valueAt_append, ih, h]
    by_cases h1 : o < k + d
    · rw [if_pos (by omega), if_neg (by omega), if_pos h1]; rfl
    · by_cases h2 : o = k + d
      · rw [if_pos (by omega), if_pos h2, if_neg h1, h2]; simp
      · rw [if_neg (by omega), if_neg h2, if_neg h1]
        rw [show o - (k + d) = (o - (k + 1 + d)) + 1 by omega, List.getElem?_cons_succ]
        simp

/-- Selectors of a table enabled row by row. -/
theorem selAt_rows {α : Type} (f : Nat → α → List Op) (i : Nat) (p : Nat → Bool)
    (h : ∀ k x o, selAt (f k x) i o = (decide (o = k) && p k)) (xs : List α) :
    ∀ k o, selAt ((xs.zipIdx k).flatMap fun x => f x.2 x.1) i o =
      (decide (k ≤ o ∧ o < k + xs.length) && p o) := by
  induction xs with
  | nil => intro k o; simp [selAt]
  | cons x xs ih =>
    intro k o
    rw [List.zipIdx_cons, List.flatMap_cons, selAt_append, ih, h]
    by_cases h1 : o = k
    · subst h1; simp
    · have : decide (k ≤ o ∧ o < k + (x :: xs).length) = decide (k + 1 ≤ o ∧ o < k + 1 + xs.length) := by
        simp only [decide_eq_decide, List.length_cons]; omega
      rw [this]; simp [h1]

namespace Assembly

/-- The assembly after a list of operations in a region at row 0. -/
def after (a : Assembly) (os : List Op) : Assembly :=
  { a with
    advice := fun c r => (valueAt os c r).getD (a.advice c r)
    selector := fun i r => selAt os i r || a.selector i r
    copies := a.copies ++ os.flatMap Op.copies }

theorem after_nil (a : Assembly) : a.after [] = a := by
  cases a; simp [after, valueAt, selAt]

theorem after_cons (a : Assembly) (o : Op) (os : List Op) :
    (a.after [o]).after os = a.after (o :: os) := by
  unfold after
  simp only
  congr 1
  · funext c r
    simp only [valueAt]
    cases valueAt os c r <;> simp
  · funext i r
    simp only [selAt, List.any_cons, List.any_nil, Bool.or_false]
    cases o.enables i r <;> simp
  · simp

/-- All regions start at row 0. -/
def AtZero (a : Assembly) : Prop := ∀ s ∈ a.starts, s = 0

theorem position_ok {a : Assembly} (h : a.AtZero) {c : Cell} (hc : c.region < a.starts.length) :
    a.position c = .ok (c.col, c.offset) := by
  unfold position
  rw [List.getElem?_eq_getElem hc, h _ (List.getElem_mem hc)]
  simp

theorem position_error {a : Assembly} {c : Cell} (hc : ¬ c.region < a.starts.length) :
    a.position c = .error .panic := by
  unfold position
  rw [List.getElem?_eq_none (by omega)]

theorem op_ok {a : Assembly} (h : a.AtZero) {o : Op}
    (hf : o.fits a.usable a.permutation a.starts.length) : op 0 a o = .ok (a.after [o]) := by
  cases o with
  | enable s o =>
    have hf' : o < a.usable := hf
    simp only [op, enable, Nat.zero_add]
    rw [if_pos hf']
    unfold after
    congr 2
    · funext i r; unfold update; simp [selAt, Op.enables]
    · simp [Op.copies]
  | advice c o v =>
    have hf' : o < a.usable := hf
    simp only [op, assignAdvice, Nat.zero_add]
    rw [if_pos hf']
    unfold after
    congr 2
    · funext i r; unfold update; simp only [valueAt, Op.value]
      by_cases e : i = c ∧ r = o <;> simp [e]
    · simp [Op.copies]
  | fromInstance i r c o v =>
    obtain ⟨h1, h2, h3, h4⟩ := hf
    simp only [op, assignAdvice, Nat.zero_add]
    rw [if_pos h1, if_pos h2]
    simp only [bind, Except.bind, copy]
    rw [if_pos ⟨h2, h1⟩, if_pos ⟨h3, h4⟩]
    unfold after
    congr 2
    funext i r; unfold update; simp only [valueAt, Op.value]
    by_cases e : i = c ∧ r = o <;> simp [e]
  | equal x y =>
    obtain ⟨h1, h2, h3, h4, h5, h6⟩ := hf
    simp only [op]
    rw [position_ok h h1, position_ok h h2]
    simp only [bind, Except.bind, copy]
    rw [if_pos ⟨h3, h4⟩, if_pos ⟨h5, h6⟩]
    rfl

theorem ops_ok : ∀ (os : List Op) {a : Assembly}, a.AtZero →
    (∀ o ∈ os, o.fits a.usable a.permutation a.starts.length) → ops 0 os a = .ok (a.after os) := by
  intro os
  induction os with
  | nil => intro a _ _; rw [after_nil]; rfl
  | cons o os ih =>
    intro a h hf
    unfold ops
    rw [op_ok h (hf o (by simp))]
    simp only [bind, Except.bind]
    rw [ih (a := a.after [o]) h (fun o' ho => hf o' (List.mem_cons_of_mem _ ho)), after_cons]

/-- Operations that succeed fit. -/
theorem op_fits {a a' : Assembly} (h : a.AtZero) {o : Op} (ho : op 0 a o = .ok a') :
    o.fits a.usable a.permutation a.starts.length := by
  cases o with
  | enable s o =>
    simp only [op, enable, Nat.zero_add] at ho
    split_ifs at ho with h1
    exact h1
  | advice c o v =>
    simp only [op, assignAdvice, Nat.zero_add] at ho
    split_ifs at ho with h1
    exact h1
  | fromInstance i r c o v =>
    simp only [op, assignAdvice, Nat.zero_add] at ho
    by_cases h1 : r < a.usable
    · rw [if_pos h1] at ho
      by_cases h2 : o < a.usable
      · rw [if_pos h2] at ho
        simp only [bind, Except.bind, copy] at ho
        rw [if_pos ⟨h2, h1⟩] at ho
        split_ifs at ho with h3
        exact ⟨h1, h2, h3.1, h3.2⟩
      · rw [if_neg h2] at ho; cases ho
    · rw [if_neg h1] at ho; cases ho
  | equal x y =>
    simp only [op] at ho
    by_cases h1 : x.region < a.starts.length
    · by_cases h2 : y.region < a.starts.length
      · rw [position_ok h h1, position_ok h h2] at ho
        simp only [bind, Except.bind, copy] at ho
        split_ifs at ho with h3 h4
        exact ⟨h1, h2, h3.1, h3.2, h4.1, h4.2⟩
      · exfalso
        rw [position_ok h h1] at ho
        rw [position_error h2] at ho
        cases ho
    · exfalso
      rw [position_error h1] at ho
      cases ho

theorem ops_fits : ∀ (os : List Op) {a a' : Assembly}, a.AtZero → ops 0 os a = .ok a' →
    ∀ o ∈ os, o.fits a.usable a.permutation a.starts.length := by
  intro os
  induction os with
  | nil => intro a a' _ _ o ho; cases ho
  | cons o os ih =>
    intro a a' h hr o' ho'
    unfold ops at hr
    cases hx : op 0 a o with
    | error e => rw [hx] at hr; cases hr
    | ok b =>
      have hf := op_fits h hx
      rcases List.mem_cons.1 ho' with rfl | ho'
      · exact hf
      · rw [hx] at hr
        simp only [bind, Except.bind] at hr
        rw [op_ok h hf] at hx
        cases hx
        exact ih (a := a.after [o]) h hr o' ho'

theorem foldl_max_zero : ∀ (l : List Nat), (∀ x ∈ l, x = 0) → l.foldl max 0 = 0 := by
  intro l
  induction l with
  | nil => intro _; rfl
  | cons x l ih =>
    intro h
    rw [List.foldl_cons, h x (by simp)]
    exact ih (fun y hy => h y (List.mem_cons_of_mem _ hy))

theorem startRow_zero {a : Assembly} {cols : List RegionColumn} (h : ∀ c ∈ cols, a.used c = 0) :
    a.startRow cols = 0 := by
  refine foldl_max_zero _ ?_
  intro x hx
  obtain ⟨c, hc, rfl⟩ := List.mem_map.1 hx
  exact h c hc

/-- The assembly with a region placed at row 0. -/
def placed (a : Assembly) (os : List Op) : Assembly :=
  { a with
    starts := a.starts ++ [0]
    used := fun c => if c ∈ regionColumns os then regionRows os else a.used c }

theorem mem_regionColumns {cols : List RegionColumn} {os : List Op} (h : Within cols os)
    {c : RegionColumn} (hc : c ∈ regionColumns os) : c ∈ cols := by
  obtain ⟨o, ho, hoc⟩ := List.mem_filterMap.1 hc
  exact h o ho c hoc

theorem region_eq {a : Assembly} {os : List Op} {cols : List RegionColumn} (hw : Within cols os)
    (hu : ∀ c ∈ cols, a.used c = 0) : a.region os = ops 0 os (a.placed os) := by
  unfold region placed
  have : a.startRow (regionColumns os) = 0 :=
    startRow_zero (fun c hc => hu c (mem_regionColumns hw hc))
  simp only [this, Nat.zero_add]

theorem placed_atZero {a : Assembly} (h : a.AtZero) (os : List Op) : (a.placed os).AtZero := by
  intro s hs
  rcases List.mem_append.1 hs with hs | hs
  · exact h s hs
  · simpa using hs

end Assembly

end Verif

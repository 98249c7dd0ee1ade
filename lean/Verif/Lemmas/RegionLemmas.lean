import Verif.Lemmas.LoadLemmas
import Verif.Spec.Regions

/-! Placement of regions (helper for the property theorems). -/

namespace Verif

open Spec

theorem foldl_max_le (l : List Nat) : ∀ (b m : Nat), l.foldl max b ≤ m ↔ b ≤ m ∧ ∀ x ∈ l, x ≤ m := by
  induction l with
  | nil => intro b m; simp
  | cons x l ih =>
    intro b m
    rw [List.foldl_cons, ih]
    simp only [List.mem_cons, forall_eq_or_imp]
    rw [Nat.max_le, and_assoc]

theorem foldl_max_mem (l : List Nat) : ∀ b : Nat, l.foldl max b = b ∨ l.foldl max b ∈ l := by
  induction l with
  | nil => intro b; simp
  | cons x l ih =>
    intro b
    rw [List.foldl_cons]
    rcases ih (max b x) with h | h
    · rw [h]
      rcases Nat.le_total b x with h' | h'
      · right; rw [Nat.max_eq_right h']; simp
      · left; exact Nat.max_eq_left h'
    · right; exact List.mem_cons_of_mem _ h

theorem regionRows_height (b : List Op) : Height b (regionRows b) := by
  unfold regionRows
  constructor
  · intro o ho
    exact ((foldl_max_le _ 0 _).1 (Nat.le_refl _)).2 _ (List.mem_map_of_mem ho)
  · rcases foldl_max_mem (b.map Op.rows) 0 with h | h
    · exact .inl h
    · obtain ⟨o, ho, e⟩ := List.mem_map.1 h
      exact .inr ⟨o, ho, e⟩

theorem height_unique {b : List Op} {h h' : Nat} (a : Height b h) (a' : Height b h') : h = h' := by
  rcases a.2 with e | ⟨o, ho, e⟩ <;> rcases a'.2 with e' | ⟨o', ho', e'⟩
  · omega
  · have := a.1 _ ho'; omega
  · have := a'.1 _ ho; omega
  · have := a.1 _ ho'; have := a'.1 _ ho; omega

theorem uses_column {s r : Nat} {c : RegionColumn} {o : Op} (h : Uses s c r o) :
    o.column = some c ∧ s ≤ r ∧ r < s + o.rows := by
  cases o with
  | equal x y => exact h.elim
  | _ => obtain ⟨rfl, rfl⟩ := h; exact ⟨rfl, by omega, by simp only [Op.rows]; omega⟩

theorem valueAt_lastWrite {b : List Op} {c o : Nat} {v : Fr} (h : LastWrite b c o v) :
    valueAt b c o = some v := by
  obtain ⟨pre, op, post, rfl, hw, hn⟩ := h
  have hpost : valueAt post c o = none := by
    clear hw
    induction post with
    | nil => rfl
    | cons x post ih =>
      simp only [valueAt]
      rw [ih (fun y hy => hn y (List.mem_cons_of_mem _ hy))]
      have := hn x (by simp)
      cases x with
      | advice c' o' v' =>
        simp only [Op.value, Option.none_or]
        rw [if_neg]; rintro ⟨rfl, rfl⟩; exact this v' ⟨rfl, rfl, rfl⟩
      | fromInstance i r c' o' v' =>
        simp only [Op.value, Option.none_or]
        rw [if_neg]; rintro ⟨rfl, rfl⟩; exact this v' ⟨rfl, rfl, rfl⟩
      | enable s o => rfl
      | equal x y => rfl
  rw [valueAt_append]
  simp only [valueAt, hpost, Option.none_or]
  cases op with
  | advice c' o' v' => obtain ⟨rfl, rfl, rfl⟩ := hw; simp [Op.value]
  | fromInstance i r c' o' v' => obtain ⟨rfl, rfl, rfl⟩ := hw; simp [Op.value]
  | enable s o => exact hw.elim
  | equal x y => exact hw.elim

namespace Assembly

theorem copy_frame {a a' : Assembly} {l r : Col × Nat} (h : a.copy l r = .ok a') :
    a'.starts = a.starts ∧ a'.used = a.used ∧ a'.advice = a.advice ∧ a'.selector = a.selector := by
  unfold copy at h
  split_ifs at h
  cases h
  exact ⟨rfl, rfl, rfl, rfl⟩

/-- The effect of one operation of a region at `start`. -/
theorem op_frame {a a' : Assembly} {s : Nat} {o : Op} (h : op s a o = .ok a') :
    a'.starts = a.starts ∧ a'.used = a.used ∧
    (∀ c r, a'.advice c r = if s ≤ r then (o.value c (r - s)).getD (a.advice c r)
      else a.advice c r) ∧
    (∀ i r, a'.selector i r = ((decide (s ≤ r) && o.enables i (r - s)) || a.selector i r)) := by
  cases o with
  | enable t o =>
    simp only [op, enable] at h
    split_ifs at h
    cases h
    refine ⟨rfl, rfl, ?_, ?_⟩
    · intro c r; simp [Op.value]
    · intro i r
      simp only [update, Op.enables]
      by_cases e : i = t.index ∧ r = s + o
      · obtain ⟨rfl, rfl⟩ := e; simp
      · rw [if_neg e]
        have : ¬ (s ≤ r ∧ i = t.index ∧ r - s = o) := by
          rintro ⟨h1, h2, h3⟩; exact e ⟨h2, by omega⟩
        have h2 : (decide (s ≤ r) && decide (i = t.index ∧ r - s = o)) = false := by
          rw [← Bool.decide_and]; exact decide_eq_false this
        rw [h2]; rfl
  | advice c o v =>
    simp only [op, assignAdvice] at h
    split_ifs at h
    cases h
    refine ⟨rfl, rfl, ?_, ?_⟩
    · intro i r
      simp only [update, Op.value]
      by_cases e : i = c ∧ r = s + o
      · obtain ⟨rfl, rfl⟩ := e; simp
      · rw [if_neg e]
        by_cases h1 : s ≤ r
        · rw [if_pos h1, if_neg (by rintro ⟨h2, h3⟩; exact e ⟨h2, by omega⟩)]; rfl
        · rw [if_neg h1]
    · intro i r; simp [Op.enables]
  | fromInstance i r c o v =>
    simp only [op] at h
    split_ifs at h with h1
    obtain ⟨b, hb, h⟩ := bind_ok.1 h
    obtain ⟨e1, e2, e3, e4⟩ := copy_frame h
    rw [e1, e2, e3, e4]
    simp only [assignAdvice] at hb
    split_ifs at hb
    cases hb
    refine ⟨rfl, rfl, ?_, ?_⟩
    · intro i r
      simp only [update, Op.value]
      by_cases e : i = c ∧ r = s + o
      · obtain ⟨rfl, rfl⟩ := e; simp
      · rw [if_neg e]
        by_cases h1 : s ≤ r
        · rw [if_pos h1, if_neg (by rintro ⟨h2, h3⟩; exact e ⟨h2, by omega⟩)]; rfl
        · rw [if_neg h1]
    · intro i r; simp [Op.enables]
  | equal x y =>
    simp only [op] at h
    obtain ⟨p, hp, h⟩ := bind_ok.1 h
    obtain ⟨q, hq, h⟩ := bind_ok.1 h
    obtain ⟨e1, e2, e3, e4⟩ := copy_frame h
    rw [e1, e2, e3, e4]
    refine ⟨rfl, rfl, ?_, ?_⟩
    · intro c r; simp [Op.value]
    · intro i r; simp [Op.enables]

theorem ops_frame : ∀ (os : List Op) {a a' : Assembly} {s : Nat}, ops s os a = .ok a' →
    a'.starts = a.starts ∧ a'.used = a.used ∧
    (∀ c r, a'.advice c r = if s ≤ r then (valueAt os c (r - s)).getD (a.advice c r)
      else a.advice c r) ∧
    (∀ i r, a'.selector i r = ((decide (s ≤ r) && selAt os i (r - s)) || a.selector i r)) := by
  intro os
  induction os with
  | nil =>
    intro a a' s h
    cases h
    exact ⟨rfl, rfl, fun c r => by simp [valueAt], fun i r => by simp [selAt]⟩
  | cons o os ih =>
    intro a a' s h
    unfold ops at h
    obtain ⟨b, hb, h⟩ := bind_ok.1 h
    obtain ⟨e1, e2, e3, e4⟩ := op_frame hb
    obtain ⟨f1, f2, f3, f4⟩ := ih h
    refine ⟨f1.trans e1, f2.trans e2, ?_, ?_⟩
    · intro c r
      rw [f3, e3]
      by_cases h1 : s ≤ r
      · simp only [if_pos h1, valueAt]
        cases valueAt os c (r - s) <;> simp
      · simp only [if_neg h1]
    · intro i r
      rw [f4, e4]
      simp only [selAt, List.any_cons]
      cases decide (s ≤ r) <;> cases o.enables i (r - s) <;> simp

theorem region_frame {a a' : Assembly} {b : List Op} (h : a.region b = .ok a') :
    let s := a.startRow (regionColumns b)
    a'.starts = a.starts ++ [s] ∧
    (a'.used = fun c => if c ∈ regionColumns b then s + regionRows b else a.used c) ∧
    (∀ c r, a'.advice c r = if s ≤ r then (valueAt b c (r - s)).getD (a.advice c r)
      else a.advice c r) ∧
    (∀ i r, a'.selector i r = ((decide (s ≤ r) && selAt b i (r - s)) || a.selector i r)) :=
  ops_frame b h

/-- What holds after a list of regions. -/
structure Placed (blocks : List (List Op)) (a : Assembly) : Prop where
  count : a.starts.length = blocks.length
  above : ∀ (i : Nat) (b : List Op) (s : Nat) (c : RegionColumn), blocks[i]? = some b → a.starts[i]? = some s → c ∈ regionColumns b →
    s + regionRows b ≤ a.used c
  reached : ∀ c, a.used c = 0 ∨ ∃ (i : Nat) (b : List Op) (s : Nat), blocks[i]? = some b ∧
    a.starts[i]? = some s ∧ c ∈ regionColumns b ∧ s + regionRows b = a.used c
  apart : ∀ (i j : Nat) (b b' : List Op) (s s' : Nat) (c : RegionColumn), i < j → blocks[i]? = some b → blocks[j]? = some b' →
    a.starts[i]? = some s → a.starts[j]? = some s' → c ∈ regionColumns b →
    c ∈ regionColumns b' → s + regionRows b ≤ s'
  tight : ∀ (j : Nat) (b' : List Op) (s' : Nat), blocks[j]? = some b' → a.starts[j]? = some s' →
    s' = 0 ∨ ∃ (i : Nat) (b : List Op) (s : Nat) (c : RegionColumn), i < j ∧ blocks[i]? = some b ∧
      a.starts[i]? = some s ∧ c ∈ regionColumns b ∧ c ∈ regionColumns b' ∧ s + regionRows b = s'
  kept : ∀ (i : Nat) (b : List Op) (s c o : Nat) (v : Fr), blocks[i]? = some b →
    a.starts[i]? = some s → valueAt b c o = some v → a.advice c (s + o) = v
  selected : ∀ t r, a.selector t r = true ↔ ∃ (i : Nat) (b : List Op) (s : Nat),
    blocks[i]? = some b ∧ a.starts[i]? = some s ∧ s ≤ r ∧ selAt b t (r - s) = true

theorem valueAt_column {b : List Op} {c o : Nat} {v : Fr} (h : valueAt b c o = some v) :
    RegionColumn.col (.advice c) ∈ regionColumns b ∧ o < regionRows b := by
  induction b with
  | nil => simp [valueAt] at h
  | cons x b ih =>
    have hmono : regionRows b ≤ regionRows (x :: b) := by
      have h1 := regionRows_height (x :: b)
      rcases (regionRows_height b).2 with e | ⟨y, hy, e⟩
      · omega
      · have := h1.1 y (List.mem_cons_of_mem _ hy); omega
    have hx := (regionRows_height (x :: b)).1 x (by simp)
    simp only [valueAt] at h
    cases h' : valueAt b c o with
    | some w =>
      obtain ⟨h1, h2⟩ := ih (by rw [h'] at h ⊢; simpa using h)
      refine ⟨?_, by omega⟩
      unfold regionColumns at h1 ⊢
      obtain ⟨y, hy, e⟩ := List.mem_filterMap.1 h1
      exact List.mem_filterMap.2 ⟨y, List.mem_cons_of_mem _ hy, e⟩
    | none =>
      rw [h', Option.none_or] at h
      cases x with
      | advice c' o' v' =>
        simp only [Op.value] at h
        split_ifs at h with e
        obtain ⟨rfl, rfl⟩ := e
        simp only [Op.rows] at hx
        exact ⟨List.mem_filterMap.2 ⟨_, List.mem_cons_self, rfl⟩, by omega⟩
      | fromInstance i r c' o' v' =>
        simp only [Op.value] at h
        split_ifs at h with e
        obtain ⟨rfl, rfl⟩ := e
        simp only [Op.rows] at hx
        exact ⟨List.mem_filterMap.2 ⟨_, List.mem_cons_self, rfl⟩, by omega⟩
      | enable s o => simp [Op.value] at h
      | equal x y => simp [Op.value] at h

theorem getElem?_snoc {α : Type} {l : List α} {x y : α} {i : Nat} :
    (l ++ [x])[i]? = some y ↔ l[i]? = some y ∨ (i = l.length ∧ x = y) := by
  rcases Nat.lt_trichotomy i l.length with h | h | h
  · rw [List.getElem?_append_left h]
    constructor
    · exact .inl
    · rintro (h' | ⟨h', -⟩)
      · exact h'
      · omega
  · subst h; simp
  · rw [List.getElem?_eq_none (by simp; omega), List.getElem?_eq_none (by omega)]
    simp; omega

theorem startRow_le {a : Assembly} {cols : List RegionColumn} {c : RegionColumn} (h : c ∈ cols) :
    a.used c ≤ a.startRow cols :=
  ((foldl_max_le _ 0 _).1 (Nat.le_refl _)).2 _ (List.mem_map_of_mem h)

theorem startRow_mem (a : Assembly) (cols : List RegionColumn) :
    a.startRow cols = 0 ∨ ∃ c ∈ cols, a.used c = a.startRow cols := by
  rcases foldl_max_mem (cols.map a.used) 0 with h | h
  · exact .inl h
  · obtain ⟨c, hc, e⟩ := List.mem_map.1 h
    exact .inr ⟨c, hc, e⟩

theorem Placed.snoc {blocks : List (List Op)} {a a' : Assembly} {b : List Op}
    (p : Placed blocks a) (h : a.region b = .ok a') : Placed (blocks ++ [b]) a' := by
  obtain ⟨e1, e2, e3, e4⟩ := region_frame h
  generalize hs : a.startRow (regionColumns b) = s at e1 e2 e3 e4
  have hle : ∀ c, c ∈ regionColumns b → a.used c ≤ s := fun c hc => hs ▸ startRow_le hc
  have hlt : ∀ {i : Nat} {b : List Op}, blocks[i]? = some b → i < blocks.length := by
    intro i b h
    by_contra hh
    rw [List.getElem?_eq_none (by omega)] at h; cases h
  constructor
  · rw [e1]; simp [p.count]
  · intro i b' s' c hb hs' hc
    rw [e1] at hs'
    rw [e2]
    show _ ≤ if c ∈ regionColumns b then s + regionRows b else a.used c
    rcases getElem?_snoc.1 hb with hb | ⟨rfl, rfl⟩
    · rcases getElem?_snoc.1 hs' with hs' | ⟨hi, -⟩
      · have := p.above i b' s' c hb hs' hc
        by_cases hcb : c ∈ regionColumns b
        · rw [if_pos hcb]; have := hle c hcb; omega
        · rw [if_neg hcb]; exact this
      · have := hlt hb; rw [p.count] at hi; omega
    · rcases getElem?_snoc.1 hs' with hs' | ⟨-, rfl⟩
      · rw [← p.count, List.getElem?_eq_none (Nat.le_refl _)] at hs'; cases hs'
      · rw [if_pos hc]
  · intro c
    rw [e1, e2]
    show (if c ∈ regionColumns b then s + regionRows b else a.used c) = 0 ∨ ∃ _, _
    by_cases hcb : c ∈ regionColumns b
    · right
      refine ⟨blocks.length, b, s, by simp, by rw [← p.count]; simp, hcb, ?_⟩
      show _ = if c ∈ regionColumns b then s + regionRows b else a.used c
      rw [if_pos hcb]
    · rw [if_neg hcb]
      rcases p.reached c with h0 | ⟨i, b', s', hb, hs', hc, e⟩
      · exact .inl h0
      · right
        refine ⟨i, b', s', getElem?_snoc.2 (.inl hb), getElem?_snoc.2 (.inl hs'), hc, ?_⟩
        show _ = if c ∈ regionColumns b then s + regionRows b else a.used c
        rw [if_neg hcb]; exact e
  · intro i j b1 b2 s1 s2 c hij h1 h2 h3 h4 hc1 hc2
    rw [e1] at h3 h4
    rcases getElem?_snoc.1 h2 with h2 | ⟨rfl, rfl⟩
    · have := hlt h2
      rcases getElem?_snoc.1 h4 with h4 | ⟨hi, -⟩
      · rcases getElem?_snoc.1 h1 with h1 | ⟨rfl, -⟩
        · rcases getElem?_snoc.1 h3 with h3 | ⟨hi, -⟩
          · exact p.apart i j b1 b2 s1 s2 c hij h1 h2 h3 h4 hc1 hc2
          · rw [p.count] at hi; omega
        · omega
      · rw [p.count] at hi; omega
    · rcases getElem?_snoc.1 h4 with h4 | ⟨-, rfl⟩
      · rw [← p.count, List.getElem?_eq_none (Nat.le_refl _)] at h4; cases h4
      · rcases getElem?_snoc.1 h1 with h1 | ⟨rfl, -⟩
        · rcases getElem?_snoc.1 h3 with h3 | ⟨hi, -⟩
          · have := p.above i b1 s1 c h1 h3 hc1
            have := hle c hc2
            omega
          · rw [p.count] at hi; omega
        · omega
  · intro j b2 s2 h2 h4
    rw [e1] at h4 ⊢
    rcases getElem?_snoc.1 h2 with h2 | ⟨rfl, rfl⟩
    · have := hlt h2
      rcases getElem?_snoc.1 h4 with h4 | ⟨hi, -⟩
      · rcases p.tight j b2 s2 h2 h4 with h0 | ⟨i, b1, s1, c, hij, h1, h3, r⟩
        · exact .inl h0
        · exact .inr ⟨i, b1, s1, c, hij, getElem?_snoc.2 (.inl h1), getElem?_snoc.2 (.inl h3), r⟩
      · rw [p.count] at hi; omega
    · rcases getElem?_snoc.1 h4 with h4 | ⟨-, rfl⟩
      · rw [← p.count, List.getElem?_eq_none (Nat.le_refl _)] at h4; cases h4
      · rcases startRow_mem a (regionColumns b) with h0 | ⟨c, hc, e⟩
        · left; omega
        · rcases p.reached c with h0 | ⟨i, b1, s1, h1, h3, hc1, e'⟩
          · left; omega
          · right
            exact ⟨i, b1, s1, c, hlt h1, getElem?_snoc.2 (.inl h1), getElem?_snoc.2 (.inl h3), hc1,
              hc, by omega⟩
  · intro i b1 s1 c o v h1 h3 hv
    rw [e1] at h3
    rw [e3]
    rcases getElem?_snoc.1 h1 with h1 | ⟨rfl, rfl⟩
    · rcases getElem?_snoc.1 h3 with h3 | ⟨hi, -⟩
      · have hk := p.kept i b1 s1 c o v h1 h3 hv
        obtain ⟨hc1, ho⟩ := valueAt_column hv
        have ha := p.above i b1 s1 _ h1 h3 hc1
        by_cases hsr : s ≤ s1 + o
        · rw [if_pos hsr]
          cases hv' : valueAt b c (s1 + o - s) with
          | none => exact hk
          | some w =>
            exfalso
            have := hle _ (valueAt_column hv').1
            omega
        · rw [if_neg hsr]; exact hk
      · have := hlt h1; rw [p.count] at hi; omega
    · rcases getElem?_snoc.1 h3 with h3 | ⟨-, rfl⟩
      · rw [← p.count, List.getElem?_eq_none (Nat.le_refl _)] at h3; cases h3
      · rw [if_pos (by omega), Nat.add_sub_cancel_left, hv]; rfl
  · intro t r
    rw [e4, Bool.or_eq_true, Bool.and_eq_true, decide_eq_true_eq, p.selected, e1]
    constructor
    · rintro (⟨h1, h2⟩ | ⟨i, b1, s1, h1, h3, h⟩)
      · exact ⟨blocks.length, b, s, by simp, by rw [← p.count]; simp, h1, h2⟩
      · exact ⟨i, b1, s1, getElem?_snoc.2 (.inl h1), getElem?_snoc.2 (.inl h3), h⟩
    · rintro ⟨i, b1, s1, h1, h3, h⟩
      rcases getElem?_snoc.1 h1 with h1 | ⟨rfl, rfl⟩
      · rcases getElem?_snoc.1 h3 with h3 | ⟨hi, -⟩
        · exact .inr ⟨i, b1, s1, h1, h3, h⟩
        · have := hlt h1; rw [p.count] at hi; omega
      · rcases getElem?_snoc.1 h3 with h3 | ⟨-, rfl⟩
        · rw [← p.count, List.getElem?_eq_none (Nat.le_refl _)] at h3; cases h3
        · exact .inl h

theorem regions_placed {usable : Nat} {perm : List Col} (blocks : List (List Op)) :
    ∀ {a : Assembly}, ({ usable := usable, permutation := perm } : Assembly).regions blocks = .ok a →
      Placed blocks a := by
  induction blocks using List.reverseRecOn with
  | nil =>
    intro a h
    cases h
    constructor <;> simp
  | append_singleton blocks b ih =>
    intro a h
    unfold regions at h
    rw [List.foldlM_append] at h
    obtain ⟨a1, h1, h2⟩ := bind_ok.1 h
    obtain ⟨a2, h2, h3⟩ := bind_ok.1 h2
    cases h3
    exact (ih h1).snoc h2

end Assembly

end Verif

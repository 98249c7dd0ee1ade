import Verif.Spec.MockProver
import Verif.Lemmas.RegionLemmas
import Verif.Lemmas.LoadLemmas

/-! What the mock prover records during synthesis (helper for the property theorems). -/

namespace Verif

open Spec

/-- What is recorded of a region. -/
def MockRegion.of (s : Nat) (os : List Op) : MockRegion := os.foldl (MockRegion.record s) {}

namespace MockState

theorem ops_eq (s : Nat) : ∀ (os : List Op) (st : MockState) (cur : MockRegion),
    ops s os st cur = (Assembly.ops s os st.asm).map fun a =>
      ({ st with asm := a, advice := os.foldl (mark s) st.advice }, os.foldl (MockRegion.record s) cur)
  | [], _, _ => rfl
  | o :: os, st, cur => by
    rw [ops, Assembly.ops]
    cases h : Assembly.op s st.asm o with
    | error e => rfl
    | ok a => exact ops_eq s os _ _

theorem region_eq (st : MockState) (os : List Op) :
    st.region os = (st.asm.region os).map fun a =>
      { st with
        asm := a
        advice := os.foldl (mark (st.asm.startRow (regionColumns os))) st.advice
        regions := st.regions ++ [MockRegion.of (st.asm.startRow (regionColumns os)) os] } := by
  unfold region Assembly.region
  dsimp only
  rw [ops_eq]
  dsimp only
  generalize Assembly.ops _ os _ = x
  cases x <;> rfl

theorem mark_iff (s : Nat) : ∀ (os : List Op) (f : Nat → Nat → Bool) (c r : Nat),
    os.foldl (mark s) f c r = true ↔ f c r = true ∨ AssignsIn os s (.advice c, r)
  | [], f, c, r => by simp [AssignsIn]
  | o :: os, f, c, r => by
    rw [List.foldl_cons, mark_iff s os]
    have key : mark s f o c r = true ↔ f c r = true ∨ AssignsIn [o] s (.advice c, r) := by
      cases o with
      | enable t o => simp [mark, AssignsIn]
      | equal x y => simp [mark, AssignsIn]
      | advice c' o v =>
        simp only [mark, Assembly.update, AssignsIn, Prod.mk.injEq, Col.advice.injEq,
          List.mem_singleton, Op.advice.injEq, reduceCtorEq, exists_false, or_false]
        constructor
        · intro h
          split_ifs at h with h1
          · exact .inr ⟨c', o, ⟨h1.1, h1.2⟩, v, rfl, rfl, rfl⟩
          · exact .inl h
        · rintro (h | ⟨c'', o', ⟨h1, h2⟩, v', h3, h4, h5⟩)
          · split_ifs
            · rfl
            · exact h
          · rw [if_pos ⟨h1.trans h3, by rw [h2, h4]⟩]
      | fromInstance i ir c' o v =>
        simp only [mark, Assembly.update, AssignsIn, Prod.mk.injEq, Col.advice.injEq,
          List.mem_singleton, Op.fromInstance.injEq, reduceCtorEq, exists_false, false_or]
        constructor
        · intro h
          split_ifs at h with h1
          · exact .inr ⟨c', o, ⟨h1.1, h1.2⟩, i, ir, v, rfl, rfl, rfl, rfl, rfl⟩
          · exact .inl h
        · rintro (h | ⟨c'', o', ⟨h1, h2⟩, i', ir', v', -, -, h3, h4, -⟩)
          · split_ifs
            · rfl
            · exact h
          · rw [if_pos ⟨h1.trans h3, by rw [h2, h4]⟩]
    rw [key, or_assoc]
    refine or_congr Iff.rfl ?_
    simp only [AssignsIn, List.mem_cons, List.not_mem_nil, or_false]
    constructor
    · rintro (⟨c', o', h1, h2 | h2⟩ | ⟨c', o', h1, h2 | h2⟩)
      · exact ⟨c', o', h1, .inl (h2.imp fun _ h => .inl h)⟩
      · obtain ⟨i, ir, v, h⟩ := h2
        exact ⟨c', o', h1, .inr ⟨i, ir, v, .inl h⟩⟩
      · exact ⟨c', o', h1, .inl (h2.imp fun _ h => .inr h)⟩
      · obtain ⟨i, ir, v, h⟩ := h2
        exact ⟨c', o', h1, .inr ⟨i, ir, v, .inr h⟩⟩
    · rintro ⟨c', o', h1, ⟨v, h | h⟩ | ⟨i, ir, v, h | h⟩⟩
      · exact .inl ⟨c', o', h1, .inl ⟨v, h⟩⟩
      · exact .inr ⟨c', o', h1, .inl ⟨v, h⟩⟩
      · exact .inl ⟨c', o', h1, .inr ⟨i, ir, v, h⟩⟩
      · exact .inr ⟨c', o', h1, .inr ⟨i, ir, v, h⟩⟩

end MockState

namespace MockRegion

theorem assignsIn_cons {s : Nat} {o : Op} {os : List Op} {x : Col × Nat} :
    AssignsIn (o :: os) s x ↔ AssignsIn [o] s x ∨ AssignsIn os s x := by
  simp only [AssignsIn, List.mem_cons, List.not_mem_nil, or_false]
  constructor
  · rintro ⟨c', o', h1, ⟨v, h | h⟩ | ⟨i, ir, v, h | h⟩⟩
    · exact .inl ⟨c', o', h1, .inl ⟨v, h⟩⟩
    · exact .inr ⟨c', o', h1, .inl ⟨v, h⟩⟩
    · exact .inl ⟨c', o', h1, .inr ⟨i, ir, v, h⟩⟩
    · exact .inr ⟨c', o', h1, .inr ⟨i, ir, v, h⟩⟩
  · rintro (⟨c', o', h1, h2 | h2⟩ | ⟨c', o', h1, h2 | h2⟩)
    · exact ⟨c', o', h1, .inl (h2.imp fun _ h => .inl h)⟩
    · obtain ⟨i, ir, v, h⟩ := h2
      exact ⟨c', o', h1, .inr ⟨i, ir, v, .inl h⟩⟩
    · exact ⟨c', o', h1, .inl (h2.imp fun _ h => .inr h)⟩
    · obtain ⟨i, ir, v, h⟩ := h2
      exact ⟨c', o', h1, .inr ⟨i, ir, v, .inr h⟩⟩

theorem fold_facts (s : Nat) : ∀ (os : List Op) (cur : MockRegion),
    (∀ e, e ∈ (os.foldl (record s) cur).enabled ↔ e ∈ cur.enabled ∨
      ∃ o, Op.enable e.1 o ∈ os ∧ e.2 = s + o) ∧
    (∀ x, x ∈ (os.foldl (record s) cur).cells ↔ x ∈ cur.cells ∨ AssignsIn os s x)
  | [], cur => by simp [AssignsIn]
  | o :: os, cur => by
    rw [List.foldl_cons]
    obtain ⟨h1, h2⟩ := fold_facts s os (record s cur o)
    constructor
    · intro e
      rw [h1]
      have key : e ∈ (record s cur o).enabled ↔ e ∈ cur.enabled ∨
          ∃ o', o = Op.enable e.1 o' ∧ e.2 = s + o' := by
        cases o with
        | enable t o =>
          obtain ⟨e1, e2⟩ := e
          simp only [record, enable, List.mem_append, List.mem_singleton, Prod.mk.injEq,
            Op.enable.injEq]
          constructor
          · rintro (h | ⟨rfl, rfl⟩)
            · exact .inl h
            · exact .inr ⟨o, ⟨rfl, rfl⟩, rfl⟩
          · rintro (h | ⟨o', ⟨rfl, rfl⟩, rfl⟩)
            · exact .inl h
            · exact .inr ⟨rfl, rfl⟩
        | advice c o v => simp [record, assign]
        | fromInstance i r c o v => simp [record, assign]
        | equal x y => simp [record]
      rw [key, or_assoc]
      refine or_congr Iff.rfl ?_
      simp only [List.mem_cons]
      constructor
      · rintro (⟨o', h, h'⟩ | ⟨o', h, h'⟩)
        · exact ⟨o', .inl h.symm, h'⟩
        · exact ⟨o', .inr h, h'⟩
      · rintro ⟨o', h | h, h'⟩
        · exact .inl ⟨o', h.symm, h'⟩
        · exact .inr ⟨o', h, h'⟩
    · intro x
      rw [h2, assignsIn_cons, ← or_assoc]
      refine or_congr ?_ Iff.rfl
      cases o with
      | enable t o => simp [record, enable, AssignsIn]
      | equal y z => simp [record, AssignsIn]
      | advice c o v =>
        simp only [record, assign, List.mem_append, List.mem_singleton, AssignsIn, Op.advice.injEq,
          reduceCtorEq, exists_false, or_false]
        refine or_congr Iff.rfl ⟨fun h => ⟨c, o, h, v, rfl, rfl, rfl⟩, ?_⟩
        rintro ⟨c', o', h, v', rfl, rfl, -⟩
        exact h
      | fromInstance i r c o v =>
        simp only [record, assign, List.mem_append, List.mem_singleton, AssignsIn,
          Op.fromInstance.injEq, reduceCtorEq, exists_false, false_or]
        refine or_congr Iff.rfl ⟨fun h => ⟨c, o, h, i, r, v, rfl, rfl, rfl, rfl, rfl⟩, ?_⟩
        rintro ⟨c', o', h, i', r', v', -, -, rfl, rfl, -⟩
        exact h

theorem of_enabled {s : Nat} {os : List Op} {e : Selector × Nat} :
    e ∈ (of s os).enabled ↔ ∃ o, Op.enable e.1 o ∈ os ∧ e.2 = s + o := by
  unfold of
  rw [(fold_facts s os {}).1]
  simp

theorem of_cells {s : Nat} {os : List Op} {x : Col × Nat} :
    x ∈ (of s os).cells ↔ AssignsIn os s x := by
  unfold of
  rw [(fold_facts s os {}).2]
  simp

end MockRegion

namespace Assembly

/-- What the copies of an assembly keep to. -/
def CopiesIn (usable : Nat) (perm : List Col) (l : List ((Col × Nat) × (Col × Nat))) : Prop :=
  ∀ p ∈ l, (p.1.1 ∈ perm ∧ p.1.2 < usable) ∧ (p.2.1 ∈ perm ∧ p.2.2 < usable)

/-- What one operation keeps and changes. -/
structure OpFacts (s : Nat) (os : List Op) (a a' : Assembly) : Prop where
  usable : a'.usable = a.usable
  permutation : a'.permutation = a.permutation
  starts : a'.starts = a.starts
  fixed : a'.fixed = a.fixed
  advice : ∀ c r, ¬ AssignsIn os s (.advice c, r) → a'.advice c r = a.advice c r
  inside : ∀ c r, AssignsIn os s (.advice c, r) → r < a.usable
  selector : ∀ i r, a'.selector i r = true ↔ a.selector i r = true ∨
    ∃ t o, Op.enable t o ∈ os ∧ t.index = i ∧ r = s + o
  enabled : ∀ t o, Op.enable t o ∈ os → s + o < a.usable
  copies : CopiesIn a.usable a.permutation a.copies → CopiesIn a.usable a.permutation a'.copies

theorem copy_facts {a a' : Assembly} {l r : Col × Nat} (h : a.copy l r = .ok a') :
    a' = { a with copies := a.copies ++ [(l, r)] } ∧
      (l.1 ∈ a.permutation ∧ l.2 < a.usable) ∧ (r.1 ∈ a.permutation ∧ r.2 < a.usable) := by
  unfold copy at h
  split_ifs at h with h1 h2
  cases h
  exact ⟨rfl, ⟨h2.1, h1.1⟩, h2.2, h1.2⟩

theorem copiesIn_snoc {u : Nat} {perm : List Col} {l : List ((Col × Nat) × (Col × Nat))}
    {p : (Col × Nat) × (Col × Nat)} (h : CopiesIn u perm l)
    (hp : (p.1.1 ∈ perm ∧ p.1.2 < u) ∧ (p.2.1 ∈ perm ∧ p.2.2 < u)) : CopiesIn u perm (l ++ [p]) := by
  intro q hq
  rcases List.mem_append.1 hq with hq | hq
  · exact h q hq
  · rw [List.mem_singleton.1 hq]; exact hp

theorem op_facts {a a' : Assembly} {s : Nat} {o : Op} (h : op s a o = .ok a') :
    OpFacts s [o] a a' := by
  cases o with
  | enable t o =>
    simp only [op, enable] at h
    split_ifs at h with hu
    cases h
    refine ⟨rfl, rfl, rfl, rfl, fun _ _ _ => rfl, ?_, ?_, ?_, id⟩
    · intro c r h; simp [AssignsIn] at h
    · intro i r
      simp only [update, List.mem_singleton, Op.enable.injEq]
      constructor
      · intro h
        split_ifs at h with h1
        · exact .inr ⟨t, o, ⟨rfl, rfl⟩, h1.1.symm, h1.2⟩
        · exact .inl h
      · rintro (h | ⟨t', o', ⟨rfl, rfl⟩, rfl, rfl⟩)
        · split_ifs
          · rfl
          · exact h
        · rw [if_pos ⟨rfl, rfl⟩]
    · intro t' o' h
      simp only [List.mem_singleton, Op.enable.injEq] at h
      rw [h.2]; exact hu
  | advice c o v =>
    simp only [op, assignAdvice] at h
    split_ifs at h with hu
    cases h
    refine ⟨rfl, rfl, rfl, rfl, ?_, ?_, ?_, ?_, id⟩
    · intro c' r h
      simp only [update]
      rw [if_neg]
      rintro ⟨rfl, rfl⟩
      exact h ⟨c', o, rfl, .inl ⟨v, by simp⟩⟩
    · rintro c' r ⟨c'', o', h, ⟨v', h'⟩ | ⟨i, r', v', h'⟩⟩
      · simp only [List.mem_singleton, Op.advice.injEq] at h'
        simp only [Prod.mk.injEq] at h
        rw [h.2, h'.2.1]; exact hu
      · simp at h'
    · intro i r; simp
    · intro t o' h; simp at h
  | fromInstance i ir c o v =>
    simp only [op] at h
    split_ifs at h with h1
    obtain ⟨b, hb, h⟩ := bind_ok.1 h
    simp only [assignAdvice] at hb
    split_ifs at hb with hu
    cases hb
    obtain ⟨rfl, hl, hr⟩ := copy_facts h
    refine ⟨rfl, rfl, rfl, rfl, ?_, ?_, ?_, ?_, fun hc => copiesIn_snoc hc ⟨hl, hr⟩⟩
    · intro c' r h
      simp only [update]
      rw [if_neg]
      rintro ⟨rfl, rfl⟩
      exact h ⟨c', o, rfl, .inr ⟨i, ir, v, by simp⟩⟩
    · rintro c' r ⟨c'', o', h, ⟨v', h'⟩ | ⟨i', r', v', h'⟩⟩
      · simp at h'
      · simp only [List.mem_singleton, Op.fromInstance.injEq] at h'
        simp only [Prod.mk.injEq] at h
        rw [h.2, h'.2.2.2.1]; exact hu
    · intro i r; simp
    · intro t o' h; simp at h
  | equal x y =>
    simp only [op] at h
    obtain ⟨p, hp, h⟩ := bind_ok.1 h
    obtain ⟨q, hq, h⟩ := bind_ok.1 h
    obtain ⟨rfl, hl, hr⟩ := copy_facts h
    refine ⟨rfl, rfl, rfl, rfl, fun _ _ _ => rfl, ?_, ?_, ?_, fun hc => copiesIn_snoc hc ⟨hl, hr⟩⟩
    · intro c r h; simp [AssignsIn] at h
    · intro i r; simp
    · intro t o' h; simp at h

theorem ops_facts (s : Nat) : ∀ (os : List Op) {a a' : Assembly}, ops s os a = .ok a' →
    OpFacts s os a a'
  | [], a, a', h => by
    cases h
    refine ⟨rfl, rfl, rfl, rfl, fun _ _ _ => rfl, ?_, ?_, ?_, id⟩
    · intro c r h; simp [AssignsIn] at h
    · intro i r; simp
    · intro t o' h; simp at h
  | o :: os, a, a', h => by
    unfold ops at h
    obtain ⟨b, hb, h⟩ := bind_ok.1 h
    have f := op_facts hb
    have g := ops_facts s os h
    refine ⟨g.usable.trans f.usable, g.permutation.trans f.permutation, g.starts.trans f.starts,
      g.fixed.trans f.fixed, ?_, ?_, ?_, ?_, ?_⟩
    · intro c r h
      rw [MockRegion.assignsIn_cons, not_or] at h
      rw [g.advice c r h.2, f.advice c r h.1]
    · intro c r h
      rcases MockRegion.assignsIn_cons.1 h with h | h
      · exact f.inside c r h
      · rw [← f.usable]; exact g.inside c r h
    · intro i r
      rw [g.selector, f.selector, or_assoc]
      refine or_congr Iff.rfl ?_
      constructor
      · rintro (⟨t, o', h, h'⟩ | ⟨t, o', h, h'⟩)
        · exact ⟨t, o', by rw [List.mem_singleton] at h; rw [h]; exact List.mem_cons_self .., h'⟩
        · exact ⟨t, o', List.mem_cons_of_mem _ h, h'⟩
      · rintro ⟨t, o', h, h'⟩
        rcases List.mem_cons.1 h with h | h
        · exact .inl ⟨t, o', List.mem_singleton.2 h, h'⟩
        · exact .inr ⟨t, o', h, h'⟩
    · intro t o' h
      rcases List.mem_cons.1 h with h | h
      · exact f.enabled t o' (List.mem_singleton.2 h)
      · rw [← f.usable]; exact g.enabled t o' h
    · intro hc
      have := g.copies
      rw [f.usable, f.permutation] at this
      exact this (f.copies hc)

end Assembly

/-- What a sequence of calls does to the state of the mock prover; `ss` are the first rows of its
regions. -/
structure Ran (steps : List Step) (st st' : MockState) (ss : List Nat) : Prop where
  asm : assembly steps st.asm = .ok st'.asm
  usable : st'.asm.usable = st.asm.usable
  permutation : st'.asm.permutation = st.asm.permutation
  starts : st'.asm.starts = st.asm.starts ++ ss
  length : ss.length = (blocks steps).length
  regions : ∀ r ∈ st'.regions, r ∈ st.regions ∨ r.enabled = [] ∨
    ∃ p ∈ (blocks steps).zip ss, r = MockRegion.of p.2 p.1
  kept : ∀ r ∈ st.regions, r ∈ st'.regions
  added : ∀ p ∈ (blocks steps).zip ss, MockRegion.of p.2 p.1 ∈ st'.regions
  advice : ∀ c r, st'.advice c r = true ↔ st.advice c r = true ∨
    ∃ p ∈ (blocks steps).zip ss, AssignsIn p.1 p.2 (.advice c, r)
  fixed : ∀ c r, st'.fixed c r = true ↔ st.fixed c r = true ∨
    (r < st.asm.usable ∧ ∃ vals, Step.table c vals ∈ steps)
  zeroAdvice : (∀ c r, st.advice c r = false → st.asm.advice c r = 0) →
    ∀ c r, st'.advice c r = false → st'.asm.advice c r = 0
  zeroFixed : (∀ c r, st.fixed c r = false → st.asm.fixed c r = 0) →
    ∀ c r, st'.fixed c r = false → st'.asm.fixed c r = 0
  inside : ∀ p ∈ (blocks steps).zip ss, ∀ c r, AssignsIn p.1 p.2 (.advice c, r) → r < st.asm.usable
  selector : ∀ i r, st'.asm.selector i r = true ↔ st.asm.selector i r = true ∨
    ∃ p ∈ (blocks steps).zip ss, ∃ t o, Op.enable t o ∈ p.1 ∧ t.index = i ∧ r = p.2 + o
  enabled : ∀ p ∈ (blocks steps).zip ss, ∀ t o, Op.enable t o ∈ p.1 → p.2 + o < st.asm.usable
  copies : Assembly.CopiesIn st.asm.usable st.asm.permutation st.asm.copies →
    Assembly.CopiesIn st.asm.usable st.asm.permutation st'.asm.copies

theorem ran_nil (st : MockState) : Ran [] st st [] := by
  constructor <;> first | exact fun r h => .inl h | simp [assembly, blocks]

theorem ran_table {st st' st'' : MockState} {col : Nat} {vals : List Fr} {rest : List Step}
    {ss : List Nat} (h : st.table col vals = .ok st') (hr : Ran rest st' st'' ss) :
    Ran (.table col vals :: rest) st st'' ss := by
  unfold MockState.table at h
  obtain ⟨a, ha, h⟩ := bind_ok.1 h
  cases h
  have hfix : a.usable = st.asm.usable ∧ a.permutation = st.asm.permutation ∧
      a.starts = st.asm.starts ∧ a.advice = st.asm.advice ∧ a.selector = st.asm.selector ∧
      a.copies = st.asm.copies ∧
      (∀ c r, ¬ (c = col ∧ r < st.asm.usable) → a.fixed c r = st.asm.fixed c r) := by
    unfold Assembly.table at ha
    cases vals with
    | nil => cases ha
    | cons v vs =>
      dsimp only at ha
      split_ifs at ha
      cases ha
      refine ⟨rfl, rfl, rfl, rfl, rfl, rfl, ?_⟩
      intro c r h
      dsimp only
      rw [if_neg h]
  obtain ⟨e1, e2, e3, e4, e5, e6, e7⟩ := hfix
  have hE : ((List.range vals.length).foldl (fun r row => r.assign (.fixed col) row)
      ({} : MockRegion)).enabled = [] := by
    have : ∀ (l : List Nat) (r : MockRegion), r.enabled = [] →
        (l.foldl (fun r row => r.assign (.fixed col) row) r).enabled = [] := by
      intro l
      induction l with
      | nil => intro r h; exact h
      | cons x l ih => intro r h; exact ih _ h
    exact this _ _ rfl
  constructor
  · show assembly (.table col vals :: rest) st.asm = _
    rw [assembly, ha]
    exact hr.asm
  · rw [hr.usable]; exact e1
  · rw [hr.permutation]; exact e2
  · rw [hr.starts]; show a.starts ++ ss = _; rw [e3]
  · exact hr.length
  · intro r h
    rcases hr.regions r h with h | h | h
    · rcases List.mem_append.1 h with h | h
      · exact .inl h
      · rw [List.mem_singleton] at h
        exact .inr (.inl (by rw [h]; exact hE))
    · exact .inr (.inl h)
    · exact .inr (.inr h)
  · intro r h
    exact hr.kept r (List.mem_append_left _ h)
  · exact hr.added
  · exact hr.advice
  · intro c r
    rw [hr.fixed]
    show ((if c = col ∧ r < st.asm.usable then true else st.fixed c r) = true ∨ (r < a.usable ∧ _)) ↔ _
    rw [e1]
    constructor
    · rintro (h | ⟨h, v, hv⟩)
      · split_ifs at h with h1
        · exact .inr ⟨h1.2, vals, by rw [h1.1]; exact List.mem_cons_self ..⟩
        · exact .inl h
      · exact .inr ⟨h, v, List.mem_cons_of_mem _ hv⟩
    · rintro (h | ⟨h, v, hv⟩)
      · left
        split_ifs
        · rfl
        · exact h
      · rcases List.mem_cons.1 hv with hv | hv
        · left
          cases hv
          rw [if_pos ⟨rfl, h⟩]
        · exact .inr ⟨h, v, hv⟩
  · intro h
    refine hr.zeroAdvice ?_
    intro c r hc
    show a.advice c r = 0
    rw [e4]
    exact h c r hc
  · intro h
    refine hr.zeroFixed ?_
    intro c r hc
    have hc : (if c = col ∧ r < st.asm.usable then true else st.fixed c r) = false := hc
    split_ifs at hc with h1
    show a.fixed c r = 0
    rw [e7 c r h1]
    exact h c r hc
  · intro p hp c r h
    rw [← e1]; exact hr.inside p hp c r h
  · intro i r
    rw [hr.selector]
    show (a.selector i r = true ∨ _) ↔ _
    rw [e5]
    exact Iff.rfl
  · intro p hp t o h
    rw [← e1]; exact hr.enabled p hp t o h
  · intro h
    have := hr.copies
    simp only [e1, e2, e6] at this
    exact this h

theorem ran_region {st st' st'' : MockState} {os : List Op} {rest : List Step}
    {ss : List Nat} (h : st.region os = .ok st') (hr : Ran rest st' st'' ss) :
    Ran (.region os :: rest) st st'' (st.asm.startRow (regionColumns os) :: ss) := by
  rw [MockState.region_eq] at h
  cases ha : st.asm.region os with
  | error e => rw [ha] at h; cases h
  | ok a =>
    rw [ha] at h
    cases h
    have f := Assembly.ops_facts _ os ha
    generalize hs : st.asm.startRow (regionColumns os) = s at *
    have f1 : a.usable = st.asm.usable := f.usable
    have f2 : a.permutation = st.asm.permutation := f.permutation
    have f3 : a.starts = st.asm.starts ++ [s] := f.starts
    constructor
    · show assembly (.region os :: rest) st.asm = _
      rw [assembly, ha]
      exact hr.asm
    · rw [hr.usable]; exact f1
    · rw [hr.permutation]; exact f2
    · rw [hr.starts]; show a.starts ++ ss = _; rw [f3, List.append_assoc]; rfl
    · show (s :: ss).length = (os :: blocks rest).length
      rw [List.length_cons, List.length_cons, hr.length]
    · intro r h
      rcases hr.regions r h with h | h | ⟨p, hp, h⟩
      · rcases List.mem_append.1 h with h | h
        · exact .inl h
        · rw [List.mem_singleton] at h
          exact .inr (.inr ⟨(os, s), List.mem_cons_self .., h⟩)
      · exact .inr (.inl h)
      · exact .inr (.inr ⟨p, List.mem_cons_of_mem _ hp, h⟩)
    · intro r h
      exact hr.kept r (List.mem_append_left _ h)
    · intro p hp
      rcases List.mem_cons.1 (show p ∈ (os, s) :: (blocks rest).zip ss from hp) with rfl | hp
      · exact hr.kept _ (List.mem_append_right _ (List.mem_singleton.2 rfl))
      · exact hr.added p hp
    · intro c r
      rw [hr.advice]
      show (os.foldl (MockState.mark s) st.advice c r = true ∨ _) ↔
        _ ∨ ∃ p ∈ (os, s) :: (blocks rest).zip ss, _
      rw [MockState.mark_iff, or_assoc]
      simp only [List.mem_cons, exists_eq_or_imp]
    · intro c r
      rw [hr.fixed]
      show (st.fixed c r = true ∨ (r < a.usable ∧ _)) ↔ _
      rw [f1]
      simp only [List.mem_cons, reduceCtorEq, false_or]
    · intro h
      refine hr.zeroAdvice ?_
      intro c r hc
      have hc : os.foldl (MockState.mark s) st.advice c r = false := hc
      rw [← Bool.not_eq_true, MockState.mark_iff, not_or, Bool.not_eq_true] at hc
      show a.advice c r = 0
      rw [f.advice c r hc.2]
      exact h c r hc.1
    · intro h
      refine hr.zeroFixed ?_
      intro c r hc
      show a.fixed c r = 0
      rw [f.fixed]
      exact h c r hc
    · intro p hp c r h
      rcases List.mem_cons.1 (show p ∈ (os, s) :: (blocks rest).zip ss from hp) with rfl | hp
      · exact f.inside c r h
      · rw [← f1]; exact hr.inside p hp c r h
    · intro i r
      rw [hr.selector]
      show (a.selector i r = true ∨ _) ↔ _ ∨ ∃ p ∈ (os, s) :: (blocks rest).zip ss, _
      rw [f.selector, or_assoc]
      simp only [List.mem_cons, exists_eq_or_imp]
    · intro p hp t o h
      rcases List.mem_cons.1 (show p ∈ (os, s) :: (blocks rest).zip ss from hp) with rfl | hp
      · exact f.enabled t o h
      · rw [← f1]; exact hr.enabled p hp t o h
    · intro h
      have := hr.copies
      simp only [f1, f2] at this
      exact this (f.copies h)

theorem ran_instance {st st' st'' : MockState} {c : Cell} {i row : Nat} {rest : List Step}
    {ss : List Nat} (h : st.constrainInstance c i row = .ok st') (hr : Ran rest st' st'' ss) :
    Ran (.constrainInstance c i row :: rest) st st'' ss := by
  unfold MockState.constrainInstance at h
  obtain ⟨a, ha, h⟩ := bind_ok.1 h
  cases h
  have ha' := ha
  unfold Assembly.constrainInstance at ha'
  obtain ⟨p, hp, ha'⟩ := bind_ok.1 ha'
  obtain ⟨rfl, hl, hr'⟩ := Assembly.copy_facts ha'
  constructor
  · show assembly (.constrainInstance c i row :: rest) st.asm = _
    rw [assembly, ha]
    exact hr.asm
  · exact hr.usable
  · exact hr.permutation
  · exact hr.starts
  · exact hr.length
  · exact hr.regions
  · exact hr.kept
  · exact hr.added
  · exact hr.advice
  · intro c r
    rw [hr.fixed]
    simp only [List.mem_cons, reduceCtorEq, false_or]
  · exact hr.zeroAdvice
  · exact hr.zeroFixed
  · exact hr.inside
  · exact hr.selector
  · exact hr.enabled
  · exact fun h => hr.copies (Assembly.copiesIn_snoc h ⟨hl, hr'⟩)

theorem ran : ∀ (steps : List Step) {st st' : MockState}, MockState.run steps st = .ok st' →
    ∃ ss, Ran steps st st' ss
  | [], st, st', h => by cases h; exact ⟨[], ran_nil st⟩
  | .table col vals :: rest, st, st', h => by
    rw [MockState.run] at h
    obtain ⟨b, hb, h⟩ := bind_ok.1 h
    obtain ⟨ss, hr⟩ := ran rest h
    exact ⟨ss, ran_table hb hr⟩
  | .region os :: rest, st, st', h => by
    rw [MockState.run] at h
    obtain ⟨b, hb, h⟩ := bind_ok.1 h
    obtain ⟨ss, hr⟩ := ran rest h
    exact ⟨_, ran_region hb hr⟩
  | .constrainInstance c i r :: rest, st, st', h => by
    rw [MockState.run] at h
    obtain ⟨b, hb, h⟩ := bind_ok.1 h
    obtain ⟨ss, hr⟩ := ran rest h
    exact ⟨ss, ran_instance hb hr⟩

/-- Synthesis in the mock prover fails only where the floor planner does. -/
theorem run_of_assembly : ∀ (steps : List Step) {st : MockState} {a : Assembly},
    assembly steps st.asm = .ok a → ∃ st', MockState.run steps st = .ok st' ∧ st'.asm = a
  | [], st, a, h => by cases h; exact ⟨st, rfl, rfl⟩
  | .table col vals :: rest, st, a, h => by
    rw [assembly] at h
    obtain ⟨b, hb, h⟩ := bind_ok.1 h
    rw [MockState.run, MockState.table, hb]
    exact run_of_assembly rest h
  | .region os :: rest, st, a, h => by
    rw [assembly] at h
    obtain ⟨b, hb, h⟩ := bind_ok.1 h
    rw [MockState.run, MockState.region_eq, hb]
    exact run_of_assembly rest h
  | .constrainInstance c i r :: rest, st, a, h => by
    rw [assembly] at h
    obtain ⟨b, hb, h⟩ := bind_ok.1 h
    rw [MockState.run, MockState.constrainInstance, hb]
    exact run_of_assembly rest h

end Verif

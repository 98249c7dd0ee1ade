import Verif.Lemmas.CompressSound
import Verif.Lemmas.MockRun
import Verif.Lemmas.MockScan
import Verif.Props.Permutation

/-! What the mock prover reports (helper for the property theorems). -/

namespace Verif

open Spec Compress

/-! ### Expressions with replaced selectors -/

theorem cells_eq : ∀ e : Expr, e.cells = queriesIn e
  | .const _ => rfl
  | .selector _ => rfl
  | .fixed _ _ => rfl
  | .advice _ _ => rfl
  | .instance_ _ _ => rfl
  | .challenge _ => rfl
  | .neg a => cells_eq a
  | .sum a b => by rw [Expr.cells, queriesIn, cells_eq a, cells_eq b]
  | .product a b => by rw [Expr.cells, queriesIn, cells_eq a, cells_eq b]
  | .scaled a _ => cells_eq a

theorem selectors_eq : ∀ e : Expr, e.selectors = selectorsIn e
  | .const _ => rfl
  | .selector _ => rfl
  | .fixed _ _ => rfl
  | .advice _ _ => rfl
  | .instance_ _ _ => rfl
  | .challenge _ => rfl
  | .neg a => selectors_eq a
  | .sum a b => by rw [Expr.selectors, selectorsIn, selectors_eq a, selectors_eq b]
  | .product a b => by rw [Expr.selectors, selectorsIn, selectors_eq a, selectors_eq b]
  | .scaled a _ => selectors_eq a

/-- An expression in the values of fixed columns alone. -/
def OnlyFixed (e : Expr) : Prop := selectorsIn e = [] ∧ ∀ q ∈ queriesIn e, ∃ c, q.1 = .fixed c

theorem onlyFixed_replacement (k len j : Nat) : OnlyFixed (replacement (.fixed k 0) len j) := by
  unfold replacement
  have h0 : OnlyFixed (.fixed k 0) := ⟨rfl, by simp [queriesIn]⟩
  generalize List.range len = l
  have : ∀ (l : List Nat) (e : Expr), OnlyFixed e → OnlyFixed (l.foldl (fun e i =>
      if root i ≠ root j then e * (.const (root i) - .fixed k 0) else e) e) := by
    intro l
    induction l with
    | nil => exact fun e h => h
    | cons i l ih =>
      intro e h
      rw [List.foldl_cons]
      refine ih _ ?_
      split_ifs
      · refine ⟨?_, ?_⟩
        · show selectorsIn e ++ ([] ++ []) = []
          rw [h.1]; rfl
        · intro q hq
          have hq : q ∈ queriesIn e ++ ([] ++ [(.fixed k, 0)]) := hq
          rcases List.mem_append.1 hq with hq | hq
          · exact h.2 q hq
          · simp at hq
            exact ⟨k, by rw [hq]⟩
      · exact h
  exact this l _ h0

theorem subst_selectors {rs : List Expr} : ∀ e : Expr,
    (∀ s ∈ selectorsIn e, OnlyFixed (rs.getD s.index (.const 0))) → selectorsIn (e.subst rs) = []
  | .const _, _ => rfl
  | .selector s, h => (h s (by simp [selectorsIn])).1
  | .fixed _ _, _ => rfl
  | .advice _ _, _ => rfl
  | .instance_ _ _, _ => rfl
  | .challenge _, _ => rfl
  | .neg a, h => subst_selectors a h
  | .sum a b, h => by
    rw [Expr.subst, selectorsIn, subst_selectors a fun s hs => h s (List.mem_append_left _ hs),
      subst_selectors b fun s hs => h s (List.mem_append_right _ hs)]
    rfl
  | .product a b, h => by
    rw [Expr.subst, selectorsIn, subst_selectors a fun s hs => h s (List.mem_append_left _ hs),
      subst_selectors b fun s hs => h s (List.mem_append_right _ hs)]
    rfl
  | .scaled a _, h => subst_selectors a h

theorem subst_queries {rs : List Expr} : ∀ e : Expr,
    (∀ s ∈ selectorsIn e, OnlyFixed (rs.getD s.index (.const 0))) →
    ∀ q ∈ queriesIn (e.subst rs), q ∈ queriesIn e ∨ ∃ c, q.1 = .fixed c
  | .const _, _, _, h => .inl h
  | .selector s, h, q, hq => .inr ((h s (by simp [selectorsIn])).2 q hq)
  | .fixed _ _, _, _, h => .inl h
  | .advice _ _, _, _, h => .inl h
  | .instance_ _ _, _, _, h => .inl h
  | .challenge _, _, _, h => .inl h
  | .neg a, h, q, hq => subst_queries a h q hq
  | .sum a b, h, q, hq => by
    rcases List.mem_append.1 hq with hq | hq
    · exact (subst_queries a (fun s hs => h s (List.mem_append_left _ hs)) q hq).imp
        (List.mem_append_left _) id
    · exact (subst_queries b (fun s hs => h s (List.mem_append_right _ hs)) q hq).imp
        (List.mem_append_right _) id
  | .product a b, h, q, hq => by
    rcases List.mem_append.1 hq with hq | hq
    · exact (subst_queries a (fun s hs => h s (List.mem_append_left _ hs)) q hq).imp
        (List.mem_append_left _) id
    · exact (subst_queries b (fun s hs => h s (List.mem_append_right _ hs)) q hq).imp
        (List.mem_append_right _) id
  | .scaled a _, h, q, hq => subst_queries a h q hq

theorem guards_mem {s : Selector} {e : Expr} (h : Guards s e) : s ∈ selectorsIn e := by
  induction h with
  | self => simp [selectorsIn]
  | left _ ih => exact List.mem_append_left _ ih
  | right _ ih => exact List.mem_append_right _ ih
  | neg _ ih => exact ih
  | scaled _ ih => exact ih

namespace Mock

theorem lazy_guard {m : Mock} {row : Nat} {rs : List Expr} {s : Selector}
    (h0 : m.lazy row (rs.getD s.index (.const 0)) = .real 0) {e : Expr} (h : Guards s e) :
    m.lazy row (e.subst rs) = .real 0 := by
  induction h with
  | self => exact h0
  | left _ ih => rw [Expr.subst, lazy_product, ih, MValue.zero_mul]
  | right _ ih => rw [Expr.subst, lazy_product, ih, MValue.mul_comm, MValue.zero_mul]
  | neg _ ih => rw [Expr.subst, lazy, ih]; simp [MValue.neg]
  | scaled _ ih => rw [Expr.subst, lazy, ih]; simp [MValue.scale]

/-- The values of `m` agree with those of the grid, except that advice in unusable rows is poison. -/
structure Agrees (m : Mock) (g : Grid) : Prop where
  pos : 0 < m.n
  fixed : ∀ c r, r < m.n → (m.fixed c r).value = .real (g.fixed c r)
  inside : ∀ c r, r < m.usable → (m.advice c r).value = .real (g.advice c r)
  outside : ∀ c r, ¬ r < m.usable → (m.advice c r).value = .poison
  instance_ : ∀ c r, r < m.n → m.instance_ c r = g.instance_ c r
  challenge : ∀ i, m.challenge i = g.challenge i

theorem rotate_lt {n : Nat} (h : 0 < n) (row : Nat) (rot : Int) : rotate n row rot < n := by
  unfold rotate
  have h1 := Int.emod_lt_of_pos ((row : Int) + rot) (show (0 : Int) < n by omega)
  have h2 := Int.emod_nonneg ((row : Int) + rot) (show (n : Int) ≠ 0 by omega)
  omega

/-- A value the mock prover finds is the value. -/
theorem lazy_eval {m : Mock} {g : Grid} (h : Agrees m g) {row : Nat} : ∀ {e : Expr} {x : Fr},
    m.lazy row e = .real x → e.eval m.n g row = x
  | .const c, x, hx => by rw [lazy] at hx; cases hx; rfl
  | .selector _, x, hx => by rw [lazy] at hx; cases hx
  | .fixed c r, x, hx => by
    rw [lazy, load, h.fixed _ _ (rotate_lt h.pos _ _)] at hx
    cases hx; rfl
  | .advice c r, x, hx => by
    rw [lazy, load] at hx
    by_cases hr : rotate m.n row r < m.usable
    · rw [h.inside _ _ hr] at hx
      cases hx; rfl
    · rw [h.outside _ _ hr] at hx
      cases hx
  | .instance_ c r, x, hx => by
    rw [lazy, load, h.instance_ _ _ (rotate_lt h.pos _ _)] at hx
    cases hx; rfl
  | .challenge i, x, hx => by rw [lazy, h.challenge] at hx; cases hx; rfl
  | .neg a, x, hx => by
    rw [lazy] at hx
    cases ha : m.lazy row a with
    | poison => rw [ha] at hx; cases hx
    | real y => rw [ha] at hx; cases hx; rw [Expr.eval, lazy_eval h ha]
  | .sum a b, x, hx => by
    rw [lazy] at hx
    cases ha : m.lazy row a with
    | poison => rw [ha] at hx; cases hx
    | real y =>
      cases hb : m.lazy row b with
      | poison => rw [ha, hb] at hx; cases hx
      | real z => rw [ha, hb] at hx; cases hx; rw [Expr.eval, lazy_eval h ha, lazy_eval h hb]
  | .product a b, x, hx => by
    rw [lazy_product] at hx
    cases ha : m.lazy row a with
    | poison =>
      cases hb : m.lazy row b with
      | poison => rw [ha, hb] at hx; cases hx
      | real z =>
        rw [ha, hb, MValue.mul] at hx
        split_ifs at hx with hz
        cases hx
        rw [Expr.eval, lazy_eval h hb, hz, mul_zero]
    | real y =>
      cases hb : m.lazy row b with
      | poison =>
        rw [ha, hb, MValue.mul] at hx
        split_ifs at hx with hz
        cases hx
        rw [Expr.eval, lazy_eval h ha, hz, zero_mul]
      | real z => rw [ha, hb] at hx; cases hx; rw [Expr.eval, lazy_eval h ha, lazy_eval h hb]
  | .scaled a f, x, hx => by
    rw [lazy] at hx
    cases ha : m.lazy row a with
    | poison =>
      rw [ha, MValue.scale] at hx
      split_ifs at hx with hz
      cases hx
      rw [Expr.eval, hz, mul_zero]
    | real y => rw [ha] at hx; cases hx; rw [Expr.eval, lazy_eval h ha]

/-- An expression that refers to advice in usable rows only has a value. -/
theorem lazy_inside {m : Mock} {g : Grid} (h : Agrees m g) {row : Nat} : ∀ {e : Expr},
    selectorsIn e = [] → (∀ c rot, (Col.advice c, rot) ∈ queriesIn e → rotate m.n row rot < m.usable) →
      m.lazy row e = .real (e.eval m.n g row)
  | .const c, _, _ => rfl
  | .selector _, h', _ => by simp [selectorsIn] at h'
  | .fixed c r, _, _ => by rw [lazy, load, h.fixed _ _ (rotate_lt h.pos _ _)]; rfl
  | .advice c r, _, hq => by
    rw [lazy, load, h.inside _ _ (hq c r (by simp [queriesIn]))]; rfl
  | .instance_ c r, _, _ => by rw [lazy, load, h.instance_ _ _ (rotate_lt h.pos _ _)]; rfl
  | .challenge i, _, _ => by rw [lazy, h.challenge]; rfl
  | .neg a, hs, hq => by rw [lazy, lazy_inside h (e := a) hs hq]; rfl
  | .sum a b, hs, hq => by
    obtain ⟨h1, h2⟩ := List.append_eq_nil_iff.1 hs
    rw [lazy, lazy_inside h h1 fun c r hc => hq c r (List.mem_append_left _ hc),
      lazy_inside h h2 fun c r hc => hq c r (List.mem_append_right _ hc)]
    rfl
  | .product a b, hs, hq => by
    obtain ⟨h1, h2⟩ := List.append_eq_nil_iff.1 hs
    rw [lazy_product, lazy_inside h h1 fun c r hc => hq c r (List.mem_append_left _ hc),
      lazy_inside h h2 fun c r hc => hq c r (List.mem_append_right _ hc)]
    rfl
  | .scaled a _, hs, hq => by rw [lazy, lazy_inside h (e := a) hs hq]; rfl

end Mock

/-! ### A mock prover that has run -/

/-- The state before synthesis. -/
def MockState.start (cs : CS) (n : Nat) : MockState :=
  { asm := { usable := cs.usableRows n, permutation := cs.permutation } }

/-- The grid with the columns in place of selectors. -/
def Grid.withColumns (g : Grid) (numFixed : Nat) (cols : List (List Fr)) : Grid :=
  { g with fixed := fun i r => if i < numFixed then g.fixed i r
      else ((cols[i - numFixed]?).bind (·[r]?)).getD 0 }

/-- What is known of a mock prover after `run`. -/
structure Made (fuel : Nat) (cs : CS) (n : Nat) (steps : List Step) (ch : Nat → Fr)
    (inst : Nat → List Fr) (m : Mock) (st : MockState) (ss : List Nat) (p : PermAssembly)
    (c : CS.Compressed) (cols : List (List Fr)) (as : List SelectorAssignment) : Prop where
  rows : cs.minimumRows ≤ n
  state : MockState.run steps (MockState.start cs n) = .ok st
  ran : Ran steps (MockState.start cs n) st ss
  copied : PermAssembly.copyAll fuel st.asm.copies (PermAssembly.new n cs.permutation) = .ok (.ok p)
  compressed : cs.compressSelectors (Keygen.activations cs n st.asm) = .ok (c, cols, as)
  mock : m = { n := n
               usable := cs.usableRows n
               cs := c.cs
               queried := cs.gates.map fun g => (g.flatMap Expr.selectors, g.flatMap Expr.cells)
               regions := st.regions
               fixed := fun i r => if i < cs.numFixed then .of (st.fixed i r) (st.asm.fixed i r)
                 else match (cols[i - cs.numFixed]?).bind (·[r]?) with
                   | some v => .assigned v
                   | none => .unassigned
               advice := fun i r => if r < cs.usableRows n then .of (st.advice i r) (st.asm.advice i r)
                 else .poison r
               instance_ := fun i r => (inst i).getD r 0
               challenge := ch
               mapping := p.mapping }

theorem activations_length (cs : CS) (n : Nat) (a : Assembly) :
    (Keygen.activations cs n a).length = cs.numSelectors := by
  unfold Keygen.activations; simp

theorem activations_rows (cs : CS) (n : Nat) (a : Assembly) :
    ∀ act ∈ Keygen.activations cs n a, act.length = n := by
  intro act h
  unfold Keygen.activations at h
  obtain ⟨i, -, rfl⟩ := List.mem_map.1 h
  simp

theorem made_of {fuel : Nat} {cs : CS} {n : Nat} {steps : List Step} {ch : Nat → Fr}
    {inst : Nat → List Fr} {m : Mock} (h : Mock.runSteps fuel cs n steps ch inst = .ok (.ok m)) :
    ∃ st ss p c cols as, Made fuel cs n steps ch inst m st ss p c cols as := by
  unfold Mock.runSteps at h
  by_cases h1 : n < cs.minimumRows
  · rw [if_pos h1] at h; cases h
  rw [if_neg h1] at h
  split_ifs at h with h2
  · cases h
  generalize hr : MockState.run steps _ = r at h
  cases r with
  | error e => cases h
  | ok st =>
    dsimp only at h
    obtain ⟨ss, hss⟩ := ran steps hr
    unfold Mock.of at h
    obtain ⟨x, hx, h⟩ := except_bind.1 h
    cases x with
    | error e => cases h
    | ok p =>
      obtain ⟨⟨c, cols, as⟩, hc, h⟩ := except_bind.1 h
      cases h
      exact ⟨st, ss, p, c, cols, as, ⟨not_lt.1 h1, hr, hss, hx, hc, rfl⟩⟩

namespace Made

variable {fuel : Nat} {cs : CS} {n : Nat} {steps : List Step} {ch : Nat → Fr}
    {inst : Nat → List Fr} {m : Mock} {st : MockState} {ss : List Nat} {p : PermAssembly}
    {c : CS.Compressed} {cols : List (List Fr)} {as : List SelectorAssignment}
    {simple : Nat → Bool} {g : Grid}

theorem usable_pos (h : Made fuel cs n steps ch inst m st ss p c cols as) : 0 < cs.usableRows n := by
  have := h.rows
  unfold CS.minimumRows at this
  unfold CS.usableRows
  omega

theorem usable_lt (h : Made fuel cs n steps ch inst m st ss p c cols as) : cs.usableRows n < n := by
  have := h.rows
  unfold CS.minimumRows at this
  unfold CS.usableRows
  omega

theorem assigned (h : Made fuel cs n steps ch inst m st ss p c cols as) :
    assigned cs n steps = .ok st.asm := h.ran.asm

theorem starts (h : Made fuel cs n steps ch inst m st ss p c cols as) : st.asm.starts = ss := by
  rw [h.ran.starts]; rfl

theorem zeroAdvice (h : Made fuel cs n steps ch inst m st ss p c cols as) (i r : Nat)
    (hf : st.advice i r = false) : st.asm.advice i r = 0 :=
  h.ran.zeroAdvice (fun _ _ _ => rfl) i r hf

theorem zeroFixed (h : Made fuel cs n steps ch inst m st ss p c cols as) (i r : Nat)
    (hf : st.fixed i r = false) : st.asm.fixed i r = 0 :=
  h.ran.zeroFixed (fun _ _ _ => rfl) i r hf

theorem agrees (h : Made fuel cs n steps ch inst m st ss p c cols as)
    (hg : Extends cs n st.asm ch inst g) : m.Agrees (g.withColumns cs.numFixed cols) := by
  have hm := h.mock
  subst hm
  refine ⟨lt_of_le_of_lt (Nat.zero_le _) h.usable_lt, ?_, ?_, ?_, ?_, ?_⟩
  · intro i r _
    show CellValue.value (if _ then _ else _) = .real (if _ then _ else _)
    split_ifs with hi
    · rw [hg.fixed]
      unfold CellValue.of
      split_ifs with hf
      · rfl
      · rw [h.zeroFixed _ _ (by simpa using hf)]; rfl
    · cases (cols[i - cs.numFixed]?).bind (·[r]?) <;> rfl
  · intro i r hr
    have hr : r < cs.usableRows n := hr
    show CellValue.value (if _ then _ else _) = .real (g.advice i r)
    rw [if_pos hr, hg.advice _ _ hr]
    unfold CellValue.of
    split_ifs with hf
    · rfl
    · rw [h.zeroAdvice _ _ (by simpa using hf)]; rfl
  · intro i r hr
    have hr : ¬ r < cs.usableRows n := hr
    show CellValue.value (if _ then _ else _) = _
    rw [if_neg hr]; rfl
  · intro i r _; exact (hg.instance_ i r).symm
  · intro i; exact (hg.challenge i).symm

theorem replaced (hb : Built cs simple) (h : Made fuel cs n steps ch inst m st ss p c cols as)
    (hg : Extends cs n st.asm ch inst g) :
    Replaced cs n (Keygen.activations cs n st.asm) cols g (g.withColumns cs.numFixed cols) := by
  refine ⟨rfl, rfl, rfl, ?_, ?_, ?_⟩
  · intro i hi
    funext r
    show (if _ then _ else _) = _
    rw [if_pos hi]
  · intro i act ha row hrow
    unfold Keygen.activations at ha
    rw [List.getElem?_map] at ha
    by_cases hi : i < cs.numSelectors
    · rw [List.getElem?_range hi] at ha
      simp only [Option.map_some, Option.some.injEq] at ha
      rw [← ha, List.getElem?_map, List.getElem?_range hrow, hg.selector]
      simp
    · rw [List.getElem?_eq_none (by simpa using hi)] at ha
      cases ha
  · intro i col hcol row hrow
    obtain ⟨c', cols', as', hc', hlen⟩ : ∃ c cols as, cs.compressSelectors
        (Keygen.activations cs n st.asm) = .ok (c, cols, as) ∧ ∀ col ∈ cols, col.length = n := by
      refine ⟨c, cols, as, h.compressed, ?_⟩
      obtain ⟨degrees, combos, n', rs, -, hn', hc, rfl, -, -⟩ := compression_facts hb.sane h.compressed
      intro col hcol
      unfold columnsOf at hcol
      obtain ⟨cm, hcm, rfl⟩ := List.mem_map.1 hcol
      have hmem : ∀ t ∈ cm, t ∈ describe (Keygen.activations cs n st.asm) degrees := fun t ht =>
        hc.perm.mem_iff.1 (List.mem_flatten.2 ⟨cm, hcm, ht⟩)
      rw [column_length n' cm fun t ht => hn' t (hmem t ht)]
      obtain ⟨t, ht⟩ := List.exists_mem_of_ne_nil cm (hc.each cm hcm).1
      have h1 := hn' t (hmem t ht)
      have h2 := activations_rows cs n st.asm t.activations
        (List.mem_of_getElem? (mem_describe.1 (hmem t ht)).1)
      omega
    rw [h.compressed] at hc'
    cases hc'
    have hl : col.length = n := hlen col (List.mem_of_getElem? hcol)
    show some (if _ then _ else _) = _
    rw [if_neg (by omega), Nat.add_sub_cancel_left, hcol]
    simp only [Option.bind_some]
    rw [List.getElem?_eq_getElem (by omega)]
    rfl

/-- The replacements of the selectors. -/
theorem rules (hb : Built cs simple) (h : Made fuel cs n steps ch inst m st ss p c cols as) :
    ∃ rs : List Expr,
      m.cs.gates = cs.gates.map (fun g => g.map (Expr.subst rs)) ∧
      m.cs.lookups = cs.lookups.map (fun l => ⟨l.input.map (Expr.subst rs), l.table.map (Expr.subst rs)⟩) ∧
      m.cs.usableRows n = cs.usableRows n ∧ m.cs.permutation = cs.permutation ∧
      (∀ i, i < cs.numSelectors → OnlyFixed (rs.getD i (.const 0))) ∧
      (∀ g, Extends cs n st.asm ch inst g → ∀ row, row < n → ∀ i, i < cs.numSelectors →
        ((rs.getD i (.const 0)).eval n (g.withColumns cs.numFixed cols) row = 0 ↔
          ¬ g.selector i row = true)) ∧
      ∀ g, Extends cs n st.asm ch inst g → ∀ row, row < n → ∀ i, i < cs.numSelectors → simple i = false →
        (rs.getD i (.const 0)).eval n (g.withColumns cs.numFixed cols) row =
          if g.selector i row then 1 else 0 := by
  obtain ⟨degrees, combos, n', rs, -, hn', hc, hcols, hr, hcs⟩ := compression_facts hb.sane h.compressed
  have hm : m.cs = c.cs := by rw [h.mock]
  suffices hall : ∀ g, Extends cs n st.asm ch inst g → ∀ row, row < n → ∀ i, i < cs.numSelectors →
      ((rs.getD i (.const 0)).eval n (g.withColumns cs.numFixed cols) row = 0 ↔
        ¬ g.selector i row = true) ∧ (simple i = false →
      (rs.getD i (.const 0)).eval n (g.withColumns cs.numFixed cols) row =
        if g.selector i row then 1 else 0) by
    refine ⟨rs, ?_, ?_, ?_, ?_, ?_, fun g hg row hrow i hi => (hall g hg row hrow i hi).1,
      fun g hg row hrow i hi => (hall g hg row hrow i hi).2⟩
    · rw [hm, hcs, replaced_gates]
    · rw [hm, hcs, replaced_lookups]
    · rw [hm, hcs, replaced_usable]
    · rw [hm, hcs]
      obtain ⟨qs, e⟩ := allocMany_same cs cols.length
      rw [e]; rfl
    · intro i hi
      obtain ⟨k, j, d, cm, act, -, -, -, -, he, -⟩ := hr.entry i hi
      rw [he]
      exact onlyFixed_replacement _ _ _
  · intro g hg row hrow i hi
    obtain ⟨k, j, d, cm, act, hk, hj, ha, hd, -, -⟩ := hr.entry i hi
    have e1 := activations_rows cs n st.asm act (List.mem_of_getElem? ha)
    have e2 := hn' ⟨i, act, d⟩ (mem_describe.2 ⟨ha, hd⟩)
    have : n' = n := by rw [← e1]; exact e2.symm
    subst this
    have hrep := h.replaced hb hg
    rw [hcols] at hrep ⊢
    exact replacement_value hb.degree hn' hc hr hrep hrow hi

/-- A grid that extends what was assigned. -/
def grid (st : MockState) (ch : Nat → Fr) (inst : Nat → List Fr) : Grid :=
  { advice := st.asm.advice, fixed := st.asm.fixed, instance_ := fun i r => (inst i).getD r 0
    selector := st.asm.selector, challenge := ch }

theorem extends_grid (cs : CS) (n : Nat) (st : MockState) (ch : Nat → Fr) (inst : Nat → List Fr) :
    Extends cs n st.asm ch inst (grid st ch inst) :=
  ⟨fun _ _ _ => rfl, fun _ _ => rfl, fun _ _ => rfl, fun _ _ => rfl, fun _ => rfl⟩

end Made

end Verif

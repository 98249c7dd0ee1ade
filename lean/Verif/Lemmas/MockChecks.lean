import Verif.Lemmas.MockVerdict

/-! Each check of the mock prover, in terms of the circuit (helper for the property theorems). -/

namespace Verif

open Spec

namespace Made

variable {fuel : Nat} {cs : CS} {n : Nat} {steps : List Step} {ch : Nat → Fr}
    {inst : Nat → List Fr} {m : Mock} {st : MockState} {ss : List Nat} {p : PermAssembly}
    {c : CS.Compressed} {cols : List (List Fr)} {as : List SelectorAssignment}
    {simple : Nat → Bool} {g : Grid}

/-! ### Cells assigned in their region -/

theorem forall_zipIdx {α : Type} {l : List α} {P : α → Prop} :
    (∀ x ∈ l.zipIdx, P x.1) ↔ ∀ x ∈ l, P x := by
  constructor
  · intro h x hx
    obtain ⟨i, hi, rfl⟩ := List.mem_iff_getElem.1 hx
    exact h (l[i], i) (List.mem_zipIdx_iff_getElem?.2 (List.getElem?_eq_getElem hi))
  · rintro h ⟨x, i⟩ hx
    exact h x (List.mem_of_getElem? (List.mem_zipIdx_iff_getElem?.1 hx))

theorem selectorErrors_iff (h : Made fuel cs n steps ch inst m st ss p c cols as) :
    m.selectorErrors = .ok [] ↔ Tidy cs n steps st.asm := by
  have e : m.selectorErrors = .ok [] ↔ ∀ r ∈ st.regions, ∀ e ∈ r.enabled, ∀ gate ∈ cs.gates,
      e.1 ∈ gate.flatMap selectorsIn → ∀ q ∈ gate.flatMap queriesIn,
        (q.1, rotate n e.2 q.2) ∈ r.cells := by
    have hm := h.mock
    subst hm
    unfold Mock.selectorErrors
    rw [Mock.collect_nil]
    rw [forall_zipIdx (P := fun r : MockRegion => ∀ e ∈ r.enabled, ∀ gate ∈ cs.gates,
      e.1 ∈ gate.flatMap selectorsIn → ∀ q ∈ gate.flatMap queriesIn,
        (q.1, rotate n e.2 q.2) ∈ r.cells) |>.symm]
    refine forall₂_congr fun r _ => ?_
    rw [Mock.collect_nil]
    refine forall₂_congr fun e _ => ?_
    rw [Mock.collect_nil]
    have key : ∀ (q : (List Selector × List (Col × Int)) × Nat),
        (if e.1 ∈ q.1.1 then
          Mock.collect (fun (c : Col × Int) =>
            if (c.1, rotate n e.2 c.2) ∈ r.1.cells then .ok []
            else match r.1.rows with
              | none => .error .unwrap
              | some _ => .ok [Failure.cellNotAssigned r.2 q.2 e.2 c.1 (rotate n e.2 c.2)]) q.1.2
        else .ok []) = .ok [] ↔ (e.1 ∈ q.1.1 → ∀ c ∈ q.1.2, (c.1, rotate n e.2 c.2) ∈ r.1.cells) := by
      intro q
      split_ifs with hq
      · rw [Mock.collect_nil]
        simp only [hq, true_imp_iff]
        refine forall₂_congr fun c _ => ?_
        split_ifs with hc
        · simp [hc]
        · simp only [hc, iff_false]
          cases r.1.rows <;> simp
      · simp [hq]
    refine (forall₂_congr fun q _ => key q).trans ?_
    rw [forall_zipIdx (P := fun q : List Selector × List (Col × Int) =>
      e.1 ∈ q.1 → ∀ c ∈ q.2, (c.1, rotate n e.2 c.2) ∈ r.1.cells), List.forall_mem_map]
    refine forall₂_congr fun gate _ => ?_
    dsimp only
    rw [show Expr.selectors = selectorsIn from funext selectors_eq,
      show Expr.cells = queriesIn from funext cells_eq]
  rw [e]
  unfold Tidy
  rw [h.starts]
  constructor
  · intro hr q hq s o ho gate hgate hs x hx
    exact MockRegion.of_cells.1 (hr _ (h.ran.added q hq) (s, q.2 + o)
      (MockRegion.of_enabled.2 ⟨o, ho, rfl⟩) gate hgate hs x hx)
  · intro ht r hr e he gate hgate hs x hx
    rcases h.ran.regions r hr with h0 | h0 | ⟨q, hq, rfl⟩
    · exact absurd h0 (List.not_mem_nil)
    · rw [h0] at he; exact absurd he List.not_mem_nil
    · obtain ⟨o, ho, e2⟩ := MockRegion.of_enabled.1 he
      rw [MockRegion.of_cells, e2]
      exact ht q hq e.1 o ho gate hgate hs x hx

/-! ### Gates -/

theorem polyError_nil {gate row : Nat} {e : Expr × Nat} :
    m.polyError gate row e = .ok [] ↔ m.lazy row e.1 = .real 0 := by
  unfold Mock.polyError
  cases hl : m.lazy row e.1 with
  | poison => simp
  | real x =>
    dsimp only
    by_cases h0 : x = 0
    · simp [h0]
    · rw [if_neg h0]
      simp only [MValue.real.injEq, h0, iff_false]
      split_ifs <;> simp

theorem rows_all (h : Made fuel cs n steps ch inst m st ss p c cols as)
    (hu : m.cs.usableRows n = cs.usableRows n) (row : Nat) :
    row ∈ List.range m.usable ++ (List.range m.n).filter (m.cs.usableRows m.n ≤ ·) ↔ row < n := by
  have e1 : m.n = n := by rw [h.mock]
  have e2 : m.usable = cs.usableRows n := by rw [h.mock]
  have := h.usable_lt
  rw [e1, e2, hu]
  simp only [List.mem_append, List.mem_range, List.mem_filter, decide_eq_true_eq]
  omega

theorem gateErrors_iff (h : Made fuel cs n steps ch inst m st ss p c cols as) {rs : List Expr}
    (hgates : m.cs.gates = cs.gates.map (fun g => g.map (Expr.subst rs)))
    (hu : m.cs.usableRows n = cs.usableRows n) :
    m.gateErrors (List.range m.usable) = .ok [] ↔
      ∀ gate ∈ cs.gates, ∀ e ∈ gate, ∀ row, row < n → m.lazy row (e.subst rs) = .real 0 := by
  unfold Mock.gateErrors
  rw [Mock.collect_nil]
  have key : ∀ x : List Expr × Nat, Mock.collect (fun row => Mock.collect (m.polyError x.2 row) x.1.zipIdx)
      (List.range m.usable ++ (List.range m.n).filter (m.cs.usableRows m.n ≤ ·)) = .ok [] ↔
      ∀ e ∈ x.1, ∀ row, row < n → m.lazy row e = .real 0 := by
    intro x
    rw [Mock.collect_nil]
    constructor
    · intro hx e he row hrow
      have := Mock.collect_nil.1 (hx row ((h.rows_all hu row).2 hrow))
      obtain ⟨i, hi, rfl⟩ := List.mem_iff_getElem.1 he
      exact polyError_nil.1 (this (x.1[i], i)
        (List.mem_zipIdx_iff_getElem?.2 (List.getElem?_eq_getElem hi)))
    · intro hx row hrow
      rw [Mock.collect_nil]
      intro e he
      exact polyError_nil.2 (hx e.1 (List.mem_of_getElem? (List.mem_zipIdx_iff_getElem?.1 he)) row
        ((h.rows_all hu row).1 hrow))
  rw [hgates]
  refine (forall₂_congr fun x _ => key x).trans ?_
  rw [forall_zipIdx (P := fun x : List Expr => ∀ e ∈ x, ∀ row, row < n → m.lazy row e = .real 0),
    List.forall_mem_map]
  exact forall₂_congr fun gate _ => List.forall_mem_map

/-! ### Lookups -/

theorem lookups_iff {rs : List Expr}
    (hl : m.cs.lookups = cs.lookups.map
      (fun l => ⟨l.input.map (Expr.subst rs), l.table.map (Expr.subst rs)⟩))
    (hb : Built cs simple) (hu : m.usable = cs.usableRows n) (hp : 0 < cs.usableRows n) :
    (∀ x ∈ m.cs.lookups.zipIdx, m.lookupError (List.range m.usable) x = .ok []) ↔
      ∀ l ∈ cs.lookups, ∀ row, row < cs.usableRows n → ∃ row', row' < cs.usableRows n ∧
        l.input.map (fun e => m.lazy row (e.subst rs)) =
          l.table.map (fun e => m.lazy row' (e.subst rs)) := by
  refine (forall₂_congr fun x _ => Mock.lookupError_nil).trans ?_
  rw [forall_zipIdx (P := fun l : Lookup => l.table.length = l.input.length ∧ m.usable ≠ 0 ∧
    ∀ row ∈ List.range m.usable, ∃ row', row' < m.usable ∧
      l.input.map (m.lazy row) = l.table.map (m.lazy row')), hl, List.forall_mem_map, hu]
  refine forall₂_congr fun l hl => ?_
  simp only [List.length_map, hb.lookups l hl, List.mem_range, List.map_map, true_and]
  exact ⟨fun h => h.2, fun h => ⟨by omega, h⟩⟩

/-! ### Copies -/

/-- What the mock prover compares. -/
def held (m : Mock) : Col × Nat → CellValue
  | (.advice i, r) => m.advice i r
  | (.fixed i, r) => m.fixed i r
  | (.instance_ i, r) => .assigned (m.instance_ i r)

theorem original_of {x : Nat × Nat} {y : Col × Nat} (h : CellAt m.cs.permutation x y) :
    m.original x = .ok (held m y) := by
  obtain ⟨h1, h2⟩ := h
  obtain ⟨col, row⟩ := y
  unfold Mock.original
  rw [h1, h2]
  cases col <;> rfl

theorem copies_inside (h : Made fuel cs n steps ch inst m st ss p c cols as) :
    Assembly.CopiesIn (cs.usableRows n) cs.permutation st.asm.copies :=
  h.ran.copies (fun _ h => absurd h List.not_mem_nil)

theorem isPermutation (hb : Built cs simple) (hf : cs.permutation.length * n ≤ fuel)
    (h : Made fuel cs n steps ch inst m st ss p c cols as) :
    IsPermutation cs.permutation.length n m.mapping := by
  have hlt := h.usable_lt
  obtain ⟨a, h1, h2, -⟩ := Props.C33_cycles fuel n cs.permutation hb.nodup hf st.asm.copies (by
    intro q hq
    obtain ⟨⟨a1, a2⟩, a3, a4⟩ := h.copies_inside q hq
    exact ⟨⟨a1, by omega⟩, a3, by omega⟩)
  rw [h.copied] at h1
  cases h1
  rw [h.mock]
  exact h2

/-- Nothing panics in the comparison. -/
theorem permErrors_eq (hb : Built cs simple) (hf : cs.permutation.length * n ≤ fuel)
    (hperm : m.cs.permutation = cs.permutation)
    (h : Made fuel cs n steps ch inst m st ss p c cols as) :
    (∃ l, m.permErrors = .ok l) ∧ (m.permErrors = .ok [] ↔
      ∀ p ∈ st.asm.copies, held m p.1 = held m p.2) := by
  have hp := h.isPermutation hb hf
  have ent : ∀ (col : List (Nat × Nat) × Nat), col ∈ m.mapping.zipIdx →
      ∀ cell ∈ col.1.zipIdx, entry m.mapping (col.2, cell.2) = some cell.1 := by
    intro col hcol cell hcell
    unfold entry
    rw [List.mem_zipIdx_iff_getElem?.1 hcol]
    exact List.mem_zipIdx_iff_getElem?.1 hcell
  have cellAt : ∀ x, Inside cs.permutation.length n x → ∃ y, CellAt m.cs.permutation x y := by
    rintro ⟨i, r⟩ ⟨h1, h2⟩
    exact ⟨(cs.permutation[i]'h1, r), by rw [hperm]; exact ⟨List.getElem?_eq_getElem h1, rfl⟩⟩
  have one : ∀ (col : List (Nat × Nat) × Nat), col ∈ m.mapping.zipIdx →
      ∀ cell ∈ col.1.zipIdx, ∃ x y, CellAt m.cs.permutation (col.2, cell.2) x ∧
        CellAt m.cs.permutation cell.1 y ∧ (do
          let a ← m.original (col.2, cell.2)
          let b ← m.original cell.1
          return if a = b then [] else [.permutation col.2 cell.2] : Except Panic (List Failure)) =
        .ok (if held m x = held m y then [] else [.permutation col.2 cell.2]) := by
    intro col hcol cell hcell
    have he := ent col hcol cell hcell
    obtain ⟨x, hx⟩ := cellAt _ ((hp.defined _).1 (by rw [he]; rfl))
    obtain ⟨y, hy⟩ := cellAt _ (hp.inside _ _ he)
    refine ⟨x, y, hx, hy, ?_⟩
    rw [original_of hx, original_of hy]
    rfl
  constructor
  · refine Mock.collect_ok fun col hcol => Mock.collect_ok fun cell hcell => ?_
    obtain ⟨x, y, -, -, e⟩ := one col hcol cell hcell
    exact ⟨_, e⟩
  · rw [Props.C33_values fuel n cs.permutation hb.nodup hf st.asm.copies p h.copied (held m)]
    have hmap : p.mapping = m.mapping := by rw [h.mock]
    rw [hmap]
    unfold Mock.permErrors
    rw [Mock.collect_nil]
    constructor
    · rintro hall ⟨i, r⟩ d x y hx hy hent
      have hin := (hp.defined (i, r)).1 (by rw [hent]; rfl)
      unfold entry at hent
      cases hcol : m.mapping[i]? with
      | none => rw [hcol] at hent; cases hent
      | some col =>
        rw [hcol] at hent
        have hent : col[r]? = some d := hent
        have h1 : (col, i) ∈ m.mapping.zipIdx := List.mem_zipIdx_iff_getElem?.2 hcol
        have h2 : (d, r) ∈ col.zipIdx := List.mem_zipIdx_iff_getElem?.2 hent
        have h3 := Mock.collect_nil.1 (hall _ h1) _ h2
        rw [← hperm] at hx hy
        rw [original_of (m := m) (x := (i, r)) hx, original_of hy] at h3
        have h3 : (.ok (if held m x = held m y then [] else [Failure.permutation i r]) :
          Except Panic (List Failure)) = .ok [] := h3
        by_contra hne
        rw [if_neg hne] at h3
        cases h3
    · intro hall col hcol
      rw [Mock.collect_nil]
      intro cell hcell
      obtain ⟨x, y, hx, hy, e⟩ := one col hcol cell hcell
      rw [e]
      rw [hperm] at hx hy
      rw [if_pos (hall _ _ _ _ hx hy (ent col hcol cell hcell))]

/-- A cell of the permutation in a usable row. -/
theorem held_eq (hb : Built cs simple) (h : Made fuel cs n steps ch inst m st ss p c cols as)
    (hg : Extends cs n st.asm ch inst g) {x : Col × Nat} (hx : x.1 ∈ cs.permutation)
    (hr : x.2 < cs.usableRows n) :
    ∃ b, held m x = .of b (g.cell x) ∧ (b = true ↔ Has steps st.asm x) ∧
      (b = false → g.cell x = 0) := by
  have hm := h.mock
  subst hm
  obtain ⟨col, r⟩ := x
  have hu : st.asm.usable = cs.usableRows n := h.ran.usable
  cases col with
  | advice i =>
    refine ⟨st.advice i r, ?_, ?_, ?_⟩
    · show (if _ then _ else _) = _
      rw [if_pos hr]
      show _ = CellValue.of _ (g.advice i r)
      rw [hg.advice _ _ hr]
    · rw [h.ran.advice]
      show _ ↔ ∃ p ∈ (blocks steps).zip st.asm.starts, _
      rw [h.starts]
      exact ⟨fun h => h.resolve_left (by intro h; cases h), .inr⟩
    · intro hf
      show g.advice i r = 0
      rw [hg.advice _ _ hr, h.zeroAdvice _ _ hf]
  | fixed i =>
    refine ⟨st.fixed i r, ?_, ?_, ?_⟩
    · show (if _ then _ else _) = _
      rw [if_pos (hb.columns i hx)]
      show _ = CellValue.of _ (g.fixed i r)
      rw [hg.fixed]
    · rw [h.ran.fixed]
      show _ ↔ r < st.asm.usable ∧ _
      rw [hu]
      exact ⟨fun h => h.resolve_left (by intro h; cases h), .inr⟩
    · intro hf
      show g.fixed i r = 0
      rw [hg.fixed, h.zeroFixed _ _ hf]
  | instance_ i =>
    refine ⟨true, ?_, ?_, by simp⟩
    · show CellValue.assigned _ = .assigned (g.instance_ i r)
      rw [hg.instance_]
    · simp [Has]

theorem copies_iff (hb : Built cs simple) (hf : cs.permutation.length * n ≤ fuel)
    (hperm : m.cs.permutation = cs.permutation)
    (h : Made fuel cs n steps ch inst m st ss p c cols as) (hg : Extends cs n st.asm ch inst g) :
    m.permErrors = .ok [] ↔
      (∀ p ∈ st.asm.copies, g.cell p.1 = g.cell p.2) ∧ CopiesAlike steps st.asm := by
  rw [(h.permErrors_eq hb hf hperm).2]
  unfold CopiesAlike
  rw [← forall₂_and]
  refine forall₂_congr fun q hq => ?_
  obtain ⟨⟨a1, a2⟩, a3, a4⟩ := h.copies_inside q hq
  obtain ⟨b, e1, e2, e3⟩ := h.held_eq hb hg a1 a2
  obtain ⟨b', f1, f2, f3⟩ := h.held_eq hb hg a3 a4
  rw [e1, f1, ← e2, ← f2]
  cases b <;> cases b' <;> simp [CellValue.of] <;> simp_all

/-! ### All of it -/

theorem cell_eq (hb : Built cs simple) {x : Col × Nat} (hx : x.1 ∈ cs.permutation) :
    (g.withColumns cs.numFixed cols).cell x = g.cell x := by
  obtain ⟨col, row⟩ := x
  cases col with
  | advice i => rfl
  | instance_ i => rfl
  | fixed i =>
    show (if _ then _ else _) = _
    rw [if_pos (hb.columns i hx)]; rfl

/-- The circuit with and without replaced selectors. -/
theorem satisfied_iff (hb : Built cs simple)
    (h : Made fuel cs n steps ch inst m st ss p c cols as) (hg : Extends cs n st.asm ch inst g) :
    Satisfied cs n g st.asm.copies ↔
      Satisfied m.cs n (g.withColumns cs.numFixed cols) st.asm.copies := by
  have hm : m.cs = c.cs := by rw [h.mock]
  rw [hm]
  refine compressed_satisfied hb.sane hb.degree h.compressed (activations_rows cs n st.asm)
    (h.replaced hb hg) st.asm.copies ?_
  intro q hq
  obtain ⟨⟨a1, -⟩, a3, -⟩ := h.copies_inside q hq
  exact ⟨cell_eq hb a1, cell_eq hb a3⟩

theorem lookup_value (hb : Built cs simple) (hin : LookupsInside cs n)
    (h : Made fuel cs n steps ch inst m st ss p c cols as) (hg : Extends cs n st.asm ch inst g)
    {rs : List Expr} (r5 : ∀ i, i < cs.numSelectors → OnlyFixed (rs.getD i (.const 0)))
    {l : Lookup} (hl : l ∈ cs.lookups) {r : Nat} (hr : r < cs.usableRows n) {es : List Expr}
    (hes : ∀ e ∈ es, e ∈ l.input ++ l.table) :
    es.map (fun e => m.lazy r (e.subst rs)) =
      (es.map fun e => (e.subst rs).eval n (g.withColumns cs.numFixed cols) r).map MValue.real := by
  have hn : m.n = n := by rw [h.mock]
  have hu : m.usable = cs.usableRows n := by rw [h.mock]
  rw [List.map_map]
  refine List.map_congr_left fun e he => ?_
  have he := hes e he
  have hmem : e ∈ expressions cs := List.mem_append_right _ (List.mem_flatMap.2 ⟨l, hl, he⟩)
  have hof : ∀ s ∈ selectorsIn e, OnlyFixed (rs.getD s.index (.const 0)) := fun s hs =>
    r5 _ (hb.sane.selectors e hmem s hs).1
  rw [Mock.lazy_inside (h.agrees hg) (row := r) (e := e.subst rs) (subst_selectors e hof), hn]
  · rfl
  · intro col rot hq
    rw [hn, hu]
    rcases subst_queries e hof _ hq with hq | ⟨c', hc'⟩
    · exact hin l hl e he col rot hq r hr
    · cases hc'

/-- Whoever is accepted satisfies the circuit. -/
theorem sound (hb : Built cs simple) (hf : cs.permutation.length * n ≤ fuel)
    (hin : LookupsInside cs n) (h : Made fuel cs n steps ch inst m st ss p c cols as)
    (hv : m.verify = .ok (.ok ())) (hg : Extends cs n st.asm ch inst g) :
    Satisfied cs n g st.asm.copies := by
  obtain ⟨-, -, -, h2, h3, h4⟩ := Mock.verifyAtRows_ok_iff.1 hv
  obtain ⟨rs, r1, r2, r3, r4, r5, r6, -⟩ := h.rules hb
  have hn : m.n = n := by rw [h.mock]
  have hu : m.usable = cs.usableRows n := by rw [h.mock]
  have hag := h.agrees hg
  rw [h.gateErrors_iff r1 r3] at h2
  rw [lookups_iff r2 hb hu h.usable_pos] at h3
  have h4 := ((h.copies_iff hb hf r4 hg).1 h4).1
  rw [h.satisfied_iff hb hg]
  refine ⟨?_, ?_, ?_⟩
  · rw [r1]
    intro gate' hgate' e' he' row hrow
    obtain ⟨gate, hgate, rfl⟩ := List.mem_map.1 hgate'
    obtain ⟨e, he, rfl⟩ := List.mem_map.1 he'
    have := Mock.lazy_eval hag (h2 gate hgate e he row hrow)
    rwa [hn] at this
  · rw [r2, r3]
    intro l' hl' row hrow
    obtain ⟨l, hl, rfl⟩ := List.mem_map.1 hl'
    obtain ⟨row', hrow', e⟩ := h3 l hl row hrow
    refine ⟨row', hrow', ?_⟩
    rw [h.lookup_value hb hin hg r5 hl hrow (es := l.input) (fun e he => List.mem_append_left _ he),
      h.lookup_value hb hin hg r5 hl hrow' (es := l.table)
        (fun e he => List.mem_append_right _ he)] at e
    rw [List.map_map, List.map_map]
    exact List.map_injective_iff.2 (fun _ _ h => MValue.real.inj h) e
  · intro q hq
    obtain ⟨⟨a1, -⟩, a3, -⟩ := h.copies_inside q hq
    rw [cell_eq hb a1, cell_eq hb a3]
    exact h4 q hq

/-- A polynomial of a gate in a row: its selector is off and the mock prover finds 0, or the gate
refers to advice in usable rows only and the mock prover finds the value. -/
theorem gate_cases (hb : Built cs simple) (hgd : Guarded cs) (hco : SameSelectors simple steps)
    (h : Made fuel cs n steps ch inst m st ss p c cols as) (ht : Tidy cs n steps st.asm)
    {rs : List Expr} (r5 : ∀ i, i < cs.numSelectors → OnlyFixed (rs.getD i (.const 0)))
    (r6 : ∀ g, Extends cs n st.asm ch inst g → ∀ row, row < n → ∀ i, i < cs.numSelectors →
        ((rs.getD i (.const 0)).eval n (g.withColumns cs.numFixed cols) row = 0 ↔
          ¬ g.selector i row = true)) (hg : Extends cs n st.asm ch inst g)
    {gate : List Expr} (hgate : gate ∈ cs.gates) {e : Expr} (he : e ∈ gate) {row : Nat}
    (hrow : row < n) :
    m.lazy row (e.subst rs) = .real 0 ∨
      ((∀ q ∈ gate.flatMap queriesIn, ∃ c, q.1 = .advice c ∧ rotate n row q.2 < cs.usableRows n) ∧
        m.lazy row (e.subst rs) =
          .real ((e.subst rs).eval n (g.withColumns cs.numFixed cols) row)) := by
  have hn : m.n = n := by rw [h.mock]
  have hu : m.usable = cs.usableRows n := by rw [h.mock]
  have hmem : e ∈ expressions cs := List.mem_append_left _ (List.mem_flatten.2 ⟨gate, hgate, he⟩)
  have hof : ∀ s ∈ selectorsIn e, OnlyFixed (rs.getD s.index (.const 0)) := fun s hs =>
    r5 _ (hb.sane.selectors e hmem s hs).1
  obtain ⟨s, hs⟩ := hgd gate hgate e he
  have hse := guards_mem hs
  obtain ⟨hi, hsimple⟩ := hb.sane.selectors e hmem s hse
  by_cases hsel : g.selector s.index row = true
  · right
    rw [hg.selector, h.ran.selector] at hsel
    rcases hsel with hsel | ⟨q, hq, t, o, ho, hidx, hr⟩
    · cases hsel
    have hts : t = s := by
      have := hco q.1 (List.of_mem_zip hq).1 t o ho
      cases t; cases s
      simp_all
    subst hts
    have hcells : ∀ x ∈ gate.flatMap queriesIn,
        ∃ c, x.1 = .advice c ∧ rotate n row x.2 < cs.usableRows n := by
      intro x hx
      have := ht q (by rw [h.starts]; exact hq) t o ho gate hgate
        (List.mem_flatMap.2 ⟨e, he, hse⟩) x hx
      rw [← hr] at this
      obtain ⟨c', o', e1, -⟩ := id this
      have e2 : x.1 = .advice c' := congrArg Prod.fst e1
      rw [e2] at this
      exact ⟨c', e2, h.ran.inside q hq c' _ this⟩
    refine ⟨hcells, ?_⟩
    rw [Mock.lazy_inside (h.agrees hg) (row := row) (e := e.subst rs) (subst_selectors e hof), hn]
    intro col rot hq'
    rw [hn, hu]
    rcases subst_queries e hof _ hq' with hq' | ⟨c', hc'⟩
    · exact (hcells (.advice col, rot) (List.mem_flatMap.2 ⟨e, he, hq'⟩)).choose_spec.2
    · cases hc'
  · left
    refine Mock.lazy_guard ?_ hs
    have hof := r5 s.index hi
    rw [Mock.lazy_inside (h.agrees hg) hof.1, hn, (r6 g hg row hrow s.index hi).2 hsel]
    intro col rot hq
    obtain ⟨c', hc'⟩ := hof.2 _ hq
    cases hc'

theorem verdict (hb : Built cs simple) (hf : cs.permutation.length * n ≤ fuel)
    (hin : LookupsInside cs n) (hgd : Guarded cs) (hco : SameSelectors simple steps)
    (h : Made fuel cs n steps ch inst m st ss p c cols as) (hg : Extends cs n st.asm ch inst g) :
    m.verify = .ok (.ok ()) ↔ Tidy cs n steps st.asm ∧ CopiesAlike steps st.asm ∧
      Satisfied cs n g st.asm.copies := by
  have hn : m.n = n := by rw [h.mock]
  have hu : m.usable = cs.usableRows n := by rw [h.mock]
  obtain ⟨rs, r1, r2, r3, r4, r5, r6, -⟩ := h.rules hb
  constructor
  · intro hv
    refine ⟨?_, ?_, h.sound hb hf hin hv hg⟩
    · exact h.selectorErrors_iff.1 (Mock.verifyAtRows_ok_iff.1 hv).2.2.1
    · exact ((h.copies_iff hb hf r4 hg).1 (Mock.verifyAtRows_ok_iff.1 hv).2.2.2.2.2).2
  · rintro ⟨ht, ha, hs⟩
    have hs' := (h.satisfied_iff hb hg).1 hs
    refine Mock.verifyAtRows_ok_iff.2 ⟨by simp, by simp, h.selectorErrors_iff.2 ht, ?_, ?_, ?_⟩
    · rw [h.gateErrors_iff r1 r3]
      intro gate hgate e he row hrow
      rcases h.gate_cases hb hgd hco ht r5 r6 hg hgate he hrow with h0 | ⟨-, h0⟩
      · exact h0
      · rw [h0, hs'.gates (gate.map (Expr.subst rs)) (by rw [r1]; exact List.mem_map_of_mem hgate) _
          (List.mem_map_of_mem he) row hrow]
    · rw [lookups_iff r2 hb hu h.usable_pos]
      intro l hl row hrow
      obtain ⟨row', hrow', e⟩ := hs'.lookups _ (by rw [r2]; exact List.mem_map_of_mem hl) row
        (by rw [r3]; exact hrow)
      rw [r3] at hrow'
      refine ⟨row', hrow', ?_⟩
      rw [h.lookup_value hb hin hg r5 hl hrow (es := l.input) (fun e he => List.mem_append_left _ he),
        h.lookup_value hb hin hg r5 hl hrow' (es := l.table)
          (fun e he => List.mem_append_right _ he)]
      rw [List.map_map, List.map_map] at e
      exact congrArg _ e
    · exact (h.copies_iff hb hf r4 hg).2 ⟨hs.copies, ha⟩

theorem no_panic (hb : Built cs simple) (hf : cs.permutation.length * n ≤ fuel)
    (hgd : Guarded cs) (hco : SameSelectors simple steps)
    (h : Made fuel cs n steps ch inst m st ss p c cols as) (ht : Tidy cs n steps st.asm) :
    ∃ r, m.verify = .ok r := by
  have hn : m.n = n := by rw [h.mock]
  have hu : m.usable = cs.usableRows n := by rw [h.mock]
  obtain ⟨rs, r1, r2, r3, r4, r5, r6, -⟩ := h.rules hb
  have hg := extends_grid cs n st ch inst
  have s1 := h.selectorErrors_iff.2 ht
  have s2 : ∃ l, m.gateErrors (List.range m.usable) = .ok l := by
    refine Mock.collect_ok fun x hx => Mock.collect_ok fun row hrow => Mock.collect_ok fun e he => ?_
    have hrow := (h.rows_all r3 row).1 hrow
    have hx := List.mem_zipIdx_iff_getElem?.1 hx
    have he := List.mem_of_getElem? (List.mem_zipIdx_iff_getElem?.1 he)
    rw [r1, List.getElem?_map] at hx
    obtain ⟨gate, hx', hgx⟩ := Option.map_eq_some_iff.1 hx
    rw [← hgx] at he
    obtain ⟨e0, he0, hee⟩ := List.mem_map.1 he
    unfold Mock.polyError
    rw [← hee]
    rcases h.gate_cases hb hgd hco ht r5 r6 hg (List.mem_of_getElem? hx') he0 hrow with h0 | ⟨h1, h0⟩
    · rw [h0]; exact ⟨[], by simp⟩
    · rw [h0]
      dsimp only
      split_ifs with c1 c2
      · exact ⟨_, rfl⟩
      · exfalso
        obtain ⟨q, -, hq⟩ := List.any_eq_true.1 c2
        simp only [Bool.and_eq_true, decide_eq_true_eq] at hq
        obtain ⟨hq1, hq2⟩ := hq
        have hqd : (m.queried[x.2]?).map (·.2) = some (gate.flatMap Expr.cells) := by
          rw [h.mock]
          simp only [List.getElem?_map, hx', Option.map_some]
        rw [hqd, Option.getD_some, show Expr.cells = queriesIn from funext cells_eq] at hq1
        obtain ⟨cc, e1, e2⟩ := h1 q hq1
        obtain ⟨q1, q2⟩ := q
        cases e1
        unfold Mock.load at hq2
        dsimp only at hq2
        rw [hn] at hq2
        rw [(h.agrees hg).inside _ _ (by rw [hu]; exact e2)] at hq2
        cases hq2
      · exact ⟨_, rfl⟩
  have s3 : ∃ l, m.lookupErrors false (List.range m.usable) ([], []) m.cs.lookups.zipIdx = .ok l := by
    rw [Mock.lookupErrors_eq m false _ _ _ (Mock.cacheOk_nil m)]
    refine Mock.collect_ok fun x hx => ?_
    have hx := List.mem_of_getElem? (List.mem_zipIdx_iff_getElem?.1 hx)
    rw [r2] at hx
    obtain ⟨l, hl, hl'⟩ := List.mem_map.1 hx
    unfold Mock.lookupError
    rw [if_neg (by rw [← hl']; simp [hb.lookups l hl]), if_neg (by
      have := h.usable_pos
      rw [hu]; omega)]
    exact ⟨_, rfl⟩
  obtain ⟨l2, s2⟩ := s2
  obtain ⟨l3, s3⟩ := s3
  obtain ⟨l4, s4⟩ := (h.permErrors_eq hb hf r4).1
  unfold Mock.verify Mock.verifyAtRows
  rw [if_pos (by simp), s1, s2, s3, s4]
  exact ⟨_, rfl⟩

end Made

/-- `run` does not panic; it ends well exactly if there are enough rows and synthesis ends well. -/
theorem runSteps_iff {cs : CS} {simple : Nat → Bool} (hb : Built cs simple) {fuel n : Nat}
    (hf : cs.permutation.length * n ≤ fuel) (steps : List Step) (ch : Nat → Fr) (inst : Nat → List Fr) :
    ∃ r, Mock.runSteps fuel cs n steps ch inst = .ok r ∧
      ((∃ m, r = .ok m) ↔ cs.minimumRows ≤ n ∧ (∀ i, i < cs.numInstance →
        (inst i).length ≤ cs.usableRows n) ∧ ∃ a, assigned cs n steps = .ok a) := by
  unfold Mock.runSteps
  by_cases h1 : n < cs.minimumRows
  · rw [if_pos h1]
    refine ⟨_, rfl, ?_⟩
    constructor
    · rintro ⟨m, hm⟩; cases hm
    · rintro ⟨h, -⟩; omega
  rw [if_neg h1]
  by_cases h2 : ((List.range cs.numInstance).any fun i => decide (cs.usableRows n < (inst i).length)) = true
  · rw [if_pos h2]
    refine ⟨_, rfl, ?_⟩
    constructor
    · rintro ⟨m, hm⟩; cases hm
    · rintro ⟨-, h, -⟩
      obtain ⟨i, hi, h3⟩ := List.any_eq_true.1 h2
      have := h i (List.mem_range.1 hi)
      have h3 := of_decide_eq_true h3
      omega
  rw [if_neg h2]
  have h2' : ∀ i, i < cs.numInstance → (inst i).length ≤ cs.usableRows n := by
    intro i hi
    by_contra hc
    exact h2 (List.any_eq_true.2 ⟨i, List.mem_range.2 hi, decide_eq_true (by omega)⟩)
  cases hr : MockState.run steps (MockState.start cs n) with
  | error e =>
    unfold MockState.start at hr
    rw [hr]
    refine ⟨_, rfl, ?_⟩
    constructor
    · rintro ⟨m, hm⟩; cases hm
    · rintro ⟨-, -, a, ha⟩
      obtain ⟨st', h', -⟩ := run_of_assembly steps (st := MockState.start cs n) ha
      unfold MockState.start at h'
      rw [hr] at h'
      cases h'
  | ok st =>
    obtain ⟨ss, hss⟩ := ran steps hr
    unfold MockState.start at hr
    rw [hr]
    dsimp only
    have hlt : cs.usableRows n ≤ n := by unfold CS.usableRows; omega
    have hci : Assembly.CopiesIn (cs.usableRows n) cs.permutation st.asm.copies :=
      hss.copies (fun _ h => absurd h List.not_mem_nil)
    obtain ⟨p, hp, -⟩ := Props.C33_cycles fuel n cs.permutation hb.nodup hf st.asm.copies (by
      intro q hq
      obtain ⟨⟨a1, a2⟩, a3, a4⟩ := hci q hq
      exact ⟨⟨a1, by omega⟩, a3, by omega⟩)
    obtain ⟨⟨c, cols, as⟩, hc⟩ := compress_ok hb.sane (activations_length cs n st.asm)
      (activations_rows cs n st.asm)
    unfold Mock.of
    rw [hp]
    dsimp only [bind, Except.bind]
    rw [hc]
    refine ⟨_, rfl, ?_⟩
    constructor
    · intro _
      exact ⟨by omega, h2', st.asm, hss.asm⟩
    · intro _
      exact ⟨_, rfl⟩

end Verif

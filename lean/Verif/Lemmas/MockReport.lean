import Verif.Lemmas.MockChecks

/-! What the mock prover reports (helper for the property theorems). -/

namespace Verif

open Spec

namespace Mock

theorem collect_mem {α β : Type} {f : α → Except Panic (List β)} : ∀ {l : List α} {r : List β},
    collect f l = .ok r → (∀ x ∈ l, ∃ z, f x = .ok z) ∧ ∀ y, y ∈ r ↔ ∃ x ∈ l, ∃ z, f x = .ok z ∧ y ∈ z
  | [], r, h => by
    cases h
    exact ⟨fun _ h => absurd h List.not_mem_nil, fun y => by simp⟩
  | a :: l, r, h => by
    rw [collect] at h
    cases ha : f a with
    | error e => rw [ha] at h; cases h
    | ok za =>
      cases hl : collect f l with
      | error e => rw [ha, hl] at h; cases h
      | ok zl =>
        rw [ha, hl] at h
        obtain rfl : za ++ zl = r := Except.ok.inj h
        obtain ⟨h1, h2⟩ := collect_mem hl
        refine ⟨?_, ?_⟩
        · intro x hx
          rcases List.mem_cons.1 hx with rfl | hx
          · exact ⟨za, ha⟩
          · exact h1 x hx
        · intro y
          rw [List.mem_append, h2]
          constructor
          · rintro (hy | ⟨x, hx, z, hz, hy⟩)
            · exact ⟨a, List.mem_cons_self .., za, ha, hy⟩
            · exact ⟨x, List.mem_cons_of_mem _ hx, z, hz, hy⟩
          · rintro ⟨x, hx, z, hz, hy⟩
            rcases List.mem_cons.1 hx with rfl | hx
            · rw [ha] at hz; cases hz; exact .inl hy
            · exact .inr ⟨x, hx, z, hz, hy⟩

theorem samePoison_eq {a b : Failure} (h : samePoison a b = true) : b = a := by
  unfold samePoison at h
  split at h
  · have := of_decide_eq_true h
    rw [this.1, this.2]
  · cases h

theorem dedupAfter_mem (f : Failure) : ∀ (l : List Failure) (prev : Failure),
    (f = prev ∨ f ∈ dedupAfter prev l) ↔ (f = prev ∨ f ∈ l)
  | [], _ => Iff.rfl
  | b :: rest, prev => by
    rw [dedupAfter]
    split_ifs with h
    · rw [dedupAfter_mem f rest prev, samePoison_eq h, List.mem_cons]
      tauto
    · rw [List.mem_cons, List.mem_cons, dedupAfter_mem f rest b]

theorem dedup_mem (f : Failure) : ∀ l : List Failure, f ∈ dedup l ↔ f ∈ l
  | [] => Iff.rfl
  | a :: rest => by
    rw [dedup, List.mem_cons, List.mem_cons]
    exact dedupAfter_mem f rest a

/-- What is reported, by kinds of checks. -/
theorem verify_failures {m : Mock} {r : Except (List Failure) Unit} (h : m.verify = .ok r) :
    ∃ a b c d, m.selectorErrors = .ok a ∧ m.gateErrors (List.range m.usable) = .ok b ∧
      collect (m.lookupError (List.range m.usable)) m.cs.lookups.zipIdx = .ok c ∧ m.permErrors = .ok d ∧
      ∀ f, f ∈ failures r ↔ f ∈ a ∨ f ∈ b ∨ f ∈ c ∨ f ∈ d := by
  unfold verify verifyAtRows at h
  rw [if_pos (by simp), lookupErrors_eq m false _ _ _ (cacheOk_nil m)] at h
  cases h1 : m.selectorErrors with
  | error e => rw [h1] at h; cases h
  | ok a =>
    cases h2 : m.gateErrors (List.range m.usable) with
    | error e => rw [h1, h2] at h; cases h
    | ok b =>
      cases h3 : collect (m.lookupError (List.range m.usable)) m.cs.lookups.zipIdx with
      | error e => rw [h1, h2, h3] at h; cases h
      | ok c =>
        cases h4 : m.permErrors with
        | error e => rw [h1, h2, h3, h4] at h; cases h
        | ok d =>
          rw [h1, h2, h3, h4] at h
          refine ⟨a, b, c, d, rfl, rfl, rfl, rfl, fun f => ?_⟩
          have h : (if a ++ b ++ c ++ d = [] then .ok () else .error (dedup (a ++ b ++ c ++ d))) = r :=
            Except.ok.inj h
          have e : f ∈ failures r ↔ f ∈ a ++ b ++ c ++ d := by
            rw [← h]
            split_ifs with h0
            · rw [h0]; rfl
            · exact dedup_mem f _
          rw [e]
          simp only [List.mem_append, or_assoc]

/-- The kinds of failures of the checks. -/
theorem selectorErrors_kind {m : Mock} {a : List Failure} (h : m.selectorErrors = .ok a) :
    ∀ f ∈ a, ∃ i j row c r, f = .cellNotAssigned i j row c r := by
  intro f hf
  obtain ⟨r, -, z, h1, hf⟩ := ((collect_mem h).2 f).1 hf
  obtain ⟨e, -, z, h1, hf⟩ := ((collect_mem h1).2 f).1 hf
  obtain ⟨q, -, z, h1, hf⟩ := ((collect_mem h1).2 f).1 hf
  split_ifs at h1
  · obtain ⟨c, -, z, h1, hf⟩ := ((collect_mem h1).2 f).1 hf
    split_ifs at h1
    · cases h1; cases hf
    · split at h1
      · cases h1
      · cases h1
        exact ⟨_, _, _, _, _, List.mem_singleton.1 hf⟩
  · cases h1; cases hf

theorem gateErrors_kind {m : Mock} {rows : List Nat} {b : List Failure} (h : m.gateErrors rows = .ok b) :
    ∀ f ∈ b, (∃ i j row, f = .notSatisfied i j row) ∨ ∃ i j, f = .poisoned i j := by
  intro f hf
  obtain ⟨g, -, z, h1, hf⟩ := ((collect_mem h).2 f).1 hf
  obtain ⟨row, -, z, h1, hf⟩ := ((collect_mem h1).2 f).1 hf
  obtain ⟨e, -, z, h1, hf⟩ := ((collect_mem h1).2 f).1 hf
  unfold polyError at h1
  split at h1
  · split_ifs at h1
    · cases h1; cases hf
    · cases h1; exact .inl ⟨_, _, _, List.mem_singleton.1 hf⟩
  · cases h1; exact .inr ⟨_, _, List.mem_singleton.1 hf⟩

theorem lookupErrors_kind {m : Mock} {rows : List Nat} {c : List Failure} {ls : List (Lookup × Nat)}
    (h : collect (m.lookupError rows) ls = .ok c) : ∀ f ∈ c, ∃ i row, f = .lookup i row := by
  intro f hf
  obtain ⟨l, -, z, h1, hf⟩ := ((collect_mem h).2 f).1 hf
  unfold lookupError at h1
  split_ifs at h1
  cases h1
  unfold scanPar at hf
  obtain ⟨x, -, hx⟩ := List.mem_filterMap.1 hf
  split_ifs at hx
  exact ⟨_, _, (Option.some.inj hx).symm⟩

theorem permErrors_kind {m : Mock} {d : List Failure} (h : m.permErrors = .ok d) :
    ∀ f ∈ d, ∃ i row, f = .permutation i row := by
  intro f hf
  obtain ⟨l, -, z, h1, hf⟩ := ((collect_mem h).2 f).1 hf
  obtain ⟨l', -, z, h1, hf⟩ := ((collect_mem h1).2 f).1 hf
  cases ha : m.original (l.2, l'.2) with
  | error e => rw [ha] at h1; cases h1
  | ok a =>
    cases hb : m.original l'.1 with
    | error e => rw [ha, hb] at h1; cases h1
    | ok b =>
      rw [ha, hb] at h1
      have h1 : (if a = b then [] else [Failure.permutation l.2 l'.2]) = z := Except.ok.inj h1
      rw [← h1] at hf
      split_ifs at hf
      · cases hf
      · exact ⟨_, _, List.mem_singleton.1 hf⟩

/-- Failures about lookups. -/
theorem lookupError_mem {m : Mock} {rows : List Nat} {l : Lookup × Nat} {z : List Failure} {i row : Nat}
    (h : m.lookupError rows l = .ok z) :
    .lookup i row ∈ z ↔ i = l.2 ∧ row ∈ rows ∧
      ¬ ∃ row', row' < m.usable ∧ l.1.input.map (m.lazy row) = l.1.table.map (m.lazy row') := by
  unfold lookupError at h
  split_ifs at h with h1 h2
  cases h
  unfold scanPar
  rw [List.mem_filterMap]
  have hin : ∀ x, x ∈ m.inputsOf rows l.1 (m.fillOf l.1) ↔
      ∃ row ∈ rows, x = (l.1.input.map (m.lazy row), row) ∧ x.1 ≠ m.fillOf l.1 := by
    intro x
    unfold inputsOf
    rw [List.mem_mergeSort, List.mem_filter, List.mem_map]
    constructor
    · rintro ⟨⟨row, h, rfl⟩, h'⟩
      exact ⟨row, h, rfl, by simpa using h'⟩
    · rintro ⟨row, h, rfl, h'⟩
      exact ⟨⟨row, h, rfl⟩, by simpa using h'⟩
  have htab : ∀ x, x ∈ m.tableOf l.1 (m.fillOf l.1) ↔
      (∃ row, row < m.usable ∧ x = l.1.table.map (m.lazy row)) ∧ x ≠ m.fillOf l.1 := by
    intro x
    unfold tableOf
    rw [List.mem_mergeSort, List.mem_filter, List.mem_map]
    constructor
    · rintro ⟨⟨row, h, rfl⟩, h'⟩
      exact ⟨⟨row, List.mem_range.1 h, rfl⟩, by simpa using h'⟩
    · rintro ⟨⟨row, h, rfl⟩, h'⟩
      exact ⟨⟨row, List.mem_range.2 h, rfl⟩, by simpa using h'⟩
  constructor
  · rintro ⟨x, hx, e⟩
    obtain ⟨row0, hrow, rfl, hf⟩ := (hin x).1 hx
    split_ifs at e with ht
    cases e
    refine ⟨rfl, hrow, ?_⟩
    rintro ⟨row', h', e⟩
    exact ht ((htab _).2 ⟨⟨row', h', e⟩, hf⟩)
  · rintro ⟨rfl, hrow, hno⟩
    have hf : l.1.input.map (m.lazy row) ≠ m.fillOf l.1 := fun hf => hno ⟨m.usable - 1, by omega, hf⟩
    refine ⟨(l.1.input.map (m.lazy row), row), (hin _).2 ⟨row, hrow, rfl, hf⟩, ?_⟩
    rw [if_neg]
    intro ht
    obtain ⟨⟨row', h', e⟩, -⟩ := (htab _).1 ht
    exact hno ⟨row', h', e⟩

end Mock

namespace Made

variable {fuel : Nat} {cs : CS} {n : Nat} {steps : List Step} {ch : Nat → Fr}
    {inst : Nat → List Fr} {m : Mock} {st : MockState} {ss : List Nat} {p : PermAssembly}
    {c : CS.Compressed} {cols : List (List Fr)} {as : List SelectorAssignment}
    {simple : Nat → Bool} {g : Grid} {r : Except (List Failure) Unit}

theorem report_lookups (hb : Built cs simple) (hin : LookupsInside cs n)
    (h : Made fuel cs n steps ch inst m st ss p c cols as) (hv : m.verify = .ok r)
    (hg : Extends cs n st.asm ch inst g) (i row : Nat) :
    .lookup i row ∈ failures r ↔ ∃ l, cs.lookups[i]? = some l ∧ row < cs.usableRows n ∧
      ¬ ∃ row', row' < cs.usableRows n ∧ l.input.map (fun e => e.eval n g row) =
        l.table.map (fun e => e.eval n g row') := by
  obtain ⟨a, b, c', d, e1, e2, e3, e4, hf⟩ := Mock.verify_failures hv
  obtain ⟨rs, r1, r2, r3, r4, r5, r6, r7⟩ := h.rules hb
  have hu : m.usable = cs.usableRows n := by rw [h.mock]
  have hcl : Failure.lookup i row ∈ failures r ↔ Failure.lookup i row ∈ c' := by
    rw [hf]
    constructor
    · rintro (h | h | h | h)
      · obtain ⟨_, _, _, _, _, h⟩ := Mock.selectorErrors_kind e1 _ h; cases h
      · rcases Mock.gateErrors_kind e2 _ h with ⟨_, _, _, h⟩ | ⟨_, _, h⟩ <;> cases h
      · exact h
      · obtain ⟨_, _, h⟩ := Mock.permErrors_kind e4 _ h; cases h
    · exact fun h => .inr (.inr (.inl h))
  have look : ∀ l ∈ cs.lookups, ∀ e ∈ l.input ++ l.table, ∀ row, row < n →
      (e.subst rs).eval n (g.withColumns cs.numFixed cols) row = e.eval n g row := by
    intro l hl e he row hrow
    have hmem : e ∈ expressions cs := List.mem_append_right _ (List.mem_flatMap.2 ⟨l, hl, he⟩)
    refine subst_eval_eq e rfl rfl rfl ?_ ?_
    · intro c hc
      funext x
      show (if _ then _ else _) = _
      rw [if_pos (hb.sane.fixed e hmem c hc)]
    · intro s hs
      obtain ⟨h1, h2⟩ := hb.sane.selectors e hmem s hs
      exact r7 g hg row hrow s.index h1 (by rw [← h2]; exact hb.sane.lookups l hl e he s hs)
  have vals : ∀ l ∈ cs.lookups, ∀ row, row < cs.usableRows n →
      (l.input.map (Expr.subst rs)).map (m.lazy row) =
        (l.input.map fun e => e.eval n g row).map MValue.real ∧
      (l.table.map (Expr.subst rs)).map (m.lazy row) =
        (l.table.map fun e => e.eval n g row).map MValue.real := by
    intro l hl row hrow
    have hn := row_lt_of_usable hrow
    refine ⟨?_, ?_⟩
    · rw [List.map_map]
      refine (h.lookup_value hb hin hg r5 hl hrow (es := l.input)
        (fun e he => List.mem_append_left _ he)).trans (congrArg _ ?_)
      exact List.map_congr_left fun e he => look l hl e (List.mem_append_left _ he) row hn
    · rw [List.map_map]
      refine (h.lookup_value hb hin hg r5 hl hrow (es := l.table)
        (fun e he => List.mem_append_right _ he)).trans (congrArg _ ?_)
      exact List.map_congr_left fun e he => look l hl e (List.mem_append_right _ he) row hn
  have inj : ∀ {x y : List Fr}, x.map MValue.real = y.map MValue.real ↔ x = y := fun {x y} =>
    ⟨fun h => List.map_injective_iff.2 (fun _ _ h => MValue.real.inj h) h, fun h => by rw [h]⟩
  have same : ∀ l ∈ cs.lookups, ∀ row, row < cs.usableRows n →
      ((∃ row', row' < m.usable ∧ (l.input.map (Expr.subst rs)).map (m.lazy row) =
        (l.table.map (Expr.subst rs)).map (m.lazy row')) ↔
      ∃ row', row' < cs.usableRows n ∧ l.input.map (fun e => e.eval n g row) =
        l.table.map (fun e => e.eval n g row')) := by
    intro l hl row hrow
    rw [hu]
    refine exists_congr fun row' => and_congr_right fun h' => ?_
    rw [(vals l hl row hrow).1, (vals l hl row' h').2, inj]
  rw [hcl, (Mock.collect_mem e3).2]
  constructor
  · rintro ⟨⟨l', i'⟩, hl', z, hz, hmem⟩
    obtain ⟨rfl, hrow, hno⟩ := (Mock.lookupError_mem hz).1 hmem
    have hl' := List.mem_zipIdx_iff_getElem?.1 hl'
    rw [r2, List.getElem?_map] at hl'
    obtain ⟨l, hl, rfl⟩ := Option.map_eq_some_iff.1 hl'
    rw [List.mem_range, hu] at hrow
    exact ⟨l, hl, hrow, fun h' => hno ((same l (List.mem_of_getElem? hl) row hrow).2 h')⟩
  · rintro ⟨l, hl, hrow, hno⟩
    have hx : ((⟨l.input.map (Expr.subst rs), l.table.map (Expr.subst rs)⟩ : Lookup), i) ∈ m.cs.lookups.zipIdx := by
      rw [List.mem_zipIdx_iff_getElem?, r2, List.getElem?_map, hl]
      rfl
    obtain ⟨z, hz⟩ := (Mock.collect_mem e3).1 _ hx
    refine ⟨_, hx, z, hz, (Mock.lookupError_mem hz).2 ⟨rfl, by rw [List.mem_range, hu]; exact hrow, ?_⟩⟩
    exact fun h' => hno ((same l (List.mem_of_getElem? hl) row hrow).1 h')

theorem report_cells (h : Made fuel cs n steps ch inst m st ss p c cols as) (hv : m.verify = .ok r)
    (j row : Nat) (col : Col) (cellRow : Nat) :
    (∃ i, .cellNotAssigned i j row col cellRow ∈ failures r) ↔
      ∃ q ∈ (blocks steps).zip st.asm.starts, ∃ s o, Op.enable s o ∈ q.1 ∧ row = q.2 + o ∧
        ∃ gate, cs.gates[j]? = some gate ∧ s ∈ gate.flatMap selectorsIn ∧
          ∃ rot, (col, rot) ∈ gate.flatMap queriesIn ∧ cellRow = rotate n row rot ∧
            ¬ AssignsIn q.1 q.2 (col, cellRow) := by
  obtain ⟨a, b, c', d, e1, e2, e3, e4, hf⟩ := Mock.verify_failures hv
  have hcl : ∀ i, Failure.cellNotAssigned i j row col cellRow ∈ failures r ↔
      Failure.cellNotAssigned i j row col cellRow ∈ a := by
    intro i
    rw [hf]
    constructor
    · rintro (h | h | h | h)
      · exact h
      · rcases Mock.gateErrors_kind e2 _ h with ⟨_, _, _, h⟩ | ⟨_, _, h⟩ <;> cases h
      · obtain ⟨_, _, h⟩ := Mock.lookupErrors_kind e3 _ h; cases h
      · obtain ⟨_, _, h⟩ := Mock.permErrors_kind e4 _ h; cases h
    · exact fun h => .inl h
  have hn : m.n = n := by rw [h.mock]
  have hqd : m.queried = cs.gates.map fun g => (g.flatMap selectorsIn, g.flatMap queriesIn) := by
    rw [h.mock, ← show Expr.selectors = selectorsIn from funext selectors_eq,
      ← show Expr.cells = queriesIn from funext cells_eq]
  have hreg : m.regions = st.regions := by rw [h.mock]
  rw [exists_congr hcl, h.starts]
  have e1' := Mock.collect_mem e1
  constructor
  · rintro ⟨i, hi⟩
    obtain ⟨⟨rg, i'⟩, hrg, z, h1, hi⟩ := (e1'.2 _).1 hi
    obtain ⟨e, he, z, h1, hi⟩ := ((Mock.collect_mem h1).2 _).1 hi
    obtain ⟨⟨q, j'⟩, hq, z, h1, hi⟩ := ((Mock.collect_mem h1).2 _).1 hi
    dsimp only at he h1
    split_ifs at h1 with hs
    swap
    · cases h1; cases hi
    obtain ⟨x, hx, z, h1, hi⟩ := ((Mock.collect_mem h1).2 _).1 hi
    split_ifs at h1 with hcell
    · cases h1; cases hi
    cases hrows : rg.rows with
    | none => rw [hrows] at h1; cases h1
    | some se =>
      rw [hrows] at h1
      cases h1
      have hi := List.mem_singleton.1 hi
      injection hi with _ hj hrow hcol hcr
      subst hj hrow hcol hcr
      have hrg := List.mem_of_getElem? (List.mem_zipIdx_iff_getElem?.1 hrg)
      rw [hreg] at hrg
      have hq := List.mem_zipIdx_iff_getElem?.1 hq
      rw [hqd, List.getElem?_map] at hq
      obtain ⟨gate, hgate, rfl⟩ := Option.map_eq_some_iff.1 hq
      rcases h.ran.regions rg hrg with h0 | h0 | ⟨q', hq', rfl⟩
      · exact absurd h0 List.not_mem_nil
      · rw [h0] at he; exact absurd he List.not_mem_nil
      · obtain ⟨o, ho, e2⟩ := MockRegion.of_enabled.1 he
        refine ⟨q', hq', e.1, o, ho, e2, gate, hgate, hs, x.2, hx, by rw [hn], ?_⟩
        intro hA
        exact hcell (MockRegion.of_cells.2 hA)
  · rintro ⟨q', hq', s, o, ho, rfl, gate, hgate, hs, rot, hx, rfl, hA⟩
    have hrg := h.ran.added q' hq'
    rw [← hreg] at hrg
    obtain ⟨i, hi⟩ := List.mem_iff_getElem?.1 hrg
    have hmem : (MockRegion.of q'.2 q'.1, i) ∈ m.regions.zipIdx := List.mem_zipIdx_iff_getElem?.2 hi
    obtain ⟨z1, h1⟩ := e1'.1 _ hmem
    have he : (s, q'.2 + o) ∈ (MockRegion.of q'.2 q'.1).enabled := MockRegion.of_enabled.2 ⟨o, ho, rfl⟩
    obtain ⟨z2, h2⟩ := (Mock.collect_mem h1).1 _ he
    have hq : ((gate.flatMap selectorsIn, gate.flatMap queriesIn), j) ∈ m.queried.zipIdx := by
      rw [List.mem_zipIdx_iff_getElem?, hqd, List.getElem?_map, hgate]; rfl
    obtain ⟨z3, h3⟩ := (Mock.collect_mem h2).1 _ hq
    have h3' := h3
    dsimp only at h3'
    rw [if_pos hs] at h3'
    obtain ⟨z4, h4⟩ := (Mock.collect_mem h3').1 _ hx
    have h4' := h4
    dsimp only at h4'
    rw [if_neg (by rw [MockRegion.of_cells, hn]; exact hA)] at h4'
    refine ⟨i, (e1'.2 _).2 ⟨_, hmem, z1, h1, ((Mock.collect_mem h1).2 _).2 ⟨_, he, z2, h2,
      ((Mock.collect_mem h2).2 _).2 ⟨_, hq, z3, h3, ((Mock.collect_mem h3').2 _).2 ⟨_, hx, z4, h4, ?_⟩⟩⟩⟩⟩
    cases hrows : (MockRegion.of q'.2 q'.1).rows with
    | none => rw [hrows] at h4'; cases h4'
    | some se =>
      rw [hrows] at h4'
      cases h4'
      rw [hn]
      exact List.mem_singleton.2 rfl

theorem report_gates (hb : Built cs simple) (hgd : Guarded cs) (hco : SameSelectors simple steps)
    (h : Made fuel cs n steps ch inst m st ss p c cols as) (ht : Tidy cs n steps st.asm) (hv : m.verify = .ok r)
    (hg : Extends cs n st.asm ch inst g) (i j row : Nat) :
    (.notSatisfied i j row ∈ failures r ↔ ∃ gate e, cs.gates[i]? = some gate ∧ gate[j]? = some e ∧ row < n ∧
      e.eval n g row ≠ 0) ∧ .poisoned i j ∉ failures r := by
  obtain ⟨a, b, c', d, e1, e2, e3, e4, hf⟩ := Mock.verify_failures hv
  obtain ⟨rs, r1, r2, r3, r4, r5, r6, r7⟩ := h.rules hb
  have hn : m.n = n := by rw [h.mock]
  have hcl : ∀ f, (∃ i j row, f = Failure.notSatisfied i j row) ∨ (∃ i j, f = Failure.poisoned i j) →
      (f ∈ failures r ↔ f ∈ b) := by
    intro f hk
    rw [hf]
    constructor
    · rintro (h | h | h | h)
      · obtain ⟨_, _, _, _, _, rfl⟩ := Mock.selectorErrors_kind e1 _ h
        rcases hk with ⟨_, _, _, h⟩ | ⟨_, _, h⟩ <;> cases h
      · exact h
      · obtain ⟨_, _, rfl⟩ := Mock.lookupErrors_kind e3 _ h
        rcases hk with ⟨_, _, _, h⟩ | ⟨_, _, h⟩ <;> cases h
      · obtain ⟨_, _, rfl⟩ := Mock.permErrors_kind e4 _ h
        rcases hk with ⟨_, _, _, h⟩ | ⟨_, _, h⟩ <;> cases h
    · exact fun h => .inr (.inl h)
  have zero : ∀ gate ∈ cs.gates, ∀ e ∈ gate, ∀ row, row < n →
      ((e.subst rs).eval n (g.withColumns cs.numFixed cols) row = 0 ↔ e.eval n g row = 0) := by
    intro gate hgate e he row hrow
    have he' : e ∈ cs.gates.flatten := List.mem_flatten.2 ⟨gate, hgate, he⟩
    have hmem : e ∈ expressions cs := List.mem_append_left _ he'
    refine (subst_eval (g := g) (g' := g.withColumns cs.numFixed cols) e (hb.sane.gates e he') rfl rfl rfl ?_ ?_).1
    · intro c hc
      funext x
      show (if _ then _ else _) = _
      rw [if_pos (hb.sane.fixed e hmem c hc)]
    · intro s hs
      obtain ⟨h1, h2⟩ := hb.sane.selectors e hmem s hs
      exact ⟨r6 g hg row hrow s.index h1, fun hsm => r7 g hg row hrow s.index h1 (by rw [← h2]; exact hsm)⟩
  have value : ∀ gate ∈ cs.gates, ∀ e ∈ gate, ∀ row, row < n → ∃ x, m.lazy row (e.subst rs) = .real x ∧
      (x = 0 ↔ e.eval n g row = 0) := by
    intro gate hgate e he row hrow
    rcases h.gate_cases hb hgd hco ht r5 r6 hg hgate he hrow with h0 | ⟨-, h0⟩
    · refine ⟨0, h0, iff_of_true rfl ?_⟩
      rw [← zero gate hgate e he row hrow]
      have := Mock.lazy_eval (h.agrees hg) h0
      rwa [hn] at this
    · exact ⟨_, h0, zero gate hgate e he row hrow⟩
  have e2' := Mock.collect_mem e2
  have hitem : ∀ {x : List Expr × Nat}, x ∈ m.cs.gates.zipIdx → ∀ {y : Expr × Nat}, y ∈ x.1.zipIdx →
      ∃ gate e, cs.gates[x.2]? = some gate ∧ gate[y.2]? = some e ∧ y.1 = e.subst rs := by
    rintro ⟨es, i⟩ hx ⟨e', j⟩ hy
    have hx := List.mem_zipIdx_iff_getElem?.1 hx
    have hy := List.mem_zipIdx_iff_getElem?.1 hy
    rw [r1, List.getElem?_map] at hx
    obtain ⟨gate, hgate, rfl⟩ := Option.map_eq_some_iff.1 hx
    rw [List.getElem?_map] at hy
    obtain ⟨e, he, rfl⟩ := Option.map_eq_some_iff.1 hy
    exact ⟨gate, e, hgate, he, rfl⟩
  refine ⟨?_, ?_⟩
  · rw [hcl _ (.inl ⟨i, j, row, rfl⟩), e2'.2]
    constructor
    · rintro ⟨x, hx, z, h1, hi⟩
      obtain ⟨row', hrow', z, h1, hi⟩ := ((Mock.collect_mem h1).2 _).1 hi
      obtain ⟨y, hy, z, h1, hi⟩ := ((Mock.collect_mem h1).2 _).1 hi
      obtain ⟨gate, e, hgate, he, hye⟩ := hitem hx hy
      have hrow' := (h.rows_all r3 row').1 hrow'
      obtain ⟨v, hv1, hv2⟩ := value gate (List.mem_of_getElem? hgate) e (List.mem_of_getElem? he) row' hrow'
      unfold Mock.polyError at h1
      rw [hye, hv1] at h1
      dsimp only at h1
      split_ifs at h1 with h0 h00
      · cases h1; cases hi
      · cases h1
        have hi := List.mem_singleton.1 hi
        injection hi with hi hj hr
        subst hi hj hr
        exact ⟨gate, e, hgate, he, hrow', fun hz => h0 (hv2.2 hz)⟩
    · rintro ⟨gate, e, hgate, he, hrow, hne⟩
      have hx : (gate.map (Expr.subst rs), i) ∈ m.cs.gates.zipIdx := by
        rw [List.mem_zipIdx_iff_getElem?, r1, List.getElem?_map, hgate]; rfl
      obtain ⟨z1, h1⟩ := e2'.1 _ hx
      have hrow' := (h.rows_all r3 row).2 hrow
      obtain ⟨z2, h2⟩ := (Mock.collect_mem h1).1 _ hrow'
      have hy : (e.subst rs, j) ∈ (gate.map (Expr.subst rs)).zipIdx := by
        rw [List.mem_zipIdx_iff_getElem?, List.getElem?_map, he]; rfl
      obtain ⟨z3, h3⟩ := (Mock.collect_mem h2).1 _ hy
      obtain ⟨v, hv1, hv2⟩ := value gate (List.mem_of_getElem? hgate) e (List.mem_of_getElem? he) row hrow
      refine ⟨_, hx, z1, h1, ((Mock.collect_mem h1).2 _).2 ⟨row, hrow', z2, h2,
        ((Mock.collect_mem h2).2 _).2 ⟨_, hy, z3, h3, ?_⟩⟩⟩
      unfold Mock.polyError at h3
      rw [hv1] at h3
      dsimp only at h3
      rw [if_neg fun h0 => hne (hv2.1 h0)] at h3
      split_ifs at h3
      cases h3
      exact List.mem_singleton.2 rfl
  · rw [hcl _ (.inr ⟨i, j, rfl⟩), e2'.2]
    rintro ⟨x, hx, z, h1, hi⟩
    obtain ⟨row', hrow', z, h1, hi⟩ := ((Mock.collect_mem h1).2 _).1 hi
    obtain ⟨y, hy, z, h1, hi⟩ := ((Mock.collect_mem h1).2 _).1 hi
    obtain ⟨gate, e, hgate, he, hye⟩ := hitem hx hy
    have hrow' := (h.rows_all r3 row').1 hrow'
    obtain ⟨v, hv1, hv2⟩ := value gate (List.mem_of_getElem? hgate) e (List.mem_of_getElem? he) row' hrow'
    unfold Mock.polyError at h1
    rw [hye, hv1] at h1
    dsimp only at h1
    split_ifs at h1
    · cases h1; cases hi
    · cases h1; cases List.mem_singleton.1 hi

/-- Tied cells are the same or both copied. -/
theorem tied_cases {copies : List ((Col × Nat) × (Col × Nat))} {x y : Col × Nat} (h : Tied copies x y) :
    x = y ∨ ((∃ q ∈ copies, x = q.1 ∨ x = q.2) ∧ ∃ q ∈ copies, y = q.1 ∨ y = q.2) := by
  induction h with
  | rel x y h => exact .inr ⟨⟨_, h, .inl rfl⟩, _, h, .inr rfl⟩
  | refl x => exact .inl rfl
  | symm x y _ ih =>
    rcases ih with ih | ⟨h1, h2⟩
    · exact .inl ih.symm
    · exact .inr ⟨h2, h1⟩
  | trans x y z _ _ ih1 ih2 =>
    rcases ih1 with rfl | ⟨h1, h2⟩
    · exact ih2
    · rcases ih2 with rfl | ⟨h3, h4⟩
      · exact .inr ⟨h1, h2⟩
      · exact .inr ⟨h1, h4⟩

/-- Two cells that are copied are held alike. -/
theorem held_iff (hb : Built cs simple) (h : Made fuel cs n steps ch inst m st ss p c cols as)
    (hg : Extends cs n st.asm ch inst g) {x y : Col × Nat} (ht : Tied st.asm.copies x y) :
    held m x = held m y ↔ g.cell x = g.cell y ∧ (Has steps st.asm x ↔ Has steps st.asm y) := by
  rcases tied_cases ht with rfl | ⟨⟨q, hq, hx⟩, q', hq', hy⟩
  · simp
  · have inside : ∀ {x : Col × Nat} {q}, q ∈ st.asm.copies → x = q.1 ∨ x = q.2 →
        x.1 ∈ cs.permutation ∧ x.2 < cs.usableRows n := by
      intro x q hq hx
      obtain ⟨h1, h2⟩ := h.copies_inside q hq
      rcases hx with rfl | rfl
      · exact h1
      · exact h2
    obtain ⟨a1, a2⟩ := inside hq hx
    obtain ⟨a3, a4⟩ := inside hq' hy
    obtain ⟨b, e1, e2, e3⟩ := h.held_eq hb hg a1 a2
    obtain ⟨b', f1, f2, f3⟩ := h.held_eq hb hg a3 a4
    rw [e1, f1, ← e2, ← f2]
    cases b <;> cases b' <;> simp [CellValue.of] <;> simp_all

theorem report_copies (hb : Built cs simple) (hfu : cs.permutation.length * n ≤ fuel)
    (h : Made fuel cs n steps ch inst m st ss p c cols as) (hv : m.verify = .ok r)
    (hg : Extends cs n st.asm ch inst g) :
    (∀ i row, .permutation i row ∈ failures r → ∃ x y, CellAt cs.permutation (i, row) x ∧
      Tied st.asm.copies x y ∧ ¬ (g.cell x = g.cell y ∧ (Has steps st.asm x ↔ Has steps st.asm y))) ∧
    ∀ x y, Tied st.asm.copies x y → ¬ (g.cell x = g.cell y ∧ (Has steps st.asm x ↔ Has steps st.asm y)) →
      ∃ i row z, .permutation i row ∈ failures r ∧ CellAt cs.permutation (i, row) z ∧ Tied st.asm.copies x z := by
  obtain ⟨a, b, c', d, e1, e2, e3, e4, hf⟩ := Mock.verify_failures hv
  obtain ⟨rs, r1, r2, r3, hperm, r5, r6, r7⟩ := h.rules hb
  have hcl : ∀ i row, Failure.permutation i row ∈ failures r ↔ Failure.permutation i row ∈ d := by
    intro i row
    rw [hf]
    constructor
    · rintro (h | h | h | h)
      · obtain ⟨_, _, _, _, _, h⟩ := Mock.selectorErrors_kind e1 _ h; cases h
      · rcases Mock.gateErrors_kind e2 _ h with ⟨_, _, _, h⟩ | ⟨_, _, h⟩ <;> cases h
      · obtain ⟨_, _, h⟩ := Mock.lookupErrors_kind e3 _ h; cases h
      · exact h
    · exact fun h => .inr (.inr (.inr h))
  have hp := h.isPermutation hb hfu
  have hlt := h.usable_lt
  have hin : ∀ q ∈ st.asm.copies, (q.1.1 ∈ cs.permutation ∧ q.1.2 < n) ∧ (q.2.1 ∈ cs.permutation ∧ q.2.2 < n) := by
    intro q hq
    obtain ⟨⟨a1, a2⟩, a3, a4⟩ := h.copies_inside q hq
    exact ⟨⟨a1, by omega⟩, a3, by omega⟩
  have hloop : ∀ c d x y, CellAt cs.permutation c x → CellAt cs.permutation d y → x.2 < n → y.2 < n →
      (SameLoop m.mapping c d ↔ Tied st.asm.copies x y) := by
    obtain ⟨a, h1, -, h3⟩ := Props.C33_cycles fuel n cs.permutation hb.nodup hfu st.asm.copies hin
    rw [h.copied] at h1
    cases h1
    rw [h.mock]
    exact h3
  have cellAt : ∀ x, Inside cs.permutation.length n x → ∃ y, CellAt cs.permutation x y ∧ y.2 < n := by
    rintro ⟨i, r⟩ ⟨h1, h2⟩
    exact ⟨(cs.permutation[i]'h1, r), ⟨List.getElem?_eq_getElem h1, rfl⟩, h2⟩
  have orig : ∀ {x y}, CellAt cs.permutation x y → m.original x = .ok (held m y) := by
    intro x y hxy
    exact original_of (by rw [hperm]; exact hxy)
  -- a failure is an entry of the mapping between cells held differently
  have fails : ∀ i row, Failure.permutation i row ∈ d ↔ ∃ k x y, entry m.mapping (i, row) = some k ∧
      CellAt cs.permutation (i, row) x ∧ CellAt cs.permutation k y ∧ held m x ≠ held m y := by
    intro i row
    rw [(Mock.collect_mem e4).2]
    constructor
    · rintro ⟨⟨col, i'⟩, hcol, z, h1, hi⟩
      obtain ⟨⟨k, row'⟩, hk, z, h1, hi⟩ := ((Mock.collect_mem h1).2 _).1 hi
      have hent : entry m.mapping (i', row') = some k := by
        unfold entry
        rw [List.mem_zipIdx_iff_getElem?.1 hcol]
        exact List.mem_zipIdx_iff_getElem?.1 hk
      obtain ⟨x, hx, -⟩ := cellAt _ ((hp.defined _).1 (by rw [hent]; rfl))
      obtain ⟨y, hy, -⟩ := cellAt _ (hp.inside _ _ hent)
      dsimp only at h1
      rw [orig hx, orig hy] at h1
      have h1 : (if held m x = held m y then [] else [Failure.permutation i' row']) = z := Except.ok.inj h1
      rw [← h1] at hi
      split_ifs at hi with hne
      · cases hi
      · have hi := List.mem_singleton.1 hi
        injection hi with hi hr
        subst hi hr
        exact ⟨k, x, y, hent, hx, hy, hne⟩
    · rintro ⟨k, x, y, hent, hx, hy, hne⟩
      unfold entry at hent
      cases hcol : m.mapping[i]? with
      | none => rw [hcol] at hent; cases hent
      | some col =>
        rw [hcol] at hent
        have hent : col[row]? = some k := hent
        have h1 : (col, i) ∈ m.mapping.zipIdx := List.mem_zipIdx_iff_getElem?.2 hcol
        have h2 : (k, row) ∈ col.zipIdx := List.mem_zipIdx_iff_getElem?.2 hent
        obtain ⟨z, hz⟩ := (Mock.collect_mem e4).1 _ h1
        obtain ⟨z', hz'⟩ := (Mock.collect_mem hz).1 _ h2
        refine ⟨_, h1, z, hz, ((Mock.collect_mem hz).2 _).2 ⟨_, h2, z', hz', ?_⟩⟩
        dsimp only at hz'
        rw [orig hx, orig hy] at hz'
        have hz' : (if held m x = held m y then [] else [Failure.permutation i row]) = z' := Except.ok.inj hz'
        rw [← hz', if_neg hne]
        exact List.mem_singleton.2 rfl
  constructor
  · intro i row hi
    rw [hcl, fails] at hi
    obtain ⟨k, x, y, hent, hx, hy, hne⟩ := hi
    have i1 := (hp.defined _).1 (show (entry m.mapping (i, row)).isSome = true by rw [hent]; rfl)
    have i2 := hp.inside _ _ hent
    have ht : Tied st.asm.copies x y :=
      (hloop (i, row) k x y hx hy (by rw [← hx.2]; exact i1.2) (by rw [← hy.2]; exact i2.2)).1 (.single hent)
    exact ⟨x, y, hx, ht, fun hh => hne ((h.held_iff hb hg ht).2 hh)⟩
  · intro x y ht hne
    have hne' : held m x ≠ held m y := fun hh => hne ((h.held_iff hb hg ht).1 hh)
    have cell : ∀ {x : Col × Nat} {q}, q ∈ st.asm.copies → x = q.1 ∨ x = q.2 →
        ∃ i, CellAt cs.permutation i x ∧ x.2 < n := by
      intro x q hq hx
      have : x.1 ∈ cs.permutation ∧ x.2 < n := by
        rcases hx with rfl | rfl
        · exact (hin q hq).1
        · exact (hin q hq).2
      obtain ⟨i, hi⟩ := List.mem_iff_getElem?.1 this.1
      exact ⟨(i, x.2), ⟨hi, rfl⟩, this.2⟩
    rcases tied_cases ht with rfl | ⟨⟨q, hq, hx⟩, q', hq', hy⟩
    · exact absurd rfl hne'
    obtain ⟨ci, hci, hxn⟩ := cell hq hx
    obtain ⟨di, hdi, hyn⟩ := cell hq' hy
    have hl := (hloop ci di x y hci hdi hxn hyn).2 ht
    -- along the loop from `x`
    have walk : ∀ {e}, SameLoop m.mapping ci e → ∀ z, CellAt cs.permutation e z → z.2 < n →
        held m x = held m z ∨ ∃ i row z, Failure.permutation i row ∈ d ∧
          CellAt cs.permutation (i, row) z ∧ Tied st.asm.copies x z := by
      intro e he
      induction he with
      | refl =>
        intro z hz _
        left
        obtain ⟨z1, z2⟩ := z
        obtain ⟨x1, x2⟩ := x
        obtain ⟨u1, u2⟩ := hci
        obtain ⟨u3, u4⟩ := hz
        rw [u1] at u3
        cases u3
        dsimp only at u2 u4
        rw [← u2, ← u4]
      | tail hab hbc ih =>
        rename_i b' c''
        intro z hz hzn
        have ib := (hp.defined _).1 (show (entry m.mapping b').isSome = true by rw [hbc]; rfl)
        obtain ⟨w, hw, hwn⟩ := cellAt _ ib
        rcases ih w hw hwn with hh | hh
        · by_cases hwz : held m w = held m z
          · exact .inl (hh.trans hwz)
          · right
            obtain ⟨b1, b2⟩ := b'
            exact ⟨b1, b2, w, (fails b1 b2).2 ⟨_, w, z, hbc, hw, hz, hwz⟩, hw, (hloop _ _ _ _ hci hw hxn hwn).1 hab⟩
        · exact .inr hh
    rcases walk hl y hdi hyn with hh | ⟨i, row, z, h1, h2, h3⟩
    · exact absurd hh hne'
    · exact ⟨i, row, z, (hcl i row).2 h1, h2, h3⟩

end Made

end Verif

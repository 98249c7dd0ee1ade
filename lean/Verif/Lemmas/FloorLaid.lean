import Verif.Lemmas.FloorSlots

/-! The calls that are made, and the cells for constants. -/

namespace Verif.FloorPlanner

open Spec

variable {V : Type}

/-! Shapes -/

theorem column_eq (x : Call V) : x.column = (cellOf x).map (·.1) := by cases x <;> rfl

theorem rows_eq (x : Call V) : x.rows = ((cellOf x).map (·.2 + 1)).getD 0 := by cases x <;> rfl

theorem shape_columns (i : Nat) (calls : List (Call V)) : (shapeOf i calls).columns = columnsUsed calls := by
  show (calls.filterMap Call.column).dedup = _
  unfold columnsUsed
  rw [List.map_filterMap]
  congr 2
  funext x
  exact column_eq x

theorem foldl_max_eq (l : List Nat) : ∀ a, l.foldl max a = max a (l.foldr max 0) := by
  induction l with
  | nil => intro a; simp
  | cons b l ih => intro a; rw [List.foldl_cons, ih, List.foldr_cons, max_assoc]

theorem shape_rows (i : Nat) (calls : List (Call V)) : (shapeOf i calls).rows = height calls := by
  show (calls.map Call.rows).foldl max 0 = _
  rw [foldl_max_eq, Nat.zero_max]
  unfold height
  induction calls with
  | nil => rfl
  | cons x l ih =>
    rw [List.map_cons, List.foldr_cons, ih, List.filterMap_cons, rows_eq]
    cases cellOf x with
    | none => simp
    | some p => rfl

theorem le_foldr_max {l : List Nat} {a : Nat} (h : a ∈ l) : a ≤ l.foldr max 0 := by
  induction l with
  | nil => cases h
  | cons b l ih =>
    rw [List.foldr_cons]
    rcases List.mem_cons.1 h with rfl | h
    · exact le_max_left _ _
    · exact le_trans (ih h) (le_max_right _ _)

theorem exists_of_lt_foldr {l : List Nat} {a : Nat} (h : a < l.foldr max 0) : ∃ b ∈ l, a < b := by
  induction l with
  | nil => cases h
  | cons b l ih =>
    rw [List.foldr_cons] at h
    rcases lt_max_iff.1 h with h | h
    · exact ⟨b, List.mem_cons_self, h⟩
    · obtain ⟨c, c1, c2⟩ := ih h; exact ⟨c, List.mem_cons_of_mem _ c1, c2⟩

theorem mem_columnsUsed {calls : List (Call V)} {c : RegionColumn} :
    c ∈ columnsUsed calls ↔ ∃ x ∈ calls, ∃ o, cellOf x = some (c, o) := by
  unfold columnsUsed
  rw [List.mem_dedup]
  simp only [List.mem_map, List.mem_filterMap, Prod.exists, exists_and_right, exists_eq_right]
  constructor
  · rintro ⟨o, x, h1, h2⟩; exact ⟨x, h1, o, h2⟩
  · rintro ⟨x, h1, o, h2⟩; exact ⟨o, x, h1, h2⟩

theorem lt_height {calls : List (Call V)} {x : Call V} (hx : x ∈ calls) {c : RegionColumn} {o : Nat}
    (h : cellOf x = some (c, o)) : o < height calls :=
  le_foldr_max (List.mem_map.2 ⟨(c, o), List.mem_filterMap.2 ⟨x, hx, h⟩, rfl⟩)

theorem shape_ok (i : Nat) (calls : List (Call V)) : (shapeOf i calls).Ok := by
  refine ⟨List.nodup_dedup _, fun h => ?_⟩
  rw [shape_columns] at h
  rw [shape_rows]
  obtain ⟨c, hc⟩ := List.exists_mem_of_ne_nil _ h
  obtain ⟨x, h1, o, h2⟩ := mem_columnsUsed.1 hc
  exact lt_of_le_of_lt (Nat.zero_le _) (lt_height h1 h2)

theorem covered_cell {measured calls : List (Call V)} (h : Covered measured calls) {x : Call V} (hx : x ∈ calls)
    {c : RegionColumn} {o : Nat} (hc : cellOf x = some (c, o)) : c ∈ columnsUsed measured ∧ o < height measured := by
  obtain ⟨⟨m, m1, o', m2⟩, m', m1', col', o'', m2', hle⟩ := h x hx c o hc
  exact ⟨mem_columnsUsed.2 ⟨m, m1, o', m2⟩, lt_of_le_of_lt hle (lt_height m1' m2')⟩

/-! Calls -/

theorem position_ok {starts : List Nat} {c : Cell} (h : c.region < starts.length) : ∃ s, starts[c.region]? = some s ∧
    position starts c = .ok (c.col, s + c.offset) := by
  refine ⟨starts[c.region], List.getElem?_eq_getElem h, ?_⟩
  unfold position
  rw [List.getElem?_eq_getElem h]

theorem place_ok {starts : List Nat} {start : Nat} {x : Call V} (h : RefersTo (· < starts.length) x) :
    ∃ b, place starts start x = .ok b ∧ Puts starts start x b := by
  cases x with
  | equal a b =>
    obtain ⟨x, x1, x2⟩ := position_ok h.1
    obtain ⟨y, y1, y2⟩ := position_ok h.2
    refine ⟨_, ?_, Puts.equal a b x y x1 y1⟩
    unfold place
    dsimp only
    rw [x2, y2]
    rfl
  | _ => exact ⟨_, rfl, by constructor⟩

theorem placeAll_ok {starts : List Nat} {start : Nat} : ∀ {calls : List (Call V)},
    (∀ x ∈ calls, RefersTo (· < starts.length) x) →
    ∃ bs, placeAll starts start calls = .ok bs.flatten ∧ List.Forall₂ (Puts starts start) calls bs := by
  intro calls
  induction calls with
  | nil => intro _; exact ⟨[], rfl, List.Forall₂.nil⟩
  | cons x l ih =>
    intro h
    obtain ⟨b, h1, h2⟩ := place_ok (start := start) (h x List.mem_cons_self)
    obtain ⟨bs, h3, h4⟩ := ih fun y hy => h y (List.mem_cons_of_mem _ hy)
    refine ⟨b :: bs, ?_, List.Forall₂.cons h2 h4⟩
    unfold placeAll
    rw [h1, h3]
    rfl

theorem placeConstants_ok {starts : List Nat} : ∀ {l : List ((Nat × Nat) × (V × Cell))},
    (∀ x ∈ l, x.2.2.region < starts.length) →
    ∃ bs, placeConstants starts l = .ok bs.flatten ∧ List.Forall₂ (Supplies starts) l bs := by
  intro l
  induction l with
  | nil => intro _; exact ⟨[], rfl, List.Forall₂.nil⟩
  | cons x l ih =>
    intro h
    obtain ⟨⟨c, r⟩, v, cell⟩ := x
    obtain ⟨s, s1, s2⟩ := position_ok (h _ List.mem_cons_self)
    obtain ⟨bs, h3, h4⟩ := ih fun y hy => h y (List.mem_cons_of_mem _ hy)
    refine ⟨_ :: bs, ?_, List.Forall₂.cons ⟨s, s1, rfl⟩ h4⟩
    unfold placeConstants
    dsimp only at s2
    rw [s2, h3]
    rfl

/-- All calls, with the regions counted from `k`. -/
def callsFrom (k : Nat) (regions : List (List (Call V))) : List (Nat × Call V) :=
  (regions.zipIdx k).flatMap fun r => r.1.map fun c => (r.2, c)

theorem assignAll_ok {starts : List Nat} : ∀ {regions : List (List (Call V))} {k : Nat},
    k + regions.length ≤ starts.length → (∀ x ∈ callsFrom k regions, RefersTo (· < starts.length) x.2) →
    ∃ bs, assignAll starts k regions = .ok bs.flatten ∧
      List.Forall₂ (fun ic b => ∃ s, starts[ic.1]? = some s ∧ Puts starts s ic.2 b) (callsFrom k regions) bs := by
  intro regions
  induction regions with
  | nil => intro k _ _; exact ⟨[], rfl, List.Forall₂.nil⟩
  | cons calls rest ih =>
    intro k hk h
    have hc : callsFrom k (calls :: rest) = (calls.map fun c => (k, c)) ++ callsFrom (k + 1) rest := rfl
    rw [hc] at h ⊢
    rw [List.length_cons] at hk
    have hlt : k < starts.length := by omega
    obtain ⟨bs, h1, h2⟩ := placeAll_ok (starts := starts) (start := starts[k]) (calls := calls)
      fun x hx => h (k, x) (List.mem_append_left _ (List.mem_map.2 ⟨x, hx, rfl⟩))
    obtain ⟨bs', h3, h4⟩ := ih (k := k + 1) (by omega) fun x hx => h x (List.mem_append_right _ hx)
    refine ⟨bs ++ bs', ?_, List.rel_append ?_ h4⟩
    · unfold assignAll
      rw [List.getElem?_eq_getElem hlt]
      dsimp only
      rw [h1, h3, List.flatten_append]
      rfl
    · rw [List.forall₂_map_left_iff]
      exact h2.imp fun x b hb => ⟨_, List.getElem?_eq_getElem hlt, hb⟩

theorem wanted_eq (regions : List (List (Call V))) :
    (regions.zipIdx.flatMap fun r => r.1.filterMap (Call.request r.2)) = wanted regions := by
  unfold wanted allCalls
  rw [List.filterMap_flatMap]
  congr 1
  funext r
  rw [List.filterMap_map]
  congr 1

theorem wanted_region {n : Nat} {regions : List (List (Call V))} (hn : regions.length ≤ n)
    (h : ∀ x ∈ allCalls regions, RefersTo (· < n) x.2) : ∀ w ∈ wanted regions, w.2.region < n := by
  intro w hw
  obtain ⟨⟨i, x⟩, h1, h2⟩ := List.mem_filterMap.1 hw
  have hi : i < regions.length := by
    obtain ⟨⟨r, j⟩, r1, r2⟩ := List.mem_flatMap.1 h1
    obtain ⟨y, -, e⟩ := List.mem_map.1 r2
    cases e
    have := List.mem_zipIdx r1
    omega
  cases x with
  | constant c o v => cases h2; exact lt_of_lt_of_le hi hn
  | equalConstant c v => cases h2; exact h _ h1
  | _ => cases h2

theorem mem_allCalls {regions : List (List (Call V))} {i : Nat} {x : Call V} :
    (i, x) ∈ allCalls regions ↔ ∃ r, regions[i]? = some r ∧ x ∈ r := by
  unfold allCalls
  simp only [List.mem_flatMap, List.mem_map, Prod.mk.injEq, Prod.exists]
  constructor
  · rintro ⟨r, j, h1, y, h2, rfl, rfl⟩
    exact ⟨r, List.mem_zipIdx_iff_getElem?.1 h1, h2⟩
  · rintro ⟨r, h1, h2⟩
    exact ⟨r, i, List.mem_zipIdx_iff_getElem?.2 h1, x, h2, rfl, rfl⟩

/-! Cells for constants -/

theorem unboundedStart_le {l : Allocations} (hg : Good l) : ∀ a ∈ l, a.start + a.length ≤ l.unboundedStart := by
  intro a ha
  unfold Allocations.unboundedStart
  cases hl : l.getLast? with
  | none => rw [List.getLast?_eq_none_iff] at hl; subst hl; cases ha
  | some b =>
    obtain ⟨m, rfl⟩ := List.getLast?_eq_some_iff.1 hl
    rcases List.mem_append.1 ha with ha | ha
    · have := (List.pairwise_append.1 hg.1).2.2 a ha b (by simp)
      dsimp only
      omega
    · obtain rfl := List.mem_singleton.1 ha
      exact le_rfl

theorem unboundedStart_mem {l : Allocations} {r : Nat} (h : r < l.unboundedStart) : ∃ a ∈ l, r < a.start + a.length := by
  unfold Allocations.unboundedStart at h
  cases hl : l.getLast? with
  | none => rw [hl] at h; cases h
  | some b => rw [hl] at h; exact ⟨b, List.mem_of_getLast? hl, h⟩

theorem lt_firstUnassigned {m : List (Nat × Shape)} {shapes : List Shape} {cols : Columns} (h : Holds m cols)
    (hm : (m.map (·.2)).Perm shapes) (r : Nat) : r < firstUnassigned shapes cols ↔
      ∃ p ∈ m, p.2.columns ≠ [] ∧ r < p.1 + p.2.rows := by
  unfold firstUnassigned
  rw [foldl_max_eq, Nat.zero_max]
  constructor
  · intro hr
    obtain ⟨b, hb, hlt⟩ := exists_of_lt_foldr hr
    obtain ⟨c, -, rfl⟩ := List.mem_map.1 hb
    obtain ⟨a, ha, hlt⟩ := unboundedStart_mem hlt
    obtain ⟨p, p1, p2, rfl⟩ := (h.mem c a).1 ha
    exact ⟨p, p1, List.ne_nil_of_mem p2, hlt⟩
  · rintro ⟨p, p1, p2, p3⟩
    obtain ⟨c, hc⟩ := List.exists_mem_of_ne_nil _ p2
    have hs : p.2 ∈ shapes := hm.mem_iff.1 (List.mem_map.2 ⟨p, p1, rfl⟩)
    have h1 := unboundedStart_le (h.good c) ⟨p.1, p.2.rows⟩ ((h.mem c _).2 ⟨p, p1, hc, rfl⟩)
    have h2 : (cols c).unboundedStart ≤ _ := le_foldr_max
      (List.mem_map.2 ⟨c, List.mem_flatMap.2 ⟨p.2, hs, hc⟩, rfl⟩ : (cols c).unboundedStart ∈
        (shapes.flatMap Shape.columns).map fun c => (cols c).unboundedStart)
    exact lt_of_lt_of_le p3 (le_trans h1 h2)

theorem mem_positions {constants : List Nat} {rows : Nat} {cols : Columns} (hg : ∀ c, Good (cols c)) (p : Nat × Nat) :
    p ∈ constantPositions constants rows cols ↔ p.1 ∈ constants ∧ p.2 < rows ∧ Vacant (cols (.col (.fixed p.1))) p.2 1 := by
  obtain ⟨c, r⟩ := p
  unfold constantPositions
  simp only [List.mem_flatMap]
  constructor
  · rintro ⟨c', h1, g, h2, h3⟩
    obtain ⟨b1, b2, b3⟩ := free_bounds g h2
    cases hs : g.stop with
    | none => rw [hs] at h3; cases h3
    | some e =>
      rw [hs] at h3
      obtain ⟨i, i1, i2⟩ := List.mem_map.1 h3
      cases i2
      obtain ⟨b4, b5⟩ := b2 e hs
      have b6 := b5 rows rfl
      rw [List.mem_range'_1] at i1
      refine ⟨h1, by omega, (free_iff (stop := some rows) (row := 0) one_pos (hg _) (Nat.zero_le _) ?_).2
        ⟨g, h2, i1.1, ?_⟩⟩
      · intro e' he; cases he; omega
      · intro e' he; rw [hs] at he; cases he; omega
  · rintro ⟨h1, h2, h3⟩
    obtain ⟨g, g1, g2, g3⟩ := (free_iff (stop := some rows) (row := 0) one_pos (hg _) (Nat.zero_le _)
      (fun e he => by cases he; exact h2)).1 h3
    refine ⟨c, h1, g, g1, ?_⟩
    cases hs : g.stop with
    | none => have := (free_bounds g g1).2.2 hs; cases this
    | some e =>
      have := g3 e hs
      refine List.mem_map.2 ⟨r, List.mem_range'_1.2 ⟨g2, by omega⟩, rfl⟩

theorem nodup_positions {constants : List Nat} (hc : constants.Nodup) (rows : Nat) (cols : Columns) :
    (constantPositions constants rows cols).Nodup := by
  unfold constantPositions
  refine List.nodup_flatMap.2 ⟨fun c _ => List.nodup_flatMap.2 ⟨fun g _ => ?_, ?_⟩, ?_⟩
  · cases g.stop with
    | none => exact List.nodup_nil
    | some e => exact (List.nodup_range' ..).map fun a b h => (Prod.mk.inj h).2
  · refine (free_ordered (l := cols (.col (.fixed c))) (stop := some rows) (row := 0)).imp ?_
    rintro g g' ⟨e, e1, e2⟩
    simp only [Function.onFun, e1]
    rw [List.disjoint_left]
    intro p hp hp'
    obtain ⟨i, i1, rfl⟩ := List.mem_map.1 hp
    rw [List.mem_range'_1] at i1
    cases hs : g'.stop with
    | none => rw [hs] at hp'; cases hp'
    | some e' =>
      rw [hs] at hp'
      obtain ⟨j, j1, j2⟩ := List.mem_map.1 hp'
      rw [List.mem_range'_1] at j1
      cases j2
      omega
  · refine hc.imp ?_
    intro c c' hcc
    simp only [Function.onFun]
    rw [List.disjoint_left]
    intro p hp hp'
    obtain ⟨g, -, g2⟩ := List.mem_flatMap.1 hp
    obtain ⟨g', -, g2'⟩ := List.mem_flatMap.1 hp'
    cases hs : g.stop with
    | none => rw [hs] at g2; cases g2
    | some e =>
      cases hs' : g'.stop with
      | none => rw [hs'] at g2'; cases g2'
      | some e' =>
        rw [hs] at g2
        rw [hs'] at g2'
        obtain ⟨i, -, rfl⟩ := List.mem_map.1 g2
        obtain ⟨j, -, e2⟩ := List.mem_map.1 g2'
        exact hcc (Prod.mk.inj e2).1.symm

/-! Regions apart -/

theorem clear_symm {s n t m : Nat} (h : Clear s n t m) : Clear t m s n := Or.symm h

theorem slots_apart {m l : List (Nat × Shape)} (hm : ∀ before after s, m = before ++ s :: after →
    IsLeast {r | ClearOf before s.2 r} s.1) (hp : m.Perm l) :
    l.Pairwise fun p q => (∃ c, c ∈ p.2.columns ∧ c ∈ q.2.columns) → Clear p.1 p.2.rows q.1 q.2.rows := by
  rw [← hp.pairwise_iff fun {p q} h => fun ⟨c, c1, c2⟩ => clear_symm (h ⟨c, c2, c1⟩)]
  rw [List.pairwise_iff_getElem]
  rintro i j hi hj hij ⟨c, c1, c2⟩
  have hsplit : m = m.take j ++ m[j] :: m.drop (j + 1) := by simp
  have := (hm _ _ _ hsplit).1 m[i] (List.mem_take_iff_getElem.2 ⟨i, by omega, rfl⟩) ⟨c, c2, c1⟩
  exact clear_symm this

theorem measure_get {measured : List (List (Call V))} {i : Nat} {s : Shape} :
    (measure measured)[i]? = some s ↔ ∃ m, measured[i]? = some m ∧ s = shapeOf i m := by
  unfold measure
  rw [List.getElem?_map, List.getElem?_zipIdx]
  cases measured[i]? with
  | none => simp
  | some m => simp [eq_comm]

theorem measure_length (measured : List (List (Call V))) : (measure measured).length = measured.length := by
  simp [measure]

end Verif.FloorPlanner

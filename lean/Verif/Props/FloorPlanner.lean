import Verif.Lemmas.FloorSimple

/-! C91: the floor planners. -/

namespace Verif.Props

open Spec FloorPlanner

variable {V : Type}

/-- The starts that are found, against the specification. -/
theorem slots_firstFit {m : List (Nat × Shape)} {starts : List Nat} {measured : List (List (Call V))}
    (h4 : ∀ before after s, m = before ++ s :: after → IsLeast {r | ClearOf ([] ++ before) s.2 r} s.1)
    (h5 : m.Perm (starts.zip (measure measured))) :
    (m.map fun p => (p.1, p.2.columns, p.2.rows)).Perm ((starts.zip measured).map fun p => (p.1, columnsUsed p.2, height p.2)) ∧
    FirstFit (m.map fun p => (p.1, p.2.columns, p.2.rows)) := by
  have hmz : (starts.zip (measure measured)).map (fun p => (p.1, p.2.columns, p.2.rows)) =
      (starts.zip measured).map fun p => (p.1, columnsUsed p.2, height p.2) := by
    apply List.ext_getElem?
    intro i
    unfold List.zip FloorPlanner.measure
    rw [List.getElem?_map, List.getElem?_map, List.getElem?_zipWith, List.getElem?_zipWith, List.getElem?_map,
      List.getElem?_zipIdx]
    cases starts[i]? with
    | none => rfl
    | some s =>
      cases measured[i]? with
      | none => rfl
      | some ms => simp [shape_columns, shape_rows]
  refine ⟨?_, ?_⟩
  · rw [← hmz]; exact h5.map _
  · intro before after s cs n hl
    obtain ⟨b, r, rfl, rfl, hr⟩ := List.map_eq_append_iff.1 hl
    obtain ⟨q, a, rfl, hq, rfl⟩ := List.map_eq_cons_iff.1 hr
    cases hq
    have := h4 b a q rfl
    refine ⟨?_, ?_⟩
    · intro p hp hx
      obtain ⟨p', p1, rfl⟩ := List.mem_map.1 hp
      exact this.1 p' p1 hx
    · intro r hr
      exact this.2 fun p hp hx => hr (p.1, p.2.columns, p.2.rows) (List.mem_map.2 ⟨p, hp, rfl⟩) hx

/-- C91, the planner V1. For all circuits, if the second pass keeps to what was measured and cells come from the
regions of the circuit: the regions are each put at the first row at which they are clear of those before, for some order of the regions, so they
do not overlap, each constant has a cell of its own, and exactly the calls of
the circuit are made; unless there are fewer spare cells than constants, which is reported. There is no panic. -/
theorem C91_v1 (o : Orders) (ho : o.Fair) (constants : List Nat) (hc : constants.Nodup)
    (measured regions : List (List (Call V))) (hlen : measured.length = regions.length)
    (hcov : ∀ (i : Nat) m r, measured[i]? = some m → regions[i]? = some r → Covered m r)
    (href : ∀ x ∈ allCalls regions, RefersTo (· < regions.length) x.2) :
    ∃ (starts : List Nat) (spare : List (Nat × Nat)), starts.length = regions.length ∧
      (∃ l, l.Perm ((starts.zip measured).map fun p => (p.1, columnsUsed p.2, height p.2)) ∧ FirstFit l) ∧ spare.Nodup ∧
      (∀ p, p ∈ spare ↔ Spare constants measured starts p) ∧
      ((wanted regions).length ≤ spare.length → ∃ spots out, v1 o constants measured regions = .ok (starts, out) ∧
        Laid constants regions starts spots out) ∧
      (spare.length < (wanted regions).length →
        v1 o constants measured regions = .error .notEnoughColumnsForConstants) := by
  have hok : ∀ s ∈ measure measured, s.Ok := by
    intro s hs
    obtain ⟨i, hi⟩ := List.getElem?_of_mem hs
    obtain ⟨m, -, rfl⟩ := measure_get.1 hi
    exact shape_ok i m
  obtain ⟨m, starts, cols, h1, h2, h3, h4, h5, h6⟩ := slotInBiggestFirst_spec ho hok fun i s hs => by
    obtain ⟨m, -, rfl⟩ := measure_get.1 hs; rfl
  rw [measure_length, hlen] at h6
  have hperm : (m.map (·.2)).Perm (measure measured) := by
    rw [h2]; exact (List.reverse_perm _).trans (ho.shapes _)
  have hzip : ∀ p : Nat × Shape, p ∈ m ↔ ∃ (i : Nat) (ms : List (Call V)), measured[i]? = some ms ∧ starts[i]? = some p.1 ∧
      p.2 = shapeOf i ms := by
    intro p
    rw [h5.mem_iff]
    constructor
    · intro hp
      obtain ⟨i, hi⟩ := List.getElem?_of_mem hp
      obtain ⟨i1, i2⟩ := List.getElem?_zip_eq_some.1 hi
      obtain ⟨ms, ms1, ms2⟩ := measure_get.1 i2
      exact ⟨i, ms, ms1, i1, ms2⟩
    · rintro ⟨i, ms, ms1, i1, ms2⟩
      exact List.mem_of_getElem? (List.getElem?_zip_eq_some.2 ⟨i1, measure_get.2 ⟨ms, ms1, ms2⟩⟩)
  set spare := constantPositions constants (firstUnassigned (measure measured) cols) cols with hspare
  have hmem : ∀ p, p ∈ spare ↔ Spare constants measured starts p := by
    intro p
    rw [hspare, mem_positions h3.good]
    refine and_congr_right fun _ => and_congr ?_ ?_
    · rw [lt_firstUnassigned h3 hperm]
      constructor
      · rintro ⟨q, q1, q2, q3⟩
        obtain ⟨i, ms, i1, i2, i3⟩ := (hzip q).1 q1
        rw [i3, shape_rows] at q3
        exact ⟨i, ms, q.1, i1, i2, q3⟩
      · rintro ⟨i, ms, s, i1, i2, i3⟩
        have hq := (hzip (s, shapeOf i ms)).2 ⟨i, ms, i1, i2, rfl⟩
        refine ⟨_, hq, ?_, by rw [shape_rows]; exact i3⟩
        intro hnil
        -- without columns there are no rows, and the region is at the top
        dsimp only at hnil
        obtain ⟨before, after, hb⟩ := List.append_of_mem hq
        have hleast := h4 before after _ hb
        have h0 : s ≤ 0 := hleast.2 (fun q _ hx => by
          obtain ⟨c, c1, -⟩ := hx
          rw [hnil] at c1
          cases c1)
        have hh : height ms = 0 := by
          by_contra hne
          obtain ⟨b, b1, -⟩ := exists_of_lt_foldr (Nat.pos_of_ne_zero hne)
          obtain ⟨⟨c, o⟩, c1, -⟩ := List.mem_map.1 b1
          have : c ∈ columnsUsed ms := List.mem_dedup.2 (List.mem_map.2 ⟨(c, o), c1, rfl⟩)
          rw [shape_columns] at hnil
          rw [hnil] at this
          cases this
        omega
    · constructor
      · intro hv i ms s i1 i2 i3
        have := hv ⟨s, (shapeOf i ms).rows⟩ ((h3.mem _ _).2 ⟨(s, shapeOf i ms), (hzip _).2 ⟨i, ms, i1, i2, rfl⟩,
          by rw [shape_columns]; exact i3, rfl⟩)
        rwa [shape_rows] at this
      · intro hv a ha
        obtain ⟨q, q1, q2, rfl⟩ := (h3.mem _ _).1 ha
        obtain ⟨i, ms, i1, i2, i3⟩ := (hzip q).1 q1
        rw [i3, shape_columns] at q2
        dsimp only
        rw [i3, shape_rows]
        exact hv i ms q.1 i1 i2 q2
  have hsn : spare.Nodup := nodup_positions hc _ _
  -- cells of the second pass lie in the shapes
  have hcell : ∀ i x s, (i, x) ∈ allCalls regions → starts[i]? = some s → ∀ col o, cellOf x = some (col, o) →
      ∃ ms, measured[i]? = some ms ∧ col ∈ columnsUsed ms ∧ o < height ms := by
    intro i x s hx hs col o hcell
    obtain ⟨r, r1, r2⟩ := mem_allCalls.1 hx
    have hi : i < measured.length := by
      rw [hlen]; exact (List.getElem?_eq_some_iff.1 r1).1
    exact ⟨_, List.getElem?_eq_getElem hi, covered_cell (hcov i _ r (List.getElem?_eq_getElem hi) r1) r2 hcell⟩
  obtain ⟨blocks, b1, b2⟩ := assignAll_ok (starts := starts) (regions := regions) (k := 0) (by omega)
    (by rw [h6]; exact href)
  refine ⟨starts, spare, h6, ⟨_, slots_firstFit h4 h5⟩, hsn, hmem, fun hle => ?_, fun hlt => ?_⟩
  · have hreg : ∀ x ∈ spare.zip (wanted regions), x.2.2.region < starts.length := by
      intro x hx
      rw [h6]
      exact wanted_region le_rfl href x.2 (List.of_mem_zip (a := x.1) (b := x.2) hx).2
    obtain ⟨cs, c1, c2⟩ := placeConstants_ok hreg
    refine ⟨spare.take (wanted regions).length, blocks.flatten ++ cs.flatten, ?_, h6, ?_, ?_, ?_, ?_, ?_, ?_⟩
    · unfold v1
      simp only [bind, Except.bind, pure, Except.pure, h1, b1, wanted_eq]
      rw [if_neg (not_lt.2 hle)]
      rw [show placeConstants starts (spare.zip (wanted regions)) = _ from c1]
    · intro i j x y s t hx hy hij hs ht col o o' hx' hy'
      obtain ⟨ms, m1, m2, m3⟩ := hcell i x s hx hs col o hx'
      obtain ⟨mt, n1, n2, n3⟩ := hcell j y t hy ht col o' hy'
      have hpw := slots_apart h4 h5
      rw [List.pairwise_iff_getElem] at hpw
      have key : ∀ (i j : Nat) ms mt s t, i < j → measured[i]? = some ms → measured[j]? = some mt → starts[i]? = some s →
          starts[j]? = some t → col ∈ columnsUsed ms → col ∈ columnsUsed mt → Clear s (height ms) t (height mt) := by
        intro i j ms mt s t hij m1 n1 hs ht m2 n2
        have e1 := List.getElem?_zip_eq_some (z := (s, shapeOf i ms)).2 ⟨hs, measure_get.2 ⟨ms, m1, rfl⟩⟩
        have e2 := List.getElem?_zip_eq_some (z := (t, shapeOf j mt)).2 ⟨ht, measure_get.2 ⟨mt, n1, rfl⟩⟩
        obtain ⟨l1, e1⟩ := List.getElem?_eq_some_iff.1 e1
        obtain ⟨l2, e2⟩ := List.getElem?_eq_some_iff.1 e2
        have := hpw i j l1 l2 hij
        rw [e1, e2] at this
        have := this ⟨col, by rw [shape_columns]; exact m2, by rw [shape_columns]; exact n2⟩
        rwa [shape_rows, shape_rows] at this
      rcases Nat.lt_or_gt_of_ne hij with h | h
      · rcases key i j ms mt s t h m1 n1 hs ht m2 n2 with h | h <;> omega
      · rcases key j i mt ms t s h n1 m1 ht hs n2 m2 with h | h <;> omega
    · rw [List.length_take, min_eq_left hle]
    · exact hsn.sublist (List.take_sublist _ _)
    · intro p hp
      exact ((hmem p).1 (List.mem_of_mem_take hp)).1
    · intro p hp i x s hx hs o hcx
      obtain ⟨ms, m1, m2, m3⟩ := hcell i x s hx hs _ o hcx
      rcases ((hmem p).1 (List.mem_of_mem_take hp)).2.2 i ms s m1 hs m2 with h | h <;> omega
    · refine ⟨blocks, cs, List.Perm.refl _, List.sublist_append_left _ _, b2, ?_⟩
      rwa [show (spare.take (wanted regions).length).zip (wanted regions) = spare.zip (wanted regions) by
        rw [List.zip_eq_zip_take_min, List.zip_eq_zip_take_min (l₁ := spare)]
        rw [List.take_take, List.length_take, min_comm spare.length]
        simp]
  · unfold v1
    simp only [bind, Except.bind, pure, Except.pure, h1, b1, wanted_eq]
    rw [if_pos hlt]

/-- C91, the planner V1: regions are laid out by decreasing advice area (if the sort sorts), each at the first row
at which it is clear of those before it. -/
theorem C91_first_fit (o : Orders) (ho : o.Fair) (constants : List Nat) (measured regions : List (List (Call V)))
    (starts : List Nat) (out : List (Placed V)) (h : v1 o constants measured regions = .ok (starts, out)) :
    ∃ l, l.Perm ((starts.zip measured).map fun p => (p.1, columnsUsed p.2, height p.2)) ∧ FirstFit l ∧
      ((∀ l, (o.shapes l).Pairwise fun a b => a.area ≤ b.area) →
        l.Pairwise fun p q => adviceArea q.2.1 q.2.2 ≤ adviceArea p.2.1 p.2.2) := by
  have hok : ∀ s ∈ measure measured, s.Ok := by
    intro s hs
    obtain ⟨i, hi⟩ := List.getElem?_of_mem hs
    obtain ⟨m, -, rfl⟩ := measure_get.1 hi
    exact shape_ok i m
  obtain ⟨m, starts', cols, h1, h2, h3, h4, h5, h6⟩ := slotInBiggestFirst_spec ho hok fun i s hs => by
    obtain ⟨m, -, rfl⟩ := measure_get.1 hs; rfl
  have hst : starts' = starts := by
    unfold v1 at h
    simp only [bind, Except.bind, pure, Except.pure, h1] at h
    split at h
    · cases h
    · split at h
      · cases h
      · split at h
        · cases h
        · exact (Prod.mk.inj (Except.ok.inj h)).1
  subst hst
  obtain ⟨f1, f2⟩ := slots_firstFit h4 h5
  refine ⟨_, f1, f2, fun hsort => ?_⟩
  · have := hsort (measure measured)
    rw [← List.pairwise_reverse, ← h2, List.pairwise_map] at this
    rw [List.pairwise_map]
    exact this

/-- C91, the planner V1: the layout does not depend on the order in which the columns of a region are tried. -/
theorem C91_columns_order (o o' : Orders) (ho : o.Fair) (ho' : o'.Fair) (hs : o.shapes = o'.shapes)
    (constants : List Nat) (measured regions : List (List (Call V))) :
    v1 o constants measured regions = v1 o' constants measured regions := by
  have hok : ∀ s ∈ measure measured, s.Ok := by
    intro s hs
    obtain ⟨i, hi⟩ := List.getElem?_of_mem hs
    obtain ⟨m, -, rfl⟩ := measure_get.1 hi
    exact shape_ok i m
  have : slotInBiggestFirst o (measure measured) = slotInBiggestFirst o' (measure measured) := by
    unfold slotInBiggestFirst
    rw [← hs, slotIn_order ho ho' (l := []) (fun s h => hok s ((ho.shapes _).mem_iff.1 (List.mem_reverse.1 h)))
      ⟨fun _ => ⟨List.Pairwise.nil, fun a ha => by cases ha⟩, fun c a => by simp⟩]
  unfold v1
  dsimp only
  rw [this]

/-- C91, the single-pass planner. For all circuits, if the second call of a closure keeps to what was measured in
the first and cells come from earlier regions or the same one: the layout is correct, unless constants are asked
for and there is no column for them, which is reported. There is no panic. -/
theorem C91_simple (constants : List Nat) (measured regions : List (List (Call V))) (hlen : measured.length = regions.length)
    (hcov : ∀ (i : Nat) m r, measured[i]? = some m → regions[i]? = some r → Covered m r)
    (href : ∀ x ∈ allCalls regions, RefersTo (· ≤ x.1) x.2) :
    (constants ≠ [] ∨ wanted regions = [] → ∃ st spots out, simple constants {} (measured.zip regions) = .ok (st, out) ∧
      Laid constants regions st.starts spots out) ∧
    (constants = [] → wanted regions ≠ [] →
      simple constants {} (measured.zip regions) = .error .notEnoughColumnsForConstants) := by
  have href' : ∀ (i : Nat) r, regions[i]? = some r → ∀ x ∈ r, RefersTo (· ≤ 0 + i) x := by
    intro i r hr x hx
    rw [Nat.zero_add]
    exact href (i, x) (mem_allCalls.2 ⟨r, hr, hx⟩)
  have hw : ∀ (i : Nat) r, regions[i]? = some r → ∀ w ∈ r.filterMap (Call.request (0 + i)), w ∈ wanted regions := by
    intro i r hr w hw
    rw [Nat.zero_add] at hw
    rw [← wanted_eq]
    exact List.mem_flatMap.2 ⟨(r, i), List.mem_zipIdx_iff_getElem?.2 hr, hw⟩
  constructor
  · intro hc
    obtain ⟨st, spots, out, h1, h2⟩ := (SoFar.nil constants).all hlen hcov href' (hc.imp id fun h i r hr => by
      refine List.eq_nil_iff_forall_not_mem.2 fun w hw' => ?_
      have := hw i r hr w hw'
      rw [h] at this
      cases this)
    exact ⟨st, spots, out, h1, h2.laid⟩
  · rintro rfl hne
    refine simple_refuses hlen href' ?_
    obtain ⟨w, hw⟩ := List.exists_mem_of_ne_nil _ hne
    rw [← wanted_eq] at hw
    obtain ⟨⟨r, i⟩, h1, h2⟩ := List.mem_flatMap.1 hw
    refine ⟨i, r, List.mem_zipIdx_iff_getElem?.1 h1, ?_⟩
    intro h
    dsimp only [List.length_nil] at h
    rw [Nat.zero_add] at h
    rw [show (r, i).1.filterMap (Call.request (r, i).2) = [] from h] at h2
    cases h2

/-- A circuit with one region that asks for `n` constants, all in its first row. -/
def manyConstants (n : Nat) : List (List (Call Nat)) := [(List.range n).map fun i => .constant i 0 i]

theorem Covered.refl (r : List (Call V)) : Covered r r := fun x hx col o h => ⟨⟨x, hx, o, h⟩, x, hx, col, o, h, le_rfl⟩

theorem refers_many {n : Nat} {ok : Nat → Nat → Prop} : ∀ x ∈ allCalls (manyConstants n), RefersTo (ok x.1) x.2 := by
  rintro ⟨i, x⟩ hx
  obtain ⟨r, r1, r2⟩ := mem_allCalls.1 hx
  cases i with
  | zero =>
    cases r1
    obtain ⟨j, -, rfl⟩ := List.mem_map.1 r2
    trivial
  | succ i => simp [manyConstants] at r1

theorem wanted_many (n : Nat) : (wanted (manyConstants n)).length = n := by
  rw [← wanted_eq, manyConstants]
  simp only [List.zipIdx_cons, List.zipIdx_nil, List.flatMap_cons, List.flatMap_nil, List.append_nil]
  rw [List.filterMap_map]
  rw [show (Call.request 0 ∘ fun i => Call.constant i 0 i : Nat → Option (Nat × Cell)) =
    fun i => some (i, ⟨0, 0, .advice i⟩) from rfl]
  simp

theorem height_many (n : Nat) : height ((List.range n).map fun i => Call.constant i 0 i) ≤ 1 := by
  unfold height
  rw [List.filterMap_map]
  rw [show (cellOf ∘ fun i => Call.constant i 0 i : Nat → Option (RegionColumn × Nat)) =
    fun i => some (.col (.advice i), 0) from rfl]
  generalize List.range n = l
  induction l with
  | nil => simp
  | cons a l ih =>
    simp only [List.filterMap_cons, List.map_cons, List.foldr_cons]
    exact max_le (by simp) ih

/-- C91, a finding. There are circuits with a column for constants that the single-pass planner lays out and V1
refuses, however many rows there are: V1 puts constants only above the end of the last region. -/
theorem C91_v1_refuses (o : Orders) (ho : o.Fair) (n : Nat) (hn : 2 ≤ n) :
    v1 o [0] (manyConstants n) (manyConstants n) = .error .notEnoughColumnsForConstants ∧
    ∃ st spots out, simple [0] {} ((manyConstants n).zip (manyConstants n)) = .ok (st, out) ∧
      Laid [0] (manyConstants n) st.starts spots out := by
  have hcov : ∀ (i : Nat) m r, (manyConstants n)[i]? = some m → (manyConstants n)[i]? = some r → Covered m r := by
    intro i m r hm hr
    rw [hm] at hr
    cases hr
    exact Covered.refl m
  constructor
  · obtain ⟨starts, spare, h1, ⟨l, hl, hf⟩, h2, h3, -, h5⟩ := C91_v1 o ho [0] (by simp) (manyConstants n) (manyConstants n) rfl hcov
      (refers_many (ok := fun _ j => j < _))
    apply h5
    rw [wanted_many]
    refine lt_of_le_of_lt ?_ (show 1 < n by omega)
    -- the region starts at the top, so at most the first row is spare
    obtain ⟨s, rfl⟩ := List.length_eq_one_iff.1 h1
    rw [show ([s].zip (manyConstants n)).map _ = [(s, columnsUsed _, height _)] from rfl, List.perm_singleton] at hl
    have h0 : s ≤ 0 := (hf [] [] _ _ _ hl).2 fun p hp => by cases hp
    have hsub : spare ⊆ [(0, 0)] := by
      intro p hp
      obtain ⟨p1, ⟨i, m, t, i1, i2, i3⟩, -⟩ := (h3 p).1 hp
      have p1 : p.1 = 0 := by simpa using p1
      cases i with
      | zero =>
        cases i1
        cases i2
        have := height_many n
        have p2 : p.2 = 0 := by omega
        rw [← p1, List.mem_singleton]
        exact Prod.ext rfl (p2.trans p1.symm)
      | succ i => simp at i2
    exact (h2.subperm hsub).length_le
  · exact (C91_simple [0] (manyConstants n) (manyConstants n) rfl hcov (refers_many (ok := fun i j => j ≤ i))).1
      (Or.inl (by simp))

/-! A concrete circuit: a region of three rows in three columns, one that fits beside it, and one that has to go below
the first, with constants and a copy between regions. -/

def demoOrders : Orders := ⟨id, fun l => l.insertionSort fun a b => a.area ≤ b.area⟩

theorem demoOrders_fair : demoOrders.Fair := ⟨fun _ => List.Perm.refl _, fun l => l.perm_insertionSort _⟩

def demoRegions : List (List (Call Nat)) :=
  [[.advice 0 0 7, .advice 1 2 8, .fixed 0 1 5],
   [.advice 2 1 9, .equal ⟨0, 2, .advice 1⟩ ⟨1, 1, .advice 2⟩],
   [.constant 2 0 4, .advice 0 0 7, .enable ⟨0, true⟩ 0, .equalConstant ⟨1, 1, .advice 2⟩ 6]]

/-- The circuit meets the hypotheses of `C91_v1` and `C91_simple`. -/
theorem demo_ok : (∀ (i : Nat) m r, demoRegions[i]? = some m → demoRegions[i]? = some r → Covered m r) ∧
    (∀ x ∈ allCalls demoRegions, RefersTo (· ≤ x.1) x.2) ∧
    ∀ x ∈ allCalls demoRegions, RefersTo (· < demoRegions.length) x.2 := by
  refine ⟨?_, ?_, ?_⟩
  · intro i m r hm hr
    rw [hm] at hr
    cases hr
    exact Covered.refl m
  all_goals
    intro x hx
    simp only [allCalls, demoRegions, List.zipIdx_cons, List.zipIdx_nil, List.flatMap_cons, List.flatMap_nil, List.map_cons,
      List.map_nil, List.cons_append, List.nil_append, List.append_nil, List.mem_cons, List.not_mem_nil, or_false] at hx
    rcases hx with rfl | rfl | rfl | rfl | rfl | rfl | rfl | rfl | rfl <;> simp [RefersTo, demoRegions]

/-- V1 puts the constants in the row of the first column that is free and at the top of the other one. -/
example : v1 demoOrders [0, 1] demoRegions demoRegions = .ok ([0, 0, 3],
    [.advice 0 0 7, .advice 1 2 8, .fixed 0 1 5,
     .advice 2 1 9, .copy (.advice 1, 2) (.advice 2, 1),
     .advice 2 3 4, .advice 0 3 7, .enable ⟨0, true⟩ 3,
     .fixed 0 3 4, .copy (.fixed 0, 3) (.advice 2, 3), .fixed 1 0 6, .copy (.fixed 1, 0) (.advice 2, 1)]) := by
  decide +kernel

/-- The single-pass planner puts them below what is used. -/
example : (simple [0, 1] {} (demoRegions.zip demoRegions)).toOption.map (fun p => (p.1.starts, p.2)) = some ([0, 0, 3],
    [.advice 0 0 7, .advice 1 2 8, .fixed 0 1 5,
     .advice 2 1 9, .copy (.advice 1, 2) (.advice 2, 1),
     .advice 2 3 4, .advice 0 3 7, .enable ⟨0, true⟩ 3,
     .fixed 0 3 4, .copy (.fixed 0, 3) (.advice 2, 3), .fixed 0 4 6, .copy (.fixed 0, 4) (.advice 2, 1)]) := by
  decide +kernel

/-- V1 uses the gap that the single-pass planner leaves: a region of one row beside a longer one. -/
example : (v1 demoOrders [] [[.advice 0 0 1, .advice 1 2 1], [.advice 0 0 2, .advice 1 0 2, .advice 1 2 2], [.advice 2 0 (3 : Nat)]]
    [[.advice 0 0 1], [.advice 1 2 2], [.advice 2 0 3]]).toOption.map (·.1) = some [3, 0, 0] := by decide +kernel

/-- A region that writes a row that was not measured is not covered, and does overlap. -/
example : (v1 demoOrders [] [[.advice 0 0 1], [.advice 0 0 2]] [[.advice 0 0 1], [.advice 0 0 2, .advice 0 1 (5 : Nat)]]) =
    .ok ([1, 0], [.advice 0 1 1, .advice 0 0 2, .advice 0 1 5]) := by decide +kernel

#print axioms C91_v1
#print axioms C91_first_fit
#print axioms C91_columns_order
#print axioms C91_simple
#print axioms C91_v1_refuses

end Verif.Props

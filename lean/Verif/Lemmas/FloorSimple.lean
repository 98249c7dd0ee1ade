import Verif.Lemmas.FloorLaid

/-! The single-pass planner. -/

namespace Verif.FloorPlanner

open Spec

variable {V : Type}

theorem allCalls_snoc (l : List (List (Call V))) (r : List (Call V)) :
    allCalls (l ++ [r]) = allCalls l ++ r.map fun c => (l.length, c) := by
  unfold allCalls
  rw [List.zipIdx_append, List.flatMap_append]
  simp

theorem wanted_snoc (l : List (List (Call V))) (r : List (Call V)) :
    wanted (l ++ [r]) = wanted l ++ r.filterMap (Call.request l.length) := by
  rw [← wanted_eq, ← wanted_eq, List.zipIdx_append, List.flatMap_append]
  simp

theorem puts_more {starts : List Nat} {start : Nat} {x : Call V} {b : List (Placed V)} (h : Puts starts start x b)
    (more : List Nat) : Puts (starts ++ more) start x b := by
  cases h with
  | equal a b x y ha hb =>
    exact Puts.equal a b x y (by rw [List.getElem?_append_left (List.getElem?_eq_some_iff.1 ha).1]; exact ha)
      (by rw [List.getElem?_append_left (List.getElem?_eq_some_iff.1 hb).1]; exact hb)
  | _ => constructor

theorem get_more {starts more : List Nat} {i s : Nat} (h : starts[i]? = some s) : (starts ++ more)[i]? = some s := by
  rw [List.getElem?_append_left (List.getElem?_eq_some_iff.1 h).1]; exact h

theorem supplies_more {starts : List Nat} {x : (Nat × Nat) × (V × Cell)} {b : List (Placed V)} (h : Supplies starts x b)
    (more : List Nat) : Supplies (starts ++ more) x b := by
  obtain ⟨s, h1, h2⟩ := h
  exact ⟨s, get_more h1, h2⟩

/-- What holds after some regions: the layout is correct so far, and the columns are counted as used up to the last
cell. -/
structure SoFar (constants : List Nat) (done : List (List (Call V))) (st : Simple) (spots : List (Nat × Nat))
    (out : List (Placed V)) : Prop where
  laid : Laid constants done st.starts spots out
  used : ∀ i x s, (i, x) ∈ allCalls done → st.starts[i]? = some s → ∀ col o, cellOf x = some (col, o) →
    s + o < st.used col
  spotsUsed : ∀ p ∈ spots, p.2 < st.used (.col (.fixed p.1))

theorem mem_snoc {done : List (List (Call V))} {r : List (Call V)} {i : Nat} {x : Call V}
    (h : (i, x) ∈ allCalls (done ++ [r])) : (i < done.length ∧ (i, x) ∈ allCalls done) ∨ (i = done.length ∧ x ∈ r) := by
  rw [allCalls_snoc] at h
  rcases List.mem_append.1 h with h | h
  · obtain ⟨r', r1, -⟩ := mem_allCalls.1 h
    exact Or.inl ⟨(List.getElem?_eq_some_iff.1 r1).1, h⟩
  · obtain ⟨y, y1, y2⟩ := List.mem_map.1 h
    cases y2
    exact Or.inr ⟨rfl, y1⟩

theorem get_snoc {starts : List Nat} {s t i : Nat} (h : (starts ++ [s])[i]? = some t) :
    (i < starts.length → starts[i]? = some t) ∧ (i = starts.length → t = s) := by
  constructor
  · intro hi; rwa [List.getElem?_append_left hi] at h
  · intro hi; subst hi; rw [List.getElem?_append_right le_rfl] at h; simpa using h.symm

/-- One more region. -/
theorem SoFar.step {constants : List Nat} {done : List (List (Call V))} {st : Simple} {spots : List (Nat × Nat)}
    {out : List (Placed V)} (h : SoFar constants done st spots out) {m r : List (Call V)} (hcov : Covered m r)
    (href : ∀ x ∈ r, RefersTo (· ≤ done.length) x)
    (hc : constants ≠ [] ∨ r.filterMap (Call.request done.length) = []) :
    ∃ st' spots' placed, simpleRegion constants st m r = .ok (st', placed) ∧
      SoFar constants (done ++ [r]) st' spots' (out ++ placed) := by
  have hcount := h.laid.count
  set start := ((shapeOf st.starts.length m).columns.map st.used).foldl max 0 with hstart
  set used : RegionColumn → Nat := fun c => if c ∈ (shapeOf st.starts.length m).columns then
    start + (shapeOf st.starts.length m).rows else st.used c with hused
  have hstartle : ∀ c ∈ columnsUsed m, st.used c ≤ start := by
    intro c hcm
    rw [hstart, foldl_max_eq, Nat.zero_max, shape_columns]
    exact le_foldr_max (List.mem_map.2 ⟨c, hcm, rfl⟩)
  have hmono : ∀ c, st.used c ≤ used c := by
    intro c
    rw [hused]
    dsimp only
    split
    · rename_i hcm
      rw [shape_columns] at hcm
      exact le_trans (hstartle c hcm) (Nat.le_add_right _ _)
    · exact le_rfl
  have hnew : ∀ x ∈ r, ∀ col o, cellOf x = some (col, o) → start + o < used col ∧ st.used col ≤ start := by
    intro x hx col o hxo
    obtain ⟨c1, c2⟩ := covered_cell hcov hx hxo
    refine ⟨?_, hstartle col c1⟩
    rw [hused]
    dsimp only
    rw [if_pos (by rw [shape_columns]; exact c1), shape_rows]
    omega
  have hlen' : (st.starts ++ [start]).length = done.length + 1 := by simp [hcount]
  obtain ⟨bs, b1, b2⟩ := placeAll_ok (starts := st.starts ++ [start]) (start := start) (calls := r) (by
    intro x hx
    have := href x hx
    rw [hlen']
    cases x <;> simp only [RefersTo] at this ⊢ <;> omega)
  obtain ⟨blocks, consts, l1, l2, l3, l4⟩ := h.laid.calls
  have hblocks : List.Forall₂ (fun (ic : Nat × Call V) b => ∃ s, (st.starts ++ [start])[ic.1]? = some s ∧
      Puts (st.starts ++ [start]) s ic.2 b) (allCalls (done ++ [r])) (blocks ++ bs) := by
    rw [allCalls_snoc]
    refine List.rel_append (l3.imp fun ic b => ?_) ?_
    · rintro ⟨s, s1, s2⟩
      exact ⟨s, get_more s1, puts_more s2 _⟩
    · rw [List.forall₂_map_left_iff]
      refine b2.imp fun x b hb => ⟨start, ?_, hb⟩
      dsimp only
      rw [← hcount, List.getElem?_append_right le_rfl]
      simp
  have happart : ∀ i j x y s t, (i, x) ∈ allCalls (done ++ [r]) → (j, y) ∈ allCalls (done ++ [r]) → i ≠ j →
      (st.starts ++ [start])[i]? = some s → (st.starts ++ [start])[j]? = some t →
      ∀ col o o', cellOf x = some (col, o) → cellOf y = some (col, o') → s + o ≠ t + o' := by
    intro i j x y s t hx hy hij hs ht col o o' hxo hyo
    rcases mem_snoc hx with ⟨i1, i2⟩ | ⟨i1, i2⟩ <;> rcases mem_snoc hy with ⟨j1, j2⟩ | ⟨j1, j2⟩
    · exact h.laid.apart i j x y s t i2 j2 hij ((get_snoc hs).1 (by omega)) ((get_snoc ht).1 (by omega)) col o o' hxo hyo
    · have := h.used i x s i2 ((get_snoc hs).1 (by omega)) col o hxo
      have := (hnew y j2 col o' hyo).2
      have := (get_snoc ht).2 (by omega)
      omega
    · have := h.used j y t j2 ((get_snoc ht).1 (by omega)) col o' hyo
      have := (hnew x i2 col o hxo).2
      have := (get_snoc hs).2 (by omega)
      omega
    · omega
  have husedAll : ∀ i x s, (i, x) ∈ allCalls (done ++ [r]) → (st.starts ++ [start])[i]? = some s → ∀ col o,
      cellOf x = some (col, o) → s + o < used col := by
    intro i x s hx hs col o hxo
    rcases mem_snoc hx with ⟨i1, i2⟩ | ⟨i1, i2⟩
    · exact lt_of_lt_of_le (h.used i x s i2 ((get_snoc hs).1 (by omega)) col o hxo) (hmono col)
    · rw [(get_snoc hs).2 (by omega)]
      exact (hnew x i2 col o hxo).1
  have hownOld : ∀ p ∈ spots, ∀ i x s, (i, x) ∈ allCalls (done ++ [r]) → (st.starts ++ [start])[i]? = some s →
      ∀ o, cellOf x = some (.col (.fixed p.1), o) → s + o ≠ p.2 := by
    intro p hp i x s hx hs o hxo
    rcases mem_snoc hx with ⟨i1, i2⟩ | ⟨i1, i2⟩
    · exact h.laid.own p hp i x s i2 ((get_snoc hs).1 (by omega)) o hxo
    · have := h.spotsUsed p hp
      have := (hnew x i2 _ o hxo).2
      have := (get_snoc hs).2 (by omega)
      omega
  set requests := r.filterMap (Call.request done.length) with hreq
  cases constants with
  | nil =>
    rw [or_iff_right (by simp)] at hc
    refine ⟨⟨st.starts ++ [start], used⟩, spots, bs.flatten, ?_, ⟨?_, happart, ?_, h.laid.distinct, h.laid.columns,
      hownOld, blocks ++ bs, consts, ?_, ?_, hblocks, ?_⟩, husedAll, ?_⟩
    · unfold simpleRegion
      simp only [bind, Except.bind, pure, Except.pure]
      rw [show placeAll (st.starts ++ [start]) start r = _ from b1]
      dsimp only
      rw [hcount, ← hreq, hc]
      rfl
    · rw [hlen']; simp
    · rw [wanted_snoc, ← hreq, hc, List.append_nil]; exact h.laid.supplied
    · rw [List.flatten_append]
      refine (l1.append_right _).trans ?_
      rw [List.append_assoc, List.append_assoc]
      exact List.Perm.append_left _ List.perm_append_comm
    · rw [List.flatten_append]
      exact l2.append (List.Sublist.refl _)
    · rw [wanted_snoc, ← hreq, hc, List.append_nil]
      exact l4.imp fun x b hb => supplies_more hb _
    · exact fun p hp => lt_of_lt_of_le (h.spotsUsed p hp) (hmono _)
  | cons c constants =>
    set next := used (.col (.fixed c)) with hnext
    set new : List (Nat × Nat) := (List.range requests.length).map fun i => (c, next + i) with hnewSpots
    have hnewlen : new.length = requests.length := by simp [hnewSpots]
    have hreqok : ∀ w ∈ requests, w.2.region < (st.starts ++ [start]).length := by
      intro w hw
      rw [hlen']
      obtain ⟨x, x1, x2⟩ := List.mem_filterMap.1 hw
      have hx := href x x1
      cases x with
      | constant c o v => cases x2; dsimp only; omega
      | equalConstant c v =>
        cases x2
        simp only [RefersTo] at hx
        dsimp only
        omega
      | _ => cases x2
    obtain ⟨cs, c1, c2⟩ := placeConstants_ok (starts := st.starts ++ [start]) (l := new.zip requests)
      fun x hx => hreqok x.2 (List.of_mem_zip (a := x.1) (b := x.2) hx).2
    have hmemNew : ∀ p ∈ new, p.1 = c ∧ next ≤ p.2 ∧ p.2 < next + requests.length := by
      intro p hp
      obtain ⟨i, i1, rfl⟩ := List.mem_map.1 hp
      rw [List.mem_range] at i1
      exact ⟨rfl, by dsimp only; omega, by dsimp only; omega⟩
    refine ⟨⟨st.starts ++ [start], fun d => if d = .col (.fixed c) then next + requests.length else used d⟩, spots ++ new,
      bs.flatten ++ cs.flatten, ?_, ⟨?_, happart, ?_, ?_, ?_, ?_, blocks ++ bs, consts ++ cs, ?_, ?_, hblocks, ?_⟩, ?_, ?_⟩
    · unfold simpleRegion
      simp only [bind, Except.bind, pure, Except.pure]
      rw [show placeAll (st.starts ++ [start]) start r = _ from b1]
      dsimp only
      rw [show r.filterMap (Call.request st.starts.length) = requests by rw [hcount]]
      erw [c1]
    · rw [hlen']; simp
    · rw [wanted_snoc, ← hreq, List.length_append, List.length_append, hnewlen, h.laid.supplied]
    · refine List.nodup_append.2 ⟨h.laid.distinct, ?_, ?_⟩
      · exact List.nodup_range.map fun a b hab => by simpa using hab
      · intro p hp q hq hpq
        subst hpq
        obtain ⟨q1, q2, -⟩ := hmemNew p hq
        have h1 := h.spotsUsed p hp
        rw [q1] at h1
        have := hmono (.col (.fixed c))
        omega
    · intro p hp
      rcases List.mem_append.1 hp with hp | hp
      · exact h.laid.columns p hp
      · rw [(hmemNew p hp).1]; exact List.mem_cons_self
    · intro p hp i x s hx hs o hxo
      rcases List.mem_append.1 hp with hp | hp
      · exact hownOld p hp i x s hx hs o hxo
      · obtain ⟨q1, q2, -⟩ := hmemNew p hp
        rw [q1] at hxo
        have := husedAll i x s hx hs _ o hxo
        omega
    · rw [List.flatten_append, List.flatten_append]
      refine (l1.append_right _).trans ?_
      rw [List.append_assoc, List.append_assoc]
      refine List.Perm.append_left _ ?_
      rw [← List.append_assoc, ← List.append_assoc]
      exact List.Perm.append_right _ List.perm_append_comm
    · rw [List.flatten_append]
      exact l2.append (List.sublist_append_left _ _)
    · rw [wanted_snoc, ← hreq, List.zip_append h.laid.supplied]
      exact List.rel_append (l4.imp fun x b hb => supplies_more hb _) c2
    · intro i x s hx hs col o hxo
      have := husedAll i x s hx hs col o hxo
      dsimp only
      split
      · rename_i hd
        subst hd
        omega
      · exact this
    · intro p hp
      dsimp only
      rcases List.mem_append.1 hp with hp | hp
      · have h1 := lt_of_lt_of_le (h.spotsUsed p hp) (hmono _)
        split
        · rename_i hd
          rw [hd] at h1
          omega
        · exact h1
      · obtain ⟨q1, q2, q3⟩ := hmemNew p hp
        rw [if_pos (by rw [q1])]
        exact q3

/-- All regions. -/
theorem SoFar.all {constants : List Nat} : ∀ {measured regions : List (List (Call V))} {done : List (List (Call V))}
    {st : Simple} {spots : List (Nat × Nat)} {out : List (Placed V)}, SoFar constants done st spots out →
    measured.length = regions.length →
    (∀ (i : Nat) m r, measured[i]? = some m → regions[i]? = some r → Covered m r) →
    (∀ (i : Nat) r, regions[i]? = some r → ∀ x ∈ r, RefersTo (· ≤ done.length + i) x) →
    (constants ≠ [] ∨ ∀ (i : Nat) r, regions[i]? = some r → r.filterMap (Call.request (done.length + i)) = []) →
    ∃ st' spots' more, simple constants st (measured.zip regions) = .ok (st', more) ∧
      SoFar constants (done ++ regions) st' spots' (out ++ more)
  | [], [], done, st, spots, out, h, _, _, _, _ => ⟨st, spots, [], rfl, by simpa using h⟩
  | m :: measured, r :: regions, done, st, spots, out, h, hlen, hcov, href, hc => by
    obtain ⟨st', spots', placed, s1, s2⟩ := h.step (hcov 0 m r rfl rfl) (href 0 r rfl)
      (hc.imp id fun hc => hc 0 r rfl)
    have hl : ∀ i, (done ++ [r]).length + i = done.length + (i + 1) := by intro i; simp; omega
    obtain ⟨st'', spots'', more, t1, t2⟩ := s2.all (measured := measured) (regions := regions) (by simpa using hlen)
      (fun i m r hm hr => hcov (i + 1) m r hm hr)
      (fun i r hr => by rw [hl]; exact href (i + 1) r hr)
      (hc.imp id fun hc i r hr => by rw [hl]; exact hc (i + 1) r hr)
    refine ⟨st'', spots'', placed ++ more, ?_, by simpa using t2⟩
    rw [List.zip_cons_cons, simple, s1]
    simp only [bind, Except.bind]
    rw [t1]
    rfl

theorem SoFar.nil (constants : List Nat) : SoFar (V := V) constants [] {} [] [] where
  laid :=
    { count := rfl
      apart := by intro i j x y s t hx; cases hx
      supplied := rfl
      distinct := List.nodup_nil
      columns := by intro p hp; cases hp
      own := by intro p hp; cases hp
      calls := ⟨[], [], List.Perm.refl _, List.Sublist.refl _, List.Forall₂.nil, List.Forall₂.nil⟩ }
  used := by intro i x s hx; cases hx
  spotsUsed := by intro p hp; cases hp

/-- Without a column for constants. -/
theorem simple_refuses : ∀ {measured regions : List (List (Call V))} {st : Simple},
    measured.length = regions.length →
    (∀ (i : Nat) r, regions[i]? = some r → ∀ x ∈ r, RefersTo (· ≤ st.starts.length + i) x) →
    (∃ (i : Nat) (r : List (Call V)), regions[i]? = some r ∧ r.filterMap (Call.request (st.starts.length + i)) ≠ []) →
    simple [] st (measured.zip regions) = .error .notEnoughColumnsForConstants
  | [], [], st, _, _, h => by obtain ⟨i, r, h, -⟩ := h; simp at h
  | m :: measured, r :: regions, st, hlen, href, h => by
    rw [List.zip_cons_cons, simple]
    set start := ((shapeOf st.starts.length m).columns.map st.used).foldl max 0 with hstart
    obtain ⟨bs, b1, b2⟩ := placeAll_ok (starts := st.starts ++ [start]) (start := start) (calls := r) (by
      intro x hx
      have := href 0 r rfl x hx
      rw [List.length_append]
      cases x <;> simp only [RefersTo, List.length_cons, List.length_nil] at this ⊢ <;> omega)
    by_cases hr : r.filterMap (Call.request st.starts.length) = []
    · have hok : ∃ used placed, simpleRegion [] st m r = .ok (⟨st.starts ++ [start], used⟩, placed) := by
        refine ⟨fun c => if c ∈ (shapeOf st.starts.length m).columns then
          start + (shapeOf st.starts.length m).rows else st.used c, bs.flatten, ?_⟩
        unfold simpleRegion
        simp only [bind, Except.bind, pure, Except.pure]
        rw [show placeAll (st.starts ++ [start]) start r = _ from b1]
        dsimp only
        rw [hr]
        rfl
      obtain ⟨used, placed, hok⟩ := hok
      rw [hok]
      simp only [bind, Except.bind]
      have hl : ∀ i, (st.starts ++ [start]).length + i = st.starts.length + (i + 1) := by intro i; simp; omega
      rw [simple_refuses (measured := measured) (regions := regions) (st := ⟨st.starts ++ [start], used⟩)
        (by simpa using hlen) (fun i r hr => by dsimp only; rw [hl]; exact href (i + 1) r hr) (by
          obtain ⟨i, r', h1, h2⟩ := h
          cases i with
          | zero => cases h1; exact absurd hr h2
          | succ i => exact ⟨i, r', h1, by dsimp only; rw [hl]; exact h2⟩)]
    · have : simpleRegion [] st m r = .error .notEnoughColumnsForConstants := by
        unfold simpleRegion
        simp only [bind, Except.bind, pure, Except.pure]
        rw [show placeAll (st.starts ++ [start]) start r = _ from b1]
        dsimp only
        rw [if_neg (by simpa [List.isEmpty_iff] using hr)]
      rw [this]
      rfl

end Verif.FloorPlanner

import Verif.Model.Compress
import Mathlib.Data.List.Basic
import Mathlib.Data.List.Perm.Basic
import Mathlib.Data.List.Nodup

/-! Selector combination (helper for the property theorems). -/

namespace Verif

namespace Compress

theorem conflict_comm (a b : SelectorDescription) : conflict a b = conflict b a := by
  unfold conflict
  generalize a.activations = x
  generalize b.activations = y
  induction x generalizing y with
  | nil => cases y <;> rfl
  | cons u x ih =>
    cases y with
    | nil => rfl
    | cons v y =>
      simp only [List.zip_cons_cons, List.any_cons, ih]
      rw [Bool.and_comm]

/-- A combination of selectors that may share a column. -/
structure Good (maxDegree : Nat) (c : List SelectorDescription) : Prop where
  apart : c.Pairwise fun a b => conflict a b = false
  degree : ∀ s ∈ c, s.maxDegree - 1 + c.length ≤ maxDegree

theorem gather_spec (maxDegree : Nat) : ∀ (rest : List SelectorDescription) (d : Nat)
    (comb : List SelectorDescription),
    (comb.Pairwise fun a b => conflict a b = false) → (∀ s ∈ comb, s.maxDegree - 1 ≤ d) →
    d + comb.length ≤ maxDegree →
    Good maxDegree (gather maxDegree d comb rest).1 ∧
    ∃ added, (gather maxDegree d comb rest).1 = comb ++ added ∧
      (added ++ (gather maxDegree d comb rest).2).Perm rest := by
  intro rest
  induction rest with
  | nil =>
    intro d comb hp hd hm
    unfold gather
    exact ⟨⟨hp, fun s hs => by have := hd s hs; show _ + comb.length ≤ _; omega⟩, [], by simp,
      by simp⟩
  | cons s rest ih =>
    intro d comb hp hd hm
    have skip : Good maxDegree (gather maxDegree d comb rest).1 ∧
        ∃ added, (gather maxDegree d comb rest).1 = comb ++ added ∧
          (added ++ s :: (gather maxDegree d comb rest).2).Perm (s :: rest) := by
      obtain ⟨h1, added, h2, h3⟩ := ih d comb hp hd hm
      exact ⟨h1, added, h2, List.perm_middle.trans (h3.cons s)⟩
    unfold gather
    by_cases e1 : d + comb.length = maxDegree
    · rw [if_pos e1]
      exact ⟨⟨hp, fun s hs => by have := hd s hs; show _ + comb.length ≤ _; omega⟩, [], by simp,
      by simp⟩
    rw [if_neg e1]
    by_cases e2 : comb.any (conflict s) = true
    · rw [if_pos e2]; exact skip
    rw [if_neg e2]
    by_cases e3 : max d (s.maxDegree - 1) + comb.length + 1 > maxDegree
    · rw [if_pos e3]; exact skip
    rw [if_neg e3]
    obtain ⟨h1, added, h2, h3⟩ := ih (max d (s.maxDegree - 1)) (comb ++ [s]) (by
        rw [List.pairwise_append]
        refine ⟨hp, by simp, ?_⟩
        intro a ha b hb
        simp only [List.mem_singleton] at hb
        subst hb
        rw [Bool.not_eq_true, List.any_eq_false] at e2
        have := e2 a ha
        rw [conflict_comm]
        simpa using this) (by
        intro t ht
        rcases List.mem_append.1 ht with ht | ht
        · have := hd t ht; omega
        · simp only [List.mem_singleton] at ht; subst ht; omega) (by simp; omega)
    refine ⟨h1, s :: added, by rw [h2]; simp, by simpa using h3.cons s⟩

theorem gather_length (maxDegree d : Nat) (comb rest : List SelectorDescription) :
    (gather maxDegree d comb rest).2.length ≤ rest.length := by
  induction rest generalizing d comb with
  | nil => unfold gather; simp
  | cons s rest ih =>
    unfold gather
    split_ifs
    · simp
    · have := ih d comb; simp; omega
    · have := ih d comb; simp; omega
    · have := ih (max d (s.maxDegree - 1)) (comb ++ [s]); simp; omega

theorem gather_subset (maxDegree d : Nat) (comb rest : List SelectorDescription) :
    ∀ s ∈ (gather maxDegree d comb rest).2, s ∈ rest := by
  induction rest generalizing d comb with
  | nil => unfold gather; simp
  | cons t rest ih =>
    unfold gather
    intro s hs
    split_ifs at hs
    · exact hs
    · rcases List.mem_cons.1 hs with rfl | hs
      · simp
      · exact List.mem_cons_of_mem _ (ih d comb s hs)
    · rcases List.mem_cons.1 hs with rfl | hs
      · simp
      · exact List.mem_cons_of_mem _ (ih d comb s hs)
    · exact List.mem_cons_of_mem _ (ih _ _ s hs)

/-- The columns and assignments made of a list of combinations. -/
def columnsOf (n : Nat) (combos : List (List SelectorDescription)) : List (List Fr) :=
  combos.map (column n)

def assignmentsOf (alloc : Nat → Expr) (idx : Nat) (combos : List (List SelectorDescription)) :
    List SelectorAssignment :=
  (combos.zipIdx idx).flatMap fun c => assignments (alloc c.2) c.2 c.1

theorem combine_spec (maxDegree n : Nat) (alloc : Nat → Expr) :
    ∀ (fuel idx : Nat) (sels : List SelectorDescription), sels.length ≤ fuel →
      (∀ s ∈ sels, 1 ≤ s.maxDegree ∧ s.maxDegree ≤ maxDegree) →
      ∃ combos, combine maxDegree n alloc fuel idx sels =
          .ok (columnsOf n combos, assignmentsOf alloc idx combos) ∧
        combos.flatten.Perm sels ∧ ∀ c ∈ combos, c ≠ [] ∧ Good maxDegree c := by
  intro fuel
  induction fuel with
  | zero =>
    intro idx sels hl _
    cases sels with
    | nil => exact ⟨[], rfl, by simp, by simp⟩
    | cons s sels => simp at hl
  | succ fuel ih =>
    intro idx sels hl hd
    cases sels with
    | nil => exact ⟨[], rfl, by simp, by simp⟩
    | cons s rest =>
      have hs := hd s (by simp)
      obtain ⟨hg, added, e, hp⟩ := gather_spec maxDegree rest (s.maxDegree - 1) [s] (by simp)
        (by intro t ht; rw [List.mem_singleton.1 ht]) (by rw [List.length_singleton]; omega)
      have hlen := gather_length maxDegree (s.maxDegree - 1) [s] rest
      obtain ⟨combos, h1, h2, h3⟩ := ih (idx + 1) (gather maxDegree (s.maxDegree - 1) [s] rest).2
        (by simp at hl; omega)
        (fun t ht => hd t (List.mem_cons_of_mem _ (gather_subset _ _ _ _ t ht)))
      refine ⟨(gather maxDegree (s.maxDegree - 1) [s] rest).1 :: combos, ?_, ?_, ?_⟩
      · unfold combine
        simp only [if_pos hs.2, h1]
        rfl
      · rw [List.flatten_cons, e]
        refine List.Perm.trans ?_ (hp.cons s)
        simpa using (h2.append_left added)
      · intro c hc
        rcases List.mem_cons.1 hc with rfl | hc
        · exact ⟨by rw [e]; simp, hg⟩
        · exact h3 c hc

theorem combine_degree (maxDegree n : Nat) (alloc : Nat → Expr) :
    ∀ (fuel idx : Nat) (sels : List SelectorDescription) r, 
      combine maxDegree n alloc fuel idx sels = .ok r →
      (∀ s ∈ sels, 1 ≤ s.maxDegree) → ∀ s ∈ sels, s.maxDegree ≤ maxDegree := by
  intro fuel
  induction fuel with
  | zero =>
    intro idx sels r h hd
    cases sels with
    | nil => simp
    | cons s sels => cases h
  | succ fuel ih =>
    intro idx sels r h hd
    cases sels with
    | nil => simp
    | cons s rest =>
      unfold combine at h
      by_cases hs : s.maxDegree ≤ maxDegree
      · rw [if_pos hs] at h
        obtain ⟨hg, added, e, hp⟩ := gather_spec maxDegree rest (s.maxDegree - 1) [s] (by simp)
          (by intro t ht; rw [List.mem_singleton.1 ht]) (by have := hd s (by simp); rw [List.length_singleton]; omega)
        simp only at h
        cases h' : combine maxDegree n alloc fuel (idx + 1)
            (gather maxDegree (s.maxDegree - 1) [s] rest).2 with
        | error e => rw [h'] at h; cases h
        | ok r' =>
          have hih := ih _ _ r' h'
            (fun t ht => hd t (List.mem_cons_of_mem _ (gather_subset _ _ _ _ t ht)))
          intro t ht
          rcases List.mem_cons.1 ht with rfl | ht
          · exact hs
          · rcases List.mem_append.1 (hp.mem_iff.2 ht) with ha | hb
            · have := hg.degree t (by rw [e]; simp [ha])
              have : 0 < (gather maxDegree (s.maxDegree - 1) [s] rest).1.length := by
                rw [e]; simp
              omega
            · exact hih t hb
      · rw [if_neg hs] at h; cases h

theorem columnsOf_append (n : Nat) (a b : List (List SelectorDescription)) :
    columnsOf n (a ++ b) = columnsOf n a ++ columnsOf n b := by simp [columnsOf]

theorem assignmentsOf_append (alloc : Nat → Expr) (idx : Nat)
    (a b : List (List SelectorDescription)) :
    assignmentsOf alloc idx (a ++ b) =
      assignmentsOf alloc idx a ++ assignmentsOf alloc (idx + a.length) b := by
  simp [assignmentsOf, List.zipIdx_append]

theorem mark_zero (n : Nat) (v : Fr) (act : List Bool) (h : act.length = n) :
    mark v (List.replicate n 0) act = act.map fun b => if b then v else 0 := by
  subst h
  induction act with
  | nil => rfl
  | cons b act ih =>
    simp only [mark, List.length_cons, List.replicate_succ, List.zipWith_cons_cons, List.map_cons]
    congr 1

theorem column_single (n : Nat) (s : SelectorDescription) (h : s.activations.length = n) :
    column n [s] = s.activations.map fun b => if b then 1 else 0 := by
  show mark (root 0) (List.replicate n 0) s.activations = _
  rw [mark_zero n _ _ h]
  have : root 0 = 1 := by simp [root]
  rw [this]

theorem assignments_single (q : Expr) (idx : Nat) (s : SelectorDescription) :
    assignments q idx [s] = [⟨s.selector, idx, q⟩] := by
  have : replacement q 1 0 = q := by
    simp [replacement]
  simp [assignments, this]

/-- What `process` returns: a partition of the selectors into combinations. -/
structure Combos (sels : List SelectorDescription) (maxDegree : Nat)
    (combos : List (List SelectorDescription)) : Prop where
  perm : combos.flatten.Perm sels
  each : ∀ c ∈ combos, c ≠ [] ∧ ((∃ s, c = [s] ∧ s.maxDegree = 0) ∨
    (Good maxDegree c ∧ ∀ s ∈ c, s.maxDegree ≠ 0))

theorem process_spec {sels : List SelectorDescription} {maxDegree : Nat} {alloc : Nat → Expr} {n : Nat}
    (hn : ∀ s ∈ sels, s.activations.length = n) (hd : ∀ s ∈ sels, s.maxDegree ≤ maxDegree) :
    ∃ combos, Combos sels maxDegree combos ∧
      process sels maxDegree alloc = .ok (columnsOf n combos, assignmentsOf alloc 0 combos) := by
  cases sels with
  | nil => exact ⟨[], ⟨by simp, by simp⟩, rfl⟩
  | cons first rest =>
    generalize hs : first :: rest = sels at hn hd
    have hf : first.activations.length = n := hn first (by rw [← hs]; simp)
    have hall : (sels.all fun s => s.activations.length == n) = true := by
      rw [List.all_eq_true]; intro s h; simp [hn s h]
    generalize ho : (sels.filter fun s => s.maxDegree == 0) = own
    generalize hm : (sels.filter fun s => s.maxDegree != 0) = simple
    have hsimple : ∀ s ∈ simple, s ∈ sels ∧ s.maxDegree ≠ 0 := by
      intro s h; rw [← hm] at h; simpa using h
    have hown : ∀ s ∈ own, s ∈ sels ∧ s.maxDegree = 0 := by
      intro s h; rw [← ho] at h; simpa using h
    obtain ⟨combos, h1, h2, h3⟩ := combine_spec maxDegree n alloc simple.length own.length simple
      (Nat.le_refl _) (fun s h => by have := hsimple s h; exact ⟨by omega, hd s this.1⟩)
    have hc : columnsOf n (own.map fun s => [s]) =
        own.map fun s => s.activations.map fun b => if b then 1 else 0 := by
      unfold columnsOf
      rw [List.map_map]
      refine List.map_congr_left ?_
      intro s h
      exact column_single n s (hn s (hown s h).1)
    have ha : assignmentsOf alloc 0 (own.map fun s => [s]) =
        own.zipIdx.map fun s => (⟨s.1.selector, s.2, alloc s.2⟩ : SelectorAssignment) := by
      unfold assignmentsOf
      rw [List.zipIdx_map, List.flatMap_map]
      show (own.zipIdx.flatMap fun c => assignments (alloc c.2) c.2 [c.1]) = _
      rw [← List.flatMap_singleton' (own.zipIdx.map _), List.flatMap_map]
      refine List.flatMap_congr ?_
      intro c _
      exact assignments_single _ _ _
    refine ⟨(own.map fun s => [s]) ++ combos, ⟨?_, ?_⟩, ?_⟩
    · rw [List.flatten_append]
      have : (own.map fun s => [s]).flatten = own := by
        rw [← List.flatMap_def, List.flatMap_singleton']
      rw [this]
      refine (h2.append_left own).trans ?_
      rw [← ho, ← hm]
      have := List.filter_append_perm (fun s : SelectorDescription => s.maxDegree == 0) sels
      exact this
    · intro c h
      rcases List.mem_append.1 h with h | h
      · obtain ⟨s, h', rfl⟩ := List.mem_map.1 h
        exact ⟨by simp, .inl ⟨s, rfl, (hown s h').2⟩⟩
      · refine ⟨(h3 c h).1, .inr ⟨(h3 c h).2, ?_⟩⟩
        intro s hsc
        exact (hsimple s (h2.mem_iff.1 (List.mem_flatten.2 ⟨c, h, hsc⟩))).2
    · rw [columnsOf_append, assignmentsOf_append, hc, ha, List.length_map, Nat.zero_add]
      subst hs
      unfold process
      simp only [hf]
      rw [if_pos hall, ho, hm, h1]
      rfl

theorem process_facts {sels : List SelectorDescription} {maxDegree : Nat} {alloc : Nat → Expr}
    {r : List (List Fr) × List SelectorAssignment} (h : process sels maxDegree alloc = .ok r) :
    ∃ n, (∀ s ∈ sels, s.activations.length = n) ∧ ∀ s ∈ sels, s.maxDegree ≤ maxDegree := by
  cases sels with
  | nil => exact ⟨0, by simp, by simp⟩
  | cons first rest =>
    unfold process at h
    simp only at h
    split_ifs at h with hall
    refine ⟨first.activations.length, ?_, ?_⟩
    · intro s hs
      rw [List.all_eq_true] at hall
      simpa using hall s hs
    · generalize hs : first :: rest = sels at h
      cases h' : combine maxDegree first.activations.length alloc
          (sels.filter fun s => s.maxDegree != 0).length
          (sels.filter fun s => s.maxDegree == 0).length
          (sels.filter fun s => s.maxDegree != 0) with
      | error e => rw [h'] at h; cases h
      | ok r' =>
        have := combine_degree _ _ _ _ _ _ _ h' (by
          intro s hs; have := (List.mem_filter.1 hs).2; simp at this; omega)
        intro s hs
        by_cases h0 : s.maxDegree = 0
        · omega
        · exact this s (List.mem_filter.2 ⟨hs, by simpa using h0⟩)

/-! ### Values -/

theorem mark_getElem? (v : Fr) (col : List Fr) (act : List Bool) (h : col.length = act.length)
    (r : Nat) : (mark v col act)[r]? =
      (col[r]?).map fun c => if act[r]? = some true then v else c := by
  unfold mark
  rw [List.getElem?_zipWith]
  by_cases hr : r < col.length
  · rw [List.getElem?_eq_getElem hr, List.getElem?_eq_getElem (h ▸ hr)]
    cases act[r] <;> simp
  · rw [List.getElem?_eq_none (by omega), List.getElem?_eq_none (by omega)]; simp

theorem mark_length (v : Fr) (col : List Fr) (act : List Bool) (h : col.length = act.length) :
    (mark v col act).length = col.length := by
  unfold mark; simp [h]

/-- The fold in `column`. -/
def marks (c : List (SelectorDescription × Nat)) (col : List Fr) : List Fr :=
  c.foldl (fun col s => mark (root s.2) col s.1.activations) col

theorem marks_length (c : List (SelectorDescription × Nat)) (col : List Fr)
    (h : ∀ s ∈ c, s.1.activations.length = col.length) : (marks c col).length = col.length := by
  induction c generalizing col with
  | nil => rfl
  | cons s c ih =>
    show (marks c (mark (root s.2) col s.1.activations)).length = _
    have := mark_length (root s.2) col s.1.activations (h s (by simp)).symm
    rw [ih _ (fun t ht => by rw [this]; exact h t (List.mem_cons_of_mem _ ht)), this]

theorem marks_none (c : List (SelectorDescription × Nat)) (col : List Fr) (r : Nat)
    (h : ∀ s ∈ c, s.1.activations.length = col.length)
    (hr : ∀ s ∈ c, s.1.activations[r]? ≠ some true) : (marks c col)[r]? = col[r]? := by
  induction c generalizing col with
  | nil => rfl
  | cons s c ih =>
    show (marks c (mark (root s.2) col s.1.activations))[r]? = _
    have e := mark_length (root s.2) col s.1.activations (h s (by simp)).symm
    rw [ih _ (fun t ht => by rw [e]; exact h t (List.mem_cons_of_mem _ ht))
      (fun t ht => hr t (List.mem_cons_of_mem _ ht)),
      mark_getElem? _ _ _ (h s (by simp)).symm]
    simp only [if_neg (hr s (by simp))]
    simp

theorem marks_append (a b : List (SelectorDescription × Nat)) (col : List Fr) :
    marks (a ++ b) col = marks b (marks a col) := by
  simp [marks]

theorem column_length (n : Nat) (c : List SelectorDescription)
    (h : ∀ s ∈ c, s.activations.length = n) : (column n c).length = n := by
  have := marks_length c.zipIdx (List.replicate n 0) (by
    intro s hs
    rw [List.length_replicate]
    exact h _ (List.fst_mem_of_mem_zipIdx hs))
  rw [List.length_replicate] at this
  exact this

theorem column_none {n : Nat} {c : List SelectorDescription} {r : Nat} (hr : r < n)
    (h : ∀ s ∈ c, s.activations.length = n) (ha : ∀ s ∈ c, s.activations[r]? ≠ some true) :
    (column n c)[r]? = some 0 := by
  have := marks_none c.zipIdx (List.replicate n 0) r (by
    intro s hs
    rw [List.length_replicate]
    exact h _ (List.fst_mem_of_mem_zipIdx hs)) (fun s hs => ha _ (List.fst_mem_of_mem_zipIdx hs))
  rw [show column n c = marks c.zipIdx (List.replicate n 0) from rfl, this]
  simp [hr]

theorem column_some {n : Nat} {c : List SelectorDescription} {r i : Nat} {s : SelectorDescription}
    (hr : r < n) (h : ∀ s ∈ c, s.activations.length = n)
    (hp : c.Pairwise fun a b => conflict a b = false) (hi : c[i]? = some s)
    (ha : s.activations[r]? = some true) : (column n c)[r]? = some (root i) := by
  obtain ⟨hlt, hs⟩ := List.getElem?_eq_some_iff.1 hi
  have hsplit : c = c.take i ++ s :: c.drop (i + 1) := by
    rw [← hs, List.cons_getElem_drop_succ, List.take_append_drop]
  have hpost : ∀ t ∈ c.drop (i + 1), t.activations[r]? ≠ some true := by
    rw [hsplit, List.pairwise_append] at hp
    have hp := hp.2.1
    rw [List.pairwise_cons] at hp
    intro t ht hta
    have hc := hp.1 t ht
    unfold conflict at hc
    rw [List.any_eq_false] at hc
    refine hc (true, true) ?_ rfl
    rw [List.mem_iff_getElem?]
    exact ⟨r, by rw [List.getElem?_zip_eq_some]; exact ⟨ha, hta⟩⟩
  have hz : c.zipIdx = (c.take i).zipIdx ++ (s, i) :: (c.drop (i + 1)).zipIdx (i + 1) := by
    conv_lhs => rw [hsplit]
    rw [List.zipIdx_append, List.zipIdx_cons]
    simp [Nat.min_eq_left (Nat.le_of_lt hlt)]
  have hmem : ∀ t ∈ c.zipIdx, t.1.activations.length = n := fun t ht =>
    h _ (List.fst_mem_of_mem_zipIdx ht)
  rw [hz] at hmem
  rw [show column n c = marks c.zipIdx (List.replicate n 0) from rfl, hz, marks_append]
  generalize hpre : marks (c.take i).zipIdx (List.replicate n 0) = pre
  have hprel : pre.length = n := by
    rw [← hpre, marks_length _ _ (fun t ht => by
      rw [List.length_replicate]; exact hmem t (List.mem_append_left _ ht)), List.length_replicate]
  show (marks ((c.drop (i + 1)).zipIdx (i + 1)) (mark (root i) pre s.activations))[r]? = _
  have hsl : pre.length = s.activations.length := by
    rw [hprel]; exact (hmem (s, i) (by simp)).symm
  have hml := mark_length (root i) pre s.activations hsl
  rw [marks_none _ _ _ (fun t ht => by
      rw [hml, hprel]; exact hmem t (by simp [ht]))
    (fun t ht => hpost _ (List.fst_mem_of_mem_zipIdx ht)),
    mark_getElem? _ _ _ hsl,
    show pre[r]? = some (pre[r]'(by omega)) from List.getElem?_eq_getElem (by omega)]
  show some (if s.activations[r]? = some true then root i else _) = _
  rw [if_pos ha]

theorem root_ne_zero {i : Nat} (h : i + 1 < P) : root i ≠ 0 := by
  unfold root
  intro e
  rw [ZMod.natCast_eq_zero_iff] at e
  exact absurd (Nat.le_of_dvd (by omega) e) (by omega)

theorem root_inj {i j : Nat} (hi : i + 1 < P) (hj : j + 1 < P) (h : root i = root j) : i = j := by
  unfold root at h
  rw [ZMod.natCast_eq_natCast_iff'] at h
  rw [Nat.mod_eq_of_lt hi, Nat.mod_eq_of_lt hj] at h
  omega

theorem replacement_ne_zero (n : Nat) (g : Grid) (row : Nat) (q : Expr) (i : Nat) (len : Nat) :
    (replacement q len i).eval n g row ≠ 0 ↔
      q.eval n g row ≠ 0 ∧ ∀ j, j < len → root j ≠ root i → q.eval n g row ≠ root j := by
  unfold replacement
  induction len with
  | zero => simp
  | succ len ih =>
    rw [List.range_succ, List.foldl_append, List.foldl_cons, List.foldl_nil]
    by_cases h : root len ≠ root i
    · rw [if_pos h]
      show (Expr.eval n g row _ * (root len + - q.eval n g row)) ≠ 0 ↔ _
      rw [mul_ne_zero_iff, ih, ← sub_eq_add_neg, sub_ne_zero]
      constructor
      · rintro ⟨⟨h1, h2⟩, h3⟩
        refine ⟨h1, fun j hj hji => ?_⟩
        rcases Nat.lt_succ_iff_lt_or_eq.1 hj with hj | rfl
        · exact h2 j hj hji
        · exact fun e => h3 e.symm
      · rintro ⟨h1, h2⟩
        exact ⟨⟨h1, fun j hj => h2 j (by omega)⟩, fun e => h2 len (by omega) h e.symm⟩
    · rw [if_neg h, ih]
      constructor
      · rintro ⟨h1, h2⟩
        refine ⟨h1, fun j hj hji => ?_⟩
        rcases Nat.lt_succ_iff_lt_or_eq.1 hj with hj | rfl
        · exact h2 j hj hji
        · exact absurd hji h
      · rintro ⟨h1, h2⟩
        exact ⟨h1, fun j hj => h2 j (by omega)⟩

theorem replacement_degree (q : Expr) (hq : q.degree ≤ 1) (i : Nat) (len : Nat) (hi : i < len) :
    (replacement q len i).degree ≤ len := by
  have key : ∀ len, (replacement q len i).degree ≤ if i < len then len else len + 1 := by
    intro len
    unfold replacement
    induction len with
    | zero => simpa using hq
    | succ len ih =>
      rw [List.range_succ, List.foldl_append, List.foldl_cons, List.foldl_nil]
      by_cases h : root len ≠ root i
      · rw [if_pos h]
        have hne : len ≠ i := fun e => h (by rw [e])
        show Expr.degree _ + max 0 q.degree ≤ _
        split_ifs at ih ⊢ <;> omega
      · rw [if_neg h]
        split_ifs at ih ⊢ <;> omega
  have := key len
  rwa [if_pos hi] at this

end Compress

end Verif

import Mathlib.Data.List.Sort
import Mathlib.Data.List.Lex
import Verif.Lemmas.MockValue

/-! The search of the mock prover through sorted tables (helper for the property theorems). -/

namespace Verif

namespace Mock

/-- A row of values by the numbers that order it. -/
def keys (x : List MValue) : List Nat := x.map MValue.key

theorem keys_inj {x y : List MValue} (h : keys x = keys y) : x = y :=
  List.map_injective_iff.2 (fun _ _ h => MValue.key_inj h) h

theorem below_iff {x y : List MValue} : below x y = true ↔ keys x < keys y := by
  unfold below keys; simp

theorem notBelow_iff {x y : List MValue} : (!below y x) = true ↔ keys x ≤ keys y := by
  rw [Bool.not_eq_true', ← Bool.not_eq_true, below_iff, not_lt]

theorem notPairBelow {x y : List MValue × Nat} (h : (!pairBelow y x) = true) :
    keys x.1 ≤ keys y.1 := by
  rw [Bool.not_eq_true', ← Bool.not_eq_true] at h
  unfold pairBelow at h
  rw [Bool.or_eq_true, below_iff, not_or] at h
  exact not_lt.1 h.1

theorem _root_.List.mem_takeWhile_imp' {α : Type} {p : α → Bool} : ∀ {l : List α} {x : α},
    x ∈ l.takeWhile p → p x = true
  | [], x, h => by simp at h
  | a :: l, x, h => by
    rw [List.takeWhile_cons] at h
    split_ifs at h with ha
    · rcases List.mem_cons.1 h with rfl | h
      · exact ha
      · exact List.mem_takeWhile_imp' h
    · simp at h

/-- The search through a sorted table reports exactly the inputs that are not in it, and its
assertion holds. -/
theorem scan_eq {table : List (List MValue)} (index : Nat)
    (hs : table.Pairwise fun x y => keys x ≤ keys y) :
    ∀ (inputs : List (List MValue × Nat)) (pre rest : List (List MValue)),
      inputs.Pairwise (fun x y => keys x.1 ≤ keys y.1) → table = pre ++ rest →
      (∀ t ∈ pre, ∀ x ∈ inputs, keys t < keys x.1) →
      scan table index rest inputs = .ok (scanPar table index inputs)
  | [], _, _, _, _, _ => rfl
  | (x, row) :: inputs, pre, rest, hi, ht, hp => by
    rw [List.pairwise_cons] at hi
    have hsplit := List.takeWhile_append_dropWhile (p := (below · x)) (l := rest)
    generalize hr : rest.dropWhile (below · x) = rest' at hsplit
    generalize hk : rest.takeWhile (below · x) = taken at hsplit
    have htk : ∀ t ∈ taken, keys t < keys x := by
      intro t h
      rw [← hk] at h
      exact below_iff.1 (List.mem_takeWhile_imp' (p := (below · x)) h)
    have ht' : table = (pre ++ taken) ++ rest' := by rw [ht, ← hsplit, List.append_assoc]
    have hpre : ∀ t ∈ pre ++ taken, keys t < keys x := by
      intro t h
      rcases List.mem_append.1 h with h | h
      · exact hp t h _ (List.mem_cons_self ..)
      · exact htk t h
    have hp' : ∀ t ∈ pre ++ taken, ∀ y ∈ inputs, keys t < keys y.1 := fun t h y hy =>
      lt_of_lt_of_le (hpre t h) (hi.1 y hy)
    have ih := scan_eq index hs inputs (pre ++ taken) rest' hi.2 ht' hp'
    rw [scan, hr]
    have hpar : scanPar table index ((x, row) :: inputs) =
        if x ∈ table then scanPar table index inputs
        else .lookup index row :: scanPar table index inputs := by
      unfold scanPar
      rw [List.filterMap_cons]
      by_cases h : x ∈ table <;> simp [h]
    have hnot : ∀ t ∈ pre ++ taken, t ≠ x := fun t h e => absurd (hpre t h) (by rw [e]; exact lt_irrefl _)
    cases hrest : rest' with
    | nil =>
      rw [if_pos (.inl rfl)]
      have hx : x ∉ table := by
        rw [ht', hrest, List.append_nil]
        exact fun h => hnot x h rfl
      rw [if_neg hx, hpar, if_neg hx, ← hrest, ih]
      rfl
    | cons t rest'' =>
      have htx : ¬ keys t < keys x := by
        intro h
        have := List.head_dropWhile_not (below · x) (l := rest) (by rw [hr, hrest]; exact List.cons_ne_nil _ _)
        simp only [hr, hrest, List.head_cons] at this
        rw [← Bool.not_eq_true, below_iff] at this
        exact this h
      by_cases hlt : keys x < keys t
      · rw [if_pos (.inr ⟨t, rfl, below_iff.2 hlt⟩)]
        have hx : x ∉ table := by
          rw [ht', hrest]
          intro h
          rcases List.mem_append.1 h with h | h
          · exact hnot x h rfl
          · rw [ht', hrest] at hs
            have hs' := (List.pairwise_append.1 hs).2.1
            rw [List.pairwise_cons] at hs'
            rcases List.mem_cons.1 h with h | h
            · rw [h] at hlt; exact lt_irrefl _ hlt
            · exact absurd (hs'.1 x h) (not_le.2 hlt)
        rw [if_neg hx, hpar, if_neg hx, ← hrest, ih]
        rfl
      · have e : t = x := keys_inj (le_antisymm (not_lt.1 hlt) (not_lt.1 htx))
        rw [if_neg]
        · rw [hpar, if_pos (by rw [ht', hrest, e]; simp), ← hrest, ih]
        · rintro (h | ⟨u, h, h'⟩)
          · cases h
          · rw [List.head?_cons] at h
            cases h
            rw [e] at h'
            exact lt_irrefl _ (below_iff.1 h')

theorem tableOf_sorted (m : Mock) (l : Lookup) (fill : List MValue) :
    (m.tableOf l fill).Pairwise fun x y => keys x ≤ keys y := by
  unfold tableOf
  refine (List.pairwise_mergeSort (le := fun x y => !below y x) ?_ ?_ _).imp fun h => notBelow_iff.1 h
  · intro a b c h1 h2
    exact notBelow_iff.2 (le_trans (notBelow_iff.1 h1) (notBelow_iff.1 h2))
  · intro a b
    rw [Bool.or_eq_true, notBelow_iff, notBelow_iff]
    exact le_total _ _

/-- The order of the inputs in one number list. -/
theorem notPairBelow_iff {x y : List MValue × Nat} : (!pairBelow y x) = true ↔
    keys x.1 < keys y.1 ∨ (keys x.1 = keys y.1 ∧ x.2 ≤ y.2) := by
  rw [Bool.not_eq_true', ← Bool.not_eq_true]
  unfold pairBelow
  rw [Bool.or_eq_true, below_iff, Bool.and_eq_true, decide_eq_true_eq, decide_eq_true_eq]
  show ¬ (keys y.1 < keys x.1 ∨ (keys y.1 = keys x.1 ∧ y.2 < x.2)) ↔ _
  rcases lt_trichotomy (keys x.1) (keys y.1) with h | h | h
  · simp [h, h.ne', not_lt.2 h.le]
  · simp [h]
  · simp [h, h.ne', not_lt.2 h.le]

theorem inputsOf_sorted (m : Mock) (rows : List Nat) (l : Lookup) (fill : List MValue) :
    (m.inputsOf rows l fill).Pairwise fun x y => keys x.1 ≤ keys y.1 := by
  unfold inputsOf
  refine (List.pairwise_mergeSort (le := fun x y => !pairBelow y x) ?_ ?_ _).imp
    fun h => notPairBelow h
  · intro a b c h1 h2
    rw [notPairBelow_iff] at h1 h2 ⊢
    rcases h1 with h1 | ⟨h1, h1'⟩
    · rcases h2 with h2 | ⟨h2, h2'⟩
      · exact .inl (h1.trans h2)
      · exact .inl (h2 ▸ h1)
    · rcases h2 with h2 | ⟨h2, h2'⟩
      · exact .inl (h1 ▸ h2)
      · exact .inr ⟨h1.trans h2, h1'.trans h2'⟩
  · intro a b
    rw [Bool.or_eq_true, notPairBelow_iff, notPairBelow_iff]
    rcases lt_trichotomy (keys a.1) (keys b.1) with h | h | h
    · exact .inl (.inl h)
    · rcases Nat.le_total a.2 b.2 with h' | h'
      · exact .inl (.inr ⟨h, h'⟩)
      · exact .inr (.inr ⟨h.symm, h'⟩)
    · exact .inr (.inl h)

/-- The fill row of a lookup. -/
def fillOf (m : Mock) (l : Lookup) : List MValue := l.table.map (m.lazy (m.usable - 1))

/-- What is reported about one lookup. -/
def lookupError (m : Mock) (rows : List Nat) (l : Lookup × Nat) : Except Panic (List Failure) :=
  if l.1.table.length ≠ l.1.input.length then .error .assert
  else if m.usable = 0 then .error .assert
  else .ok (scanPar (m.tableOf l.1 (m.fillOf l.1)) l.2 (m.inputsOf rows l.1 (m.fillOf l.1)))

/-- The cached table is the table of every lookup with the cached identifier. -/
def CacheOk (m : Mock) (cache : List (List Token) × List (List MValue)) : Prop :=
  ∀ l : Lookup, l.table.map Expr.identifier = cache.1 → cache.2 = m.tableOf l (m.fillOf l)

theorem cacheOk_nil (m : Mock) : CacheOk m ([], []) := by
  intro l h
  have h : l.table = [] := List.map_eq_nil_iff.1 h
  have e : (((List.range m.usable).map fun row => l.table.map (m.lazy row)).filter
      (· ≠ m.fillOf l)) = [] := by
    rw [List.filter_eq_nil_iff]
    intro x hx
    obtain ⟨row, -, rfl⟩ := List.mem_map.1 hx
    simp [fillOf, h]
  unfold tableOf
  rw [e, List.mergeSort_nil]

theorem tableOf_congr {m : Mock} {l l' : Lookup}
    (h : l.table.map Expr.identifier = l'.table.map Expr.identifier) :
    m.tableOf l (m.fillOf l) = m.tableOf l' (m.fillOf l') := by
  have h' := lazy_of_identifiers (m := m) h
  unfold tableOf fillOf
  rw [h' (m.usable - 1)]
  congr 2
  exact List.map_congr_left fun row _ => h' row

theorem lookupErrors_eq (m : Mock) (par : Bool) (rows : List Nat) :
    ∀ (ls : List (Lookup × Nat)) cache, CacheOk m cache →
      m.lookupErrors par rows cache ls = collect (m.lookupError rows) ls
  | [], _, _ => rfl
  | (l, index) :: ls, cache, hc => by
    rw [lookupErrors, collect, lookupError]
    dsimp only
    by_cases h1 : l.table.length ≠ l.input.length
    · rw [if_pos h1, if_pos h1]; rfl
    by_cases h2 : m.usable = 0
    · rw [if_neg h1, if_neg h1, if_pos h2, if_pos h2]; rfl
    rw [if_neg h1, if_neg h1, if_neg h2, if_neg h2]
    have hc' : CacheOk m (if l.table.map Expr.identifier = cache.1 then cache
        else (l.table.map Expr.identifier, m.tableOf l (l.table.map (m.lazy (m.usable - 1))))) := by
      split_ifs
      · exact hc
      · exact fun l' h => tableOf_congr h.symm
    have h3 : (if l.table.map Expr.identifier = cache.1 then cache
        else (l.table.map Expr.identifier, m.tableOf l (l.table.map (m.lazy (m.usable - 1))))).2 =
        m.tableOf l (m.fillOf l) := by
      split_ifs with h
      · exact hc l h
      · rfl
    rw [lookupErrors_eq m par rows ls _ hc', h3]
    have hs := scan_eq index (tableOf_sorted m l (m.fillOf l))
      (m.inputsOf rows l (m.fillOf l)) [] (m.tableOf l (m.fillOf l)) (inputsOf_sorted m rows l _) rfl
      (by simp)
    cases par with
    | true => rfl
    | false => rw [if_neg (by simp)]; unfold fillOf at hs ⊢; rw [hs]

/-- `verify_par` gives what `verify` gives. -/
theorem verifyAtRows_par (m : Mock) (g l : List Nat) :
    m.verifyAtRows true g l = m.verifyAtRows false g l := by
  unfold verifyAtRows
  rw [lookupErrors_eq m true l _ _ (cacheOk_nil m), lookupErrors_eq m false l _ _ (cacheOk_nil m)]

theorem collect_nil {α β : Type} {f : α → Except Panic (List β)} {l : List α} :
    collect f l = .ok [] ↔ ∀ x ∈ l, f x = .ok [] := by
  induction l with
  | nil => simp [collect]
  | cons a l ih =>
    rw [collect, List.forall_mem_cons, ← ih]
    cases h : f a with
    | error e => simp [bind, Except.bind]
    | ok x =>
      cases h' : collect f l with
      | error e => simp [bind, Except.bind]
      | ok y => simp [bind, Except.bind, pure, Except.pure]

/-- No panic in a loop if none in its steps. -/
theorem collect_ok {α β : Type} {f : α → Except Panic (List β)} {l : List α}
    (h : ∀ x ∈ l, ∃ y, f x = .ok y) : ∃ y, collect f l = .ok y := by
  induction l with
  | nil => exact ⟨[], rfl⟩
  | cons a l ih =>
    obtain ⟨y, hy⟩ := h a (List.mem_cons_self ..)
    obtain ⟨z, hz⟩ := ih fun x hx => h x (List.mem_cons_of_mem _ hx)
    exact ⟨y ++ z, by rw [collect, hy, hz]; rfl⟩

/-- Nothing is reported about a lookup exactly if every input is in the table. -/
theorem lookupError_nil {m : Mock} {rows : List Nat} {l : Lookup × Nat} :
    m.lookupError rows l = .ok [] ↔ l.1.table.length = l.1.input.length ∧ m.usable ≠ 0 ∧
      ∀ row ∈ rows, ∃ row', row' < m.usable ∧ l.1.input.map (m.lazy row) = l.1.table.map (m.lazy row') := by
  unfold lookupError
  split_ifs with h1 h2
  · simp [h1]
  · simp [h2]
  · have h1 : l.1.table.length = l.1.input.length := not_not.1 h1
    simp only [Except.ok.injEq, h1, ne_eq, h2, not_false_eq_true, true_and]
    unfold scanPar
    rw [List.filterMap_eq_nil_iff]
    have hin : ∀ x, x ∈ m.inputsOf rows l.1 (m.fillOf l.1) ↔
        ∃ row ∈ rows, x = (l.1.input.map (m.lazy row), row) ∧ x.1 ≠ m.fillOf l.1 := by
      intro x
      unfold inputsOf
      rw [List.mem_mergeSort, List.mem_filter, List.mem_map]
      constructor
      · rintro ⟨⟨row, h, rfl⟩, h'⟩
        exact ⟨row, h, rfl, by simpa using h'⟩
      · rintro ⟨row, h, rfl, h'⟩
        exact ⟨⟨row, h, rfl⟩, by simpa using h'⟩
    have htab : ∀ x, x ∈ m.tableOf l.1 (m.fillOf l.1) ↔
        (∃ row, row < m.usable ∧ x = l.1.table.map (m.lazy row)) ∧ x ≠ m.fillOf l.1 := by
      intro x
      unfold tableOf
      rw [List.mem_mergeSort, List.mem_filter, List.mem_map]
      constructor
      · rintro ⟨⟨row, h, rfl⟩, h'⟩
        exact ⟨⟨row, List.mem_range.1 h, rfl⟩, by simpa using h'⟩
      · rintro ⟨⟨row, h, rfl⟩, h'⟩
        exact ⟨⟨row, List.mem_range.2 h, rfl⟩, by simpa using h'⟩
    constructor
    · intro h row hrow
      by_cases hf : l.1.input.map (m.lazy row) = m.fillOf l.1
      · exact ⟨m.usable - 1, by omega, hf⟩
      · have := h (l.1.input.map (m.lazy row), row) ((hin _).2 ⟨row, hrow, rfl, hf⟩)
        simp only [ite_eq_left_iff, reduceCtorEq, imp_false, not_not] at this
        obtain ⟨⟨row', h', e⟩, -⟩ := (htab _).1 this
        exact ⟨row', h', e⟩
    · intro h x hx
      obtain ⟨row, hrow, rfl, hf⟩ := (hin x).1 hx
      obtain ⟨row', h', e⟩ := h row hrow
      simp only [ite_eq_left_iff, reduceCtorEq, imp_false, not_not]
      exact (htab _).2 ⟨⟨row', h', e⟩, hf⟩

/-- What acceptance says. -/
theorem verifyAtRows_ok_iff {m : Mock} {par : Bool} {g l : List Nat} :
    m.verifyAtRows par g l = .ok (.ok ()) ↔ (∀ r ∈ g, r < m.usable) ∧ (∀ r ∈ l, r < m.usable) ∧
      m.selectorErrors = .ok [] ∧ m.gateErrors g = .ok [] ∧
      (∀ x ∈ m.cs.lookups.zipIdx, m.lookupError l x = .ok []) ∧ m.permErrors = .ok [] := by
  rw [← collect_nil, ← lookupErrors_eq m par l _ _ (cacheOk_nil m)]
  unfold verifyAtRows
  by_cases hr : (g.all (· < m.usable) && l.all (· < m.usable)) = true
  · rw [if_pos hr]
    have hr' : (∀ r ∈ g, r < m.usable) ∧ (∀ r ∈ l, r < m.usable) := by simpa using hr
    suffices hh : _ ↔ m.selectorErrors = .ok [] ∧ m.gateErrors g = .ok [] ∧
        m.lookupErrors par l ([], []) m.cs.lookups.zipIdx = .ok [] ∧ m.permErrors = .ok [] from
      hh.trans ⟨fun h => ⟨hr'.1, hr'.2, h⟩, fun h => h.2.2⟩
    cases h1 : m.selectorErrors with
    | error e => simp [bind, Except.bind]
    | ok a =>
      cases h2 : m.gateErrors g with
      | error e => simp [bind, Except.bind]
      | ok b =>
        cases h3 : m.lookupErrors par l ([], []) m.cs.lookups.zipIdx with
        | error e => simp [bind, Except.bind]
        | ok c =>
          cases h4 : m.permErrors with
          | error e => simp [bind, Except.bind]
          | ok d =>
            simp only [bind, Except.bind, pure, Except.pure, Except.ok.injEq]
            constructor
            · intro h
              split_ifs at h with h'
              simpa [and_assoc] using h'
            · rintro ⟨rfl, rfl, rfl, rfl⟩
              rfl
  · rw [if_neg hr]
    have hr' : ¬ ((∀ r ∈ g, r < m.usable) ∧ (∀ r ∈ l, r < m.usable)) := by simpa using hr
    constructor
    · intro h; cases h
    · rintro ⟨a, b, -⟩; exact absurd ⟨a, b⟩ hr'

end Mock

end Verif

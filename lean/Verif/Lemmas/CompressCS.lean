import Verif.Lemmas.CompressLemmas
import Verif.Spec.Selectors

/-! Selector compression of a constraint system (helper for the property theorems). -/

namespace Verif

open Spec

theorem except_bind {α β : Type} {x : Except Panic α} {f : α → Except Panic β} {b : β} :
    (x >>= f) = .ok b ↔ ∃ a, x = .ok a ∧ f a = .ok b := by
  cases x with
  | error e => simp [bind, Except.bind]
  | ok a => simp [bind, Except.bind]

theorem mapM_ok {α β : Type} {f : α → Except Panic β} {l : List α} {h : α → β}
    (hf : ∀ x ∈ l, f x = .ok (h x)) : l.mapM f = .ok (l.map h) := by
  induction l with
  | nil => rfl
  | cons x l ih =>
    rw [List.mapM_cons, hf x (by simp), ih (fun y hy => hf y (List.mem_cons_of_mem _ hy))]
    rfl

/-! ### `fillVec` -/

theorem fill_fold {α : Type} (entries : List (Nat × α)) : ∀ (v : List (Option α)),
    (∀ e ∈ entries, e.1 < v.length) → (entries.map Prod.fst).Nodup →
    ∃ w : List (Option α), entries.foldlM (fun (v : List (Option α)) e =>
        if e.1 < v.length then Except.ok (v.set e.1 (some e.2)) else .error Panic.index) v = .ok w ∧
      w.length = v.length ∧ (∀ e ∈ entries, w[e.1]? = some (some e.2)) ∧
      ∀ i, i ∉ entries.map Prod.fst → w[i]? = v[i]? := by
  induction entries with
  | nil => intro v _ _; exact ⟨v, rfl, rfl, by simp, by simp⟩
  | cons e entries ih =>
    intro v hv hn
    rw [List.map_cons, List.nodup_cons] at hn
    obtain ⟨w, h1, h2, h3, h4⟩ := ih (v.set e.1 (some e.2)) (by
      intro x hx; rw [List.length_set]; exact hv x (List.mem_cons_of_mem _ hx)) hn.2
    refine ⟨w, ?_, by rw [h2, List.length_set], ?_, ?_⟩
    · rw [List.foldlM_cons, if_pos (hv e (by simp))]
      exact h1
    · intro x hx
      rcases List.mem_cons.1 hx with rfl | hx
      · rw [h4 _ hn.1, List.getElem?_set_self (hv x (by simp))]
      · exact h3 x hx
    · intro i hi
      rw [List.map_cons, List.mem_cons, not_or] at hi
      rw [h4 i hi.2, List.getElem?_set_ne (Ne.symm hi.1)]

theorem fillVec_ok {α : Type} {len : Nat} {entries : List (Nat × α)}
    (h : (entries.map Prod.fst).Perm (List.range len)) :
    ∃ v, fillVec len entries = .ok v ∧ v.length = len ∧ ∀ e ∈ entries, v[e.1]? = some e.2 := by
  obtain ⟨w, h1, h2, h3, -⟩ := fill_fold entries (List.replicate len none) (by
    intro e he
    rw [List.length_replicate]
    exact List.mem_range.1 (h.mem_iff.1 (List.mem_map_of_mem he))) (h.nodup_iff.2 List.nodup_range)
  rw [List.length_replicate] at h2
  have hall : ∀ i, i < len → ∃ x, w[i]? = some (some x) := by
    intro i hi
    obtain ⟨e, he, rfl⟩ := List.mem_map.1 (h.mem_iff.2 (List.mem_range.2 hi))
    exact ⟨e.2, h3 e he⟩
  have hsome : ∃ v : List α, w = v.map some := by
    clear h1 h3
    have : ∀ o ∈ w, ∃ x, o = some x := by
      intro o ho
      obtain ⟨i, hi, rfl⟩ := List.mem_iff_getElem.1 ho
      obtain ⟨x, hx⟩ := hall i (by omega)
      rw [List.getElem?_eq_getElem hi] at hx
      exact ⟨x, by simpa using hx⟩
    clear hall h2
    induction w with
    | nil => exact ⟨[], rfl⟩
    | cons o w ih =>
      obtain ⟨v, hv⟩ := ih (fun o ho => this o (List.mem_cons_of_mem _ ho))
      obtain ⟨x, hx⟩ := this o (by simp)
      exact ⟨x :: v, by rw [hx, hv]; rfl⟩
  obtain ⟨v, rfl⟩ := hsome
  refine ⟨v, ?_, by simpa using h2, ?_⟩
  · unfold fillVec
    rw [h1]
    show (v.map some).mapM _ = _
    clear h1 h2 h3 hall
    induction v with
    | nil => rfl
    | cons x v ih =>
      rw [List.map_cons, List.mapM_cons, ih]
      rfl
  · intro e he
    have := h3 e he
    rw [List.getElem?_map] at this
    cases hv : v[e.1]? with
    | none => rw [hv] at this; cases this
    | some x => rw [hv] at this; simpa using this

/-! ### The replaced expressions -/

/-- The selectors of an expression replaced, without the checks. -/
def Expr.subst (rs : List Expr) : Expr → Expr
  | selector s => rs.getD s.index (const 0)
  | neg a => neg (a.subst rs)
  | sum a b => sum (a.subst rs) (b.subst rs)
  | product a b => product (a.subst rs) (b.subst rs)
  | scaled a f => scaled (a.subst rs) f
  | const c => const c
  | fixed c r => fixed c r
  | advice c r => advice c r
  | instance_ c r => instance_ c r
  | challenge i => challenge i

theorem subst_containsSimple {rs : List Expr} (hr : ∀ e ∈ rs, e.containsSimple = false) (e : Expr) :
    (e.subst rs).containsSimple = false := by
  induction e with
  | selector s =>
    show (rs.getD s.index (.const 0)).containsSimple = false
    rw [List.getD_eq_getElem?_getD]
    cases h : rs[s.index]? with
    | none => rfl
    | some x => exact hr x (List.mem_of_getElem? h)
  | neg a ih => exact ih
  | sum a b iha ihb => show (_ || _) = false; rw [iha, ihb]; rfl
  | product a b iha ihb => show (_ || _) = false; rw [iha, ihb]; rfl
  | scaled a f ih => exact ih
  | _ => rfl

theorem replaceSelectors_ok {rs : List Expr} (hr : ∀ e ∈ rs, e.containsSimple = false) {b : Bool}
    (e : Expr) (hi : ∀ s ∈ selectorsIn e, s.index < rs.length)
    (hb : b = true → ∀ s ∈ selectorsIn e, s.simple = false) :
    e.replaceSelectors rs b = .ok (e.subst rs) := by
  induction e with
  | selector s =>
    have h1 := hi s (by simp [selectorsIn])
    show (if b && s.simple then _ else match rs[s.index]? with | some e => _ | none => _) =
      Except.ok (rs.getD s.index (.const 0))
    rw [if_neg, List.getElem?_eq_getElem h1, List.getD_eq_getElem?_getD,
      List.getElem?_eq_getElem h1]
    · rfl
    · intro h
      rw [Bool.and_eq_true] at h
      rw [hb h.1 s (by simp [selectorsIn])] at h
      exact absurd h.2 (by simp)
  | neg a ih =>
    unfold Expr.replaceSelectors
    rw [ih hi hb]; rfl
  | scaled a f ih =>
    unfold Expr.replaceSelectors
    rw [ih hi hb]; rfl
  | sum x y ihx ihy =>
    unfold Expr.replaceSelectors
    rw [ihx (fun s hs => hi s (List.mem_append_left _ hs))
        (fun h s hs => hb h s (List.mem_append_left _ hs)),
      ihy (fun s hs => hi s (List.mem_append_right _ hs))
        (fun h s hs => hb h s (List.mem_append_right _ hs))]
    simp only [bind, Except.bind, subst_containsSimple hr]
    rfl
  | product x y ihx ihy =>
    unfold Expr.replaceSelectors
    rw [ihx (fun s hs => hi s (List.mem_append_left _ hs))
        (fun h s hs => hb h s (List.mem_append_left _ hs)),
      ihy (fun s hs => hi s (List.mem_append_right _ hs))
        (fun h s hs => hb h s (List.mem_append_right _ hs))]
    simp only [bind, Except.bind, subst_containsSimple hr]
    rfl
  | _ => rfl

theorem containsSimple_iff (e : Expr) :
    e.containsSimple = true ↔ ∃ s ∈ selectorsIn e, s.simple = true := by
  induction e with
  | selector s => simp [Expr.containsSimple, selectorsIn]
  | neg a ih => exact ih
  | sum a b iha ihb =>
    simp only [Expr.containsSimple, Bool.or_eq_true, iha, ihb, selectorsIn, List.mem_append]
    constructor
    · rintro (⟨s, h, h'⟩ | ⟨s, h, h'⟩)
      · exact ⟨s, .inl h, h'⟩
      · exact ⟨s, .inr h, h'⟩
    · rintro ⟨s, h | h, h'⟩
      · exact .inl ⟨s, h, h'⟩
      · exact .inr ⟨s, h, h'⟩
  | product a b iha ihb =>
    simp only [Expr.containsSimple, Bool.or_eq_true, iha, ihb, selectorsIn, List.mem_append]
    constructor
    · rintro (⟨s, h, h'⟩ | ⟨s, h, h'⟩)
      · exact ⟨s, .inl h, h'⟩
      · exact ⟨s, .inr h, h'⟩
    · rintro ⟨s, h | h, h'⟩
      · exact .inl ⟨s, h, h'⟩
      · exact .inr ⟨s, h, h'⟩
  | scaled a f ih => exact ih
  | _ => simp [Expr.containsSimple, selectorsIn]

/-- `extract_simple_selector` of a well-formed expression. -/
theorem extractSimple_ok (e : Expr) (h : e.wellFormed = true) :
    (e.containsSimple = false → e.extractSimple = .ok none) ∧
    (e.containsSimple = true → ∃ s ∈ selectorsIn e, s.simple = true ∧
      e.extractSimple = .ok (some s)) := by
  induction e with
  | selector s =>
    constructor
    · intro h; show Except.ok (if s.simple then _ else _) = _
      rw [show s.simple = false from h]; rfl
    · intro h
      refine ⟨s, by simp [selectorsIn], h, ?_⟩
      show Except.ok (if s.simple then _ else _) = _
      rw [show s.simple = true from h]; rfl
  | neg a ih => exact ih h
  | scaled a f ih => exact ih h
  | sum a b iha ihb =>
    simp only [Expr.wellFormed, Bool.and_eq_true, Bool.not_eq_true'] at h
    obtain ⟨⟨⟨ha, hb⟩, ca⟩, cb⟩ := h
    have e1 := (iha ha).1 ca
    have e2 := (ihb hb).1 cb
    constructor
    · intro _
      show (do match ← a.extractSimple, ← b.extractSimple with
        | some s, none => .ok (some s)
        | none, some s => .ok (some s)
        | some _, some _ => .error .assert
        | none, none => .ok none) = _
      rw [e1, e2]; rfl
    · intro hc
      simp only [Expr.containsSimple, ca, cb] at hc
      cases hc
  | product a b iha ihb =>
    simp only [Expr.wellFormed, Bool.and_eq_true, Bool.not_eq_true'] at h
    obtain ⟨⟨ha, hb⟩, hab⟩ := h
    have unfolded : (Expr.product a b).extractSimple =
      (do match ← a.extractSimple, ← b.extractSimple with
        | some s, none => .ok (some s)
        | none, some s => .ok (some s)
        | some _, some _ => .error .assert
        | none, none => .ok none) := rfl
    rw [unfolded]
    cases ca : a.containsSimple <;> cases cb : b.containsSimple
    · rw [(iha ha).1 ca, (ihb hb).1 cb]
      exact ⟨fun _ => rfl, fun hc => by simp [Expr.containsSimple, ca, cb] at hc⟩
    · obtain ⟨s, hs, h1, h2⟩ := (ihb hb).2 cb
      rw [(iha ha).1 ca, h2]
      exact ⟨fun hc => by simp [Expr.containsSimple, ca, cb] at hc,
        fun _ => ⟨s, List.mem_append_right _ hs, h1, rfl⟩⟩
    · obtain ⟨s, hs, h1, h2⟩ := (iha ha).2 ca
      rw [(ihb hb).1 cb, h2]
      exact ⟨fun hc => by simp [Expr.containsSimple, ca, cb] at hc,
        fun _ => ⟨s, List.mem_append_left _ hs, h1, rfl⟩⟩
    · rw [ca, cb] at hab; cases hab
  | _ => exact ⟨fun _ => rfl, fun hc => by simp [Expr.containsSimple] at hc⟩

/-! ### The degrees of the selectors -/

/-- One step of `selectorDegrees`. -/
def degreeStep (ds : List Nat) (e : Expr) : Except Panic (List Nat) := do
  match ← e.extractSimple with
    | some s => match ds[s.index]? with
      | some d => .ok (ds.set s.index (max d e.degree))
      | none => .error .index
    | none => .ok ds

theorem selectorDegrees_eq (cs : CS) (len : Nat) :
    cs.selectorDegrees len = cs.gates.flatten.foldlM degreeStep (List.replicate len 0) := rfl

theorem degree_fold (simple : Nat → Bool) (es : List Expr) : ∀ (ds : List Nat),
    (∀ e ∈ es, e.wellFormed = true) →
    (∀ e ∈ es, ∀ s ∈ selectorsIn e, s.index < ds.length ∧ s.simple = simple s.index) →
    ∃ out : List Nat, es.foldlM degreeStep ds = .ok out ∧ out.length = ds.length ∧
      (∀ (i d : Nat), ds[i]? = some d → ∃ d' : Nat, out[i]? = some d' ∧ d ≤ d') ∧
      (∀ e ∈ es, ∀ s, e.extractSimple = .ok (some s) → ∃ d, out[s.index]? = some d ∧ e.degree ≤ d) ∧
      (∀ (i d : Nat), out[i]? = some d → ds[i]? = some d ∨
        simple i = true ∧ ∃ e ∈ es, d ≤ max (ds.getD i 0) e.degree) ∧
      (∀ (m i d : Nat), (∀ (i d : Nat), ds[i]? = some d → d ≤ m) → (∀ e ∈ es, e.degree ≤ m) →
        out[i]? = some d → d ≤ m) := by
  induction es with
  | nil =>
    intro ds _ _
    exact ⟨ds, rfl, rfl, fun i d h => ⟨d, h, le_refl _⟩, by simp, fun i d h => .inl h,
      fun m i d h _ h' => h i d h'⟩
  | cons e es ih =>
    intro ds hw hs
    obtain ⟨x1, x2⟩ := extractSimple_ok e (hw e (by simp))
    cases hc : e.containsSimple with
    | false =>
      obtain ⟨out, h1, h2, h3, h4, h5, h6⟩ := ih ds (fun x hx => hw x (List.mem_cons_of_mem _ hx))
        (fun x hx => hs x (List.mem_cons_of_mem _ hx))
      refine ⟨out, ?_, h2, h3, ?_, ?_, ?_⟩
      · rw [List.foldlM_cons]
        have : degreeStep ds e = .ok ds := by unfold degreeStep; rw [x1 hc]; rfl
        rw [this]; exact h1
      · intro x hx s hxs
        rcases List.mem_cons.1 hx with rfl | hx
        · rw [x1 hc] at hxs; cases hxs
        · exact h4 x hx s hxs
      · intro i d h
        rcases h5 i d h with h | ⟨h, x, hx, hd⟩
        · exact .inl h
        · exact .inr ⟨h, x, List.mem_cons_of_mem _ hx, hd⟩
      · intro m i d h h' ho
        exact h6 m i d h (fun x hx => h' x (List.mem_cons_of_mem _ hx)) ho
    | true =>
      obtain ⟨s, hse, hsimple, hx⟩ := x2 hc
      obtain ⟨hlt, hflag⟩ := hs e (by simp) s hse
      obtain ⟨out, h1, h2, h3, h4, h5, h6⟩ := ih (ds.set s.index (max ds[s.index] e.degree))
        (fun x hx => hw x (List.mem_cons_of_mem _ hx))
        (fun x hx => by rw [List.length_set]; exact hs x (List.mem_cons_of_mem _ hx))
      have hset : (ds.set s.index (max ds[s.index] e.degree))[s.index]? =
          some (max ds[s.index] e.degree) := List.getElem?_set_self hlt
      have hds : ds[s.index]? = some ds[s.index] := List.getElem?_eq_getElem hlt
      refine ⟨out, ?_, by rw [h2, List.length_set], ?_, ?_, ?_, ?_⟩
      · rw [List.foldlM_cons]
        have : degreeStep ds e = .ok (ds.set s.index (max ds[s.index] e.degree)) := by
          unfold degreeStep; rw [hx]
          show (match ds[s.index]? with | some d => _ | none => _) = _
          rw [hds]
        rw [this]; exact h1
      · intro i d h
        by_cases hi : s.index = i
        · subst hi
          obtain ⟨d', h7, h8⟩ := h3 _ _ hset
          rw [hds] at h
          cases h
          exact ⟨d', h7, by omega⟩
        · exact h3 i d (by rw [List.getElem?_set_ne hi]; exact h)
      · intro x hx' t hxt
        rcases List.mem_cons.1 hx' with rfl | hx'
        · rw [hx] at hxt
          cases hxt
          obtain ⟨d', h7, h8⟩ := h3 _ _ hset
          exact ⟨d', h7, by omega⟩
        · exact h4 x hx' t hxt
      · intro i d h
        by_cases hi : s.index = i
        · subst hi
          refine .inr ⟨by rw [← hflag]; exact hsimple, ?_⟩
          have hg : ds.getD s.index 0 = ds[s.index] := by
            rw [List.getD_eq_getElem?_getD, hds]; rfl
          rcases h5 _ d h with h | ⟨-, x, hxm, hd⟩
          · rw [hset] at h
            cases h
            exact ⟨e, by simp, by rw [hg]⟩
          · rw [List.getD_eq_getElem?_getD, hset] at hd
            simp only [Option.getD_some] at hd
            rw [hg]
            by_cases hle : e.degree ≤ x.degree
            · exact ⟨x, List.mem_cons_of_mem _ hxm, by omega⟩
            · exact ⟨e, by simp, by omega⟩
        · rcases h5 i d h with h | ⟨h, x, hxm, hd⟩
          · rw [List.getElem?_set_ne hi] at h; exact .inl h
          · refine .inr ⟨h, x, List.mem_cons_of_mem _ hxm, ?_⟩
            rw [List.getD_eq_getElem?_getD, List.getElem?_set_ne hi,
              ← List.getD_eq_getElem?_getD] at hd
            exact hd
      · intro m i d h h' ho
        refine h6 m i d ?_ (fun x hx => h' x (List.mem_cons_of_mem _ hx)) ho
        intro j d' hj
        by_cases hi : s.index = j
        · subst hi
          rw [hset] at hj
          cases hj
          have := h _ _ hds
          have := h' e (by simp)
          omega
        · rw [List.getElem?_set_ne hi] at hj
          exact h j d' hj


/-! ### What an assignment is -/

namespace Compress

theorem mem_assignmentsOf {alloc : Nat → Expr} {combos : List (List SelectorDescription)}
    {a : SelectorAssignment} :
    a ∈ assignmentsOf alloc 0 combos ↔ ∃ (k : Nat) (c : List SelectorDescription) (i : Nat)
      (s : SelectorDescription), combos[k]? = some c ∧ c[i]? = some s ∧
        a = ⟨s.selector, k, replacement (alloc k) c.length i⟩ := by
  unfold assignmentsOf assignments
  simp only [List.mem_flatMap, List.mem_map]
  constructor
  · rintro ⟨⟨c, k⟩, hc, ⟨s, i⟩, hs, rfl⟩
    rw [List.mk_mem_zipIdx_iff_getElem?] at hc hs
    exact ⟨k, c, i, s, hc, hs, rfl⟩
  · rintro ⟨k, c, i, s, hc, hs, rfl⟩
    exact ⟨(c, k), by rw [List.mk_mem_zipIdx_iff_getElem?]; exact hc, (s, i),
      by rw [List.mk_mem_zipIdx_iff_getElem?]; exact hs, rfl⟩

theorem assignments_selectors (q : Expr) (idx : Nat) (c : List SelectorDescription) :
    (assignments q idx c).map (·.selector) = c.map (·.selector) := by
  unfold assignments
  rw [List.map_map]
  show List.map ((fun s : SelectorDescription => s.selector) ∘ Prod.fst) c.zipIdx = _
  rw [← List.map_map, List.zipIdx_map_fst]

theorem assignmentsOf_selectors (alloc : Nat → Expr) (combos : List (List SelectorDescription)) :
    ∀ idx, (assignmentsOf alloc idx combos).map (·.selector) =
      combos.flatten.map (·.selector) := by
  induction combos with
  | nil => intro idx; rfl
  | cons c combos ih =>
    intro idx
    have : assignmentsOf alloc idx (c :: combos) =
      assignments (alloc idx) idx c ++ assignmentsOf alloc (idx + 1) combos := rfl
    rw [this, List.map_append, ih, assignments_selectors, List.flatten_cons, List.map_append]

theorem replacement_degree_pos (q : Expr) (len i : Nat) :
    q.degree ≤ (replacement q len i).degree := by
  unfold replacement
  induction len with
  | zero => exact le_refl _
  | succ len ih =>
    rw [List.range_succ, List.foldl_append, List.foldl_cons, List.foldl_nil]
    split_ifs
    · refine ih.trans ?_
      show _ ≤ Expr.degree _ + _
      omega
    · exact ih

theorem replacement_containsSimple (q : Expr) (hq : q.containsSimple = false) (len i : Nat) :
    (replacement q len i).containsSimple = false := by
  unfold replacement
  induction len with
  | zero => exact hq
  | succ len ih =>
    rw [List.range_succ, List.foldl_append, List.foldl_cons, List.foldl_nil]
    split_ifs
    · show (_ || (_ || _)) = false
      rw [ih]
      simp only [Bool.false_or]
      rw [show (Expr.const (root len)).containsSimple = false from rfl]
      exact hq
    · exact ih

/-- The value of an assignment's expression in a row. -/
theorem assignment_value {sels : List SelectorDescription} {maxDegree n : Nat}
    {combos : List (List SelectorDescription)} (hP : maxDegree < P)
    (hc : Combos sels maxDegree combos) (hn : ∀ s ∈ sels, s.activations.length = n)
    {alloc : Nat → Expr} {k i : Nat} {c : List SelectorDescription} {s : SelectorDescription}
    (hk : combos[k]? = some c) (hi : c[i]? = some s) {N : Nat} {g : Grid} {row : Nat}
    (hrow : row < n) (hq : some ((alloc k).eval N g row) = (column n c)[row]?) :
    ((replacement (alloc k) c.length i).eval N g row ≠ 0 ↔ s.activations[row]? = some true) ∧
    (s.maxDegree = 0 → (replacement (alloc k) c.length i).eval N g row =
      if s.activations[row]? = some true then 1 else 0) := by
  have hck := List.mem_of_getElem? hk
  have hsc := List.mem_of_getElem? hi
  have hlen : ∀ t ∈ c, t.activations.length = n := fun t ht =>
    hn t (hc.perm.mem_iff.1 (List.mem_flatten.2 ⟨c, hck, ht⟩))
  obtain ⟨hlt, hsi⟩ := List.getElem?_eq_some_iff.1 hi
  have hapart : c.Pairwise fun a b => conflict a b = false := by
    rcases (hc.each c hck).2 with ⟨t, rfl, -⟩ | ⟨h, -⟩
    · simp
    · exact h.apart
  have hsize : c.length < P := by
    rcases (hc.each c hck).2 with ⟨t, rfl, -⟩ | ⟨h, -⟩
    · show 1 < P; decide
    · have := h.degree s hsc; omega
  have main : (replacement (alloc k) c.length i).eval N g row ≠ 0 ↔
      s.activations[row]? = some true := by
    rw [replacement_ne_zero]
    constructor
    · rintro ⟨h1, h2⟩
      by_contra hs
      by_cases hex : ∃ t ∈ c, t.activations[row]? = some true
      · obtain ⟨t, ht, hta⟩ := hex
        obtain ⟨j, hj⟩ := List.mem_iff_getElem?.1 ht
        obtain ⟨hjl, -⟩ := List.getElem?_eq_some_iff.1 hj
        rw [column_some hrow hlen hapart hj hta] at hq
        refine h2 j hjl ?_ (Option.some.inj hq)
        intro e
        by_cases hj1 : j + 1 < P
        · by_cases hi1 : i + 1 < P
          · have := root_inj hj1 hi1 e
            subst this
            rw [hj] at hi
            cases hi
            exact hs hta
          · omega
        · omega
      · rw [column_none hrow hlen (fun t ht hta => hex ⟨t, ht, hta⟩)] at hq
        exact h1 (Option.some.inj hq)
    · intro hs
      rw [column_some hrow hlen hapart hi hs] at hq
      rw [Option.some.inj hq]
      exact ⟨root_ne_zero (by omega), fun j _ hji e => hji e.symm⟩
  refine ⟨main, ?_⟩
  intro h0
  rcases (hc.each c hck).2 with ⟨t, rfl, -⟩ | ⟨-, h⟩
  · have hi0 : i = 0 := by simp only [List.length_singleton] at hlt; omega
    subst hi0
    simp only [List.getElem?_cons_zero, Option.some.injEq] at hi
    subst hi
    have e : replacement (alloc k) [t].length 0 = alloc k := by simp [replacement]
    rw [e]
    split_ifs with ha
    · rw [column_some hrow hlen hapart (i := 0) rfl ha] at hq
      rw [Option.some.inj hq]; simp [root]
    · rw [column_none hrow hlen (fun u hu => by
        rw [List.mem_singleton] at hu; subst hu; exact ha)] at hq
      exact Option.some.inj hq
  · exact absurd h0 (h s hsc)

end Compress

/-! ### Recreating the constraint system -/

open Compress

theorem allocMany_numFixed (cs : CS) (k : Nat) : (cs.allocMany k).numFixed = cs.numFixed + k := by
  induction k with
  | zero => rfl
  | succ k ih => show (cs.allocMany k).numFixed + 1 = _; omega

theorem allocMany_same (cs : CS) (k : Nat) : ∃ qs, cs.allocMany k =
    { cs with numFixed := cs.numFixed + k, fixedQueries := qs } := by
  induction k with
  | zero => exact ⟨cs.fixedQueries, rfl⟩
  | succ k ih =>
    obtain ⟨qs, h⟩ := ih
    refine ⟨CS.addQuery (cs.allocMany k).fixedQueries ((cs.allocMany k).numFixed, 0), ?_⟩
    show (cs.allocMany k).allocFixed = _
    unfold CS.allocFixed
    rw [allocMany_numFixed, h]
    rfl

/-- The entries `selector_map` gets. -/
def mapEntries (base : Nat) (as : List SelectorAssignment) : List (Nat × Nat) :=
  as.map fun a => (a.selector, base + a.combinationIndex)

theorem recreateLoop_cons (a : SelectorAssignment) (as : List SelectorAssignment) (cs : CS)
    (new : List Nat) : CS.recreateLoop (a :: as) cs new =
      match (if a.combinationIndex ≥ new.length then new ++ [cs.numFixed] else new)[
          a.combinationIndex]? with
      | none => .error .index
      | some c => (CS.recreateLoop as
          (if a.combinationIndex ≥ new.length then cs.allocFixed else cs)
          (if a.combinationIndex ≥ new.length then new ++ [cs.numFixed] else new)).map
            fun r => (r.1, (a.selector, c) :: r.2) := rfl

theorem recreateLoop_same (cs : CS) (base : Nat) (as : List SelectorAssignment) (k : Nat)
    (rest : List SelectorAssignment) (h : ∀ a ∈ as, a.combinationIndex < k) :
    CS.recreateLoop (as ++ rest) cs ((List.range k).map (base + ·)) =
      (CS.recreateLoop rest cs ((List.range k).map (base + ·))).map fun r =>
        (r.1, mapEntries base as ++ r.2) := by
  induction as with
  | nil =>
    cases hr : CS.recreateLoop rest cs ((List.range k).map (base + ·)) with
    | error e => rw [List.nil_append, hr]; rfl
    | ok r => rw [List.nil_append, hr]; rfl
  | cons a as ih =>
    have ha := h a (by simp)
    have ih := ih (fun b hb => h b (List.mem_cons_of_mem _ hb))
    rw [List.cons_append, recreateLoop_cons]
    have hlen : ¬ a.combinationIndex ≥ ((List.range k).map (base + ·)).length := by
      simp; exact ha
    have hget : ((List.range k).map (base + ·))[a.combinationIndex]? =
        some (base + a.combinationIndex) := by
      rw [List.getElem?_map, List.getElem?_range ha]; rfl
    simp only [if_neg hlen, hget, ih]
    cases CS.recreateLoop rest cs ((List.range k).map (base + ·)) with
    | error e => rfl
    | ok r => rfl

theorem recreateLoop_combos (cs : CS) (alloc : Nat → Expr) :
    ∀ (combos : List (List SelectorDescription)) (k : Nat), (∀ c ∈ combos, c ≠ []) →
      CS.recreateLoop (assignmentsOf alloc k combos) (cs.allocMany k)
          ((List.range k).map (cs.numFixed + ·)) =
        .ok (cs.allocMany (k + combos.length),
          mapEntries cs.numFixed (assignmentsOf alloc k combos)) := by
  intro combos
  induction combos with
  | nil => intro k _; rfl
  | cons c combos ih =>
    intro k hne
    have hc := hne c (by simp)
    have ih := ih (k + 1) (fun c hc => hne c (List.mem_cons_of_mem _ hc))
    have e : assignmentsOf alloc k (c :: combos) =
      assignments (alloc k) k c ++ assignmentsOf alloc (k + 1) combos := rfl
    rw [e]
    have hall : ∀ a ∈ assignments (alloc k) k c, a.combinationIndex = k := by
      intro a ha
      unfold assignments at ha
      obtain ⟨x, -, rfl⟩ := List.mem_map.1 ha
      rfl
    have hne' : assignments (alloc k) k c ≠ [] := by
      intro h
      unfold assignments at h
      simp at h
      exact hc h
    generalize assignments (alloc k) k c = as at *
    cases as with
    | nil => exact absurd rfl hne'
    | cons a as =>
      have hak := hall a (by simp)
      rw [List.cons_append, recreateLoop_cons]
      have hlen : a.combinationIndex ≥ ((List.range k).map (cs.numFixed + ·)).length := by
        simp; omega
      have hnew : (List.range k).map (cs.numFixed + ·) ++ [(cs.allocMany k).numFixed] =
          (List.range (k + 1)).map (cs.numFixed + ·) := by
        rw [List.range_succ, List.map_append, allocMany_numFixed]; rfl
      have hget : ((List.range (k + 1)).map (cs.numFixed + ·))[a.combinationIndex]? =
          some (cs.numFixed + a.combinationIndex) := by
        rw [List.getElem?_map, List.getElem?_range (by omega)]; rfl
      simp only [if_pos hlen, hnew, hget]
      rw [show (cs.allocMany k).allocFixed = cs.allocMany (k + 1) from rfl,
        recreateLoop_same _ _ _ _ _ (fun b hb => by
          have := hall b (List.mem_cons_of_mem _ hb); omega), ih]
      show Except.ok _ = _
      have : k + 1 + combos.length = k + (c :: combos).length := by
        simp only [List.length_cons]; omega
      simp only [this, mapEntries, List.map_cons, List.map_append]

/-- The descriptions `compress_selectors` hands to `process`. -/
def describe (selectors : List (List Bool)) (degrees : List Nat) : List SelectorDescription :=
  (selectors.zip degrees).zipIdx.map fun s => ⟨s.2, s.1.1, s.1.2⟩

theorem describe_selectors {selectors : List (List Bool)} {degrees : List Nat}
    (h : degrees.length = selectors.length) :
    (describe selectors degrees).map (·.selector) = List.range selectors.length := by
  unfold describe
  rw [List.map_map]
  show List.map Prod.snd _ = _
  rw [List.zipIdx_map_snd, List.length_zip, h, Nat.min_self, List.range_eq_range']

theorem mem_describe {selectors : List (List Bool)} {degrees : List Nat} {s : SelectorDescription} :
    s ∈ describe selectors degrees ↔ selectors[s.selector]? = some s.activations ∧
      degrees[s.selector]? = some s.maxDegree := by
  unfold describe
  rw [List.mem_map]
  constructor
  · rintro ⟨⟨⟨a, d⟩, i⟩, h, rfl⟩
    rw [List.mk_mem_zipIdx_iff_getElem?, List.getElem?_zip_eq_some] at h
    exact h
  · rintro ⟨h1, h2⟩
    refine ⟨⟨⟨s.activations, s.maxDegree⟩, s.selector⟩, ?_, rfl⟩
    rw [List.mk_mem_zipIdx_iff_getElem?, List.getElem?_zip_eq_some]
    exact ⟨h1, h2⟩

/-- A successful compression, taken apart. -/
structure Compression (cs : CS) (selectors : List (List Bool)) (c : CS.Compressed)
    (cols : List (List Fr)) (as : List SelectorAssignment) : Prop where
  run : ∃ degrees combos n rs,
    selectors.length = cs.numSelectors ∧
    cs.selectorDegrees selectors.length = .ok degrees ∧
    (∀ s ∈ describe selectors degrees, s.activations.length = n) ∧
    Combos (describe selectors degrees) cs.degree combos ∧
    cols = columnsOf n combos ∧
    as = assignmentsOf (fun i => .fixed (cs.numFixed + i) 0) 0 combos ∧
    fillVec as.length (mapEntries cs.numFixed as) = .ok c.selectorMap ∧
    fillVec as.length (as.map fun a => (a.selector, a.expression)) = .ok rs ∧
    (cs.allocMany cols.length).substitute rs = .ok c.cs

theorem columns_length (n : Nat) (combos : List (List SelectorDescription)) :
    (columnsOf n combos).length = combos.length := by simp [columnsOf]

theorem compression_of (cs : CS) (selectors : List (List Bool)) (c : CS.Compressed)
    (cols : List (List Fr)) (as : List SelectorAssignment) :
    cs.compressSelectors selectors = .ok (c, cols, as) → Compression cs selectors c cols as := by
  intro h
  unfold CS.compressSelectors at h
  split_ifs at h with h0
  simp only [ne_eq, not_not] at h0
  rw [except_bind] at h
  obtain ⟨degrees, h1, h⟩ := h
  rw [except_bind] at h
  obtain ⟨r, h2, h⟩ := h
  obtain ⟨n, hn, hd⟩ := process_facts h2
  obtain ⟨combos, hc, h3⟩ := process_spec (alloc := fun i => .fixed (cs.numFixed + i) 0) hn hd
  rw [h3] at h2
  cases h2
  rw [except_bind] at h
  obtain ⟨e, he, h⟩ := h
  rw [mapM_ok (h := fun a => (a.selector, cs.numFixed + a.combinationIndex)) (by
    intro a ha
    have ha : a ∈ assignmentsOf (fun i => .fixed (cs.numFixed + i) 0) 0 combos := ha
    obtain ⟨k, c, i, s, hk, hi, rfl⟩ := mem_assignmentsOf.1 ha
    have : k < (columnsOf n combos).length := by
      rw [columns_length]; exact (List.getElem?_eq_some_iff.1 hk).1
    simp only [List.getElem?_map, List.getElem?_range this]
    rfl)] at he
  cases he
  rw [except_bind] at h
  obtain ⟨map, h4, h⟩ := h
  rw [except_bind] at h
  obtain ⟨rs, h5, h⟩ := h
  rw [except_bind] at h
  obtain ⟨out, h6, h⟩ := h
  cases h
  exact ⟨degrees, combos, n, rs, h0, h1, hn, hc, rfl, rfl, h4, h5, h6⟩

theorem recreate_of_compression {cs : CS} {selectors : List (List Bool)} {c : CS.Compressed}
    {cols : List (List Fr)} {as : List SelectorAssignment}
    (h : Compression cs selectors c cols as) : cs.recreate as = .ok c := by
  obtain ⟨degrees, combos, n, rs, h0, h1, hn, hc, rfl, rfl, h4, h5, h6⟩ := h.run
  have loop := recreateLoop_combos cs (fun i => .fixed (cs.numFixed + i) 0) combos 0
    (fun c hcm => (hc.each c hcm).1)
  rw [Nat.zero_add] at loop
  rw [columns_length] at h6
  have loop : CS.recreateLoop (assignmentsOf (fun i => .fixed (cs.numFixed + i) 0) 0 combos) cs [] =
    _ := loop
  unfold CS.recreate
  rw [except_bind]
  refine ⟨_, loop, ?_⟩
  rw [except_bind]
  refine ⟨_, h4, ?_⟩
  rw [except_bind]
  refine ⟨_, h5, ?_⟩
  rw [except_bind]
  exact ⟨_, h6, rfl⟩

end Verif

import Verif.Lemmas.CompressCS

/-! Compressing selectors keeps the meaning and the degree of a constraint system (helper for the
property theorems). -/

namespace Verif

open Spec Compress

/-! ### Values and degrees of replaced expressions -/

theorem rotate_zero {n row : Nat} (h : row < n) : rotate n row 0 = row := by
  unfold rotate
  rw [Int.add_zero, Int.emod_eq_of_lt (by omega) (by omega)]
  rfl

theorem subst_eval {rs : List Expr} {n row : Nat} {g g' : Grid} (e : Expr)
    (hw : e.wellFormed = true)
    (ha : g'.advice = g.advice) (hi : g'.instance_ = g.instance_) (hc : g'.challenge = g.challenge)
    (hf : ∀ c ∈ fixedIn e, g'.fixed c = g.fixed c)
    (hs : ∀ s ∈ selectorsIn e,
      ((rs.getD s.index (.const 0)).eval n g' row = 0 ↔ ¬ g.selector s.index row = true) ∧
      (s.simple = false →
        (rs.getD s.index (.const 0)).eval n g' row = if g.selector s.index row then 1 else 0)) :
    ((e.subst rs).eval n g' row = 0 ↔ e.eval n g row = 0) ∧
    (e.containsSimple = false → (e.subst rs).eval n g' row = e.eval n g row) := by
  induction e with
  | const c => exact ⟨Iff.rfl, fun _ => rfl⟩
  | selector s =>
    obtain ⟨h1, h2⟩ := hs s (by simp [selectorsIn])
    refine ⟨?_, h2⟩
    show (rs.getD s.index (.const 0)).eval n g' row = 0 ↔ (if _ then _ else _) = _
    rw [h1]
    split_ifs with h <;> simp [h]
  | fixed c r =>
    have : (Expr.fixed c r).eval n g' row = (Expr.fixed c r).eval n g row := by
      show g'.fixed c _ = g.fixed c _
      rw [hf c (by simp [fixedIn])]
    exact ⟨by rw [show (Expr.fixed c r).subst rs = .fixed c r from rfl, this], fun _ => this⟩
  | advice c r =>
    have : (Expr.advice c r).eval n g' row = (Expr.advice c r).eval n g row := by
      show g'.advice c _ = g.advice c _
      rw [ha]
    exact ⟨by rw [show (Expr.advice c r).subst rs = .advice c r from rfl, this], fun _ => this⟩
  | instance_ c r =>
    have : (Expr.instance_ c r).eval n g' row = (Expr.instance_ c r).eval n g row := by
      show g'.instance_ c _ = g.instance_ c _
      rw [hi]
    exact ⟨by rw [show (Expr.instance_ c r).subst rs = .instance_ c r from rfl, this],
      fun _ => this⟩
  | challenge i =>
    have : (Expr.challenge i).eval n g' row = (Expr.challenge i).eval n g row := by
      show g'.challenge i = g.challenge i
      rw [hc]
    exact ⟨by rw [show (Expr.challenge i).subst rs = .challenge i from rfl, this], fun _ => this⟩
  | neg a ih =>
    obtain ⟨h1, h2⟩ := ih hw hf hs
    constructor
    · show - _ = (0 : Fr) ↔ - _ = (0 : Fr)
      rw [neg_eq_zero, neg_eq_zero, h1]
    · intro h
      show - _ = - _
      rw [h2 h]
  | scaled a f ih =>
    obtain ⟨h1, h2⟩ := ih hw hf hs
    constructor
    · show _ * f = (0 : Fr) ↔ _ * f = (0 : Fr)
      rw [mul_eq_zero, mul_eq_zero, h1]
    · intro h
      show _ * f = _ * f
      rw [h2 h]
  | sum a b iha ihb =>
    simp only [Expr.wellFormed, Bool.and_eq_true, Bool.not_eq_true'] at hw
    obtain ⟨⟨⟨wa, wb⟩, ca⟩, cb⟩ := hw
    have e1 := (iha wa (fun c h => hf c (List.mem_append_left _ h))
      (fun s h => hs s (List.mem_append_left _ h))).2 ca
    have e2 := (ihb wb (fun c h => hf c (List.mem_append_right _ h))
      (fun s h => hs s (List.mem_append_right _ h))).2 cb
    have : ((Expr.sum a b).subst rs).eval n g' row = (Expr.sum a b).eval n g row := by
      show (a.subst rs).eval n g' row + (b.subst rs).eval n g' row = _
      rw [e1, e2]; rfl
    exact ⟨by rw [this], fun _ => this⟩
  | product a b iha ihb =>
    simp only [Expr.wellFormed, Bool.and_eq_true, Bool.not_eq_true'] at hw
    obtain ⟨⟨wa, wb⟩, -⟩ := hw
    obtain ⟨a1, a2⟩ := iha wa (fun c h => hf c (List.mem_append_left _ h))
      (fun s h => hs s (List.mem_append_left _ h))
    obtain ⟨b1, b2⟩ := ihb wb (fun c h => hf c (List.mem_append_right _ h))
      (fun s h => hs s (List.mem_append_right _ h))
    constructor
    · show (a.subst rs).eval n g' row * (b.subst rs).eval n g' row = 0 ↔
        a.eval n g row * b.eval n g row = 0
      rw [mul_eq_zero, mul_eq_zero, a1, b1]
    · intro h
      have h : (a.containsSimple || b.containsSimple) = false := h
      rw [Bool.or_eq_false_iff] at h
      show (a.subst rs).eval n g' row * (b.subst rs).eval n g' row = _
      rw [a2 h.1, b2 h.2]; rfl

/-- The same for expressions without simple selectors, which need not be well formed. -/
theorem subst_eval_eq {rs : List Expr} {n row : Nat} {g g' : Grid} (e : Expr)
    (ha : g'.advice = g.advice) (hi : g'.instance_ = g.instance_) (hc : g'.challenge = g.challenge)
    (hf : ∀ c ∈ fixedIn e, g'.fixed c = g.fixed c)
    (hs : ∀ s ∈ selectorsIn e,
        (rs.getD s.index (.const 0)).eval n g' row = if g.selector s.index row then 1 else 0) :
    (e.subst rs).eval n g' row = e.eval n g row := by
  induction e with
  | const c => rfl
  | selector s => exact hs s (by simp [selectorsIn])
  | fixed c r => show g'.fixed c _ = g.fixed c _; rw [hf c (by simp [fixedIn])]
  | advice c r => show g'.advice c _ = g.advice c _; rw [ha]
  | instance_ c r => show g'.instance_ c _ = g.instance_ c _; rw [hi]
  | challenge i => show g'.challenge i = g.challenge i; rw [hc]
  | neg a ih => show - _ = - _; rw [ih hf hs]
  | scaled a f ih => show _ * f = _ * f; rw [ih hf hs]
  | sum a b iha ihb =>
    show (a.subst rs).eval n g' row + (b.subst rs).eval n g' row = _
    rw [iha (fun c h => hf c (List.mem_append_left _ h))
        (fun s h => hs s (List.mem_append_left _ h)),
      ihb (fun c h => hf c (List.mem_append_right _ h))
        (fun s h => hs s (List.mem_append_right _ h))]
    rfl
  | product a b iha ihb =>
    show (a.subst rs).eval n g' row * (b.subst rs).eval n g' row = _
    rw [iha (fun c h => hf c (List.mem_append_left _ h))
        (fun s h => hs s (List.mem_append_left _ h)),
      ihb (fun c h => hf c (List.mem_append_right _ h))
        (fun s h => hs s (List.mem_append_right _ h))]
    rfl

theorem subst_degree_le {rs : List Expr} (e : Expr)
    (h : ∀ s ∈ selectorsIn e, 1 ≤ (rs.getD s.index (.const 0)).degree) :
    e.degree ≤ (e.subst rs).degree := by
  induction e with
  | selector s => exact h s (by simp [selectorsIn])
  | neg a ih => exact ih h
  | scaled a f ih => exact ih h
  | sum a b iha ihb =>
    have h1 := iha (fun s hs => h s (List.mem_append_left _ hs))
    have h2 := ihb (fun s hs => h s (List.mem_append_right _ hs))
    show max _ _ ≤ max _ _
    omega
  | product a b iha ihb =>
    have h1 := iha (fun s hs => h s (List.mem_append_left _ hs))
    have h2 := ihb (fun s hs => h s (List.mem_append_right _ hs))
    show _ + _ ≤ _ + _
    omega
  | _ => exact le_refl _

theorem subst_degree_eq {rs : List Expr} (e : Expr)
    (h : ∀ s ∈ selectorsIn e, (rs.getD s.index (.const 0)).degree = 1) :
    (e.subst rs).degree = e.degree := by
  induction e with
  | selector s => exact h s (by simp [selectorsIn])
  | neg a ih => exact ih h
  | scaled a f ih => exact ih h
  | sum a b iha ihb =>
    have h1 := iha (fun s hs => h s (List.mem_append_left _ hs))
    have h2 := ihb (fun s hs => h s (List.mem_append_right _ hs))
    show max (a.subst rs).degree (b.subst rs).degree = max a.degree b.degree
    rw [h1, h2]
  | product a b iha ihb =>
    have h1 := iha (fun s hs => h s (List.mem_append_left _ hs))
    have h2 := ihb (fun s hs => h s (List.mem_append_right _ hs))
    show (a.subst rs).degree + (b.subst rs).degree = a.degree + b.degree
    rw [h1, h2]
  | _ => rfl

theorem not_simple {e : Expr} (h : e.containsSimple = false) :
    ∀ s ∈ selectorsIn e, s.simple = false := by
  intro s hs
  by_contra hc
  have := (containsSimple_iff e).2 ⟨s, hs, by simpa using hc⟩
  rw [this] at h; cases h

theorem subst_degree_simple {rs : List Expr} (e : Expr) (hw : e.wellFormed = true)
    (h : ∀ s ∈ selectorsIn e, s.simple = false → (rs.getD s.index (.const 0)).degree = 1)
    {s : Selector} (hs : e.extractSimple = .ok (some s)) :
    (e.subst rs).degree + 1 ≤ e.degree + (rs.getD s.index (.const 0)).degree := by
  induction e with
  | selector t =>
    have hs : Except.ok (if t.simple then some t else none) = Except.ok (some s) := hs
    split_ifs at hs
    · have e := Option.some.inj (Except.ok.inj hs)
      subst e
      show (rs.getD t.index (.const 0)).degree + 1 ≤ 1 + _
      omega
    · cases hs
  | neg a ih => exact ih hw h hs
  | scaled a f ih => exact ih hw h hs
  | sum a b iha ihb =>
    exfalso
    have hwf := hw
    simp only [Expr.wellFormed, Bool.and_eq_true, Bool.not_eq_true'] at hw
    have : (Expr.sum a b).containsSimple = false := by
      show (_ || _) = false; rw [hw.1.2, hw.2]; rfl
    rw [(extractSimple_ok _ hwf).1 this] at hs
    cases hs
  | product a b iha ihb =>
    simp only [Expr.wellFormed, Bool.and_eq_true, Bool.not_eq_true'] at hw
    obtain ⟨⟨wa, wb⟩, hab⟩ := hw
    have unfolded : (Expr.product a b).extractSimple =
      (do match ← a.extractSimple, ← b.extractSimple with
        | some s, none => .ok (some s)
        | none, some s => .ok (some s)
        | some _, some _ => .error .assert
        | none, none => .ok none) := rfl
    rw [unfolded] at hs
    have hl := fun s hs => h s (List.mem_append_left (selectorsIn b) hs)
    have hr := fun s hs => h s (List.mem_append_right (selectorsIn a) hs)
    show (a.subst rs).degree + (b.subst rs).degree + 1 ≤ a.degree + b.degree + _
    cases ca : a.containsSimple <;> cases cb : b.containsSimple
    · rw [(extractSimple_ok a wa).1 ca, (extractSimple_ok b wb).1 cb] at hs
      cases hs
    · obtain ⟨t, -, -, ht⟩ := (extractSimple_ok b wb).2 cb
      rw [(extractSimple_ok a wa).1 ca, ht] at hs
      cases hs
      have := ihb wb hr ht
      have := subst_degree_eq (rs := rs) a (fun s hs => hl s hs (not_simple ca s hs))
      omega
    · obtain ⟨t, -, -, ht⟩ := (extractSimple_ok a wa).2 ca
      rw [(extractSimple_ok b wb).1 cb, ht] at hs
      cases hs
      have := iha wa hl ht
      have := subst_degree_eq (rs := rs) b (fun s hs => hr s hs (not_simple cb s hs))
      omega
    · rw [ca, cb] at hab; cases hab
  | _ => cases hs

/-! ### A compressed constraint system -/

/-- What is known of the replacement of each selector. -/
structure Replacements (cs : CS) (selectors : List (List Bool)) (simple : Nat → Bool)
    (degrees : List Nat) (n : Nat) (combos : List (List SelectorDescription)) (rs : List Expr) :
    Prop where
  length : rs.length = cs.numSelectors
  entry : ∀ i, i < cs.numSelectors → ∃ (k j d : Nat) (c : List SelectorDescription)
    (act : List Bool), combos[k]? = some c ∧ c[j]? = some ⟨i, act, d⟩ ∧
      selectors[i]? = some act ∧ degrees[i]? = some d ∧
      rs.getD i (.const 0) = replacement (.fixed (cs.numFixed + k) 0) c.length j ∧
      (simple i = false → d = 0)

theorem le_maxD {l : List Nat} {x d : Nat} (h : x ∈ l) : x ≤ l.max?.getD d := by
  cases hm : l.max? with
  | none => rw [List.max?_eq_none_iff] at hm; rw [hm] at h; cases h
  | some m => exact (List.max?_eq_some_iff.1 hm).2 x h

theorem maxD_le {l : List Nat} {m d : Nat} (hd : d ≤ m) (h : ∀ x ∈ l, x ≤ m) :
    l.max?.getD d ≤ m := by
  cases hm : l.max? with
  | none => exact hd
  | some x => exact h x (List.max?_eq_some_iff.1 hm).1

theorem degrees_of {cs : CS} {simple : Nat → Bool} (hsane : Sane cs simple)
    {len : Nat} (hlen : len = cs.numSelectors) :
    ∃ degrees, cs.selectorDegrees len = .ok degrees ∧ degrees.length = len ∧
      (∀ e ∈ cs.gates.flatten, ∀ s, e.extractSimple = .ok (some s) →
        ∃ d : Nat, degrees[s.index]? = some d ∧ e.degree ≤ d) ∧
      (∀ (i d : Nat), degrees[i]? = some d → simple i = false → d = 0) ∧
      (∀ (i d : Nat), degrees[i]? = some d → d ≤ cs.degree) := by
  subst hlen
  obtain ⟨out, h1, h2, -, h4, h5, h6⟩ := degree_fold simple cs.gates.flatten
    (List.replicate cs.numSelectors 0) hsane.gates (by
      intro e he s hs
      rw [List.length_replicate]
      exact hsane.selectors e (List.mem_append_left _ he) s hs)
  refine ⟨out, h1, by rw [h2, List.length_replicate], h4, ?_, ?_⟩
  · intro i d hd hs
    rcases h5 i d hd with h | ⟨h, -⟩
    · rw [List.getElem?_replicate] at h
      split_ifs at h
      exact (Option.some.inj h).symm
    · rw [hs] at h; cases h
  · intro i d hd
    refine h6 _ i d ?_ ?_ hd
    · intro i d h
      rw [List.getElem?_replicate] at h
      split_ifs at h
      have := (Option.some.inj h).symm
      omega
    · intro e he
      unfold CS.degree
      have : e.degree ≤ ((cs.gates.flatten.map Expr.degree).max?.getD 0) := by
        exact le_maxD (List.mem_map_of_mem he)
      omega


theorem replacements_of {cs : CS} {selectors : List (List Bool)} {simple : Nat → Bool}
    {degrees : List Nat} {n : Nat} {combos : List (List SelectorDescription)}
    (hlen : selectors.length = cs.numSelectors) (hdl : degrees.length = selectors.length)
    (hdeg : ∀ (i d : Nat), degrees[i]? = some d → simple i = false → d = 0)
    (hc : Combos (describe selectors degrees) cs.degree combos) :
    let as := assignmentsOf (fun i => .fixed (cs.numFixed + i) 0) 0 combos
    (∃ map, fillVec as.length (mapEntries cs.numFixed as) = .ok map) ∧
    ∃ rs, fillVec as.length (as.map fun a => (a.selector, a.expression)) = .ok rs ∧
      Replacements cs selectors simple degrees n combos rs := by
  intro as
  have hperm : (as.map (·.selector)).Perm (List.range selectors.length) := by
    rw [assignmentsOf_selectors, ← describe_selectors hdl]
    exact hc.perm.map _
  have hasl : as.length = selectors.length := by
    have := hperm.length_eq
    simpa using this
  rw [← hasl] at hperm
  constructor
  · obtain ⟨v, hv, -⟩ := fillVec_ok (len := as.length) (entries := mapEntries cs.numFixed as) (by
      have : (mapEntries cs.numFixed as).map Prod.fst = as.map (·.selector) := by
        unfold mapEntries; rw [List.map_map]; rfl
      rw [this]; exact hperm)
    exact ⟨v, hv⟩
  · obtain ⟨rs, hv, hl, he⟩ := fillVec_ok (len := as.length)
      (entries := as.map fun a => (a.selector, a.expression)) (by
        have : (as.map fun a => (a.selector, a.expression)).map Prod.fst = as.map (·.selector) := by
          rw [List.map_map]; rfl
        rw [this]; exact hperm)
    refine ⟨rs, hv, by rw [hl, hasl, hlen], ?_⟩
    intro i hi
    have hmem : i ∈ as.map (·.selector) := by
      rw [hperm.mem_iff, List.mem_range, hasl, hlen]; exact hi
    obtain ⟨a, ha, rfl⟩ := List.mem_map.1 hmem
    obtain ⟨k, c, j, s, hk, hj, rfl⟩ := mem_assignmentsOf.1 ha
    have hs : s ∈ describe selectors degrees :=
      hc.perm.mem_iff.1 (List.mem_flatten.2 ⟨c, List.mem_of_getElem? hk, List.mem_of_getElem? hj⟩)
    rw [mem_describe] at hs
    refine ⟨k, j, s.maxDegree, c, s.activations, hk, hj, hs.1, hs.2, ?_,
      hdeg _ _ hs.2⟩
    have := he _ (List.mem_map_of_mem ha)
    rw [List.getD_eq_getElem?_getD, this]
    rfl

theorem rs_containsSimple {cs : CS} {selectors : List (List Bool)} {simple : Nat → Bool}
    {degrees : List Nat} {n : Nat} {combos : List (List SelectorDescription)} {rs : List Expr}
    (h : Replacements cs selectors simple degrees n combos rs) :
    ∀ e ∈ rs, e.containsSimple = false := by
  intro e he
  obtain ⟨i, hi, rfl⟩ := List.mem_iff_getElem.1 he
  obtain ⟨k, j, d, c, act, -, -, -, -, h5, -⟩ := h.entry i (by rw [← h.length]; exact hi)
  rw [List.getD_eq_getElem?_getD, List.getElem?_eq_getElem hi] at h5
  simp only [Option.getD_some] at h5
  rw [h5]
  exact replacement_containsSimple _ rfl _ _

/-- The constraint system with the selectors replaced. -/
def CS.replaced (cs : CS) (rs : List Expr) : CS :=
  { cs with gates := cs.gates.map fun g => g.map (Expr.subst rs)
            lookups := cs.lookups.map fun l =>
              ⟨l.input.map (Expr.subst rs), l.table.map (Expr.subst rs)⟩ }

theorem substitute_ok {cs : CS} {simple : Nat → Bool} (hsane : Sane cs simple) {rs : List Expr}
    (hl : rs.length = cs.numSelectors) (hr : ∀ e ∈ rs, e.containsSimple = false) (k : Nat) :
    (cs.allocMany k).substitute rs = .ok ((cs.allocMany k).replaced rs) := by
  obtain ⟨qs, hqs⟩ := allocMany_same cs k
  rw [hqs]
  unfold CS.substitute
  have h1 : cs.gates.mapM (fun g => g.mapM (Expr.replaceSelectors rs false)) =
      .ok (cs.gates.map fun g => g.map (Expr.subst rs)) := by
    refine mapM_ok ?_
    intro g hg
    refine mapM_ok ?_
    intro e he
    refine replaceSelectors_ok hr e ?_ (by simp)
    intro s hs
    rw [hl]
    exact (hsane.selectors e (List.mem_append_left _ (List.mem_flatten.2 ⟨g, hg, he⟩)) s hs).1
  have h3 : ∀ l ∈ cs.lookups, ∀ e ∈ l.input ++ l.table,
      e.replaceSelectors rs true = .ok (e.subst rs) := by
    intro l hlk e he
    refine replaceSelectors_ok hr e ?_ (fun _ => hsane.lookups l hlk e he)
    intro s hs
    rw [hl]
    exact (hsane.selectors e (List.mem_append_right _ (List.mem_flatMap.2 ⟨l, hlk, he⟩)) s hs).1
  have h2 : cs.lookups.mapM (fun l => do
        let i ← l.input.mapM (Expr.replaceSelectors rs true)
        let t ← l.table.mapM (Expr.replaceSelectors rs true)
        return (⟨i, t⟩ : Lookup)) =
      .ok (cs.lookups.map fun l =>
        (⟨l.input.map (Expr.subst rs), l.table.map (Expr.subst rs)⟩ : Lookup)) := by
    refine mapM_ok ?_
    intro l hlk
    rw [mapM_ok (fun e he => h3 l hlk e (List.mem_append_left _ he)),
      mapM_ok (fun e he => h3 l hlk e (List.mem_append_right _ he))]
    rfl
  rw [except_bind]
  refine ⟨_, h1, ?_⟩
  rw [except_bind]
  refine ⟨_, h2, rfl⟩

/-- All that is known about a compression of a sane constraint system. -/
theorem compression_facts {cs : CS} {selectors : List (List Bool)} {simple : Nat → Bool}
    (hsane : Sane cs simple) {c : CS.Compressed} {cols : List (List Fr)}
    {as : List SelectorAssignment} (h : cs.compressSelectors selectors = .ok (c, cols, as)) :
    ∃ degrees combos n rs,
      (∀ e ∈ cs.gates.flatten, ∀ s, e.extractSimple = .ok (some s) →
        ∃ d : Nat, degrees[s.index]? = some d ∧ e.degree ≤ d) ∧
      (∀ s ∈ describe selectors degrees, s.activations.length = n) ∧
      Combos (describe selectors degrees) cs.degree combos ∧
      cols = columnsOf n combos ∧
      Replacements cs selectors simple degrees n combos rs ∧
      c.cs = (cs.allocMany cols.length).replaced rs := by
  obtain ⟨degrees, combos, n, rs, h0, h1, hn, hc, rfl, rfl, h4, h5, h6⟩ := (compression_of _ _ _ _ _ h).run
  obtain ⟨degrees', d1, d2, d3, d4, d5⟩ := degrees_of hsane h0
  rw [h1] at d1
  cases d1
  obtain ⟨-, rs', r1, r2⟩ := replacements_of (n := n) h0 d2 d4 hc
  rw [h5] at r1
  cases r1
  rw [substitute_ok hsane r2.length (rs_containsSimple r2)] at h6
  exact ⟨degrees, combos, n, rs, d3, hn, hc, rfl, r2, (Except.ok.inj h6).symm⟩

theorem compress_ok {cs : CS} {selectors : List (List Bool)} {simple : Nat → Bool}
    (hsane : Sane cs simple) (hl : selectors.length = cs.numSelectors) {n : Nat}
    (hn : ∀ act ∈ selectors, act.length = n) : ∃ r, cs.compressSelectors selectors = .ok r := by
  obtain ⟨degrees, d1, d2, d3, d4, d5⟩ := degrees_of hsane hl
  have hn' : ∀ s ∈ describe selectors degrees, s.activations.length = n := fun s hs =>
    hn _ (List.mem_of_getElem? (mem_describe.1 hs).1)
  obtain ⟨combos, hc, hp⟩ := process_spec (maxDegree := cs.degree)
    (alloc := fun i => .fixed (cs.numFixed + i) 0) hn'
    (fun s hs => d5 _ _ (mem_describe.1 hs).2)
  obtain ⟨⟨map, hm⟩, rs, r1, r2⟩ := replacements_of (n := n) hl d2 d4 hc
  refine ⟨(⟨(cs.allocMany (columnsOf n combos).length).replaced rs, map⟩, columnsOf n combos,
    assignmentsOf (fun i => .fixed (cs.numFixed + i) 0) 0 combos), ?_⟩
  unfold CS.compressSelectors
  rw [if_neg (by simpa using hl), except_bind]
  refine ⟨_, d1, ?_⟩
  rw [except_bind]
  refine ⟨_, hp, ?_⟩
  rw [except_bind]
  refine ⟨mapEntries cs.numFixed (assignmentsOf (fun i => .fixed (cs.numFixed + i) 0) 0 combos),
    ?_, ?_⟩
  · refine mapM_ok ?_
    intro a ha
    have ha : a ∈ assignmentsOf (fun i => .fixed (cs.numFixed + i) 0) 0 combos := ha
    obtain ⟨k, c, i, s, hk, hi, rfl⟩ := mem_assignmentsOf.1 ha
    have : k < (columnsOf n combos).length := by
      rw [columns_length]; exact (List.getElem?_eq_some_iff.1 hk).1
    simp only [List.getElem?_map, List.getElem?_range this]
    rfl
  · rw [except_bind]
    refine ⟨_, hm, ?_⟩
    rw [except_bind]
    refine ⟨_, r1, ?_⟩
    rw [except_bind]
    exact ⟨_, substitute_ok hsane r2.length (rs_containsSimple r2) _, rfl⟩

/-- The value of a replacement. -/
theorem replacement_value {cs : CS} {selectors : List (List Bool)} {simple : Nat → Bool}
    {degrees : List Nat} {n : Nat} {combos : List (List SelectorDescription)} {rs : List Expr}
    (hP : cs.degree < P) (hn : ∀ s ∈ describe selectors degrees, s.activations.length = n)
    (hc : Combos (describe selectors degrees) cs.degree combos)
    (hr : Replacements cs selectors simple degrees n combos rs)
    {g g' : Grid} (hg : Replaced cs n selectors (columnsOf n combos) g g') {row : Nat}
    (hrow : row < n) {i : Nat} (hi : i < cs.numSelectors) :
    ((rs.getD i (.const 0)).eval n g' row = 0 ↔ ¬ g.selector i row = true) ∧
    (simple i = false →
      (rs.getD i (.const 0)).eval n g' row = if g.selector i row then 1 else 0) := by
  obtain ⟨k, j, d, c, act, hk, hj, ha, hd, he, hz⟩ := hr.entry i hi
  have hq : some ((Expr.fixed (cs.numFixed + k) 0).eval n g' row) = (column n c)[row]? := by
    have := hg.new k (column n c) (by unfold columnsOf; rw [List.getElem?_map, hk]; rfl) row hrow
    show some (g'.fixed (cs.numFixed + k) (rotate n row 0)) = _
    rw [rotate_zero hrow]
    exact this
  obtain ⟨v1, v2⟩ := assignment_value (alloc := fun i => .fixed (cs.numFixed + i) 0) hP hc hn hk hj
    hrow hq
  rw [he]
  have hsel := hg.selector i act ha row hrow
  constructor
  · rw [hsel, ← v1, not_not]
  · intro hs
    rw [v2 (hz hs)]
    by_cases h : act[row]? = some true
    · rw [if_pos h, if_pos (hsel.2 h)]
    · rw [if_neg h, if_neg (fun h' => h (hsel.1 h'))]


theorem replaced_usable (cs : CS) (k : Nat) (rs : List Expr) (n : Nat) :
    ((cs.allocMany k).replaced rs).usableRows n = cs.usableRows n := by
  obtain ⟨qs, h⟩ := allocMany_same cs k
  rw [h]; rfl

theorem replaced_gates (cs : CS) (k : Nat) (rs : List Expr) :
    ((cs.allocMany k).replaced rs).gates = cs.gates.map fun g => g.map (Expr.subst rs) := by
  obtain ⟨qs, h⟩ := allocMany_same cs k
  rw [h]; rfl

theorem replaced_lookups (cs : CS) (k : Nat) (rs : List Expr) :
    ((cs.allocMany k).replaced rs).lookups = cs.lookups.map fun l =>
      ⟨l.input.map (Expr.subst rs), l.table.map (Expr.subst rs)⟩ := by
  obtain ⟨qs, h⟩ := allocMany_same cs k
  rw [h]; rfl

theorem row_lt_of_usable {cs : CS} {n row : Nat} (h : row < cs.usableRows n) : row < n := by
  unfold CS.usableRows at h; omega

theorem replaced_satisfied {cs : CS} {simple : Nat → Bool} (hsane : Sane cs simple)
    {n : Nat} {g g' : Grid} (ha : g'.advice = g.advice) (hi : g'.instance_ = g.instance_)
    (hc : g'.challenge = g.challenge) (hf : ∀ c, c < cs.numFixed → g'.fixed c = g.fixed c)
    {k : Nat} {rs : List Expr}
    (val : ∀ row, row < n → ∀ i, i < cs.numSelectors →
      ((rs.getD i (.const 0)).eval n g' row = 0 ↔ ¬ g.selector i row = true) ∧
      (simple i = false →
        (rs.getD i (.const 0)).eval n g' row = if g.selector i row then 1 else 0))
    (copies : List ((Col × Nat) × (Col × Nat)))
    (hcopies : ∀ p ∈ copies, g'.cell p.1 = g.cell p.1 ∧ g'.cell p.2 = g.cell p.2) :
    Satisfied cs n g copies ↔ Satisfied ((cs.allocMany k).replaced rs) n g' copies := by
  have gate : ∀ e ∈ cs.gates.flatten, ∀ row, row < n →
      ((e.subst rs).eval n g' row = 0 ↔ e.eval n g row = 0) := by
    intro e he row hrow
    refine (subst_eval e (hsane.gates e he) ha hi hc ?_ ?_).1
    · exact fun c hc => hf c (hsane.fixed e (List.mem_append_left _ he) c hc)
    · intro s hs
      obtain ⟨h1, h2⟩ := hsane.selectors e (List.mem_append_left _ he) s hs
      obtain ⟨h3, h4⟩ := val row hrow s.index h1
      exact ⟨h3, fun h => h4 (by rw [← h2]; exact h)⟩
  have look : ∀ l ∈ cs.lookups, ∀ e ∈ l.input ++ l.table, ∀ row, row < n →
      (e.subst rs).eval n g' row = e.eval n g row := by
    intro l hl e he row hrow
    have hmem : e ∈ expressions cs := List.mem_append_right _ (List.mem_flatMap.2 ⟨l, hl, he⟩)
    refine subst_eval_eq e ha hi hc ?_ ?_
    · exact fun c hc => hf c (hsane.fixed e hmem c hc)
    · intro s hs
      obtain ⟨h1, h2⟩ := hsane.selectors e hmem s hs
      obtain ⟨h3, h4⟩ := val row hrow s.index h1
      exact h4 (by rw [← h2]; exact hsane.lookups l hl e he s hs)
  have lookMap : ∀ l ∈ cs.lookups, ∀ row, row < n →
      (l.input.map (Expr.subst rs)).map (fun e => e.eval n g' row) =
        l.input.map (fun e => e.eval n g row) ∧
      (l.table.map (Expr.subst rs)).map (fun e => e.eval n g' row) =
        l.table.map (fun e => e.eval n g row) := by
    intro l hl row hrow
    rw [List.map_map, List.map_map]
    exact ⟨List.map_congr_left fun e he => look l hl e (List.mem_append_left _ he) row hrow,
      List.map_congr_left fun e he => look l hl e (List.mem_append_right _ he) row hrow⟩
  constructor
  · rintro ⟨s1, s2, s3⟩
    refine ⟨?_, ?_, ?_⟩
    · intro gate' hgate p hp row hrow
      rw [replaced_gates] at hgate
      obtain ⟨gt, hgt, rfl⟩ := List.mem_map.1 hgate
      obtain ⟨e, he, rfl⟩ := List.mem_map.1 hp
      exact (gate e (List.mem_flatten.2 ⟨gt, hgt, he⟩) row hrow).2 (s1 gt hgt e he row hrow)
    · intro l' hl' row hrow
      rw [replaced_lookups] at hl'
      rw [replaced_usable] at hrow ⊢
      obtain ⟨l, hl, rfl⟩ := List.mem_map.1 hl'
      obtain ⟨row', hrow', heq⟩ := s2 l hl row hrow
      refine ⟨row', hrow', ?_⟩
      rw [(lookMap l hl row (row_lt_of_usable hrow)).1, (lookMap l hl row' (row_lt_of_usable hrow')).2, heq]
    · intro p hp
      rw [(hcopies p hp).1, (hcopies p hp).2]
      exact s3 p hp
  · rintro ⟨s1, s2, s3⟩
    rw [replaced_gates] at s1
    rw [replaced_lookups] at s2
    simp only [replaced_usable] at s2
    refine ⟨?_, ?_, ?_⟩
    · intro gt hgt e he row hrow
      exact (gate e (List.mem_flatten.2 ⟨gt, hgt, he⟩) row hrow).1
        (s1 _ (List.mem_map_of_mem hgt) _ (List.mem_map_of_mem he) row hrow)
    · intro l hl row hrow
      obtain ⟨row', hrow', heq⟩ := s2 _ (List.mem_map_of_mem hl) row hrow
      refine ⟨row', hrow', ?_⟩
      rw [← (lookMap l hl row (row_lt_of_usable hrow)).1, ← (lookMap l hl row' (row_lt_of_usable hrow')).2]
      exact heq
    · intro p hp
      rw [← (hcopies p hp).1, ← (hcopies p hp).2]
      exact s3 p hp

theorem compressed_satisfied {cs : CS} {selectors : List (List Bool)} {simple : Nat → Bool}
    (hsane : Sane cs simple) (hP : cs.degree < P) {c : CS.Compressed} {cols : List (List Fr)}
    {as : List SelectorAssignment} (h : cs.compressSelectors selectors = .ok (c, cols, as))
    {n : Nat} (hn : ∀ act ∈ selectors, act.length = n)
    {g g' : Grid} (hg : Replaced cs n selectors cols g g')
    (copies : List ((Col × Nat) × (Col × Nat)))
    (hcopies : ∀ p ∈ copies, g'.cell p.1 = g.cell p.1 ∧ g'.cell p.2 = g.cell p.2) :
    Satisfied cs n g copies ↔ Satisfied c.cs n g' copies := by
  obtain ⟨degrees, combos, n', rs, -, hn', hc, rfl, hr, hcs⟩ := compression_facts hsane h
  -- the two row counts agree as soon as there is a selector
  have val : ∀ row, row < n → ∀ i, i < cs.numSelectors →
      ((rs.getD i (.const 0)).eval n g' row = 0 ↔ ¬ g.selector i row = true) ∧
      (simple i = false →
        (rs.getD i (.const 0)).eval n g' row = if g.selector i row then 1 else 0) := by
    intro row hrow i hi
    obtain ⟨k, j, d, c, act, hk, hj, ha, hd, -, -⟩ := hr.entry i hi
    have e1 := hn act (List.mem_of_getElem? ha)
    have e2 := hn' ⟨i, act, d⟩ (mem_describe.2 ⟨ha, hd⟩)
    have : n' = n := by rw [← e1]; exact e2.symm
    subst this
    exact replacement_value hP hn' hc hr hg hrow hi
  rw [hcs]
  exact replaced_satisfied hsane hg.advice hg.instance_ hg.challenge hg.fixed val copies hcopies

theorem compressed_degree {cs : CS} {selectors : List (List Bool)} {simple : Nat → Bool}
    (hsane : Sane cs simple) {c : CS.Compressed} {cols : List (List Fr)}
    {as : List SelectorAssignment} (h : cs.compressSelectors selectors = .ok (c, cols, as)) :
    c.cs.degree = cs.degree := by
  obtain ⟨degrees, combos, n', rs, hdeg, hn', hc, rfl, hr, hcs⟩ := compression_facts hsane h
  have pos : ∀ i, i < cs.numSelectors → 1 ≤ (rs.getD i (.const 0)).degree ∧
      (simple i = false → (rs.getD i (.const 0)).degree = 1) ∧
      ∀ d : Nat, degrees[i]? = some d → d ≠ 0 →
        d + (rs.getD i (.const 0)).degree ≤ cs.degree + 1 := by
    intro i hi
    obtain ⟨k, j, d, c, act, hk, hj, ha, hd, he, hz⟩ := hr.entry i hi
    have hjl := (List.getElem?_eq_some_iff.1 hj).1
    have hup := replacement_degree (.fixed (cs.numFixed + k) 0) (le_refl 1) j c.length hjl
    have hlo := replacement_degree_pos (.fixed (cs.numFixed + k) 0) c.length j
    have h1 : (Expr.fixed (cs.numFixed + k) 0).degree = 1 := rfl
    rw [h1] at hlo
    rw [he]
    have hcase := (hc.each c (List.mem_of_getElem? hk)).2
    refine ⟨hlo, ?_, ?_⟩
    · intro hs
      have hd0 := hz hs
      rcases hcase with ⟨t, rfl, -⟩ | ⟨-, hne⟩
      · simp only [List.length_singleton] at hup hlo ⊢
        omega
      · exact absurd hd0 (hne _ (List.mem_of_getElem? hj))
    · intro d' hd' hne
      rw [hd] at hd'
      cases hd'
      rcases hcase with ⟨t, rfl, ht⟩ | ⟨hgood, -⟩
      · have := List.mem_of_getElem? hj
        rw [List.mem_singleton] at this
        rw [← this] at ht
        exact absurd ht hne
      · have := hgood.degree _ (List.mem_of_getElem? hj)
        simp only at this
        omega
  have gate : ∀ e ∈ cs.gates.flatten, e.degree ≤ (e.subst rs).degree ∧
      (e.subst rs).degree ≤ cs.degree := by
    intro e he
    have hsel := hsane.selectors e (List.mem_append_left _ he)
    refine ⟨subst_degree_le e fun s hs => (pos s.index (hsel s hs).1).1, ?_⟩
    have hle : e.degree ≤ cs.degree := by
      have : e.degree ≤ ((cs.gates.flatten.map Expr.degree).max?.getD 0) :=
        le_maxD (List.mem_map_of_mem he)
      unfold CS.degree
      omega
    have hns : ∀ s ∈ selectorsIn e, s.simple = false → (rs.getD s.index (.const 0)).degree = 1 :=
      fun s hs hf => (pos s.index (hsel s hs).1).2.1 (by rw [← (hsel s hs).2]; exact hf)
    cases hcs : e.containsSimple with
    | false =>
      rw [subst_degree_eq e fun s hs => hns s hs (not_simple hcs s hs)]
      exact hle
    | true =>
      obtain ⟨s, hs, h1, h2⟩ := (extractSimple_ok e (hsane.gates e he)).2 hcs
      obtain ⟨d, hd, hed⟩ := hdeg e he s h2
      have h3 := subst_degree_simple e (hsane.gates e he) hns h2
      by_cases hd0 : d = 0
      · -- an expression with a selector has positive degree
        exfalso
        have : ∀ e : Expr, selectorsIn e ≠ [] → 1 ≤ e.degree := by
          intro e
          induction e with
          | selector s => intro _; exact le_refl _
          | neg a ih => exact ih
          | scaled a f ih => exact ih
          | sum a b iha ihb =>
            intro h
            show 1 ≤ max a.degree b.degree
            by_cases ha : selectorsIn a = []
            · have hb : selectorsIn b ≠ [] := by
                intro hb; exact h (by show _ ++ _ = _; rw [ha, hb]; rfl)
              have := ihb hb; omega
            · have := iha ha; omega
          | product a b iha ihb =>
            intro h
            show 1 ≤ a.degree + b.degree
            by_cases ha : selectorsIn a = []
            · have hb : selectorsIn b ≠ [] := by
                intro hb; exact h (by show _ ++ _ = _; rw [ha, hb]; rfl)
              have := ihb hb; omega
            · have := iha ha; omega
          | _ => intro h; exact absurd rfl h
        have := this e (List.ne_nil_of_mem hs)
        omega
      · have := (pos s.index (hsel s hs).1).2.2 d hd hd0
        omega
  have look : ((cs.lookups.map fun l =>
      (⟨l.input.map (Expr.subst rs), l.table.map (Expr.subst rs)⟩ : Lookup)).map CS.lookupDegree) =
      cs.lookups.map CS.lookupDegree := by
    rw [List.map_map]
    refine List.map_congr_left ?_
    intro l hl
    have hmap : ∀ es : List Expr, (∀ e ∈ es, e ∈ l.input ++ l.table) →
        (es.map (Expr.subst rs)).map Expr.degree = es.map Expr.degree := by
      intro es hes
      rw [List.map_map]
      refine List.map_congr_left ?_
      intro e he
      have hmem : e ∈ expressions cs :=
        List.mem_append_right _ (List.mem_flatMap.2 ⟨l, hl, hes e he⟩)
      refine subst_degree_eq e fun s hs => ?_
      obtain ⟨h1, h2⟩ := hsane.selectors e hmem s hs
      exact (pos s.index h1).2.1 (by rw [← h2]; exact hsane.lookups l hl e (hes e he) s hs)
    show CS.lookupDegree _ = CS.lookupDegree l
    unfold CS.lookupDegree
    simp only [hmap l.input (fun e he => List.mem_append_left _ he),
      hmap l.table (fun e he => List.mem_append_right _ he)]
  have flat : ((cs.gates.map fun g => g.map (Expr.subst rs)).flatten) =
      cs.gates.flatten.map (Expr.subst rs) := by
    rw [List.map_flatten]
  rw [hcs]
  have e1 : ((cs.allocMany (columnsOf n' combos).length).replaced rs).degree =
      max (max (max 3 ((cs.lookups.map CS.lookupDegree).max?.getD 1))
        (((cs.gates.flatten.map (Expr.subst rs)).map Expr.degree).max?.getD 0)) 1 := by
    unfold CS.degree
    rw [replaced_gates, replaced_lookups, look, flat]
  rw [e1]
  have e2 : ((cs.gates.flatten.map (Expr.subst rs)).map Expr.degree).max?.getD 0 ≤ cs.degree := by
    refine maxD_le (by omega) ?_
    intro x hx
    obtain ⟨y, hy, rfl⟩ := List.mem_map.1 hx
    obtain ⟨e, he, rfl⟩ := List.mem_map.1 hy
    exact (gate e he).2
  have e3 : (cs.gates.flatten.map Expr.degree).max?.getD 0 ≤
      ((cs.gates.flatten.map (Expr.subst rs)).map Expr.degree).max?.getD 0 := by
    refine maxD_le (by omega) ?_
    intro x hx
    obtain ⟨e, he, rfl⟩ := List.mem_map.1 hx
    exact (gate e he).1.trans (le_maxD (List.mem_map_of_mem (List.mem_map_of_mem he)))
  have e4 : cs.degree = max (max (max 3 ((cs.lookups.map CS.lookupDegree).max?.getD 1))
    ((cs.gates.flatten.map Expr.degree).max?.getD 0)) 1 := rfl
  omega

end Verif

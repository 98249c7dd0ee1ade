import Verif.Lemmas.MockChecks
import Verif.Lemmas.Filled
import Verif.Lemmas.Fits
import Verif.Lemmas.KeyLemmas
import Verif.Props.Permutation

/-! The mock prover on the brainfuck circuit (helper for the property theorems). -/

namespace Verif

open Spec

/-! ### Facts about the constraint system -/

theorem mainCS_built : Built mainCS (fun i => decide (i ≠ 0)) where
  sane := mainCS_sane
  degree := by
    have : mainCS.degree = 11 := by decide +kernel
    rw [this]; unfold P; norm_num
  nodup := Props.C33_circuit.1
  columns := by
    intro i hi
    rw [mainCS_permutation] at hi
    simp at hi
  lookups := by decide +kernel

/-- A selector that is a factor of the expression. -/
def guardOf : Expr → Option Selector
  | .selector s => some s
  | .product a b => (guardOf a).or (guardOf b)
  | .neg a => guardOf a
  | .scaled a _ => guardOf a
  | _ => none

theorem guardOf_some : ∀ {e : Expr} {s : Selector}, guardOf e = some s → Guards s e
  | .selector s, _, h => by cases h; exact .self
  | .product a b, s, h => by
    simp only [guardOf] at h
    rcases Option.or_eq_some_iff.1 h with h | ⟨-, h⟩
    · exact .left (guardOf_some h)
    · exact .right (guardOf_some h)
  | .neg a, _, h => .neg (guardOf_some h)
  | .scaled a _, _, h => .scaled (guardOf_some h)

theorem mainCS_guarded : Guarded mainCS := by
  have h : ∀ gate ∈ mainCS.gates, ∀ p ∈ gate, (guardOf p).isSome = true := by decide +kernel
  intro gate hg p hp
  obtain ⟨s, hs⟩ := Option.isSome_iff_exists.1 (h gate hg p hp)
  exact ⟨s, guardOf_some hs⟩

theorem mainCS_lookupsInside (n : Nat) : LookupsInside mainCS n := by
  have h : ∀ l ∈ mainCS.lookups, ∀ e ∈ l.input ++ l.table, ∀ q ∈ queriesIn e, q.2 = 0 := by
    decide +kernel
  intro l hl e he c rot hq row hr
  have h0 : rot = 0 := h l hl e he _ hq
  subst h0
  have : mainCS.usableRows n = n - 6 := mainCS_usable n
  rw [rotate_zero (by omega)]
  exact hr

/-- The cells the gates with a selector refer to. -/
def need : Nat → List (Nat × Int)
  | 1 => [(5, 0), (6, 0)]
  | 2 => [(0, 0), (1, 0), (2, 0), (3, 0), (4, 0), (5, 0), (6, 0),
      (0, 1), (1, 1), (2, 1), (3, 1), (4, 1), (5, 1), (6, 1)]
  | 3 => [(0, 0), (2, 0), (4, 0), (5, 0)]
  | 4 => [(7, 0), (7, 1), (8, 0), (8, 1), (0, 0), (1, 0), (2, 0), (3, 0), (4, 0), (5, 0)]
  | 5 => [(1, 0), (5, 0), (1, 1), (5, 1), (9, 0), (9, 1), (10, 0), (10, 1)]
  | 6 => [(11, 0), (12, 0), (13, 0), (11, 1), (12, 1), (13, 1)]
  | 7 => [(14, 0), (14, 1), (11, 0), (12, 0), (13, 0)]
  | 8 | 9 | 11 => [(15, 0), (16, 0), (17, 0), (18, 0), (19, 0),
      (15, 1), (16, 1), (17, 1), (18, 1), (19, 1)]
  | 10 => [(18, 0), (15, -1), (16, -1), (17, -1), (18, -1)]
  | 12 => [(21, 0), (21, 1), (20, 0)]
  | 13 => [(24, 0), (24, 1), (22, 0)]
  | 14 => [(27, 0), (27, 1), (25, 0)]
  | _ => []

theorem need_all : ∀ gate ∈ mainCS.gates, ∀ s ∈ gate.flatMap selectorsIn,
    ∀ q ∈ gate.flatMap queriesIn, ∃ x ∈ need s.index, q = (Col.advice x.1, x.2) := by
  decide +kernel

theorem need_first : ∃ gate ∈ mainCS.gates, (⟨3, true⟩ : Selector) ∈ gate.flatMap selectorsIn ∧
    (Col.advice 0, (0 : Int)) ∈ gate.flatMap queriesIn := by
  decide +kernel

theorem need_adhoc : ∃ gate ∈ mainCS.gates, (⟨10, true⟩ : Selector) ∈ gate.flatMap selectorsIn ∧
    (Col.advice 15, (-1 : Int)) ∈ gate.flatMap queriesIn := by
  decide +kernel

/-! ### Values and assignments -/

theorem value_iff {c r : Nat} : ∀ {b : List Op},
    (valueAt b c r).isSome = true ↔ AssignsIn b 0 (.advice c, r)
  | [] => by
    simp [valueAt, AssignsIn]
  | o :: b => by
    simp only [valueAt, Option.isSome_or, Bool.or_eq_true, value_iff (b := b)]
    unfold AssignsIn
    constructor
    · rintro (⟨c', o', he, h⟩ | h)
      · refine ⟨c', o', he, ?_⟩
        rcases h with ⟨v, h⟩ | ⟨i, q, v, h⟩
        · exact Or.inl ⟨v, List.mem_cons_of_mem _ h⟩
        · exact Or.inr ⟨i, q, v, List.mem_cons_of_mem _ h⟩
      · cases o with
        | advice c' o' v =>
          simp only [Op.value] at h
          split_ifs at h with h'
          · obtain ⟨rfl, rfl⟩ := h'
            exact ⟨c, r, by simp, Or.inl ⟨v, by simp⟩⟩
          · simp at h
        | fromInstance i q c' o' v =>
          simp only [Op.value] at h
          split_ifs at h with h'
          · obtain ⟨rfl, rfl⟩ := h'
            exact ⟨c, r, by simp, Or.inr ⟨i, q, v, by simp⟩⟩
          · simp at h
        | enable s o => simp [Op.value] at h
        | equal x y => simp [Op.value] at h
    · rintro ⟨c', o', he, h⟩
      have hc : c' = c ∧ o' = r := by
        simp only [Nat.zero_add, Prod.mk.injEq, Col.advice.injEq] at he
        exact ⟨he.1.symm, he.2.symm⟩
      obtain ⟨rfl, rfl⟩ := hc
      rcases h with ⟨v, h⟩ | ⟨i, q, v, h⟩
      · rcases List.mem_cons.1 h with rfl | h
        · right; simp [Op.value]
        · exact Or.inl ⟨c', o', he, Or.inl ⟨v, h⟩⟩
      · rcases List.mem_cons.1 h with rfl | h
        · right; simp [Op.value]
        · exact Or.inl ⟨c', o', he, Or.inr ⟨i, q, v, h⟩⟩

theorem sel_of_enable {b : List Op} {s : Selector} {o : Nat} (h : Op.enable s o ∈ b) :
    selAt b s.index o = true := by
  unfold selAt
  exact List.any_eq_true.2 ⟨_, h, by simp [Op.enables]⟩

theorem enable_of_sel {b : List Op} {i o : Nat} (h : selAt b i o = true) :
    ∃ s : Selector, s.index = i ∧ Op.enable s o ∈ b := by
  unfold selAt at h
  obtain ⟨x, hx, he⟩ := List.any_eq_true.1 h
  cases x with
  | enable s o' =>
    simp only [Op.enables, decide_eq_true_eq] at he
    obtain ⟨rfl, rfl⟩ := he
    exact ⟨s, rfl, hx⟩
  | _ => simp [Op.enables] at he

theorem enable_column {cols : List RegionColumn} {b : List Op} (hw : Within cols b) {s : Selector}
    {o : Nat} (h : Op.enable s o ∈ b) : RegionColumn.sel s ∈ cols := hw _ h _ rfl

/-- Each region assigns what its selectors need. -/
def Supplies (n : Nat) (b : List Op) : Prop :=
  ∀ s o, Op.enable s o ∈ b → ∀ x ∈ need s.index, (valueAt b x.1 (rotate n o x.2)).isSome = true

theorem supplies_tidy {n : Nat} {b : List Op} (h : Supplies n b) :
    ∀ s o, Op.enable s o ∈ b →
    ∀ gate ∈ mainCS.gates, s ∈ gate.flatMap selectorsIn → ∀ q ∈ gate.flatMap queriesIn,
      AssignsIn b 0 (q.1, rotate n (0 + o) q.2) := by
  intro s o hs gate hg hsg q hq
  obtain ⟨x, hx, rfl⟩ := need_all gate hg s hsg q hq
  rw [Nat.zero_add]
  exact value_iff.1 (h s o hs x hx)

theorem some_lt {α β : Type} {l : List α} {f : α → β} {i : Nat} (h : i < l.length) :
    ((l[i]?).map f).isSome = true := by
  rw [List.getElem?_eq_getElem h]; rfl

theorem some_lt' {α : Type} {l : List α} {i : Nat} (h : i < l.length) : (l[i]?).isSome = true := by
  rw [List.getElem?_eq_getElem h]; rfl

theorem proc_supplies {n : Nat} {ch : Nat → Fr} {rows : List Register} {p : List Op}
    (h : procOps pCfg cCfg ch rows = .ok p) (hn : rows.length + 1 < n) (h0 : 0 < rows.length) :
    Supplies n p := by
  obtain ⟨as, f⟩ := procOps_form h
  have hw := procOps_within h
  intro s o hs x hx
  have hc := enable_column hw hs
  have hsel := sel_of_enable hs
  have plain : ∀ c o, c ≤ 6 → o < rows.length → (valueAt p c o).isSome = true := by
    intro c o hc ho
    rw [f.plain c o hc]; exact some_lt ho
  have run : ∀ c o, 7 ≤ c ∧ c ≤ 10 → o ≤ rows.length → (valueAt p c o).isSome = true := by
    intro c o hc ho
    rw [f.run c o hc]; exact some_lt (by rw [List.length_cons, f.len]; omega)
  simp only [pCols, adv, List.map_cons, List.map_nil, List.mem_append, List.mem_cons,
    List.not_mem_nil, or_false, reduceCtorEq, false_or, RegionColumn.sel.injEq] at hc
  rcases hc with rfl | rfl | rfl | rfl | rfl | rfl
  · simp [need] at hx
  · have ho : o < rows.length := by
      have := (f.sel 1 o (by omega)).symm.trans hsel; simpa using this
    simp only [need, List.mem_cons, List.not_mem_nil, or_false] at hx
    rcases hx with rfl | rfl <;> (rw [rotate_zero (by omega)]; exact plain _ _ (by omega) ho)
  · have ho : o < rows.length - 1 := by
      have := (f.selStep 2 o (by omega)).symm.trans hsel; simpa using this
    simp only [need, List.mem_cons, List.not_mem_nil, or_false] at hx
    rcases hx with rfl | rfl | rfl | rfl | rfl | rfl | rfl | rfl | rfl | rfl | rfl | rfl | rfl | rfl <;>
      first
      | (rw [rotate_zero (by omega)]; exact plain _ _ (by omega) (by omega))
      | (rw [rotate_one (by omega)]; exact plain _ _ (by omega) (by omega))
  · have ho : o = 0 := by
      have := (f.selFirst o).symm.trans hsel; simpa using this
    subst ho
    simp only [need, List.mem_cons, List.not_mem_nil, or_false] at hx
    rcases hx with rfl | rfl | rfl | rfl <;>
      (rw [rotate_zero (by omega)]; exact plain _ _ (by omega) (by omega))
  · have ho : o < rows.length := by
      have := (f.sel 4 o (by omega)).symm.trans hsel; simpa using this
    simp only [need, List.mem_cons, List.not_mem_nil, or_false] at hx
    rcases hx with rfl | rfl | rfl | rfl | rfl | rfl | rfl | rfl | rfl | rfl <;>
      first
      | (rw [rotate_zero (by omega)]; exact plain _ _ (by omega) (by omega))
      | (rw [rotate_zero (by omega)]; exact run _ _ (by omega) (by omega))
      | (rw [rotate_one (by omega)]; exact run _ _ (by omega) (by omega))
  · have ho : o < rows.length - 1 := by
      have := (f.selStep 5 o (by omega)).symm.trans hsel; simpa using this
    simp only [need, List.mem_cons, List.not_mem_nil, or_false] at hx
    rcases hx with rfl | rfl | rfl | rfl | rfl | rfl | rfl | rfl <;>
      first
      | (rw [rotate_zero (by omega)]; exact plain _ _ (by omega) (by omega))
      | (rw [rotate_one (by omega)]; exact plain _ _ (by omega) (by omega))
      | (rw [rotate_zero (by omega)]; exact run _ _ (by omega) (by omega))
      | (rw [rotate_one (by omega)]; exact run _ _ (by omega) (by omega))

theorem mem_supplies {n : Nat} (ch : Nat → Fr) (rows : List MemRow) (hn : rows.length + 1 < n) :
    Supplies n (memOps mCfg cCfg ch rows) := by
  have f := memOps_form ch rows
  have hw := memOps_within ch rows
  generalize memOps mCfg cCfg ch rows = m at *
  intro s o hs x hx
  have hc := enable_column hw hs
  have hsel := sel_of_enable hs
  have plain : ∀ c o, 11 ≤ c ∧ c ≤ 13 → o < rows.length → (valueAt m c o).isSome = true := by
    intro c o hc ho
    rw [f.plain c o hc]; exact some_lt ho
  have run : ∀ o, o ≤ rows.length → (valueAt m 14 o).isSome = true := by
    intro o ho
    rw [f.run o]; exact some_lt' (by rw [List.length_cons, memAccs_len]; omega)
  simp only [mCols, adv, List.map_cons, List.map_nil, List.mem_append, List.mem_cons,
    List.not_mem_nil, or_false, reduceCtorEq, false_or, RegionColumn.sel.injEq] at hc
  rcases hc with rfl | rfl
  · have ho : o < rows.length - 1 := by
      have := (f.selStep o).symm.trans hsel; simpa using this
    simp only [need, List.mem_cons, List.not_mem_nil, or_false] at hx
    rcases hx with rfl | rfl | rfl | rfl | rfl | rfl <;>
      first
      | (rw [rotate_zero (by omega)]; exact plain _ _ (by omega) (by omega))
      | (rw [rotate_one (by omega)]; exact plain _ _ (by omega) (by omega))
  · have ho : o < rows.length := by
      have := (f.sel o).symm.trans hsel; simpa using this
    simp only [need, List.mem_cons, List.not_mem_nil, or_false] at hx
    rcases hx with rfl | rfl | rfl | rfl | rfl <;>
      first
      | (rw [rotate_zero (by omega)]; exact run _ (by omega))
      | (rw [rotate_one (by omega)]; exact run _ (by omega))
      | (rw [rotate_zero (by omega)]; exact plain _ _ (by omega) (by omega))

theorem inst_supplies {n : Nat} (ch : Nat → Fr) (rows : List InstrRow) (hn : rows.length + 1 < n)
    (h0 : 0 < rows.length) : Supplies n (instOps iCfg cCfg ch rows) := by
  have f := instOps_form ch rows
  have hw := instOps_within ch rows
  generalize instOps iCfg cCfg ch rows = m at *
  intro s o hs x hx
  have hc := enable_column hw hs
  have hsel := sel_of_enable hs
  have plain : ∀ c o, 15 ≤ c ∧ c ≤ 17 → o < rows.length → (valueAt m c o).isSome = true := by
    intro c o hc ho
    rw [f.plain c o hc]; exact some_lt ho
  have prp : ∀ o, o ≤ rows.length → (valueAt m 18 o).isSome = true := by
    intro o ho
    rw [f.prp o]; exact some_lt (by rw [List.length_cons, instAccs_len]; omega)
  have rs : ∀ o, o ≤ rows.length → (valueAt m 19 o).isSome = true := by
    intro o ho
    rw [f.rs o]; exact some_lt (by rw [List.length_cons, instAccs_len]; omega)
  simp only [iCols, adv, List.map_cons, List.map_nil, List.mem_append, List.mem_cons,
    List.not_mem_nil, or_false, reduceCtorEq, false_or, RegionColumn.sel.injEq] at hc
  have step : ∀ {x : Nat × Int}, o < rows.length - 1 → x ∈ need 8 →
      (valueAt m x.1 (rotate n o x.2)).isSome = true := by
    intro x ho hx
    simp only [need, List.mem_cons, List.not_mem_nil, or_false] at hx
    rcases hx with rfl | rfl | rfl | rfl | rfl | rfl | rfl | rfl | rfl | rfl <;>
      first
      | (rw [rotate_zero (by omega)]; exact plain _ _ (by omega) (by omega))
      | (rw [rotate_zero (by omega)]; exact prp _ (by omega))
      | (rw [rotate_zero (by omega)]; exact rs _ (by omega))
      | (rw [rotate_one (by omega)]; exact plain _ _ (by omega) (by omega))
      | (rw [rotate_one (by omega)]; exact prp _ (by omega))
      | (rw [rotate_one (by omega)]; exact rs _ (by omega))
  rcases hc with rfl | rfl | rfl | rfl
  · exact step (by have := (f.selStep 8 o (by omega)).symm.trans hsel; simpa using this) hx
  · exact step (by have := (f.selStep 9 o (by omega)).symm.trans hsel; simpa using this) hx
  · have ho : o = rows.length := by
      have := (f.adhoc o).symm.trans hsel; simpa using this
    obtain ⟨k, hk⟩ : ∃ k, o = k + 1 := ⟨o - 1, by omega⟩
    subst hk
    simp only [need, List.mem_cons, List.not_mem_nil, or_false] at hx
    rcases hx with rfl | rfl | rfl | rfl | rfl <;>
      first
      | (rw [rotate_zero (by omega)]; exact prp _ (by omega))
      | (rw [rotate_neg_one (by omega)]; exact plain _ _ (by omega) (by omega))
      | (rw [rotate_neg_one (by omega)]; exact prp _ (by omega))
  · exact step (by have := (f.selStep 11 o (by omega)).symm.trans hsel; simpa using this) hx

theorem out_supplies {n : Nat} (gamma : Fr) (vals : List Fr) (hn : vals.length + 1 < n) :
    Supplies n (outputOps oCfg gamma vals) := by
  have f := outputOps_form gamma vals
  have hw := outputOps_within gamma vals
  generalize outputOps oCfg gamma vals = m at *
  intro s o hs x hx
  have hc := enable_column hw hs
  have hsel := sel_of_enable hs
  simp only [oCols, adv, List.map_cons, List.map_nil, List.mem_append, List.mem_cons,
    List.not_mem_nil, or_false, reduceCtorEq, false_or, RegionColumn.sel.injEq] at hc
  subst hc
  have ho : o < vals.length := by
    have := (f.sel o).symm.trans hsel; simpa using this
  simp only [need, List.mem_cons, List.not_mem_nil, or_false] at hx
  rcases hx with rfl | rfl | rfl
  · rw [rotate_zero (by omega), f.run]; exact some_lt' (by rw [List.length_cons, rsAccs_len]; omega)
  · rw [rotate_one (by omega), f.run]; exact some_lt' (by rw [List.length_cons, rsAccs_len]; omega)
  · rw [rotate_zero (by omega), f.plain]; exact some_lt' ho

theorem in_supplies {n : Nat} {inst : List Fr} {gamma : Fr} {len : Nat} {m : List Op}
    (h : inputOps nCfg 1 inst gamma len = .ok m) (hn : len + 1 < n) : Supplies n m := by
  obtain ⟨vals, f⟩ := inputOps_form h
  have hw := inputOps_within h
  have hv := f.vlen
  intro s o hs x hx
  have hc := enable_column hw hs
  have hsel := sel_of_enable hs
  simp only [nCols, adv, List.map_cons, List.map_nil, List.mem_append, List.mem_cons,
    List.not_mem_nil, or_false, reduceCtorEq, false_or, RegionColumn.sel.injEq] at hc
  subst hc
  have ho : o < len := by
    have := (f.sel o).symm.trans hsel; simpa using this
  simp only [need, List.mem_cons, List.not_mem_nil, or_false] at hx
  rcases hx with rfl | rfl | rfl
  · rw [rotate_zero (by omega), f.run]; exact some_lt' (by rw [List.length_cons, rsAccs_len]; omega)
  · rw [rotate_one (by omega), f.run]; exact some_lt' (by rw [List.length_cons, rsAccs_len]; omega)
  · rw [rotate_zero (by omega), f.plain]; exact some_lt' (by omega)

theorem prog_supplies {n : Nat} {inst : List Fr} {gamma : Fr} {len : Nat} {m : List Op}
    (h : programOps gCfg 0 inst gamma len = .ok m) (hn : len + 1 < n) : Supplies n m := by
  obtain ⟨vals, f⟩ := programOps_form h
  have hw := programOps_within h
  have hv := f.vlen
  intro s o hs x hx
  have hc := enable_column hw hs
  have hsel := sel_of_enable hs
  simp only [gCols, adv, List.map_cons, List.map_nil, List.mem_append, List.mem_cons,
    List.not_mem_nil, or_false, reduceCtorEq, false_or, RegionColumn.sel.injEq] at hc
  subst hc
  have ho : o < len := by
    have := (f.sel o).symm.trans hsel; simpa using this
  simp only [need, List.mem_cons, List.not_mem_nil, or_false] at hx
  rcases hx with rfl | rfl | rfl
  · rw [rotate_zero (by omega), f.run]; exact some_lt' (by rw [List.length_cons, rsAccs_len]; omega)
  · rw [rotate_one (by omega), f.run]; exact some_lt' (by rw [List.length_cons, rsAccs_len]; omega)
  · rw [rotate_zero (by omega), f.plain]; exact some_lt' (by omega)

/-! ### The calls of the circuit -/

/-- The calls with the operations of the regions. -/
def callsOf (p m i o ni g e : List Op) : List Step :=
  [.table 0 (rangeValues DOMAIN), .region p, .region m, .region i, .region o, .region ni, .region g,
    .constrainInstance ⟨5, 0, .advice 26⟩ 0 0, .constrainInstance ⟨4, 0, .advice 23⟩ 1 0, .region e]

theorem mainSteps_iff (mx : Matrix) (ch : Nat → Fr) (inst : Nat → List Fr) (steps : List Step) :
    mainSteps DOMAIN mainConfig mx ch inst = .ok steps ↔
    ∃ p ni g, procOps pCfg cCfg ch mx.processor = .ok p ∧
      inputOps nCfg 1 (inst 1) (ch 10) mx.input.length = .ok ni ∧
      programOps gCfg 0 (inst 0) (ch 8) mx.program.length = .ok g ∧
      steps = callsOf p (memOps mCfg cCfg ch mx.memory) (instOps iCfg cCfg ch mx.instruction)
        (outputOps oCfg (ch 9) mx.output) ni g (extensionOps mainConfig mx) := by
  unfold mainSteps
  simp only [bind_ok]
  rw [mc_p, mc_m, mc_i, mc_output, mc_input, mc_program, mc_ch, mc_codeInst, mc_inputInst]
  constructor
  · rintro ⟨p, hp, ni, hn, g, hg, h⟩
    cases h
    exact ⟨p, ni, g, hp, hn, hg, rfl⟩
  · rintro ⟨p, ni, g, hp, hn, hg, rfl⟩
    exact ⟨p, hp, ni, hn, g, hg, rfl⟩

theorem assigned_main {n : Nat} {mx : Matrix} {ch : Nat → Fr} {inst : Nat → List Fr}
    {steps : List Step} (hs : mainSteps DOMAIN mainConfig mx ch inst = .ok steps) (a : Assembly) :
    assigned mainCS n steps = .ok a ↔
      mainConfig.loadTable DOMAIN mx ch inst
        { usable := n - 6, permutation := mainCS.permutation } = .ok a := by
  obtain ⟨p, ni, g, hp, hn, hg, rfl⟩ := (mainSteps_iff _ _ _ _).1 hs
  unfold assigned
  rw [mainCS_usable]
  generalize ({ usable := n - 6, permutation := mainCS.permutation } : Assembly) = a0
  unfold MainConfig.loadTable
  rw [mc_p, mc_m, mc_i, mc_output, mc_input, mc_program, mc_ch, mc_codeInst, mc_inputInst]
  have e1 : procOps pCfg cCfg ch mx.processor = .ok p := hp
  have e2 : inputOps nCfg 1 (inst 1) (ch cCfg.inputRs) mx.input.length = .ok ni := hn
  have e3 : programOps gCfg 0 (inst 0) (ch cCfg.instRs) mx.program.length = .ok g := hg
  rw [e1, e2, e3]
  simp only [callsOf, assembly, bind_ok]
  constructor
  · rintro ⟨a1, h1, a2, h2, a3, h3, a4, h4, a5, h5, a6, h6, a7, h7, a8, h8, a9, h9, a10, h10, h⟩
    cases h
    exact ⟨a1, h1, p, rfl, a2, h2, a3, h3, a4, h4, a5, h5, ni, rfl, a6, h6, g, rfl, a7, h7, a8, h8,
      a9, h9, h10⟩
  · rintro ⟨a1, h1, p', hp', a2, h2, a3, h3, a4, h4, a5, h5, ni', hn', a6, h6, g', hg', a7, h7, a8, h8,
      a9, h9, h10⟩
    cases hp'; cases hn'; cases hg'
    exact ⟨a1, h1, a2, h2, a3, h3, a4, h4, a5, h5, a6, h6, a7, h7, a8, h8, a9, h9, a, h10, rfl⟩

theorem loaded_starts (u : Nat) (perm : List Col) (p m i o ni g e : List Op) :
    (loaded { usable := u, permutation := perm } DOMAIN p m i o ni g e).starts =
      [0, 0, 0, 0, 0, 0, 0] := rfl

theorem padded_fromInstances {n len : Nat} {inst : Nat → List Fr} {i : Nat} {v : List Fr}
    (h : fromInstances (inst i) len = .ok v) : fromInstances (padded n inst i) len = .ok v := by
  unfold fromInstances at h ⊢
  unfold padded
  by_cases h1 : len + 1 ≤ (inst i).length
  · rw [if_pos h1] at h
    rw [if_pos (by rw [List.length_append]; omega), ← h, List.drop_append_of_le_length (by omega),
      List.take_append_of_le_length (by rw [List.length_drop]; omega)]
  · rw [if_neg h1] at h
    split_ifs at h with h2
    subst h2
    cases h
    split_ifs <;> first | rfl | omega

theorem padded_load {u n : Nat} {mx : Matrix} {ch : Nat → Fr} {inst : Nat → List Fr} {a : Assembly}
    (h : mainConfig.loadTable DOMAIN mx ch inst
        { usable := u, permutation := mainCS.permutation } = .ok a) :
    mainConfig.loadTable DOMAIN mx ch (padded n inst)
        { usable := u, permutation := mainCS.permutation } = .ok a := by
  rw [loadTable_ok_iff] at h ⊢
  obtain ⟨p, ni, g, hp, hn, hg, rest⟩ := h
  refine ⟨p, ni, g, hp, ?_, ?_, rest⟩
  · unfold inputOps at hn ⊢
    rw [bind_ok] at hn ⊢
    obtain ⟨v, hv, h⟩ := hn
    exact ⟨v, padded_fromInstances hv, h⟩
  · unfold programOps at hg ⊢
    rw [bind_ok] at hg ⊢
    obtain ⟨v, hv, h⟩ := hg
    exact ⟨v, padded_fromInstances hv, h⟩

/-! ### The conventions -/

section

variable {n : Nat} {mx : Matrix} {ch : Nat → Fr} {inst : Nat → List Fr} {steps : List Step}
  {a : Assembly}

theorem main_consistent (hs : mainSteps DOMAIN mainConfig mx ch inst = .ok steps) :
    SameSelectors (fun i => decide (i ≠ 0)) steps := by
  obtain ⟨p, ni, g, hp, hn, hg, rfl⟩ := (mainSteps_iff _ _ _ _).1 hs
  have key : ∀ {cols : List RegionColumn} {b : List Op}, Within cols b →
      (∀ s, RegionColumn.sel s ∈ cols → s.simple = decide (s.index ≠ 0)) →
      ∀ s o, Op.enable s o ∈ b → s.simple = decide (s.index ≠ 0) :=
    fun hw h s o hs => h s (enable_column hw hs)
  intro b hb s o he
  simp only [callsOf, blocks, List.mem_cons, List.not_mem_nil, or_false] at hb
  have fin : ∀ {l : List Nat} {ss : List Selector}, (∀ s ∈ ss, s.simple = decide (s.index ≠ 0)) →
      ∀ s, RegionColumn.sel s ∈ adv l ss → s.simple = decide (s.index ≠ 0) := by
    intro l ss h s hs
    unfold adv at hs
    simp only [List.mem_append, List.mem_map, reduceCtorEq, and_false, exists_false, false_or,
      RegionColumn.sel.injEq, exists_eq_right] at hs
    exact h s hs
  rcases hb with rfl | rfl | rfl | rfl | rfl | rfl | rfl
  · exact key (procOps_within hp) (fin (by decide)) s o he
  · exact key (memOps_within _ _) (fin (by decide)) s o he
  · exact key (instOps_within _ _) (fin (by decide)) s o he
  · exact key (outputOps_within _ _) (fin (by decide)) s o he
  · exact key (inputOps_within hn) (fin (by decide)) s o he
  · exact key (programOps_within hg) (fin (by decide)) s o he
  · exact absurd (enable_column (extensionOps_within mx) he) List.not_mem_nil

theorem main_tidy (hs : mainSteps DOMAIN mainConfig mx ch inst = .ok steps)
    (ha : assigned mainCS n steps = .ok a) :
    Tidy mainCS n steps a ↔ mx.processor ≠ [] ∧ mx.instruction ≠ [] := by
  rw [assigned_main hs] at ha
  obtain ⟨p, ni, g, hp, hn, hg, rfl⟩ := (mainSteps_iff _ _ _ _).1 hs
  obtain ⟨p', ni', g', hp', hn', hg', h256, -, -, -, -, -, -, hfit, rfl⟩ :=
    (loadTable_ok_iff _ _ _ _).1 ha
  obtain rfl : p = p' := Except.ok.inj (hp.symm.trans hp')
  obtain rfl : ni = ni' := Except.ok.inj (hn.symm.trans hn')
  obtain rfl : g = g' := Except.ok.inj (hg.symm.trans hg')
  obtain ⟨l1, l2, l3, l4, l5, l6⟩ := extensionOps_fits_iff.1 hfit
  unfold Tidy
  rw [loaded_starts]
  constructor
  · intro h
    constructor
    · intro h0
      obtain ⟨as, f⟩ := procOps_form hp
      obtain ⟨gate, hgate, hsg, hq⟩ := need_first
      have hsel : selAt p 3 0 = true := by rw [f.selFirst]; rfl
      obtain ⟨s, hsi, he⟩ := enable_of_sel hsel
      have hcol := enable_column (procOps_within hp) he
      have hs3 : s = ⟨3, true⟩ := by
        simp only [pCols, adv, List.map_cons, List.map_nil, List.mem_append, List.mem_cons,
          List.not_mem_nil, or_false, reduceCtorEq, false_or, RegionColumn.sel.injEq] at hcol
        rcases hcol with rfl | rfl | rfl | rfl | rfl | rfl <;> simp_all
      subst hs3
      have := h (p, 0) (by simp [callsOf, blocks]) ⟨3, true⟩ 0 he gate hgate hsg _ hq
      rw [Nat.zero_add, rotate_zero (by omega), ← value_iff, f.plain 0 0 (by omega), h0] at this
      simp at this
    · intro h0
      have f := instOps_form ch mx.instruction
      obtain ⟨gate, hgate, hsg, hq⟩ := need_adhoc
      have hsel : selAt (instOps iCfg cCfg ch mx.instruction) 10 0 = true := by
        rw [f.adhoc, h0]; rfl
      obtain ⟨s, hsi, he⟩ := enable_of_sel hsel
      have hcol := enable_column (instOps_within _ _) he
      have hs3 : s = ⟨10, true⟩ := by
        simp only [iCols, adv, List.map_cons, List.map_nil, List.mem_append, List.mem_cons,
          List.not_mem_nil, or_false, reduceCtorEq, false_or, RegionColumn.sel.injEq] at hcol
        rcases hcol with rfl | rfl | rfl | rfl <;> simp_all
      subst hs3
      have := h (instOps iCfg cCfg ch mx.instruction, 0) (by simp [callsOf, blocks]) ⟨10, true⟩ 0 he
        gate hgate hsg _ hq
      rw [← value_iff, f.plain 15 _ (by omega), h0] at this
      simp at this
  · rintro ⟨h1, h2⟩ q hq s o he
    have h1' := List.length_pos_iff.2 h1
    have h2' := List.length_pos_iff.2 h2
    obtain ⟨hb, h0⟩ := List.of_mem_zip (a := q.1) (b := q.2) hq
    have h0 : q.2 = 0 := by simpa using h0
    rw [h0]
    have sup : Supplies n q.1 := by
      simp only [callsOf, blocks, List.mem_cons, List.not_mem_nil, or_false] at hb
      rcases hb with hb | hb | hb | hb | hb | hb | hb <;> rw [hb]
      · exact proc_supplies hp (by omega) h1'
      · exact mem_supplies _ _ (by omega)
      · exact inst_supplies _ _ (by omega) h2'
      · exact out_supplies _ _ (by omega)
      · exact in_supplies hn (by omega)
      · exact prog_supplies hg (by omega)
      · intro s o he
        exact absurd (enable_column (extensionOps_within mx) he) List.not_mem_nil
    exact supplies_tidy sup s o he

theorem main_copies (hs : mainSteps DOMAIN mainConfig mx ch inst = .ok steps)
    (ha : assigned mainCS n steps = .ok a) : CopiesAlike steps a := by
  rw [assigned_main hs] at ha
  obtain ⟨p, ni, g, hp, hn, hg, rfl⟩ := (mainSteps_iff _ _ _ _).1 hs
  obtain ⟨p', ni', g', hp', hn', hg', h256, -, -, -, -, -, -, hfit, rfl⟩ :=
    (loadTable_ok_iff _ _ _ _).1 ha
  obtain rfl : p = p' := Except.ok.inj (hp.symm.trans hp')
  obtain rfl : ni = ni' := Except.ok.inj (hn.symm.trans hn')
  obtain rfl : g = g' := Except.ok.inj (hg.symm.trans hg')
  obtain ⟨as, fp⟩ := procOps_form hp
  have fm := memOps_form ch mx.memory
  have fi := instOps_form ch mx.instruction
  have fo := outputOps_form (ch 9) mx.output
  obtain ⟨vin, fn⟩ := inputOps_form hn
  obtain ⟨vc, fg⟩ := programOps_form hg
  have hcopies : (loaded { usable := n - 6, permutation := mainCS.permutation } DOMAIN p
        (memOps mCfg cCfg ch mx.memory) (instOps iCfg cCfg ch mx.instruction)
        (outputOps oCfg (ch 9) mx.output) ni g (extensionOps mainConfig mx)).copies = copyList mx := by
    rw [loaded_copies, procOps_copies hp, memOps_copies, instOps_copies, outputOps_copies, fn.copies,
      fg.copies, extensionOps_copies]
    simp [copyList]
  generalize hS : callsOf p (memOps mCfg cCfg ch mx.memory) (instOps iCfg cCfg ch mx.instruction)
    (outputOps oCfg (ch 9) mx.output) ni g (extensionOps mainConfig mx) = S
  have hst := loaded_starts (n - 6) mainCS.permutation p (memOps mCfg cCfg ch mx.memory)
    (instOps iCfg cCfg ch mx.instruction) (outputOps oCfg (ch 9) mx.output) ni g
    (extensionOps mainConfig mx)
  generalize (loaded { usable := n - 6, permutation := mainCS.permutation } DOMAIN p
        (memOps mCfg cCfg ch mx.memory) (instOps iCfg cCfg ch mx.instruction)
        (outputOps oCfg (ch 9) mx.output) ni g (extensionOps mainConfig mx)) = A at *
  have has : ∀ {b : List Op} {c r : Nat}, (b, 0) ∈ (blocks S).zip [0, 0, 0, 0, 0, 0, 0] →
      (valueAt b c r).isSome = true → Has S A (.advice c, r) := by
    intro b c r hb hv
    refine ⟨(b, 0), by rw [hst]; exact hb, value_iff.1 hv⟩
  have b1 : (p, 0) ∈ (blocks S).zip [0, 0, 0, 0, 0, 0, 0] := by rw [← hS]; simp [callsOf, blocks]
  have b2 : (memOps mCfg cCfg ch mx.memory, 0) ∈ (blocks S).zip [0, 0, 0, 0, 0, 0, 0] := by
    rw [← hS]; simp [callsOf, blocks]
  have b3 : (instOps iCfg cCfg ch mx.instruction, 0) ∈ (blocks S).zip [0, 0, 0, 0, 0, 0, 0] := by
    rw [← hS]; simp [callsOf, blocks]
  have b4 : (outputOps oCfg (ch 9) mx.output, 0) ∈ (blocks S).zip [0, 0, 0, 0, 0, 0, 0] := by
    rw [← hS]; simp [callsOf, blocks]
  have b5 : (ni, 0) ∈ (blocks S).zip [0, 0, 0, 0, 0, 0, 0] := by rw [← hS]; simp [callsOf, blocks]
  have b6 : (g, 0) ∈ (blocks S).zip [0, 0, 0, 0, 0, 0, 0] := by rw [← hS]; simp [callsOf, blocks]
  have prun : ∀ c, 7 ≤ c ∧ c ≤ 10 → Has S A (.advice c, mx.processor.length) := by
    intro c hc
    refine has b1 ?_
    rw [fp.run c _ hc]
    exact some_lt (by rw [List.length_cons, fp.len]; omega)
  have both : ∀ x y : Col × Nat, Has S A x → Has S A y → (Has S A x ↔ Has S A y) :=
    fun x y hx hy => ⟨fun _ => hy, fun _ => hx⟩
  unfold CopiesAlike
  rw [hcopies]
  intro q hq
  simp only [copyList, List.mem_append, List.mem_map, List.mem_range, List.mem_cons,
    List.not_mem_nil, or_false] at hq
  rcases hq with (⟨i, hi, rfl⟩ | ⟨i, hi, rfl⟩) | rfl | rfl | rfl | rfl | rfl | rfl | rfl
  · refine both _ _ (has b5 ?_) trivial
    rw [fn.plain]; exact some_lt' (by rw [fn.vlen]; omega)
  · refine both _ _ (has b6 ?_) trivial
    rw [fg.plain]; exact some_lt' (by rw [fg.vlen]; omega)
  · refine both _ _ (has b6 ?_) trivial
    rw [fg.lenCell]; rfl
  · refine both _ _ (has b5 ?_) trivial
    rw [fn.lenCell]; rfl
  · refine both _ _ (prun 7 (by omega)) (has b2 ?_)
    rw [fm.run]; exact some_lt' (by rw [List.length_cons, memAccs_len]; omega)
  · refine both _ _ (has b4 ?_) (prun 9 (by omega))
    rw [fo.run]; exact some_lt' (by rw [List.length_cons, rsAccs_len]; omega)
  · refine both _ _ (has b5 ?_) (prun 10 (by omega))
    rw [fn.run]; exact some_lt' (by rw [List.length_cons, rsAccs_len, fn.vlen]; omega)
  · refine both _ _ (prun 8 (by omega)) (has b3 ?_)
    rw [fi.prp]; exact some_lt (by rw [List.length_cons, instAccs_len]; omega)
  · refine both _ _ (has b6 ?_) (has b3 ?_)
    · rw [fg.run]; exact some_lt' (by rw [List.length_cons, rsAccs_len, fg.vlen]; omega)
    · rw [fi.rs]; exact some_lt (by rw [List.length_cons, instAccs_len]; omega)

end

/-! ### Runs -/

theorem run_iff {fuel n : Nat} {mx : Matrix} {ch : Nat → Fr} {inst : Nat → List Fr} {m : Mock} :
    Mock.run fuel n mx ch inst = .ok (.ok m) ↔
      ∃ steps, mainSteps DOMAIN mainConfig mx ch (padded n inst) = .ok steps ∧
        Mock.runSteps fuel mainCS n steps ch inst = .ok (.ok m) := by
  unfold Mock.run
  cases h : mainSteps DOMAIN mainConfig mx ch (padded n inst) with
  | error e => simp
  | ok steps => simp

theorem runs_iff {fuel n : Nat} (hf : 16 * n ≤ fuel) (mx : Matrix) (ch : Nat → Fr)
    (inst : Nat → List Fr) :
    ∃ r, Mock.run fuel n mx ch inst = .ok r ∧
      ((∃ m, r = .ok m) ↔ (inst 0).length ≤ n - 6 ∧ (inst 1).length ≤ n - 6 ∧
        ∃ a, mainConfig.loadTable DOMAIN mx ch (padded n inst)
          { usable := n - 6, permutation := mainCS.permutation } = .ok a) := by
  unfold Mock.run
  cases hs : mainSteps DOMAIN mainConfig mx ch (padded n inst) with
  | error e =>
    refine ⟨_, rfl, ?_⟩
    constructor
    · rintro ⟨m, hm⟩; cases hm
    rintro ⟨-, -, a, ha⟩
    obtain ⟨p, ni, g, hp, hn, hg, -⟩ := (loadTable_ok_iff _ _ _ _).1 ha
    have := (mainSteps_iff mx ch (padded n inst) _).2 ⟨p, ni, g, hp, hn, hg, rfl⟩
    rw [hs] at this
    cases this
  | ok steps =>
    obtain ⟨r, h1, h2⟩ := runSteps_iff mainCS_built (fuel := fuel) (n := n)
      (by rw [Props.C33_circuit.2]; exact hf) steps ch inst
    refine ⟨r, h1, h2.trans ?_⟩
    have e : mainCS.numInstance = 2 := by decide +kernel
    rw [mainCS_minimum, mainCS_usable, e]
    constructor
    · rintro ⟨-, hl, a, ha⟩
      exact ⟨hl 0 (by omega), hl 1 (by omega), a, (assigned_main hs a).1 ha⟩
    · rintro ⟨h0, h1, a, ha⟩
      obtain ⟨-, -, -, -, -, -, h256, -⟩ := (loadTable_ok_iff _ _ _ _).1 ha
      refine ⟨by omega, ?_, a, (assigned_main hs a).2 ha⟩
      intro i hi
      interval_cases i
      · exact h0
      · exact h1

end Verif

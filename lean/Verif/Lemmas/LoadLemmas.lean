import Verif.Model.Tables
import Verif.Lemmas.LayoutLemmas
import Verif.Lemmas.Rules

/-! `load_table` in closed form (helper for the property theorems). -/

namespace Verif

/-- The configuration with its numbers. -/
def pCfg : ProcessorConfig :=
  { clk := 0, ip := 2, ci := 1, ni := 3, mp := 4, mv := 5, mvi := 6, memPrp := 7, instPrp := 8,
    outputRs := 9, inputRs := 10, table := 0, sLookup := ⟨0, false⟩, sP := ⟨2, true⟩,
    sC := ⟨1, true⟩, sB := ⟨3, true⟩, sPrp := ⟨4, true⟩, sRs := ⟨5, true⟩ }
def mCfg : MemoryConfig :=
  { clk := 11, mp := 12, mv := 13, prp := 14, sM := ⟨6, true⟩, sPrp := ⟨7, true⟩ }
def iCfg : InstructionConfig :=
  { ip := 15, ci := 16, ni := 17, prp := 18, rs := 19, sPrp := ⟨8, true⟩, sPrpAdhoc := ⟨10, true⟩,
    sRs := ⟨9, true⟩, sI := ⟨11, true⟩ }
def oCfg : OutputConfig := { val := 20, rs := 21, sRs := ⟨12, true⟩ }
def nCfg : InputConfig := { val := 22, inputLen := 23, rs := 24, sRs := ⟨13, true⟩ }
def gCfg : ProgramConfig := { programLen := 26, code := 25, codeRs := 27, sRs := ⟨14, true⟩ }
def cCfg : BFChallenge :=
  { memPrpInit := 3, instPrpInit := 9, mem := (0, 1, 2, 3), inst := (4, 5, 6, 7), instRs := 8,
    outputRs := 9, inputRs := 10 }

theorem mainConfig_eq : mainConfig =
    { p := pCfg, m := mCfg, i := iCfg, output := oCfg, input := nCfg, program := gCfg,
      codeInst := 0, inputInst := 1, ch := cCfg } := by
  rfl

theorem mc_p : mainConfig.p = pCfg := congrArg MainConfig.p mainConfig_eq
theorem mc_m : mainConfig.m = mCfg := congrArg MainConfig.m mainConfig_eq
theorem mc_i : mainConfig.i = iCfg := congrArg MainConfig.i mainConfig_eq
theorem mc_output : mainConfig.output = oCfg := congrArg MainConfig.output mainConfig_eq
theorem mc_input : mainConfig.input = nCfg := congrArg MainConfig.input mainConfig_eq
theorem mc_program : mainConfig.program = gCfg := congrArg MainConfig.program mainConfig_eq
theorem mc_ch : mainConfig.ch = cCfg := congrArg MainConfig.ch mainConfig_eq
theorem mc_codeInst : mainConfig.codeInst = 0 := congrArg MainConfig.codeInst mainConfig_eq
theorem mc_inputInst : mainConfig.inputInst = 1 := congrArg MainConfig.inputInst mainConfig_eq

theorem mainCS_permutation : mainCS.permutation =
    [.instance_ 0, .instance_ 1, .advice 7, .advice 8, .advice 9, .advice 10, .advice 14,
     .advice 18, .advice 19, .advice 21, .advice 22, .advice 24, .advice 23, .advice 26,
     .advice 25, .advice 27] := by decide +kernel

/-- The region columns of the six tables. -/
def adv (l : List Nat) (s : List Selector) : List RegionColumn :=
  l.map (fun i => .col (.advice i)) ++ s.map .sel

def pCols := adv [0, 1, 2, 3, 4, 5, 6, 7, 8, 9, 10]
  [⟨0, false⟩, ⟨1, true⟩, ⟨2, true⟩, ⟨3, true⟩, ⟨4, true⟩, ⟨5, true⟩]
def mCols := adv [11, 12, 13, 14] [⟨6, true⟩, ⟨7, true⟩]
def iCols := adv [15, 16, 17, 18, 19] [⟨8, true⟩, ⟨9, true⟩, ⟨10, true⟩, ⟨11, true⟩]
def oCols := adv [20, 21] [⟨12, true⟩]
def nCols := adv [22, 23, 24] [⟨13, true⟩]
def gCols := adv [25, 26, 27] [⟨14, true⟩]

theorem within_append {cols : List RegionColumn} {a b : List Op} (ha : Within cols a)
    (hb : Within cols b) : Within cols (a ++ b) := by
  intro o ho
  rcases List.mem_append.1 ho with h | h
  · exact ha o h
  · exact hb o h

theorem within_flatMap {α : Type} {cols : List RegionColumn} {l : List α} {f : α → List Op}
    (h : ∀ x ∈ l, Within cols (f x)) : Within cols (l.flatMap f) := by
  intro o ho
  obtain ⟨x, hx, hox⟩ := List.mem_flatMap.1 ho
  exact h x hx o hox

theorem within_cons {cols : List RegionColumn} {o : Op} {os : List Op}
    (h : ∀ c, o.column = some c → c ∈ cols) (hs : Within cols os) : Within cols (o :: os) := by
  intro o' ho
  rcases List.mem_cons.1 ho with rfl | ho
  · exact h
  · exact hs o' ho

theorem within_nil (cols : List RegionColumn) : Within cols [] := by
  intro o ho; cases ho

theorem within_ite {cols : List RegionColumn} {p : Prop} [Decidable p] {a b : List Op}
    (ha : Within cols a) (hb : Within cols b) : Within cols (if p then a else b) := by
  split_ifs
  · exact ha
  · exact hb

/-- Solves `Within` goals for explicit lists of operations. -/
macro "within_tac" : tactic =>
  `(tactic| repeat' first
    | exact within_nil _
    | (refine within_append ?_ ?_)
    | (refine within_ite ?_ ?_)
    | (refine within_cons ?_ ?_)
    | (intro c hc; cases hc; decide))

theorem procRow_within (len idx : Nat) (r : Register) (a : ProcAcc) :
    Within pCols (procRow pCfg len idx r a) := by
  unfold procRow
  within_tac

theorem procOps_within {ch : Nat → Fr} {rows : List Register} {os : List Op}
    (h : procOps pCfg cCfg ch rows = .ok os) : Within pCols os := by
  unfold procOps at h
  cases hx : procAccs cCfg ch ⟨cCfg.memPrpInit, cCfg.instPrpInit, 0, 0⟩ rows with
  | error e => rw [hx] at h; cases h
  | ok as =>
    rw [hx] at h
    cases h
    refine within_append ?_ (within_flatMap fun x _ => procRow_within _ _ _ _)
    within_tac

theorem memOps_within (ch : Nat → Fr) (rows : List MemRow) :
    Within mCols (memOps mCfg cCfg ch rows) := by
  unfold memOps
  refine within_append ?_ (within_flatMap fun x _ => ?_)
  · within_tac
  · unfold memRow; within_tac

theorem instOps_within (ch : Nat → Fr) (rows : List InstrRow) :
    Within iCols (instOps iCfg cCfg ch rows) := by
  unfold instOps
  refine within_append ?_ (within_flatMap fun x _ => ?_)
  · within_tac
  · unfold instRow; within_tac

theorem outputOps_within (gamma : Fr) (vals : List Fr) :
    Within oCols (outputOps oCfg gamma vals) := by
  unfold outputOps
  refine within_append ?_ (within_flatMap fun x _ => ?_)
  · within_tac
  · within_tac

theorem inputOps_within {inst : List Fr} {gamma : Fr} {len : Nat} {os : List Op}
    (h : inputOps nCfg 1 inst gamma len = .ok os) : Within nCols os := by
  unfold inputOps at h
  cases hx : fromInstances inst len with
  | error e => rw [hx] at h; cases h
  | ok vals =>
    rw [hx] at h
    cases h
    refine within_append ?_ (within_flatMap fun x _ => ?_)
    · within_tac
    · within_tac

theorem programOps_within {inst : List Fr} {gamma : Fr} {len : Nat} {os : List Op}
    (h : programOps gCfg 0 inst gamma len = .ok os) : Within gCols os := by
  unfold programOps at h
  cases hx : fromInstances inst len with
  | error e => rw [hx] at h; cases h
  | ok vals =>
    rw [hx] at h
    cases h
    refine within_append ?_ (within_flatMap fun x _ => ?_)
    · within_tac
    · within_tac

namespace Assembly

/-- A region placed at row 0 and filled. -/
def put (a : Assembly) (os : List Op) : Assembly := (a.placed os).after os

theorem region_ok_iff {a a' : Assembly} {os : List Op} {cols : List RegionColumn}
    (hw : Within cols os) (hu : ∀ c ∈ cols, a.used c = 0) (hz : a.AtZero) :
    a.region os = .ok a' ↔
      (∀ o ∈ os, o.fits a.usable a.permutation (a.starts.length + 1)) ∧ a' = a.put os := by
  rw [region_eq hw hu]
  have hz' := placed_atZero hz os
  constructor
  · intro h
    have hf := ops_fits os hz' h
    have hlen : (a.placed os).starts.length = a.starts.length + 1 := by simp [placed]
    rw [ops_ok os hz' hf] at h
    cases h
    rw [hlen] at hf
    exact ⟨hf, rfl⟩
  · rintro ⟨hf, rfl⟩
    refine ops_ok os hz' ?_
    have hlen : (a.placed os).starts.length = a.starts.length + 1 := by simp [placed]
    rw [hlen]
    exact hf

theorem put_used {a : Assembly} {os : List Op} {cols : List RegionColumn} (hw : Within cols os)
    {c : RegionColumn} (hc : c ∉ cols) : (a.put os).used c = a.used c := by
  show (if c ∈ regionColumns os then regionRows os else a.used c) = _
  rw [if_neg (fun h => hc (mem_regionColumns hw h))]

theorem put_atZero {a : Assembly} (h : a.AtZero) (os : List Op) : (a.put os).AtZero :=
  placed_atZero h os

/-- A copy constraint added. -/
def link (a : Assembly) (p q : Col × Nat) : Assembly := { a with copies := a.copies ++ [(p, q)] }

theorem constrainInstance_ok_iff {a a' : Assembly} {c : Cell} {inst row : Nat} (hz : a.AtZero)
    (hc : c.region < a.starts.length) :
    a.constrainInstance c inst row = .ok a' ↔
      (c.offset < a.usable ∧ row < a.usable ∧ c.col ∈ a.permutation ∧
        .instance_ inst ∈ a.permutation) ∧ a' = a.link (c.col, c.offset) (.instance_ inst, row) := by
  unfold constrainInstance
  rw [position_ok hz hc]
  simp only [bind, Except.bind, copy]
  constructor
  · intro h
    split_ifs at h with h1 h2
    cases h
    exact ⟨⟨h1.1, h1.2, h2.1, h2.2⟩, rfl⟩
  · rintro ⟨⟨h1, h2, h3, h4⟩, rfl⟩
    rw [if_pos ⟨h1, h2⟩, if_pos ⟨h3, h4⟩]
    rfl

/-- The range table loaded. -/
def tabled (a : Assembly) (col : Nat) (vals : List Fr) : Assembly :=
  { a with
    tables := a.tables ++ [col]
    fixed := fun c r => if c = col ∧ r < a.usable then vals.getD r (vals.headD 0) else a.fixed c r }

theorem table_ok_iff {a a' : Assembly} {col : Nat} {vals : List Fr} (hc : col ∉ a.tables)
    (hv : vals ≠ []) :
    a.table col vals = .ok a' ↔ vals.length < a.usable ∧ a' = a.tabled col vals := by
  unfold table
  cases vals with
  | nil => exact absurd rfl hv
  | cons v vs =>
    simp only [if_neg hc]
    constructor
    · intro h
      split_ifs at h with h1
      cases h
      exact ⟨h1, rfl⟩
    · rintro ⟨h1, rfl⟩
      rw [if_pos h1]
      rfl

end Assembly

/-- What is known about an assembly before a region: all regions so far at row 0, only the columns
`cols` used. -/
structure Clean (u : Nat) (perm : List Col) (k : Nat) (cols : List RegionColumn) (a : Assembly) :
    Prop where
  zero : a.AtZero
  usable : a.usable = u
  perm : a.permutation = perm
  count : a.starts.length = k
  unused : ∀ c, c ∉ cols → a.used c = 0

theorem Clean.put {u k : Nat} {perm : List Col} {cols cols' : List RegionColumn} {a : Assembly}
    {os : List Op} (h : Clean u perm k cols a) (hw : Within cols' os) :
    Clean u perm (k + 1) (cols' ++ cols) (a.put os) where
  zero := Assembly.put_atZero h.zero os
  usable := h.usable
  perm := h.perm
  count := by simp [Assembly.put, Assembly.after, Assembly.placed, h.count]
  unused := by
    intro c hc
    rw [List.mem_append] at hc
    rw [Assembly.put_used hw (fun h => hc (Or.inl h))]
    exact h.unused c (fun h => hc (Or.inr h))

theorem Clean.link {u k : Nat} {perm : List Col} {cols : List RegionColumn} {a : Assembly}
    (h : Clean u perm k cols a) (p q : Col × Nat) : Clean u perm k cols (a.link p q) :=
  ⟨h.zero, h.usable, h.perm, h.count, h.unused⟩

theorem Clean.region_iff {u k : Nat} {perm : List Col} {cols cols' : List RegionColumn}
    {a a' : Assembly} {os : List Op} (h : Clean u perm k cols a) (hw : Within cols' os)
    (hd : ∀ c ∈ cols', c ∉ cols) :
    a.region os = .ok a' ↔ (∀ o ∈ os, o.fits u perm (k + 1)) ∧ a' = a.put os := by
  rw [Assembly.region_ok_iff hw (fun c hc => h.unused c (hd c hc)) h.zero, h.usable, h.perm, h.count]

/-- The assembly produced by `load_table`, from the operations of the regions. -/
def loaded (a : Assembly) (range : Nat) (p m i o n g e : List Op) : Assembly :=
  (((((((((a.tabled 0 (rangeValues range)).put p).put m).put i).put o).put n).put g).link
    (.advice 26, 0) (.instance_ 0, 0)).link (.advice 23, 0) (.instance_ 1, 0)).put e

theorem adv_zero {a : Assembly} (h : ∀ c, a.used c = 0) (cols : List RegionColumn) :
    ∀ c ∈ cols, a.used c = 0 := fun c _ => h c

theorem bind_ok {α β : Type} {x : Except SynthErr α} {f : α → Except SynthErr β} {b : β} :
    (x >>= f) = .ok b ↔ ∃ a, x = .ok a ∧ f a = .ok b := by
  cases x with
  | error e => simp [bind, Except.bind]
  | ok a => simp [bind, Except.bind]

theorem rangeValues_ne {range : Nat} (h : 0 < range) : rangeValues range ≠ [] := by
  unfold rangeValues
  intro he
  have := congrArg List.length he
  simp at this
  omega

theorem extensionOps_within (mx : Matrix) : Within [] (extensionOps mainConfig mx) := by
  unfold extensionOps
  intro o ho c hc
  simp only [List.mem_cons, List.not_mem_nil, or_false] at ho
  rcases ho with rfl | rfl | rfl | rfl | rfl <;> cases hc

theorem loadTable_ok_iff {usable : Nat} (mx : Matrix) (ch : Nat → Fr) (inst : Nat → List Fr)
    (a' : Assembly) :
    mainConfig.loadTable DOMAIN mx ch inst
      { usable := usable, permutation := mainCS.permutation } = .ok a' ↔
    ∃ p n g, procOps pCfg cCfg ch mx.processor = .ok p ∧
      inputOps nCfg 1 (inst 1) (ch 10) mx.input.length = .ok n ∧
      programOps gCfg 0 (inst 0) (ch 8) mx.program.length = .ok g ∧
      256 < usable ∧
      (∀ op ∈ p, op.fits usable mainCS.permutation 1) ∧
      (∀ op ∈ memOps mCfg cCfg ch mx.memory, op.fits usable mainCS.permutation 2) ∧
      (∀ op ∈ instOps iCfg cCfg ch mx.instruction, op.fits usable mainCS.permutation 3) ∧
      (∀ op ∈ outputOps oCfg (ch 9) mx.output, op.fits usable mainCS.permutation 4) ∧
      (∀ op ∈ n, op.fits usable mainCS.permutation 5) ∧
      (∀ op ∈ g, op.fits usable mainCS.permutation 6) ∧
      (∀ op ∈ extensionOps mainConfig mx, op.fits usable mainCS.permutation 7) ∧
      a' = loaded { usable := usable, permutation := mainCS.permutation } DOMAIN p
        (memOps mCfg cCfg ch mx.memory) (instOps iCfg cCfg ch mx.instruction)
        (outputOps oCfg (ch 9) mx.output) n g (extensionOps mainConfig mx) := by
  have hlen : (rangeValues DOMAIN).length = 256 := by simp [rangeValues, DOMAIN]
  have hmw := memOps_within ch mx.memory
  have hiw := instOps_within ch mx.instruction
  have how := outputOps_within (ch 9) mx.output
  have hew := extensionOps_within mx
  generalize ha0 : ({ usable := usable, permutation := mainCS.permutation } : Assembly) = a0
  have ht0 : (0 : Nat) ∉ a0.tables := by rw [← ha0]; simp
  have hus : a0.usable = usable := by rw [← ha0]
  have c1 : Clean usable mainCS.permutation 0 [] (a0.tabled 0 (rangeValues DOMAIN)) := by
    rw [← ha0]
    exact ⟨by intro s hs; simp [Assembly.tabled] at hs, by simp only [Assembly.tabled],
      by simp only [Assembly.tabled], by simp only [Assembly.tabled, List.length_nil],
      fun c _ => by simp only [Assembly.tabled]⟩
  unfold MainConfig.loadTable
  simp only [bind_ok]
  rw [mc_p, mc_m, mc_i, mc_output, mc_input, mc_program, mc_ch, mc_codeInst, mc_inputInst]
  show (∃ a1, a0.table 0 (rangeValues DOMAIN) = .ok a1 ∧ _) ↔ _
  simp only [Assembly.table_ok_iff ht0 (rangeValues_ne (by decide : 0 < DOMAIN)), hlen, hus]
  have link5 : ∀ {cols k} {a a' : Assembly}, 5 < k → Clean usable mainCS.permutation k cols a →
      256 < usable →
      (a.constrainInstance ⟨5, 0, .advice gCfg.programLen⟩ 0 0 = .ok a' ↔
        a' = a.link (.advice 26, 0) (.instance_ 0, 0)) := by
    intro cols k a a' hk h hu
    rw [Assembly.constrainInstance_ok_iff h.zero (by rw [h.count]; exact hk), h.usable, h.perm,
      mainCS_permutation]
    constructor
    · exact fun h => h.2
    · exact fun h => ⟨⟨by show 0 < usable; omega, by omega, by decide, by decide⟩, h⟩
  have link4 : ∀ {cols k} {a a' : Assembly}, 4 < k → Clean usable mainCS.permutation k cols a →
      256 < usable →
      (a.constrainInstance ⟨4, 0, .advice nCfg.inputLen⟩ 1 0 = .ok a' ↔
        a' = a.link (.advice 23, 0) (.instance_ 1, 0)) := by
    intro cols k a a' hk h hu
    rw [Assembly.constrainInstance_ok_iff h.zero (by rw [h.count]; exact hk), h.usable, h.perm,
      mainCS_permutation]
    constructor
    · exact fun h => h.2
    · exact fun h => ⟨⟨by show 0 < usable; omega, by omega, by decide, by decide⟩, h⟩
  constructor
  · rintro ⟨a1, ⟨h256, rfl⟩, p, hp, a2, h2, a3, h3, a4, h4, a5, h5, n, hn, a6, h6, g, hg, a7, h7,
      a8, h8, a9, h9, h10⟩
    have hpw := procOps_within hp
    have hnw := inputOps_within hn
    have hgw := programOps_within hg
    have c2 := c1.put hpw
    have c3 := c2.put hmw
    have c4 := c3.put hiw
    have c5 := c4.put how
    have c6 := c5.put hnw
    have c7 := c6.put hgw
    obtain ⟨f2, rfl⟩ := (c1.region_iff hpw (by decide)).1 h2
    obtain ⟨f3, rfl⟩ := (c2.region_iff hmw (by decide)).1 h3
    obtain ⟨f4, rfl⟩ := (c3.region_iff hiw (by decide)).1 h4
    obtain ⟨f5, rfl⟩ := (c4.region_iff how (by decide)).1 h5
    obtain ⟨f6, rfl⟩ := (c5.region_iff hnw (by decide)).1 h6
    obtain ⟨f7, rfl⟩ := (c6.region_iff hgw (by decide)).1 h7
    obtain rfl := (link5 (by decide) c7 h256).1 h8
    obtain rfl := (link4 (by decide) (c7.link _ _) h256).1 h9
    obtain ⟨f10, rfl⟩ := (((c7.link _ _).link _ _).region_iff hew (by decide)).1 h10
    exact ⟨p, n, g, hp, hn, hg, h256, f2, f3, f4, f5, f6, f7, f10, rfl⟩
  · rintro ⟨p, n, g, hp, hn, hg, h256, f2, f3, f4, f5, f6, f7, f10, rfl⟩
    have hpw := procOps_within hp
    have hnw := inputOps_within hn
    have hgw := programOps_within hg
    have c2 := c1.put hpw
    have c3 := c2.put hmw
    have c4 := c3.put hiw
    have c5 := c4.put how
    have c6 := c5.put hnw
    have c7 := c6.put hgw
    exact ⟨_, ⟨h256, rfl⟩, p, hp,
      _, (c1.region_iff hpw (by decide)).2 ⟨f2, rfl⟩, _, (c2.region_iff hmw (by decide)).2 ⟨f3, rfl⟩,
      _, (c3.region_iff hiw (by decide)).2 ⟨f4, rfl⟩, _, (c4.region_iff how (by decide)).2 ⟨f5, rfl⟩,
      n, hn, _, (c5.region_iff hnw (by decide)).2 ⟨f6, rfl⟩,
      g, hg, _, (c6.region_iff hgw (by decide)).2 ⟨f7, rfl⟩,
      _, (link5 (by decide) c7 h256).2 rfl, _, (link4 (by decide) (c7.link _ _) h256).2 rfl,
      (((c7.link _ _).link _ _).region_iff hew (by decide)).2 ⟨f10, rfl⟩⟩

end Verif

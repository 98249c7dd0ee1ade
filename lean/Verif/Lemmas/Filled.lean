import Verif.Lemmas.TableLemmas
import Verif.Lemmas.Rules
import Verif.Spec.Completes

/-! The full assignment after synthesis in closed form (helper for the property theorems). -/

namespace Verif

open Spec

/-- All columns after a successful synthesis. -/
structure Filled (n : Nat) (mx : Matrix) (ch : Nat → Fr) (inst : Nat → List Fr)
    (as : List ProcAcc) (vin vcode : List Fr) (g : Grid) : Prop where
  room : 256 < n - 6
  roomP : mx.processor.length < n - 6
  roomM : mx.memory.length < n - 6
  roomI : mx.instruction.length < n - 6
  roomO : mx.output.length < n - 6
  roomN : mx.input.length < n - 6
  roomG : mx.program.length < n - 6
  accs : procAccs cCfg ch procInit mx.processor = .ok as
  alen : as.length = mx.processor.length
  vinEq : vin = ((inst 1).drop 1).take mx.input.length
  vinLen : vin.length = mx.input.length
  vcodeEq : vcode = ((inst 0).drop 1).take mx.program.length
  vcodeLen : vcode.length = mx.program.length
  proc : ∀ c, c ≤ 6 → ∀ (r : Nat) x, mx.processor[r]? = some x → g.advice c r = procCol c x
  procRun : ∀ c, 7 ≤ c ∧ c ≤ 10 → ∀ (r : Nat) x, (procInit :: as)[r]? = some x →
    g.advice c r = procRun c x
  procSel : ∀ s, s = 0 ∨ s = 1 ∨ s = 4 → ∀ r, g.selector s r = decide (r < mx.processor.length)
  procStep : ∀ s, s = 2 ∨ s = 5 → ∀ r, g.selector s r = decide (r < mx.processor.length - 1)
  procFirst : ∀ r, g.selector 3 r = decide (r = 0)
  mem : ∀ c, 11 ≤ c ∧ c ≤ 13 → ∀ (r : Nat) x, mx.memory[r]? = some x → g.advice c r = memCol c x
  memRun : ∀ (r : Nat) x, ((3 : Fr) :: memAccs cCfg ch 3 mx.memory)[r]? = some x → g.advice 14 r = x
  memSel : ∀ r, g.selector 7 r = decide (r < mx.memory.length)
  memStep : ∀ r, g.selector 6 r = decide (r < mx.memory.length - 1)
  ins : ∀ c, 15 ≤ c ∧ c ≤ 17 → ∀ (r : Nat) x, mx.instruction[r]? = some x →
    g.advice c r = instCol c x
  insRun : ∀ (r : Nat) x,
    (((9 : Fr), (0 : Fr)) :: instAccs cCfg ch (9, 0) mx.instruction)[r]? = some x →
    g.advice 18 r = x.1 ∧ g.advice 19 r = x.2
  insStep : ∀ s, s = 8 ∨ s = 9 ∨ s = 11 → ∀ r,
    g.selector s r = decide (r < mx.instruction.length - 1)
  insAdhoc : ∀ r, g.selector 10 r = decide (r = mx.instruction.length)
  out : ∀ (r : Nat) x, mx.output[r]? = some x → g.advice 20 r = x
  outRun : ∀ (r : Nat) x, ((0 : Fr) :: rsAccs (ch 9) 0 mx.output)[r]? = some x → g.advice 21 r = x
  outSel : ∀ r, g.selector 12 r = decide (r < mx.output.length)
  inp : ∀ (r : Nat) x, vin[r]? = some x → g.advice 22 r = x
  inpLen : g.advice 23 0 = (mx.input.length : Fr)
  inpRun : ∀ (r : Nat) x, ((0 : Fr) :: rsAccs (ch 10) 0 vin)[r]? = some x → g.advice 24 r = x
  inpSel : ∀ r, g.selector 13 r = decide (r < mx.input.length)
  prog : ∀ (r : Nat) x, vcode[r]? = some x → g.advice 25 r = x
  progLen : g.advice 26 0 = (mx.program.length : Fr)
  progRun : ∀ (r : Nat) x, ((0 : Fr) :: rsAccs (ch 8) 0 vcode)[r]? = some x → g.advice 27 r = x
  progSel : ∀ r, g.selector 14 r = decide (r < mx.program.length)
  fixed : ∀ r, r < n - 6 → g.fixed 0 r = if r < 256 then (r : Fr) else 0
  instance_ : ∀ i r, g.instance_ i r = (inst i).getD r 0
  challenge : ∀ i, g.challenge i = ch i

/-- The copy constraints of the circuit. -/
def copyList (mx : Matrix) : List ((Col × Nat) × (Col × Nat)) :=
  (List.range mx.input.length).map (fun i => ((Col.advice 22, i), (Col.instance_ 1, i + 1))) ++
  (List.range mx.program.length).map (fun i => ((Col.advice 25, i), (Col.instance_ 0, i + 1))) ++
  [((.advice 26, 0), (.instance_ 0, 0)), ((.advice 23, 0), (.instance_ 1, 0)),
   ((.advice 7, mx.processor.length), (.advice 14, mx.memory.length)),
   ((.advice 21, mx.output.length), (.advice 9, mx.processor.length)),
   ((.advice 24, mx.input.length), (.advice 10, mx.processor.length)),
   ((.advice 8, mx.processor.length), (.advice 18, mx.instruction.length)),
   ((.advice 27, mx.program.length), (.advice 19, mx.instruction.length))]

theorem synthesize_ok_iff (n : Nat) (mx : Matrix) (ch : Nat → Fr) (inst : Nat → List Fr)
    (a : Assembly) :
    synthesize n mx ch inst = .ok a ↔
      8 ≤ n ∧ (inst 0).length ≤ n - 6 ∧ (inst 1).length ≤ n - 6 ∧
      mainConfig.loadTable DOMAIN mx ch inst
        { usable := n - 6, permutation := mainCS.permutation } = .ok a := by
  unfold synthesize
  rw [mainCS_minimum, mainCS_usable]
  constructor
  · intro h
    by_cases h1 : n < 8
    · rw [if_pos h1] at h; cases h
    rw [if_neg h1] at h
    by_cases h2 : n - 6 < (inst 0).length ∨ n - 6 < (inst 1).length
    · rw [if_pos h2] at h; cases h
    rw [if_neg h2] at h
    exact ⟨by omega, by omega, by omega, h⟩
  · rintro ⟨h1, h2, h3, h4⟩
    rw [if_neg (by omega), if_neg (by omega)]
    exact h4

theorem getD_some {α : Type} {o : Option α} {x d : α} (h : o = some x) : o.getD d = x := by
  rw [h]; rfl

theorem lt_of_some {α : Type} {l : List α} {r : Nat} {x : α} (h : l[r]? = some x) : r < l.length :=
  (List.getElem?_eq_some_iff.1 h).1

theorem rangeValues_getD (r : Nat) : (rangeValues DOMAIN).getD r ((rangeValues DOMAIN).headD 0) =
    if r < 256 then (r : Fr) else 0 := by
  have h0 : (rangeValues DOMAIN).headD 0 = 0 := by
    show ((0 : Nat) : Fr) = 0
    simp
  rw [h0]
  unfold rangeValues
  rw [List.getD_eq_getElem?_getD, List.getElem?_map]
  by_cases h : r < 256
  · rw [if_pos h, List.getElem?_range (by unfold DOMAIN; exact h)]; rfl
  · rw [if_neg h, List.getElem?_eq_none (by simp [DOMAIN]; omega)]; rfl

theorem op_copies_nil {α : Type} {f : α → List Op} {l : List α}
    (h : ∀ x ∈ l, (f x).flatMap Op.copies = []) : (l.flatMap f).flatMap Op.copies = [] := by
  rw [List.flatMap_assoc]
  exact List.flatMap_eq_nil_iff.2 h

theorem procOps_copies {ch : Nat → Fr} {rows : List Register} {p : List Op}
    (h : procOps pCfg cCfg ch rows = .ok p) : p.flatMap Op.copies = [] := by
  unfold procOps at h
  rw [bind_ok] at h
  obtain ⟨as, -, h⟩ := h
  cases h
  rw [List.flatMap_append, op_copies_nil]
  · rfl
  · intro x _
    unfold procRow
    split_ifs <;> rfl

theorem memOps_copies (ch : Nat → Fr) (rows : List MemRow) :
    (memOps mCfg cCfg ch rows).flatMap Op.copies = [] := by
  unfold memOps
  rw [List.flatMap_append, op_copies_nil]
  · rfl
  · intro x _
    unfold memRow
    split_ifs <;> rfl

theorem instOps_copies (ch : Nat → Fr) (rows : List InstrRow) :
    (instOps iCfg cCfg ch rows).flatMap Op.copies = [] := by
  unfold instOps
  rw [List.flatMap_append, op_copies_nil]
  · rfl
  · intro x _
    unfold instRow
    split_ifs <;> rfl

theorem outputOps_copies (gamma : Fr) (vals : List Fr) :
    (outputOps oCfg gamma vals).flatMap Op.copies = [] := by
  unfold outputOps
  rw [List.flatMap_append, op_copies_nil]
  · rfl
  · intro x _; rfl

theorem extensionOps_copies (mx : Matrix) : (extensionOps mainConfig mx).flatMap Op.copies =
    [((.advice 7, mx.processor.length), (.advice 14, mx.memory.length)),
     ((.advice 21, mx.output.length), (.advice 9, mx.processor.length)),
     ((.advice 24, mx.input.length), (.advice 10, mx.processor.length)),
     ((.advice 8, mx.processor.length), (.advice 18, mx.instruction.length)),
     ((.advice 27, mx.program.length), (.advice 19, mx.instruction.length))] := by
  unfold extensionOps
  rw [mc_p, mc_m, mc_i, mc_output, mc_input, mc_program]
  rfl

theorem synthesize_copies {n : Nat} {mx : Matrix} {ch : Nat → Fr} {inst : Nat → List Fr}
    {a : Assembly} (h : synthesize n mx ch inst = .ok a) : a.copies = copyList mx := by
  obtain ⟨-, -, -, h⟩ := (synthesize_ok_iff _ _ _ _ _).1 h
  obtain ⟨p, ni, g, hp, hn, hg, -, -, -, -, -, -, -, -, rfl⟩ := (loadTable_ok_iff _ _ _ _).1 h
  obtain ⟨vin, fn⟩ := inputOps_form hn
  obtain ⟨vc, fg⟩ := programOps_form hg
  rw [loaded_copies, procOps_copies hp, memOps_copies, instOps_copies, outputOps_copies, fn.copies,
    fg.copies, extensionOps_copies]
  simp [copyList]

theorem filled {n : Nat} {mx : Matrix} {ch : Nat → Fr} {inst : Nat → List Fr} {a : Assembly}
    (h : synthesize n mx ch inst = .ok a) {g : Grid} (hc : Completes n a ch inst g) :
    ∃ as vin vcode, Filled n mx ch inst as vin vcode g := by
  obtain ⟨hn8, -, -, h⟩ := (synthesize_ok_iff _ _ _ _ _).1 h
  obtain ⟨p, ni, gi, hp, hn, hg, h256, -, -, -, -, -, -, hfit, rfl⟩ := (loadTable_ok_iff _ _ _ _).1 h
  obtain ⟨as, fp⟩ := procOps_form hp
  have fm := memOps_form ch mx.memory
  have fi := instOps_form ch mx.instruction
  have fo := outputOps_form (ch 9) mx.output
  obtain ⟨vin, fn⟩ := inputOps_form hn
  obtain ⟨vc, fg⟩ := programOps_form hg
  have hparts : Parts p (memOps mCfg cCfg ch mx.memory) (instOps iCfg cCfg ch mx.instruction)
      (outputOps oCfg (ch 9) mx.output) ni gi (extensionOps mainConfig mx) :=
    ⟨procOps_within hp, memOps_within _ _, instOps_within _ _, outputOps_within _ _,
      inputOps_within hn, programOps_within hg, extensionOps_within mx⟩
  have hroom : mx.processor.length < n - 6 ∧ mx.memory.length < n - 6 ∧
      mx.instruction.length < n - 6 ∧ mx.output.length < n - 6 ∧ mx.input.length < n - 6 ∧
      mx.program.length < n - 6 := by
    unfold extensionOps at hfit
    simp only [List.mem_cons, List.not_mem_nil, or_false, forall_eq_or_imp, forall_eq, Op.fits] at hfit
    obtain ⟨⟨-, -, a1, a2, -⟩, ⟨-, -, b1, -⟩, ⟨-, -, c1, -⟩, ⟨-, -, -, d2, -⟩, ⟨-, -, e1, -⟩⟩ := hfit
    exact ⟨a1, a2, d2, b1, c1, e1⟩
  obtain ⟨r1, r2, r3, r4, r5, r6⟩ := hroom
  have hadv := hc.advice
  have hfix := hc.fixed
  rw [mainCS_usable] at hadv hfix
  have hsel := hc.selector
  refine ⟨as, vin, vc, ?_⟩
  exact
  { room := h256, roomP := r1, roomM := r2, roomI := r3, roomO := r4, roomN := r5, roomG := r6
    accs := fp.accs, alen := fp.len, vinEq := fn.spec, vinLen := fn.vlen, vcodeEq := fg.spec
    vcodeLen := fg.vlen
    proc := by
      intro c hc r x hx
      have := lt_of_some hx
      rw [hadv c r (by omega), loaded_p hparts c r (by omega)]
      exact getD_some (by rw [fp.plain c r hc, hx]; rfl)
    procRun := by
      intro c hc r x hx
      have := lt_of_some hx
      rw [List.length_cons, fp.len] at this
      rw [hadv c r (by omega), loaded_p hparts c r (by omega)]
      exact getD_some (by rw [fp.run c r hc, hx]; rfl)
    procSel := by
      intro s hs r
      rw [hsel, loaded_sp hparts s r (by omega), fp.sel s r hs, Bool.or_false]
    procStep := by
      intro s hs r
      rw [hsel, loaded_sp hparts s r (by omega), fp.selStep s r hs, Bool.or_false]
    procFirst := by
      intro r
      rw [hsel, loaded_sp hparts 3 r (by omega), fp.selFirst r, Bool.or_false]
    mem := by
      intro c hc r x hx
      have := lt_of_some hx
      rw [hadv c r (by omega), loaded_m hparts c r (by omega)]
      exact getD_some (by rw [fm.plain c r hc, hx]; rfl)
    memRun := by
      intro r x hx
      have := lt_of_some hx
      rw [List.length_cons, memAccs_len] at this
      rw [hadv 14 r (by omega), loaded_m hparts 14 r (by omega)]
      exact getD_some (by rw [fm.run r, hx])
    memSel := by
      intro r
      rw [hsel, loaded_sm hparts 7 r (by omega), fm.sel r, Bool.or_false]
    memStep := by
      intro r
      rw [hsel, loaded_sm hparts 6 r (by omega), fm.selStep r, Bool.or_false]
    ins := by
      intro c hc r x hx
      have := lt_of_some hx
      rw [hadv c r (by omega), loaded_i hparts c r (by omega)]
      exact getD_some (by rw [fi.plain c r hc, hx]; rfl)
    insRun := by
      intro r x hx
      have := lt_of_some hx
      rw [List.length_cons, instAccs_len] at this
      rw [hadv 18 r (by omega), loaded_i hparts 18 r (by omega), hadv 19 r (by omega),
        loaded_i hparts 19 r (by omega)]
      exact ⟨getD_some (by rw [fi.prp r, hx]; rfl), getD_some (by rw [fi.rs r, hx]; rfl)⟩
    insStep := by
      intro s hs r
      rw [hsel, loaded_si hparts s r (by omega), fi.selStep s r hs, Bool.or_false]
    insAdhoc := by
      intro r
      rw [hsel, loaded_si hparts 10 r (by omega), fi.adhoc r, Bool.or_false]
    out := by
      intro r x hx
      have := lt_of_some hx
      rw [hadv 20 r (by omega), loaded_o hparts 20 r (by omega)]
      exact getD_some (by rw [fo.plain r, hx])
    outRun := by
      intro r x hx
      have := lt_of_some hx
      rw [List.length_cons, rsAccs_len] at this
      rw [hadv 21 r (by omega), loaded_o hparts 21 r (by omega)]
      exact getD_some (by rw [fo.run r, hx])
    outSel := by
      intro r
      rw [hsel, loaded_so hparts 12 r (by omega), fo.sel r, Bool.or_false]
    inp := by
      intro r x hx
      have := lt_of_some hx
      have := fn.vlen
      rw [hadv 22 r (by omega), loaded_n hparts 22 r (by omega)]
      exact getD_some (by rw [fn.plain r, hx])
    inpLen := by
      rw [hadv 23 0 (by omega), loaded_n hparts 23 0 (by omega)]
      exact getD_some fn.lenCell
    inpRun := by
      intro r x hx
      have := lt_of_some hx
      rw [List.length_cons, rsAccs_len, fn.vlen] at this
      rw [hadv 24 r (by omega), loaded_n hparts 24 r (by omega)]
      exact getD_some (by rw [fn.run r, hx])
    inpSel := by
      intro r
      rw [hsel, loaded_sn hparts 13 r (by omega), fn.sel r, Bool.or_false]
    prog := by
      intro r x hx
      have := lt_of_some hx
      have := fg.vlen
      rw [hadv 25 r (by omega), loaded_g hparts 25 r (by omega)]
      exact getD_some (by rw [fg.plain r, hx])
    progLen := by
      rw [hadv 26 0 (by omega), loaded_g hparts 26 0 (by omega)]
      exact getD_some fg.lenCell
    progRun := by
      intro r x hx
      have := lt_of_some hx
      rw [List.length_cons, rsAccs_len, fg.vlen] at this
      rw [hadv 27 r (by omega), loaded_g hparts 27 r (by omega)]
      exact getD_some (by rw [fg.run r, hx])
    progSel := by
      intro r
      rw [hsel, loaded_sg hparts 14 r (by omega), fg.sel r, Bool.or_false]
    fixed := by
      intro r hr
      rw [hfix 0 r hr, loaded_fixed, if_pos ⟨rfl, hr⟩, rangeValues_getD]
    instance_ := hc.instance_
    challenge := hc.challenge }

end Verif

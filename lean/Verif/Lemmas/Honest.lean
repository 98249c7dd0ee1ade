import Verif.Lemmas.HonestStep
import Verif.Lemmas.Finals

/-! Honest runs meet the row rules, and the ends of their running columns agree (helper for the
property theorems). -/

namespace Verif

open BF Spec Props

/-- A sorted list without gaps is steady. -/
theorem steady_of_sorted {ks : List Nat} {L : Nat} (hs : ks.Pairwise (· ≤ ·))
    (hall : ∀ i, i ≤ L → i ∈ ks) (hle : ∀ k ∈ ks, k ≤ L) : Steady ks := by
  intro i a b ha hb
  have hpw := List.pairwise_iff_getElem.1 hs
  obtain ⟨h1, e1⟩ := List.getElem?_eq_some_iff.1 ha
  obtain ⟨h2, e2⟩ := List.getElem?_eq_some_iff.1 hb
  have hab := hpw i (i + 1) h1 h2 (by omega)
  rw [e1, e2] at hab
  by_contra hcon
  have hb' := hle b (List.mem_of_getElem? hb)
  obtain ⟨j, hj, e⟩ := List.getElem_of_mem (hall (a + 1) (by omega))
  rcases Nat.lt_or_ge i j with h | h
  · rcases Nat.lt_or_ge (i + 1) j with h' | h'
    · have := hpw (i + 1) j h2 hj h'; omega
    · have : j = i + 1 := by omega
      subst this; omega
  · rcases Nat.lt_or_ge j i with h' | h'
    · have := hpw j i hj h1 h'; omega
    · have : j = i := by omega
      subst this; omega

theorem getLast_of_sorted {ks : List Nat} {L : Nat} (hs : ks.Pairwise (· ≤ ·)) (hL : L ∈ ks)
    (hle : ∀ k ∈ ks, k ≤ L) : ks.getLast? = some L := by
  have hne : ks ≠ [] := List.ne_nil_of_mem hL
  rw [List.getLast?_eq_getLast_of_ne_nil hne]
  congr 1
  have h1 := hle _ (List.getLast_mem hne)
  obtain ⟨j, hj, e⟩ := List.getElem_of_mem hL
  rw [List.getLast_eq_getElem]
  rw [List.getLast_eq_getElem] at h1
  by_cases h : j = ks.length - 1
  · subst h; exact e
  · have := List.pairwise_iff_getElem.1 hs j (ks.length - 1) hj (by omega) (by omega)
    omega

theorem head_of_sorted {ks : List Nat} (hs : ks.Pairwise (· ≤ ·)) (h0 : 0 ∈ ks) :
    ∃ l, ks = 0 :: l := by
  cases ks with
  | nil => simp at h0
  | cons a l =>
    rcases List.mem_cons.1 h0 with h | h
    · exact ⟨l, by rw [h]⟩
    · have := (List.pairwise_cons.1 hs).1 0 h
      exact ⟨l, by rw [show a = 0 by omega]⟩

section

variable {checks : Bool} {src : List UInt8} {code : List Fr} {input : List Nat} {n : Nat} {s : Interp}
  {wcode : List Nat} {hist : List W} {w : W} {m : Nat} {t : State}

theorem Props.Finished.processor {bits : Nat} (h : Finished src bits input code n s wcode hist w m t) :
    s.matrix.processor = (hist ++ [w]).map (W.reg wcode) := by
  rw [h.result]; simp [Interp.finish, Interp.record, W.emb]

theorem Props.Finished.get {bits : Nat} (h : Finished src bits input code n s wcode hist w m t)
    {i : Nat} {r : Register} (hr : s.matrix.processor[i]? = some r) :
    ∃ a, (hist ++ [w])[i]? = some a ∧ r = a.reg wcode := by
  rw [h.processor, List.getElem?_map] at hr
  cases hw : (hist ++ [w])[i]? with
  | none => rw [hw] at hr; cases hr
  | some a => rw [hw] at hr; cases hr; exact ⟨a, rfl, rfl⟩

theorem Props.Finished.lastIp {bits : Nat} (h : Finished src bits input code n s wcode hist w m t) :
    w.ip = wcode.length := by
  have h1 := h.fin.2
  have h2 := h.rel.pc
  unfold Halted at h1
  rw [h.rel.ip, h.comp.length, show t.pc = (commands src).length by omega]

theorem Props.Finished.lastCi {bits : Nat} (h : Finished src bits input code n s wcode hist w m t) :
    w.ci wcode = 0 := by
  unfold W.ci
  rw [h.lastIp, List.getD_eq_getElem?_getD, List.getElem?_eq_none (le_refl _)]; rfl

/-- The instruction table, as the list of its program positions. -/
theorem honest_instr {bits : Nat} (hp : GoodProgram checks src code) (hb : bits < 64)
    (hi : GoodInput bits input) (hn : n ≤ 2 ^ 62)
    (hr : runOn n bits code input = some (.ok s)) :
    ∃ ks ips : List Nat, s.matrix.instruction = ks.map (programRow code) ∧ Steady ks ∧
      (∃ l, ks = 0 :: l) ∧ ks.getLast? = some code.length ∧ (∀ k ∈ ks, k ≤ code.length) ∧
      code.length < P ∧
      ks.Perm (List.range code.length ++ ips) ∧
      s.matrix.processor.map (fun r =>
        (⟨r.instruction_pointer, r.current_instruction, r.next_instruction⟩ : InstrRow)) =
        ips.map (programRow code) := by
  obtain ⟨h1, h2, h3, -⟩ := C09_instruction_table checks src code bits input n s hp hb hi hn hr
  obtain ⟨wcode, hist, w, m, t, h⟩ := finished_of_run hp hb hi hn hr
  have hl : code.length < P := by
    have := h.ok.len
    rw [h.code_eq, W.length_cast]
    exact lt_P_of_lt (k := 64) (by omega) (by norm_num)
  have hval : ∀ i, i ≤ code.length → (programRow code i).instruction_pointer.val = i := by
    intro i hi'; exact Fr.val_cast (by omega)
  -- the positions of the processor rows
  have hips : s.matrix.processor.map (fun r =>
        (⟨r.instruction_pointer, r.current_instruction, r.next_instruction⟩ : InstrRow)) =
        ((hist ++ [w]).map W.ip).map (programRow code) := by
    rw [h.processor, List.map_map, List.map_map]
    apply List.map_congr_left
    intro a _
    show _ = (⟨(a.ip : Fr), code.getD a.ip 0, code.getD (a.ip + 1) 0⟩ : InstrRow)
    rw [h.code_eq, getD_cast, getD_cast]
    rfl
  have hipsle : ∀ k ∈ (hist ++ [w]).map W.ip, k ≤ code.length := by
    intro k hk
    obtain ⟨a, ha, rfl⟩ := List.mem_map.1 hk
    obtain ⟨i, hi', hia⟩ := List.getElem_of_mem ha
    have hai : (hist ++ [w])[i]? = some a := by rw [List.getElem?_eq_getElem hi', hia]
    rw [h.code_eq, W.length_cast]
    by_cases hlast : i = hist.length
    · subst hlast
      simp at hai
      subst hai
      exact le_of_eq h.lastIp
    · have hl : i + 1 < (hist ++ [w]).length := by simp at hi' ⊢; omega
      have := (h.trace.next i a _ hai (List.getElem?_eq_getElem hl)).1
      simp [W.halted] at this
      omega
  let ks := s.matrix.instruction.map (fun r => r.instruction_pointer.val)
  have hks : s.matrix.instruction = ks.map (programRow code) := by
    show _ = (s.matrix.instruction.map _).map _
    rw [List.map_map]
    symm
    conv_rhs => rw [← List.map_id s.matrix.instruction]
    apply List.map_congr_left
    intro r hr'
    obtain ⟨i, hi', rfl⟩ := h3 r hr'
    show programRow code (programRow code i).instruction_pointer.val = _
    rw [hval i hi']; rfl
  have hperm : ks.Perm (List.range code.length ++ (hist ++ [w]).map W.ip) := by
    have h4 := h2.map (fun r => r.instruction_pointer.val)
    rw [hips, List.map_append, List.map_map, List.map_map] at h4
    refine h4.trans ?_
    rw [show (List.range code.length).map ((fun r => r.instruction_pointer.val) ∘ programRow code) =
      (List.range code.length).map id from List.map_congr_left (fun i hi' =>
        hval i (le_of_lt (List.mem_range.1 hi'))),
      show ((hist ++ [w]).map W.ip).map ((fun r => r.instruction_pointer.val) ∘ programRow code) =
      ((hist ++ [w]).map W.ip).map id from List.map_congr_left (fun i hi' => hval i (hipsle i hi')),
      List.map_id, List.map_id]
  have hle : ∀ k ∈ ks, k ≤ code.length := by
    intro k hk
    rcases List.mem_append.1 (hperm.subset hk) with h5 | h5
    · exact le_of_lt (List.mem_range.1 h5)
    · exact hipsle k h5
  have hall : ∀ i, i ≤ code.length → i ∈ ks := by
    intro i hi'
    refine hperm.symm.subset ?_
    rw [List.mem_append]
    by_cases e : i = code.length
    · right
      refine List.mem_map.2 ⟨w, by simp, ?_⟩
      rw [h.lastIp, e, h.code_eq, W.length_cast]
    · left; rw [List.mem_range]; omega
  have hsorted : ks.Pairwise (· ≤ ·) := by
    show (s.matrix.instruction.map _).Pairwise _
    rw [List.pairwise_map]
    exact h1
  exact ⟨ks, (hist ++ [w]).map W.ip, hks, steady_of_sorted hsorted hall hle,
    head_of_sorted hsorted (hall 0 (by omega)), getLast_of_sorted hsorted (hall _ (le_refl _)) hle,
    hle, hl, hperm, hips⟩

/-- Honest runs meet the row rules. -/
theorem honest_rows (hp : GoodProgram checks src code) (hi : GoodInput 8 input) (hn : n ≤ 2 ^ 62)
    (hr : runOn n 8 code input = some (.ok s)) : GoodRows s.matrix := by
  obtain ⟨wcode, hist, w, m, t, h⟩ := finished_of_run hp (by norm_num) hi hn hr
  obtain ⟨ks, ips, k1, k2, ⟨l, k3⟩, -⟩ := honest_instr hp (by norm_num) hi hn hr
  have hinv := C11_inverse_column 8 n code (toFr input) s hr
  obtain ⟨-, -, hmem, -⟩ := C10_memory_table checks src code 8 input n s hp (by norm_num) hi hn hr
  have hc : ∀ r ∈ s.matrix.processor,
      r.memory_value * (r.memory_value * r.memory_value_inverse - 1) = 0 ∧
      r.memory_value_inverse * (r.memory_value * r.memory_value_inverse - 1) = 0 := by
    intro r hr'
    obtain ⟨h1, h2⟩ := hinv r hr'
    by_cases hz : r.memory_value = 0
    · rw [h1 hz, hz]; simp
    · rw [h2 hz]; simp
  exact
  { first := by
      refine ⟨W.reg wcode (W.init input), ?_, ?_, ?_, ?_, ?_⟩
      · rw [h.processor, List.getElem?_map, h.trace.first]; rfl
      · show ((0 : Nat) : Fr) = 0; simp
      · show ((0 : Nat) : Fr) = 0; simp
      · show ((0 : Nat) : Fr) = 0; simp
      · show ((0 : Nat) : Fr) = 0; simp
    inv := hc
    step := by
      intro i r r' hr1 hr2
      have hmem1 := hc r (List.mem_of_getElem? hr1)
      obtain ⟨a, ha, rfl⟩ := h.get hr1
      obtain ⟨b, hb, rfl⟩ := h.get hr2
      obtain ⟨c, hci⟩ := trace_ci h.trace h.comp h.ok hp.balanced hi ha hb
      have hst := (h.trace.next i a b ha hb).2
      have hrow := step_row c hci (h.trace.inv h.ok hi ha) hst
      refine ⟨opOf c, opOf_mem c, ?_, ?_, ?_, ?_, ?_⟩
      · show ((a.ci wcode : Nat) : Fr) = _
        rw [hci, opOf_fr]
      · show (b.cyc : Fr) = (a.cyc : Fr) + 1
        rw [W.step_cyc hst]; simp
      · rw [polyP1_iff (opOf_mem c) _ _ _ _ _ hmem1.1 hmem1.2]
        exact hrow.ip
      · rw [polyP2_iff (opOf_mem c)]
        exact hrow.mp
      · rw [polyP3_iff (opOf_mem c)]
        exact ⟨hrow.add, hrow.sub, hrow.keep⟩
    mem := hmem
    ins := by
      intro i r r' hr1 hr2
      rw [k1, List.getElem?_map] at hr1 hr2
      cases e1 : ks[i]? with
      | none => rw [e1] at hr1; cases hr1
      | some a =>
        cases e2 : ks[i + 1]? with
        | none => rw [e2] at hr2; cases hr2
        | some b =>
          rw [e1] at hr1
          rw [e2] at hr2
          cases hr1
          cases hr2
          rcases k2 i a b e1 e2 with e | e
          · left; rw [e]
          · right
            show (b : Fr) = (a : Fr) + 1
            rw [e]; simp
    insNe := by rw [k1, k3]; simp }

/-- Filling the processor table of an honest run does not fail. -/
theorem procAccs_total {ch : Nat → Fr} : ∀ (rows : List Register) (a : ProcAcc),
    (∀ r, rows.getLast? = some r → r.current_instruction ≠ frOfByte GETCHAR) →
    ∃ as, procAccs cCfg ch a rows = .ok as := by
  intro rows
  induction rows with
  | nil => intro a _; exact ⟨[], rfl⟩
  | cons r rows ih =>
    intro a hl
    have hnext : ∃ a', a.next cCfg ch r rows.head? = .ok a' := by
      unfold ProcAcc.next
      simp only
      by_cases hg : r.current_instruction = frOfByte GETCHAR
      · rw [if_pos hg]
        cases rows with
        | nil => exact absurd hg (hl r rfl)
        | cons b rest => exact ⟨_, rfl⟩
      · rw [if_neg hg]; exact ⟨_, rfl⟩
    obtain ⟨a', ha⟩ := hnext
    obtain ⟨as, has⟩ := ih a' (by
      intro q hq
      cases rows with
      | nil => simp at hq
      | cons b rest => exact hl q (by rw [List.getLast?_cons_cons]; exact hq))
    refine ⟨a' :: as, ?_⟩
    unfold procAccs
    rw [ha]
    show (do let as ← procAccs cCfg ch a' rows; .ok (a' :: as)) = _
    rw [has]
    rfl

theorem honest_last (h : Finished src 8 input code n s wcode hist w m t) :
    ∀ r, s.matrix.processor.getLast? = some r → r.current_instruction = 0 := by
  intro r hr
  rw [h.processor, List.map_append, List.map_singleton, List.getLast?_concat] at hr
  cases hr
  show ((w.ci wcode : Nat) : Fr) = 0
  rw [h.lastCi]; simp

theorem get_ne_zero : (0 : Fr) ≠ frOfByte GETCHAR ∧ (0 : Fr) ≠ frOfByte PUTCHAR := by
  decide +kernel

/-- The running sums of the processor table follow the output and the input read. -/
theorem honest_sums (hp : GoodProgram checks src code) (hi : GoodInput 8 input) {ch : Nat → Fr}
    {as : List ProcAcc} (h : Finished src 8 input code n s wcode hist w m t)
    (hacc : procAccs cCfg ch procInit s.matrix.processor = .ok as) :
    ∀ (i : Nat) a z, (hist ++ [w])[i]? = some a → (procInit :: as)[i]? = some z →
      z.outputRs = runSum (ch 9) 0 (W.cast a.out) ∧ z.inputRs = runSum (ch 10) 0 (W.cast a.read) := by
  intro i a z ha hz
  refine h.trace.induct (Q := fun i a => ∀ z, (procInit :: as)[i]? = some z →
      z.outputRs = runSum (ch 9) 0 (W.cast a.out) ∧ z.inputRs = runSum (ch 10) 0 (W.cast a.read))
      ?_ ?_ i a ha z hz
  · intro z hz
    rw [List.getElem?_cons_zero, Option.some.injEq] at hz
    subst hz
    exact ⟨rfl, rfl⟩
  · intro i a b hq ha hb _ hs z hz
    have hproc : ∀ (i : Nat) a, (hist ++ [w])[i]? = some a →
        s.matrix.processor[i]? = some (a.reg wcode) := by
      intro i a ha; rw [h.processor, List.getElem?_map, ha]; rfl
    obtain ⟨x, y, hx, hy, hn⟩ := procAccs_step hacc i _ (hproc i a ha)
    rw [hz] at hy
    cases hy
    obtain ⟨q1, q2⟩ := hq x hx
    obtain ⟨-, -, n1, n2, n3⟩ := ProcAcc.next_ok hn
    obtain ⟨c, hci⟩ := trace_ci h.trace h.comp h.ok hp.balanced hi ha hb
    have hrow := step_row c hci (h.trace.inv h.ok hi ha) hs
    have hcur : (a.reg wcode).current_instruction = frOfByte (opOf c) := by
      show ((a.ci wcode : Nat) : Fr) = _
      rw [hci, opOf_fr]
    have hcast : ∀ (l : List Nat) (v : Nat), W.cast (l ++ [v]) = W.cast l ++ [(v : Fr)] := by
      intro l v; simp [W.cast]
    constructor
    · rw [n1, hcur]
      by_cases e : opOf c = 46
      · rw [if_pos (by rw [e]; rfl), hrow.put e, hcast, runSum_append, q1]
        show _ * ch 9 + (a.mv : Fr) = _
        ring
      · rw [if_neg (fun hh => e (show opOf c = PUTCHAR from frOfByte_inj.1 hh)), hrow.noPut e, q1]
    · by_cases e : opOf c = 44
      · obtain ⟨r', hr', n4⟩ := n2 (by rw [hcur, e]; rfl)
        rw [hproc _ _ hb] at hr'
        cases hr'
        rw [n4, hrow.get e, hcast, runSum_append, q2]
        show _ * ch 10 + (b.mv : Fr) = _
        ring
      · rw [n3 (fun hh => e (show opOf c = GETCHAR from frOfByte_inj.1 (by rw [← hcur, hh]))), hrow.noGet e, q2]

/-- The ends of the running columns of an honest run. -/
theorem honest_finals (hp : GoodProgram checks src code) (hi : GoodInput 8 input) (hn : n ≤ 2 ^ 62)
    (hr : runOn n 8 code input = some (.ok s)) {ch : Nat → Fr} {as : List ProcAcc}
    (hacc : procAccs cCfg ch procInit s.matrix.processor = .ok as) :
    ∃ z, (procInit :: as)[s.matrix.processor.length]? = some z ∧
      ((3 : Fr) :: memAccs cCfg ch 3 s.matrix.memory)[s.matrix.memory.length]? = some z.memPrp ∧
      (((9 : Fr), (0 : Fr)) :: instAccs cCfg ch (9, 0) s.matrix.instruction)[s.matrix.instruction.length]?
        = some (z.instPrp, runSum (ch 8) 0 code) ∧
      z.outputRs = runSum (ch 9) 0 s.matrix.output ∧
      z.inputRs = runSum (ch 10) 0 s.matrix.input := by
  obtain ⟨wcode, hist, w, m, t, h⟩ := finished_of_run hp (by norm_num) hi hn hr
  obtain ⟨z, h1, h2, h3⟩ := procAccs_final hacc
  refine ⟨z, h1, ?_, ?_, ?_⟩
  · rw [memAccs_final, h2]
    congr 2
    obtain ⟨hperm, -⟩ := C10_memory_table checks src code 8 input n s hp (by norm_num) hi hn hr
    have := (hperm.map (memFactor ch)).prod_eq
    rw [this, List.map_map]
    rfl
  · obtain ⟨ks, ips, k1, k2, ⟨l, k3⟩, k4, k5, k6, k7, k8⟩ := honest_instr hp (by norm_num) hi hn hr
    have hfin := instAccs_final (ch := ch) (programRow code)
      (fun i j hi' hj' => Fr.cast_inj hi' hj') ks (fun k hk => lt_of_le_of_lt (k5 k hk) k6) (9, 0)
    rw [k1, List.length_map, hfin, h3]
    have hmoves : moves ks = List.range code.length := by
      have := moves_range l 0 code.length (by rw [← k3]; exact k2) (by rw [← k3]; exact k4)
      rw [k3, this.2, List.range_eq_range', Nat.sub_zero]
    have hstays : (stays ks).Perm ips := by
      have h5 := (stays_moves ks).trans k7
      rw [hmoves] at h5
      exact (List.perm_append_left_iff _).1 h5
    congr 2
    · congr 1
      have h6 := (hstays.map (fun k => instFactor ch (programRow code k))).prod_eq
      rw [h6]
      have h7 : ips.map (fun k => instFactor ch (programRow code k)) =
          (ips.map (programRow code)).map (instFactor ch) := by rw [List.map_map]; rfl
      rw [h7, ← k8, List.map_map]
      rfl
    · rw [hmoves]
      congr 1
      show (List.range code.length).map (fun k => code.getD k 0) = code
      apply List.ext_getElem
      · simp
      · intro i h6 h7
        simp [List.getElem?_eq_getElem h7]
  · have hproc := h.processor
    have hlen : s.matrix.processor.length = hist.length + 1 := by rw [hproc]; simp
    have hw : (hist ++ [w])[hist.length]? = some w := by simp
    have hrw : s.matrix.processor[hist.length]? = some (w.reg wcode) := by
      rw [hproc, List.getElem?_map, hw]; rfl
    obtain ⟨x, y, hx, hy, hnx⟩ := procAccs_step hacc hist.length _ hrw
    rw [hlen, hy] at h1
    cases h1
    obtain ⟨s1, s2⟩ := honest_sums hp hi h hacc hist.length w x hw hx
    obtain ⟨-, -, n1, n2, n3⟩ := ProcAcc.next_ok hnx
    have hcur : (w.reg wcode).current_instruction = 0 := by
      show ((w.ci wcode : Nat) : Fr) = 0
      rw [h.lastCi]; simp
    rw [hcur] at n1 n3
    rw [n1, if_neg get_ne_zero.2, n3 get_ne_zero.1, s1, s2]
    have e1 : s.matrix.output = W.cast w.out := by rw [h.result]; rfl
    have e2 : s.matrix.input = W.cast w.read := by rw [h.result]; rfl
    rw [e1, e2]
    exact ⟨rfl, rfl⟩

end

end Verif

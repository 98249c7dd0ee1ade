import Verif.Lemmas.SoundRun
import Verif.Lemmas.ForgeLemmas

/-! Honest assignments meet the constraints the circuit lacks (helper for the property theorems). -/

namespace Verif

open BF Spec Props

section

variable {checks : Bool} {src : List UInt8} {code : List Fr} {input : List Nat} {n : Nat}
  {s : Interp} {wcode : List Nat} {hist : List W} {w : W} {m : Nat} {t : State} {rows : Nat}
  {ch : Nat → Fr} {inst : Nat → List Fr} {as : List ProcAcc} {vin vcode : List Fr} {g : Grid}

theorem honest_ci (h : Finished src 8 input code n s wcode hist w m t)
    (hf : Filled rows s.matrix ch inst as vin vcode g) {i : Nat} {a : W}
    (ha : (hist ++ [w])[i]? = some a) :
    (row g i).ci = (a.ci wcode : Fr) ∧ (row g i).ip = (a.ip : Fr) := by
  have hr : s.matrix.processor[i]? = some (a.reg wcode) := by
    rw [h.processor, List.getElem?_map, ha]; rfl
  exact ⟨hf.proc 1 (by omega) i _ hr, hf.proc 2 (by omega) i _ hr⟩

/-- The numbers of rows at `,` and at `.`. -/
theorem honest_counts (hp : GoodProgram checks src code) (hi : GoodInput 8 input)
    (h : Finished src 8 input code n s wcode hist w m t)
    (hf : Filled rows s.matrix ch inst as vin vcode g) :
    ∀ (i : Nat) a, (hist ++ [w])[i]? = some a →
      ((List.range i).filter fun j => (row g j).ci = (byteOf .get : Fr)).length = a.read.length ∧
      ((List.range i).filter fun j => (row g j).ci = (byteOf .put : Fr)).length = a.out.length := by
  refine h.trace.induct (Q := fun i a =>
      ((List.range i).filter fun j => (row g j).ci = (byteOf .get : Fr)).length = a.read.length ∧
      ((List.range i).filter fun j => (row g j).ci = (byteOf .put : Fr)).length = a.out.length)
    ⟨rfl, rfl⟩ ?_
  intro i a b hq ha hb _ hs
  obtain ⟨c, hci⟩ := trace_ci h.trace h.comp h.ok hp.balanced hi ha hb
  have hrow := step_row c hci (h.trace.inv h.ok hi ha) hs
  have hcur : (row g i).ci = frOfByte (opOf c) := by
    rw [(honest_ci h hf ha).1, hci, opOf_fr]
  rw [List.range_succ, List.filter_append, List.filter_append, List.length_append,
    List.length_append, hq.1, hq.2]
  constructor
  · by_cases e : opOf c = 44
    · rw [hrow.get e, List.filter_cons_of_pos (by rw [hcur, e]; decide +kernel)]; simp
    · rw [hrow.noGet e, List.filter_cons_of_neg]
      · simp
      · rw [hcur, opOf_fr, decide_eq_true_iff, frOfByte_inj]
        intro hh; exact e (by rw [hh]; rfl)
  · by_cases e : opOf c = 46
    · rw [hrow.put e, List.filter_cons_of_pos (by rw [hcur, e]; decide +kernel)]; simp
    · rw [hrow.noPut e, List.filter_cons_of_neg]
      · simp
      · rw [hcur, opOf_fr, decide_eq_true_iff, frOfByte_inj]
        intro hh; exact e (by rw [hh]; rfl)

/-- Honest assignments meet the missing constraints. -/
theorem honest_repaired (hp : GoodProgram checks src code) (hi : GoodInput 8 input) (hn : n ≤ 2 ^ 62)
    (hr : runOn n 8 code input = some (.ok s))
    (hf : Filled rows s.matrix ch inst as vin vcode g) :
    Repaired s.matrix code.length g ∧ OutputSums s.matrix g ∧
      commandCount s.matrix g .put = s.matrix.output.length ∧
      (row g (s.matrix.processor.length - 1)).ci = 0 := by
  obtain ⟨wcode, hist, w, m, t, h⟩ := finished_of_run hp (by norm_num) hi hn hr
  have hlen : s.matrix.processor.length = hist.length + 1 := by rw [h.processor]; simp
  have hw : (hist ++ [w])[hist.length]? = some w := by simp
  have hlast : (row g (s.matrix.processor.length - 1)).ci = 0 := by
    rw [hlen, Nat.add_sub_cancel, (honest_ci h hf hw).1, h.lastCi]; simp
  obtain ⟨c1, c2⟩ := honest_counts hp hi h hf hist.length w hw
  have e1 : s.matrix.output = W.cast w.out := by rw [h.result]; rfl
  have e2 : s.matrix.input = W.cast w.read := by rw [h.result]; rfl
  have hp0 : ∀ c, 7 ≤ c ∧ c ≤ 10 → g.advice c 0 = procRun c procInit := fun c hc =>
    hf.procRun c hc 0 _ rfl
  have hrw : s.matrix.processor[hist.length]? = some (w.reg wcode) := by
    rw [h.processor, List.getElem?_map, hw]; rfl
  obtain ⟨x, y, hx, hy, hnx⟩ := procAccs_step hf.accs hist.length _ hrw
  obtain ⟨-, -, n1, -, n3⟩ := ProcAcc.next_ok hnx
  have hcur : (w.reg wcode).current_instruction = 0 := by
    show ((w.ci wcode : Nat) : Fr) = 0
    rw [h.lastCi]; simp
  rw [hcur] at n1 n3
  rw [if_neg get_ne_zero.2] at n1
  have n3' := n3 get_ne_zero.1
  obtain ⟨ks, ips, k1, k2, ⟨l, k3⟩, k4, k5, k6, k7, k8⟩ := honest_instr hp (by norm_num) hi hn hr
  obtain ⟨-, m2, -, m4⟩ := C10_memory_table checks src code 8 input n s hp (by norm_num) hi hn hr
  have hi0 := hf.insRun 0 _ rfl
  have hIlen : s.matrix.instruction.length = l.length + 1 := by rw [k1, k3]; simp
  have hcl : code.length = wcode.length := by rw [h.code_eq, W.length_cast]
  refine ⟨?_, ?_, ?_, hlast⟩
  · refine
    { memStarts := ?_, insStarts := ?_, programSums := ?_, inputSums := ?_, memOrder := ?_,
      insOrder := ?_, running := ?_, reads := ?_ }
    · refine ⟨?_, ?_⟩
      · show g.advice 7 0 = g.advice 14 0
        rw [hp0 7 (by omega), hf.memRun 0 _ rfl]; rfl
      · show g.advice 14 0 ≠ 0
        rw [hf.memRun 0 _ rfl]; decide +kernel
    · refine ⟨?_, ?_⟩
      · show g.advice 8 0 = g.advice 18 0
        rw [hp0 8 (by omega), hi0.1]; rfl
      · show g.advice 18 0 ≠ 0
        rw [hi0.1]; decide +kernel
    · refine ⟨hi0.2, hf.progRun 0 _ rfl, ?_⟩
      show g.advice 19 _ = g.advice 19 _
      obtain ⟨r, hrI⟩ := some_of_lt (show l.length < s.matrix.instruction.length by omega)
      obtain ⟨z, z1, z2⟩ := instAccs_step (ch := ch) s.matrix.instruction (9, 0) l.length r hrI
      rw [List.getElem?_eq_none (show s.matrix.instruction.length ≤ l.length + 1 by omega)] at z2
      rw [hIlen, (hf.insRun _ _ z2).2, Nat.add_sub_cancel, (hf.insRun _ _ z1).2]
      show (instNext ch r r z).2 = z.2
      unfold instNext
      rw [if_pos rfl]
    · refine ⟨hp0 10 (by omega), hf.inpRun 0 _ rfl, ?_⟩
      show g.advice 10 _ = g.advice 10 _
      rw [hlen, hf.procRun 10 (by omega) _ _ hy, Nat.add_sub_cancel, hf.procRun 10 (by omega) _ _ hx]
      exact n3'
    · refine ⟨hf.mem 12 (by omega) 0 _ m4, ?_⟩
      intro k hk he
      obtain ⟨a, ha⟩ := some_of_lt (show k < s.matrix.memory.length by omega)
      obtain ⟨b, hb⟩ := some_of_lt hk
      have hab : g.advice 12 (k + 1) = g.advice 12 k := he
      show (g.advice 11 k).val < (g.advice 11 (k + 1)).val
      rw [hf.mem 12 (by omega) _ _ ha, hf.mem 12 (by omega) _ _ hb] at hab
      rw [hf.mem 11 (by omega) _ _ ha, hf.mem 11 (by omega) _ _ hb]
      have hab' : b.memory_pointer = a.memory_pointer := hab
      obtain ⟨g1, q1⟩ := List.getElem?_eq_some_iff.1 ha
      obtain ⟨g2, q2⟩ := List.getElem?_eq_some_iff.1 hb
      have := List.pairwise_iff_getElem.1 m2 k (k + 1) g1 g2 (by omega)
      rw [q1, q2, hab'] at this
      rcases this with h1 | h1
      · exact absurd h1 (lt_irrefl _)
      · exact h1.2
    · have hI : ∀ (k : Nat) a, ks[k]? = some a →
          s.matrix.instruction[k]? = some (programRow code a) := by
        intro k a ha; rw [k1, List.getElem?_map, ha]; rfl
      refine ⟨?_, ?_, ?_⟩
      · have := hf.ins 15 (by omega) 0 _ (hI 0 0 (by rw [k3]; rfl))
        show g.advice 15 0 = 0
        rw [this]
        show ((0 : Nat) : Fr) = 0
        simp
      · rw [List.getLast?_eq_getElem?] at k4
        have hkl : ks.length = s.matrix.instruction.length := by rw [k1, List.length_map]
        rw [hkl] at k4
        exact hf.ins 15 (by omega) _ _ (hI _ _ k4)
      · intro k hk hne
        have hkl : ks.length = s.matrix.instruction.length := by rw [k1, List.length_map]
        obtain ⟨a, ha⟩ := some_of_lt (show k < ks.length by omega)
        obtain ⟨b, hb⟩ := some_of_lt (show k + 1 < ks.length by omega)
        have hne' : g.advice 15 (k + 1) ≠ g.advice 15 k := hne
        show g.advice 17 k = g.advice 16 (k + 1)
        rw [hf.ins 15 (by omega) _ _ (hI _ _ ha), hf.ins 15 (by omega) _ _ (hI _ _ hb)] at hne'
        rw [hf.ins 17 (by omega) _ _ (hI _ _ ha), hf.ins 16 (by omega) _ _ (hI _ _ hb)]
        rcases k2 k a b ha hb with e | e
        · exact absurd (by rw [e]) hne'
        · subst e; rfl
    · intro i hi'
      obtain ⟨a, ha⟩ := some_of_lt (show i < (hist ++ [w]).length by simp; omega)
      obtain ⟨b, hb⟩ := some_of_lt (show i + 1 < (hist ++ [w]).length by simp; omega)
      have hh := (h.trace.next i a b ha hb).1
      simp [W.halted] at hh
      rw [(honest_ci h hf ha).2]
      intro heq
      rw [Fr.cast_inj (by omega) k6] at heq
      omega
    · show ((List.range (s.matrix.processor.length - 1)).filter _).length = _
      rw [hlen, Nat.add_sub_cancel, c1, e2, W.length_cast]
  · refine ⟨hp0 9 (by omega), hf.outRun 0 _ rfl, ?_⟩
    show g.advice 9 _ = g.advice 9 _
    rw [hlen, hf.procRun 9 (by omega) _ _ hy, Nat.add_sub_cancel, hf.procRun 9 (by omega) _ _ hx]
    exact n1
  · show ((List.range (s.matrix.processor.length - 1)).filter _).length = _
    rw [hlen, Nat.add_sub_cancel, c2, e1, W.length_cast]

end

end Verif

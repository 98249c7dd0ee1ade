import Verif.Lemmas.Forge

/-! Honest tables as ingredients of forged assignments, and a checker for concrete tables. -/

namespace Verif

open BF Spec Props

section

variable {checks : Bool} {src : List UInt8} {code : List Fr} {input : List Nat} {n : Nat}
  {s : Interp}

/-- The processor rows of a finished run follow the textbook machine. -/
theorem honest_row (hp : GoodProgram checks src code) (hi : GoodInput 8 input) (hn : n ≤ 2 ^ 62)
    (hr : runOn n 8 code input = some (.ok s)) {i : Nat} {r : Register}
    (hir : s.matrix.processor[i]? = some r) :
    ∃ t, Steps (commands src) 8 i (BF.init input) t ∧ r.cycle = (i : Fr) ∧
      r.instruction_pointer = (pos (commands src) t.pc : Fr) ∧ r.memory_pointer = (t.ptr : Fr) ∧
      r.memory_value = (t.tape t.ptr : Fr) := by
  obtain ⟨wcode, hist, w, m, t, h⟩ := finished_of_run hp (by norm_num) hi hn hr
  obtain ⟨a, ha, rfl⟩ := h.get hir
  obtain ⟨t, h1, h2⟩ := trace_rel h.trace h.comp h.ok hp.balanced hi ha
  refine ⟨t, h1, ?_, ?_, ?_, ?_⟩
  · show (a.cyc : Fr) = i
    rw [h.trace.cyc ha]
  · show (a.ip : Fr) = _
    rw [h2.ip]
  · show (a.mp : Fr) = _
    rw [h2.mp]
  · show (a.mv : Fr) = _
    unfold W.mv
    rw [h2.tape, h2.mp]

theorem steps_det {p : List Cmd} {bits m : Nat} {s t u : State} (h : Steps p bits m s t)
    (h' : Steps p bits m s u) : t = u := by
  have := h.split h' (le_refl _)
  rw [Nat.sub_self] at this
  exact this.zero_eq

/-- A genuine assignment shows the memory values of the finished run. -/
theorem genuine_mv (hp : GoodProgram checks src code) (hi : GoodInput 8 input) (hn : n ≤ 2 ^ 62)
    (hr : runOn n 8 code input = some (.ok s)) {len : Nat} {g : Grid}
    (hg : Genuine (commands src) input len g) {i : Nat} (hl : i < len) {r : Register}
    (hir : s.matrix.processor[i]? = some r) : g.advice 5 i = r.memory_value ∧
      g.advice 2 i = r.instruction_pointer := by
  obtain ⟨t, h1, -, h3, -, h5⟩ := hg i hl
  obtain ⟨t', h1', -, h3', -, h5'⟩ := honest_row hp hi hn hr hir
  have := steps_det h1 h1'
  subst this
  rw [h5', h3']
  exact ⟨h5, h3⟩

/-- An assignment listing the processor rows of a finished run is genuine for it. -/
theorem genuine_of_listed (hp : GoodProgram checks src code) (hi : GoodInput 8 input)
    (hn : n ≤ 2 ^ 62) (hr : runOn n 8 code input = some (.ok s)) {g : Grid}
    (hg : ∀ c, c ≤ 6 → ∀ (r : Nat) x, s.matrix.processor[r]? = some x → g.advice c r = procCol c x) :
    Genuine (commands src) input s.matrix.processor.length g := by
  intro i hl
  obtain ⟨r, hir⟩ := some_of_lt hl
  obtain ⟨t, h1, h2, h3, h4, h5⟩ := honest_row hp hi hn hr hir
  refine ⟨t, h1, ?_, ?_, ?_, ?_⟩
  · show g.advice 0 i = _
    rw [hg 0 (by omega) i r hir]; exact h2
  · show g.advice 2 i = _
    rw [hg 2 (by omega) i r hir]; exact h3
  · show g.advice 4 i = _
    rw [hg 4 (by omega) i r hir]; exact h4
  · show g.advice 5 i = _
    rw [hg 5 (by omega) i r hir]; exact h5

/-- The products of the tables of a finished run agree. -/
theorem honest_products (hp : GoodProgram checks src code) (hi : GoodInput 8 input)
    (hn : n ≤ 2 ^ 62) (hr : runOn n 8 code input = some (.ok s)) (ch : Nat → Fr) :
    (3 : Fr) * (s.matrix.processor.map (procMemFactor ch)).prod =
      3 * (s.matrix.memory.map (memFactor ch)).prod ∧
    (9 : Fr) * (s.matrix.processor.map (procInstFactor ch)).prod =
      9 * ((stayRows s.matrix.instruction).map (instFactor ch)).prod := by
  obtain ⟨wcode, hist, w, m, t, h⟩ := finished_of_run hp (by norm_num) hi hn hr
  obtain ⟨as, has⟩ := procAccs_total (ch := ch) s.matrix.processor procInit
    (fun r hr' => by rw [honest_last h r hr']; exact get_ne_zero.1)
  obtain ⟨z, f1, f2, f3, -⟩ := honest_finals hp hi hn hr has
  obtain ⟨z', z1, z2, z3⟩ := procAccs_final has
  rw [f1] at z1
  cases z1
  rw [memAccs_final] at f2
  obtain ⟨e, he⟩ := instAccs_prp (ch := ch) s.matrix.instruction (9, 0)
  rw [f3] at he
  simp only [Option.some.injEq, Prod.mk.injEq] at f2 he
  constructor
  · rw [f2, z2]; rfl
  · rw [← he.1, z3]; rfl

theorem honest_lastNe (hp : GoodProgram checks src code) (hi : GoodInput 8 input)
    (hn : n ≤ 2 ^ 62) (hr : runOn n 8 code input = some (.ok s)) :
    ∀ r, s.matrix.processor.getLast? = some r → r.current_instruction ≠ frOfByte GETCHAR := by
  obtain ⟨wcode, hist, w, m, t, h⟩ := finished_of_run hp (by norm_num) hi hn hr
  intro r hr'
  rw [honest_last h r hr']
  exact get_ne_zero.1

theorem honest_val (hp : GoodProgram checks src code) (hi : GoodInput 8 input)
    (hn : n ≤ 2 ^ 62) (hr : runOn n 8 code input = some (.ok s)) :
    ∀ r ∈ s.matrix.processor, r.memory_value.val < 256 := by
  obtain ⟨wcode, hist, w, m, t, h⟩ := finished_of_run hp (by norm_num) hi hn hr
  intro r hr'
  obtain ⟨i, hi', e⟩ := List.getElem_of_mem hr'
  obtain ⟨v, hv, e'⟩ := honest_bytes hi h i r (by rw [List.getElem?_eq_getElem hi', e])
  rw [e', Fr.val_cast (lt_P_of_lt (k := 8) hv (by norm_num))]
  exact hv

end

/-- Neighbouring entries. -/
def pairs {α : Type} (l : List α) : List (α × α) := l.zip l.tail

theorem mem_pairs {α : Type} {l : List α} {i : Nat} {a b : α} (ha : l[i]? = some a)
    (hb : l[i + 1]? = some b) : (a, b) ∈ pairs l := by
  unfold pairs
  have : (l.zip l.tail)[i]? = some (a, b) := by
    rw [List.getElem?_zip_eq_some]
    exact ⟨ha, by rw [List.getElem?_tail]; exact hb⟩
  exact List.mem_of_getElem? this

/-- Checks the conditions of `GoodRows` and the byte range. -/
def goodRows (mx : Matrix) : Bool :=
  (match mx.processor with
    | [] => false
    | r :: _ => decide (r.cycle = 0 ∧ r.instruction_pointer = 0 ∧ r.memory_pointer = 0 ∧
        r.memory_value = 0)) &&
  mx.processor.all (fun r => decide (
    r.memory_value * (r.memory_value * r.memory_value_inverse - 1) = 0 ∧
    r.memory_value_inverse * (r.memory_value * r.memory_value_inverse - 1) = 0 ∧
    r.memory_value.val < 256)) &&
  (pairs mx.processor).all (fun x => OPCODES.any fun op => decide (
    x.1.current_instruction = frOfByte op ∧ x.2.cycle = x.1.cycle + 1 ∧
      polyP1 (frOfByte op) x.1.instruction_pointer x.2.instruction_pointer x.1.memory_value
        x.1.memory_value_inverse x.1.next_instruction = 0 ∧
      polyP2 (frOfByte op) x.1.memory_pointer x.2.memory_pointer = 0 ∧
      polyP3 256 (frOfByte op) x.1.memory_value x.2.memory_value = 0)) &&
  (pairs mx.memory).all (fun x => decide (
    (x.2.memory_pointer = x.1.memory_pointer ∧
      (x.2.cycle ≠ x.1.cycle + 1 → x.2.memory_value = x.1.memory_value)) ∨
    (x.2.memory_pointer = x.1.memory_pointer + 1 ∧ x.2.memory_value = 0))) &&
  (pairs mx.instruction).all (fun x => decide (
    x.2 = x.1 ∨ x.2.instruction_pointer = x.1.instruction_pointer + 1)) &&
  !mx.instruction.isEmpty

theorem goodRows_sound {mx : Matrix} (h : goodRows mx = true) :
    GoodRows mx ∧ ∀ r ∈ mx.processor, r.memory_value.val < 256 := by
  unfold goodRows at h
  simp only [Bool.and_eq_true, List.all_eq_true, decide_eq_true_eq, List.any_eq_true,
    Bool.not_eq_true', List.isEmpty_eq_false_iff] at h
  obtain ⟨⟨⟨⟨⟨h1, h2⟩, h3⟩, h4⟩, h5⟩, h6⟩ := h
  refine ⟨⟨?_, fun r hr => ⟨(h2 r hr).1, (h2 r hr).2.1⟩, ?_, ?_, ?_, h6⟩,
    fun r hr => (h2 r hr).2.2⟩
  · cases hp : mx.processor with
    | nil => rw [hp] at h1; cases h1
    | cons r l =>
      rw [hp] at h1
      simp only [decide_eq_true_eq] at h1
      exact ⟨r, rfl, h1⟩
  · intro i r r' hr hr'
    exact h3 (r, r') (mem_pairs hr hr')
  · intro i r r' hr hr'
    exact h4 (r, r') (mem_pairs hr hr')
  · intro i r r' hr hr'
    exact h5 (r, r') (mem_pairs hr hr')

/-- Rearranged tables have equal products. -/
theorem mem_product {mx : Matrix} (ch : Nat → Fr)
    (h : mx.memory.Perm (mx.processor.map MemRow.ofRegister)) :
    (mx.processor.map (procMemFactor ch)).prod = (mx.memory.map (memFactor ch)).prod := by
  rw [(h.map (memFactor ch)).prod_eq, List.map_map]; rfl

theorem inst_product {mx : Matrix} (ch : Nat → Fr)
    (h : (stayRows mx.instruction).Perm (mx.processor.map InstrRow.ofRegister)) :
    (mx.processor.map (procInstFactor ch)).prod =
      ((stayRows mx.instruction).map (instFactor ch)).prod := by
  rw [(h.map (instFactor ch)).prod_eq, List.map_map]; rfl

end Verif

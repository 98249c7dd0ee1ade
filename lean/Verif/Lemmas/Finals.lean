import Verif.Lemmas.Accs
import Mathlib.Data.List.Perm.Basic
import Mathlib.Algebra.BigOperators.Group.List.Basic

/-! Final values of the running columns. -/

namespace Verif

/-- The memory factor of a processor row. -/
def procMemFactor (ch : Nat → Fr) (r : Register) : Fr :=
  prpFactor ch cCfg.mem r.cycle r.memory_pointer r.memory_value
/-- The instruction factor of a processor row. -/
def procInstFactor (ch : Nat → Fr) (r : Register) : Fr :=
  prpFactor ch cCfg.inst r.instruction_pointer r.current_instruction r.next_instruction
/-- The factor of a memory row. -/
def memFactor (ch : Nat → Fr) (r : MemRow) : Fr :=
  prpFactor ch cCfg.mem r.cycle r.memory_pointer r.memory_value
/-- The factor of an instruction row. -/
def instFactor (ch : Nat → Fr) (r : InstrRow) : Fr :=
  prpFactor ch cCfg.inst r.instruction_pointer r.current_instruction r.next_instruction

theorem procAccs_final {ch : Nat → Fr} : ∀ {rows : List Register} {a : ProcAcc} {as : List ProcAcc},
    procAccs cCfg ch a rows = .ok as → ∃ z, (a :: as)[rows.length]? = some z ∧
      z.memPrp = a.memPrp * (rows.map (procMemFactor ch)).prod ∧
      z.instPrp = a.instPrp * (rows.map (procInstFactor ch)).prod := by
  intro rows
  induction rows with
  | nil => intro a as h; cases h; exact ⟨a, rfl, by simp, by simp⟩
  | cons q rows ih =>
    intro a as h
    unfold procAccs at h
    rw [bind_ok] at h
    obtain ⟨a', ha', h⟩ := h
    rw [bind_ok] at h
    obtain ⟨as', has, h⟩ := h
    cases h
    obtain ⟨z, h1, h2, h3⟩ := ih has
    obtain ⟨n1, n2, -⟩ := ProcAcc.next_ok ha'
    refine ⟨z, by rw [List.length_cons, List.getElem?_cons_succ]; exact h1, ?_, ?_⟩
    · rw [h2, n1, List.map_cons, List.prod_cons, mul_assoc]; rfl
    · rw [h3, n2, List.map_cons, List.prod_cons, mul_assoc]; rfl

theorem memAccs_final {ch : Nat → Fr} : ∀ (rows : List MemRow) (a : Fr),
    (a :: memAccs cCfg ch a rows)[rows.length]? = some (a * (rows.map (memFactor ch)).prod) := by
  intro rows
  induction rows with
  | nil => intro a; simp [memAccs]
  | cons q rows ih =>
    intro a
    rw [List.length_cons, List.getElem?_cons_succ]
    have := ih (a * memFactor ch q)
    rw [List.map_cons, List.prod_cons, ← mul_assoc]
    exact this

/-- The running sum of a list. -/
def runSum (gamma a : Fr) (vals : List Fr) : Fr := vals.foldl (fun a v => gamma * a + v) a

theorem runSum_append (gamma a : Fr) (xs : List Fr) (v : Fr) :
    runSum gamma a (xs ++ [v]) = gamma * runSum gamma a xs + v := by
  simp [runSum]

theorem rsAccs_final {gamma : Fr} : ∀ (vals : List Fr) (a : Fr),
    (a :: rsAccs gamma a vals)[vals.length]? = some (runSum gamma a vals) := by
  intro vals
  induction vals with
  | nil => intro a; rfl
  | cons q vals ih =>
    intro a
    rw [List.length_cons, List.getElem?_cons_succ]
    exact ih (gamma * a + q)

/-- The entries equal to their successor, and the last one. -/
def stays : List Nat → List Nat
  | [] => []
  | [a] => [a]
  | a :: b :: l => if b = a then a :: stays (b :: l) else stays (b :: l)

/-- The entries different from their successor. -/
def moves : List Nat → List Nat
  | [] => []
  | [_] => []
  | a :: b :: l => if b = a then moves (b :: l) else a :: moves (b :: l)

theorem stays_moves : ∀ l : List Nat, (moves l ++ stays l).Perm l
  | [] => by simp [stays, moves]
  | [a] => by simp [stays, moves]
  | a :: b :: l => by
    have ih := stays_moves (b :: l)
    unfold stays moves
    split_ifs with h
    · exact List.perm_middle.trans (ih.cons a)
    · exact ih.cons a

/-- Neighbours are equal or grow by one. -/
def Steady (l : List Nat) : Prop :=
  ∀ (i : Nat) a b, l[i]? = some a → l[i + 1]? = some b → b = a ∨ b = a + 1

theorem Steady.tail {a : Nat} {l : List Nat} (h : Steady (a :: l)) : Steady l := by
  intro i x y hx hy
  exact h (i + 1) x y (by rw [List.getElem?_cons_succ]; exact hx)
    (by rw [List.getElem?_cons_succ]; exact hy)

theorem moves_range : ∀ (l : List Nat) (a L : Nat), Steady (a :: l) → (a :: l).getLast? = some L →
    a ≤ L ∧ moves (a :: l) = List.range' a (L - a) := by
  intro l
  induction l with
  | nil =>
    intro a L _ hl
    simp at hl
    subst hl
    simp [moves]
  | cons b l ih =>
    intro a L hs hl
    rw [List.getLast?_cons_cons] at hl
    obtain ⟨h1, h2⟩ := ih b L hs.tail hl
    have h3 : b = a ∨ b = a + 1 := hs 0 a b rfl rfl
    unfold moves
    split_ifs with h
    · subst h; exact ⟨h1, h2⟩
    · have hb : b = a + 1 := by omega
      subst hb
      refine ⟨by omega, ?_⟩
      rw [h2, show L - a = (L - (a + 1)) + 1 by omega, List.range'_succ]

/-- The final running values of an instruction table listed by program positions. -/
theorem instAccs_final {ch : Nat → Fr} (row : Nat → InstrRow)
    (hrow : ∀ i j, i < P → j < P → ((row i).instruction_pointer = (row j).instruction_pointer ↔ i = j)) :
    ∀ (ks : List Nat), (∀ k ∈ ks, k < P) → ∀ a : Fr × Fr,
    (a :: instAccs cCfg ch a (ks.map row))[ks.length]? =
      some (a.1 * ((stays ks).map (fun k => instFactor ch (row k))).prod,
        runSum (ch 8) a.2 ((moves ks).map fun k => (row k).current_instruction)) := by
  intro ks
  induction ks with
  | nil => intro _ a; simp [instAccs, stays, moves, runSum]
  | cons k ks ih =>
    intro hk a
    rw [List.map_cons, instAccs_cons, List.length_cons, List.getElem?_cons_succ,
      ih (fun k hk' => hk k (List.mem_cons_of_mem _ hk'))]
    cases ks with
    | nil =>
      simp [stays, moves, instNext, runSum, instFactor]
    | cons b l =>
      have hkb := hrow b k (hk b (by simp)) (hk k (by simp))
      have hnext : ((List.map row (b :: l)).head?.getD (row k)) = row b := rfl
      rw [hnext]
      have e1 : stays (k :: b :: l) = if b = k then k :: stays (b :: l) else stays (b :: l) := rfl
      have e2 : moves (k :: b :: l) = if b = k then moves (b :: l) else k :: moves (b :: l) := rfl
      rw [e1, e2]
      unfold instNext
      by_cases hb : b = k
      · rw [if_pos (hkb.2 hb), if_pos hb, if_pos hb, List.map_cons, List.prod_cons, ← mul_assoc]
        rfl
      · rw [if_neg (fun e => hb (hkb.1 e)), if_neg hb, if_neg hb, List.map_cons]
        rfl

end Verif

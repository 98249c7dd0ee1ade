import Verif.Lemmas.AcceptFacts
import Verif.Spec.Repaired

/-! Soundness of the circuit with the missing constraints (helper for the property theorems). -/

namespace Verif

open BF Spec Props

/-! ### Counting challenges -/

theorem Rare.mono {n m : Nat} {s t : Set (Fin 11 → Fr)} (h : Rare n t) (hst : s ⊆ t) (hnm : n ≤ m) :
    Rare m s := by
  unfold Rare at *
  have h1 : s.ncard ≤ t.ncard := Set.ncard_le_ncard hst (Set.toFinite t)
  calc s.ncard * P ≤ t.ncard * P := Nat.mul_le_mul_right _ h1
    _ ≤ n * P ^ 11 := h
    _ ≤ m * P ^ 11 := Nat.mul_le_mul_right _ hnm

theorem rare_empty {n : Nat} {s : Set (Fin 11 → Fr)} (h : ∀ x, x ∉ s) : Rare n s := by
  rw [Set.eq_empty_of_forall_notMem h]
  unfold Rare; simp

/-- A prover that succeeds for every challenge succeeds for more than a few. -/
theorem not_forgeable {n : Nat} {mx : Matrix} {code input : List Fr} {bad : Grid → Prop} (hn : n < P)
    (h : ∀ adv, Rare n (Convincing n mx code input adv bad)) : ¬ Forgeable n mx code input bad := by
  rintro ⟨adv, hadv⟩
  obtain ⟨x, hx⟩ := exists_good (h adv) hn
  apply hx
  obtain ⟨g, h1, h2, h3, h4⟩ := hadv (fun i => if hi : i < 11 then x ⟨i, hi⟩ else 0)
  refine ⟨g, h1, ?_, h3, h4⟩
  intro i
  rw [h2]
  exact dif_pos i.2

/-! ### First-phase columns -/

theorem firstPhase_mem : ∀ c ∈ [0, 1, 2, 3, 4, 5, 6, 11, 12, 13, 15, 16, 17, 20, 22, 23, 25, 26],
    FirstPhase c := by
  unfold FirstPhase; decide +kernel

/-- The grid with the given advice columns. -/
def plain (adv : Nat → Nat → Fr) : Grid :=
  ⟨adv, fun _ _ => 0, fun _ _ => 0, fun _ _ => false, fun _ => 0⟩

section

variable {g : Grid} {adv : Nat → Nat → Fr} (h : ∀ c r, FirstPhase c → g.advice c r = adv c r)

include h

theorem first_col {c : Nat}
    (hc : c ∈ [0, 1, 2, 3, 4, 5, 6, 11, 12, 13, 15, 16, 17, 20, 22, 23, 25, 26]) :
    g.advice c = adv c := by
  funext r; exact h c r (firstPhase_mem c hc)

theorem first_row (i : Nat) : row g i = row (plain adv) i := by
  show Row.mk (g.advice 0 i) (g.advice 2 i) (g.advice 1 i) (g.advice 3 i) (g.advice 4 i)
    (g.advice 5 i) = Row.mk (adv 0 i) (adv 2 i) (adv 1 i) (adv 3 i) (adv 4 i) (adv 5 i)
  rw [first_col h (c := 0) (by simp), first_col h (c := 1) (by simp), first_col h (c := 2) (by simp),
    first_col h (c := 3) (by simp), first_col h (c := 4) (by simp), first_col h (c := 5) (by simp)]

theorem first_triples {a b c : Nat}
    (ha : a ∈ [0, 1, 2, 3, 4, 5, 6, 11, 12, 13, 15, 16, 17, 20, 22, 23, 25, 26])
    (hb : b ∈ [0, 1, 2, 3, 4, 5, 6, 11, 12, 13, 15, 16, 17, 20, 22, 23, 25, 26])
    (hc : c ∈ [0, 1, 2, 3, 4, 5, 6, 11, 12, 13, 15, 16, 17, 20, 22, 23, 25, 26]) (len : Nat) :
    triples g a b c len = triples (plain adv) a b c len := by
  unfold triples
  rw [first_col h ha, first_col h hb, first_col h hc]
  rfl

theorem first_stays (len : Nat) : stayTriples g len = stayTriples (plain adv) len := by
  unfold stayTriples
  rw [first_col h (c := 15) (by simp), first_col h (c := 16) (by simp),
    first_col h (c := 17) (by simp)]
  rfl

theorem first_column {c : Nat}
    (hc : c ∈ [0, 1, 2, 3, 4, 5, 6, 11, 12, 13, 15, 16, 17, 20, 22, 23, 25, 26]) (len : Nat) :
    column g c len = column (plain adv) c len := by
  unfold column
  rw [first_col h hc]
  rfl

theorem first_rows : row g = row (plain adv) := funext (first_row h)

end

theorem triples_length (g : Grid) (a b c len : Nat) : (triples g a b c len).length = len := by
  unfold triples; simp

theorem column_length (g : Grid) (c len : Nat) : (column g c len).length = len := by
  unfold column; simp

theorem flatMap_if_length {α : Type} (c : Nat → Prop) [DecidablePred c] (f : Nat → α) (len : Nat) :
    ((List.range len).flatMap fun i => if c i then [f i] else []).length =
      ((List.range len).filter fun i => c i).length := by
  induction len with
  | zero => rfl
  | succ len ih =>
    rw [List.range_succ, List.flatMap_append, List.length_append, ih, List.filter_append,
      List.length_append]
    by_cases hc : c len <;> simp [hc]

theorem flatMap_if_le {α : Type} (c : Nat → Prop) [DecidablePred c] (f : Nat → α) (len : Nat) :
    ((List.range len).flatMap fun i => if c i then [f i] else []).length ≤ len := by
  rw [flatMap_if_length]
  have := List.length_filter_le (fun i => decide (c i)) (List.range len)
  rw [List.length_range] at this
  exact this

theorem stayTriples_length (g : Grid) {len : Nat} (h : 0 < len) : (stayTriples g len).length ≤ len := by
  unfold stayTriples
  have := flatMap_if_le (fun i => g.advice 15 (i + 1) = g.advice 15 i)
    (fun i => (g.advice 15 i, g.advice 16 i, g.advice 17 i)) (len - 1)
  rw [List.length_append, List.length_singleton]
  omega

theorem stayTriples_mem {g : Grid} {len : Nat} (h : 0 < len) {t : Fr × Fr × Fr}
    (ht : t ∈ stayTriples g len) :
    ∃ k, k < len ∧ t = (g.advice 15 k, g.advice 16 k, g.advice 17 k) := by
  unfold stayTriples at ht
  rw [List.mem_append] at ht
  rcases ht with ht | ht
  · rw [List.mem_flatMap] at ht
    obtain ⟨i, hi, ht⟩ := ht
    rw [List.mem_range] at hi
    by_cases hc : g.advice 15 (i + 1) = g.advice 15 i
    · rw [if_pos hc, List.mem_singleton] at ht
      exact ⟨i, by omega, ht⟩
    · rw [if_neg hc] at ht; simp at ht
  · rw [List.mem_singleton] at ht
    exact ⟨len - 1, by omega, ht⟩

theorem triples_get {g : Grid} {a b c len : Nat} {t : Fr × Fr × Fr} :
    t ∈ triples g a b c len ↔ ∃ k, k < len ∧ (g.advice a k, g.advice b k, g.advice c k) = t := by
  unfold triples
  simp [List.mem_map]

/-! ### The five links -/

section

variable {n : Nat} {mx : Matrix} {code input : List Fr} {adv : Nat → Nat → Fr}

theorem rare_mem (h : ¬ (triples (plain adv) 11 12 13 mx.memory.length).Perm
      (triples (plain adv) 0 4 5 mx.processor.length)) :
    Rare n (Convincing n mx code input adv MemStarts) := by
  by_cases hroom : mx.memory.length ≤ n ∧ mx.processor.length ≤ n
  · have hb := product_bad (n := 11) (a := 0) (d := 1) (e := 2) (f := 3)
      ⟨by decide, by decide, by decide, by decide, by decide, by decide⟩ (m := n)
      (by rw [triples_length]; exact hroom.1) (by rw [triples_length]; exact hroom.2) h
    refine Rare.mono hb ?_ (le_refl _)
    rintro x ⟨g, hg, hx, hfp, hs⟩
    have F := accepts_facts hg
    have e1 := F.copyMem
    rw [F.memProd, F.procMemProd, first_triples hfp (by simp) (by simp) (by simp),
      first_triples hfp (by simp) (by simp) (by simp)] at e1
    have s1 : g.advice 7 0 = g.advice 14 0 := hs.1
    have s2 : g.advice 14 0 ≠ 0 := hs.2
    rw [s1] at e1
    have e2 := mul_left_cancel₀ s2 e1
    rw [show g.challenge 0 = x 0 from hx 0, show g.challenge 1 = x 1 from hx 1,
      show g.challenge 2 = x 2 from hx 2, show g.challenge 3 = x 3 from hx 3] at e2
    exact e2.symm
  · refine rare_empty ?_
    rintro x ⟨g, hg, -⟩
    have F := accepts_facts hg
    have := F.roomM
    have := F.roomP
    omega

theorem rare_ins (hI : 0 < mx.instruction.length)
    (h : ¬ (stayTriples (plain adv) mx.instruction.length).Perm
      (triples (plain adv) 2 1 3 mx.processor.length)) :
    Rare n (Convincing n mx code input adv InsStarts) := by
  by_cases hroom : mx.instruction.length ≤ n ∧ mx.processor.length ≤ n
  · have hb := product_bad (n := 11) (a := 4) (d := 5) (e := 6) (f := 7)
      ⟨by decide, by decide, by decide, by decide, by decide, by decide⟩ (m := n)
      (le_trans (stayTriples_length _ hI) hroom.1) (by rw [triples_length]; exact hroom.2) h
    refine Rare.mono hb ?_ (le_refl _)
    rintro x ⟨g, hg, hx, hfp, hs⟩
    have F := accepts_facts hg
    have e1 := F.copyIns
    rw [F.insProd hI, F.procInsProd, first_triples hfp (by simp) (by simp) (by simp),
      first_stays hfp] at e1
    have s1 : g.advice 8 0 = g.advice 18 0 := hs.1
    have s2 : g.advice 18 0 ≠ 0 := hs.2
    rw [s1] at e1
    have e2 := mul_left_cancel₀ s2 e1
    rw [show g.challenge 4 = x 4 from hx 4, show g.challenge 5 = x 5 from hx 5,
      show g.challenge 6 = x 6 from hx 6, show g.challenge 7 = x 7 from hx 7] at e2
    exact e2.symm
  · refine rare_empty ?_
    rintro x ⟨g, hg, -⟩
    have F := accepts_facts hg
    have := F.roomI
    have := F.roomP
    omega

theorem column_eq {g : Grid} {c : Nat} {l : List Fr} (h : ∀ i, i < l.length → g.advice c i = l.getD i 0) :
    column g c l.length = l := by
  unfold column
  apply List.ext_getElem?
  intro i
  rw [List.getElem?_map]
  by_cases hi : i < l.length
  · rw [List.getElem?_range hi, Option.map_some, h i hi, List.getD_eq_getElem?_getD,
      List.getElem?_eq_getElem hi]
    rfl
  · rw [List.getElem?_eq_none (by simp; omega), List.getElem?_eq_none (by omega)]
    rfl

theorem changes_length (ip ci : Nat → Fr) (len : Nat) : (changes ip ci len).length ≤ len := by
  rw [changes_ne]
  exact flatMap_if_le _ _ _

theorem rare_prog (hlen : mx.program.length = code.length)
    (h : ¬ SameUpToLeadingZeros (changes (adv 15) (adv 16) (mx.instruction.length - 1)) code) :
    Rare n (Convincing n mx code input adv (ProgramSums mx)) := by
  by_cases hroom : mx.instruction.length ≤ n ∧ mx.program.length ≤ n
  · have hb := sum_badM (n := 11) 8 (m := n)
      (le_trans (changes_length _ _ _) (by omega)) (by rw [← hlen]; exact hroom.2) h
    refine Rare.mono hb ?_ (le_refl _)
    rintro x ⟨g, hg, hx, hfp, hs⟩
    have F := accepts_facts hg
    have e1 := F.copyProg
    have s0 : g.advice 27 0 = 0 := hs.prog
    have s2 : g.advice 19 0 = 0 := hs.ins
    have s1 : g.advice 19 mx.instruction.length = g.advice 19 (mx.instruction.length - 1) := hs.stop
    have hcol := F.progCells
    rw [hlen] at hcol
    rw [F.progSum, s0, zero_mul, zero_add, s1, F.insSum, s2, zero_mul, zero_add, hlen, column_eq hcol,
      first_col hfp (c := 15) (by simp), first_col hfp (c := 16) (by simp),
      show g.challenge 8 = x 8 from hx 8] at e1
    exact e1.symm
  · refine rare_empty ?_
    rintro x ⟨g, hg, -⟩
    have F := accepts_facts hg
    have := F.roomI
    have := F.roomG
    omega

theorem readsOf_length_le (R : Nat → Row) (m : Nat) : (readsOf R m).length ≤ m :=
  flatMap_if_le _ _ _

theorem writesOf_length_le (R : Nat → Row) (m : Nat) : (writesOf R m).length ≤ m :=
  flatMap_if_le _ _ _

/-- Every row but the last is at an opcode. -/
def AtOpcodes (mx : Matrix) (R : Nat → Row) : Prop :=
  ∀ i, i + 1 < mx.processor.length → ∃ op ∈ OPCODES, (R i).ci = frOfByte op

theorem rare_in (hop : AtOpcodes mx (row (plain adv))) (hlen : mx.input.length = input.length)
    (h : ¬ SameUpToLeadingZeros (readsOf (row (plain adv)) (mx.processor.length - 1)) input) :
    Rare n (Convincing n mx code input adv (InputSums mx)) := by
  by_cases hroom : mx.processor.length ≤ n ∧ mx.input.length ≤ n
  · have hb := sum_badM (n := 11) 10 (m := n)
      (le_trans (readsOf_length_le _ _) (by omega)) (by rw [← hlen]; exact hroom.2) h
    refine Rare.mono hb ?_ (le_refl _)
    rintro x ⟨g, hg, hx, hfp, hs⟩
    have F := accepts_facts hg
    have e1 := F.copyIn
    have s0 : g.advice 24 0 = 0 := hs.inp
    have s2 : g.advice 10 0 = 0 := hs.proc
    have s1 : g.advice 10 mx.processor.length = g.advice 10 (mx.processor.length - 1) := hs.stop
    have hcol := F.inpCells
    rw [hlen] at hcol
    have hrow := first_rows hfp
    rw [F.inSum, s0, zero_mul, zero_add, s1, F.procIn (by rw [hrow]; exact hop), s2,
      zero_mul, zero_add, hlen, column_eq hcol, hrow, show g.challenge 10 = x 10 from hx 10] at e1
    exact e1.symm
  · refine rare_empty ?_
    rintro x ⟨g, hg, -⟩
    have F := accepts_facts hg
    have := F.roomP
    have := F.roomN
    omega

theorem rare_out (hop : AtOpcodes mx (row (plain adv)))
    (h : ¬ SameUpToLeadingZeros (writesOf (row (plain adv)) (mx.processor.length - 1))
      (column (plain adv) 20 mx.output.length)) :
    Rare n (Convincing n mx code input adv (OutputSums mx)) := by
  by_cases hroom : mx.processor.length ≤ n ∧ mx.output.length ≤ n
  · have hb := sum_badM (n := 11) 9 (m := n)
      (le_trans (writesOf_length_le _ _) (by omega)) (by rw [column_length]; exact hroom.2) h
    refine Rare.mono hb ?_ (le_refl _)
    rintro x ⟨g, hg, hx, hfp, hs⟩
    have F := accepts_facts hg
    have e1 := F.copyOut
    have s0 : g.advice 21 0 = 0 := hs.out
    have s2 : g.advice 9 0 = 0 := hs.proc
    have s1 : g.advice 9 mx.processor.length = g.advice 9 (mx.processor.length - 1) := hs.stop
    have hrow := first_rows hfp
    rw [F.outSum, s0, zero_mul, zero_add, s1, F.procOut (by rw [hrow]; exact hop), s2,
      zero_mul, zero_add, first_column hfp (by simp), hrow, show g.challenge 9 = x 9 from hx 9] at e1
    exact e1.symm
  · refine rare_empty ?_
    rintro x ⟨g, hg, -⟩
    have F := accepts_facts hg
    have := F.roomP
    have := F.roomO
    omega

end

end Verif

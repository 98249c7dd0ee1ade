import Verif.Lemmas.MockCircuit
import Verif.Lemmas.MockReport
import Verif.Props.Circuit

/-! C87, C88: what a passing (or failing) `MockProver` run says. -/

namespace Verif.Props

open Spec

/-! ### Any circuit -/

/-- C87. `MockProver::run` never panics; it succeeds exactly when there are the rows the constraint
system needs, the public inputs fit in the usable rows, and the calls of the circuit to its layouter
succeed. -/
theorem C87_run (cs : CS) (simple : Nat → Bool) (hb : Built cs simple) (fuel n : Nat)
    (hf : cs.permutation.length * n ≤ fuel) (steps : List Step) (ch : Nat → Fr) (inst : Nat → List Fr) :
    ∃ r, Mock.runSteps fuel cs n steps ch inst = .ok r ∧
      ((∃ m, r = .ok m) ↔ cs.minimumRows ≤ n ∧
        (∀ i, i < cs.numInstance → (inst i).length ≤ cs.usableRows n) ∧
        ∃ a, assigned cs n steps = .ok a) :=
  runSteps_iff hb hf steps ch inst

/-- C87. When `verify` returns `Ok`, the assignment satisfies gates, lookups and copy constraints,
whatever a prover puts in the unusable rows. (Partial: for lookups that refer to usable rows only; see
`C87_accepts_wrong`.) -/
theorem C87_sound_partial (cs : CS) (simple : Nat → Bool) (hb : Built cs simple) (fuel n : Nat)
    (hf : cs.permutation.length * n ≤ fuel) (hin : LookupsInside cs n) (steps : List Step)
    (ch : Nat → Fr) (inst : Nat → List Fr) (m : Mock)
    (h : Mock.runSteps fuel cs n steps ch inst = .ok (.ok m)) (hv : m.verify = .ok (.ok ())) :
    ∃ a, assigned cs n steps = .ok a ∧
      ∀ g, Extends cs n a ch inst g → Satisfied cs n g a.copies := by
  obtain ⟨st, ss, p, c, cols, as, hm⟩ := made_of h
  exact ⟨st.asm, hm.assigned, fun g hg => hm.sound hb hf hin hv hg⟩

/-- C87. `verify` returns `Ok` exactly when the assignment is satisfied and the circuit keeps two
conventions: a region assigns all cells that the gates of its selectors refer to, and copy constraints
tie cells that both got a value or both did not. What a prover puts in the unusable rows makes no
difference. When the first convention is kept, `verify` does not panic. (Partial: for lookups that refer
to usable rows only and for gates that have a selector as a factor; see `C87_accepts_wrong`,
`C87_false_alarm_gate`, `C87_false_alarm_copy`, `C87_false_alarm_instance`, `C87_panic_poison` and
`C87_panic_region` for what happens otherwise.) -/
theorem C87_verdict_partial (cs : CS) (simple : Nat → Bool) (hb : Built cs simple) (fuel n : Nat)
    (hf : cs.permutation.length * n ≤ fuel) (hin : LookupsInside cs n) (hgd : Guarded cs)
    (steps : List Step) (hco : SameSelectors simple steps) (ch : Nat → Fr) (inst : Nat → List Fr) (m : Mock)
    (h : Mock.runSteps fuel cs n steps ch inst = .ok (.ok m)) :
    ∃ a, assigned cs n steps = .ok a ∧
      (∀ g, Extends cs n a ch inst g →
        (m.verify = .ok (.ok ()) ↔
          Tidy cs n steps a ∧ CopiesAlike steps a ∧ Satisfied cs n g a.copies)) ∧
      (Tidy cs n steps a → ∃ r, m.verify = .ok r) := by
  obtain ⟨st, ss, p, c, cols, as, hm⟩ := made_of h
  exact ⟨st.asm, hm.assigned, fun g hg => hm.verdict hb hf hin hgd hco hg,
    fun ht => hm.no_panic hb hf hgd hco ht⟩

/-- C87. `verify_par` gives what `verify` gives: the same verdict, the same failures in the same order,
the same panics. -/
theorem C87_par (m : Mock) : m.verifyPar = m.verify := Mock.verifyAtRows_par m _ _

/-- C87, what the failures say about lookups: for any full assignment, the number of the lookup and a row whose input
is in no row of the table, and all of these. (Partial: for lookups that refer to usable rows only.) -/
theorem C87_report_lookups_partial (cs : CS) (simple : Nat → Bool) (hb : Built cs simple) (fuel n : Nat)
    (hin : LookupsInside cs n) (steps : List Step) (ch : Nat → Fr) (inst : Nat → List Fr) (m : Mock)
    (h : Mock.runSteps fuel cs n steps ch inst = .ok (.ok m)) (r : Except (List Failure) Unit)
    (hv : m.verify = .ok r) :
    ∃ a, assigned cs n steps = .ok a ∧ ∀ g, Extends cs n a ch inst g → ∀ i row,
      (.lookup i row ∈ failures r ↔ ∃ l, cs.lookups[i]? = some l ∧ row < cs.usableRows n ∧
        ¬ ∃ row', row' < cs.usableRows n ∧ l.input.map (fun e => e.eval n g row) =
          l.table.map (fun e => e.eval n g row')) := by
  obtain ⟨st, ss, p, c, cols, as, hm⟩ := made_of h
  exact ⟨st.asm, hm.assigned, fun g hg i row => hm.report_lookups hb hin hv hg i row⟩

/-- C87, what the failures say about gates: the number of the gate, of the polynomial and a row in which it is not 0, and
all of these. No polynomial is called poisoned. (Partial: for gates that have a selector as a factor and regions that assign
what they refer to.) -/
theorem C87_report_gates_partial (cs : CS) (simple : Nat → Bool) (hb : Built cs simple) (fuel n : Nat)
    (hgd : Guarded cs) (steps : List Step) (hco : SameSelectors simple steps) (ch : Nat → Fr) (inst : Nat → List Fr)
    (m : Mock) (h : Mock.runSteps fuel cs n steps ch inst = .ok (.ok m)) (r : Except (List Failure) Unit)
    (hv : m.verify = .ok r) :
    ∃ a, assigned cs n steps = .ok a ∧ (Tidy cs n steps a → ∀ g, Extends cs n a ch inst g → ∀ i j,
      (∀ row, .notSatisfied i j row ∈ failures r ↔ ∃ gate e, cs.gates[i]? = some gate ∧ gate[j]? = some e ∧
        row < n ∧ e.eval n g row ≠ 0) ∧ .poisoned i j ∉ failures r) := by
  obtain ⟨st, ss, p, c, cols, as, hm⟩ := made_of h
  exact ⟨st.asm, hm.assigned, fun ht g hg i j => ⟨fun row => (hm.report_gates hb hgd hco ht hv hg i j row).1,
    (hm.report_gates hb hgd hco ht hv hg i j 0).2⟩⟩

/-- C87, what the failures say about cells that are not assigned: the number of the gate, the row in which a region enables
a selector of the gate, and a cell that the gate refers to there and the region does not assign; and all of these. -/
theorem C87_report_cells (cs : CS) (fuel n : Nat) (steps : List Step) (ch : Nat → Fr) (inst : Nat → List Fr)
    (m : Mock) (h : Mock.runSteps fuel cs n steps ch inst = .ok (.ok m)) (r : Except (List Failure) Unit)
    (hv : m.verify = .ok r) :
    ∃ a, assigned cs n steps = .ok a ∧ ∀ j row col cellRow,
      (∃ i, .cellNotAssigned i j row col cellRow ∈ failures r) ↔
        ∃ q ∈ (blocks steps).zip a.starts, ∃ s o, Op.enable s o ∈ q.1 ∧ row = q.2 + o ∧
          ∃ gate, cs.gates[j]? = some gate ∧ s ∈ gate.flatMap selectorsIn ∧
            ∃ rot, (col, rot) ∈ gate.flatMap queriesIn ∧ cellRow = rotate n row rot ∧
              ¬ AssignsIn q.1 q.2 (col, cellRow) := by
  obtain ⟨st, ss, p, c, cols, as, hm⟩ := made_of h
  exact ⟨st.asm, hm.assigned, fun j row col cellRow => hm.report_cells hv j row col cellRow⟩

/-- C87, what the failures say about copies: a cell named there is tied to one that differs from it, in its value or in that
only one of them was assigned; and of cells tied to each other that differ so, some cell tied to them is named. -/
theorem C87_report_copies (cs : CS) (simple : Nat → Bool) (hb : Built cs simple) (fuel n : Nat)
    (hf : cs.permutation.length * n ≤ fuel) (steps : List Step) (ch : Nat → Fr) (inst : Nat → List Fr) (m : Mock)
    (h : Mock.runSteps fuel cs n steps ch inst = .ok (.ok m)) (r : Except (List Failure) Unit)
    (hv : m.verify = .ok r) :
    ∃ a, assigned cs n steps = .ok a ∧ ∀ g, Extends cs n a ch inst g →
      (∀ i row, .permutation i row ∈ failures r → ∃ x y, CellAt cs.permutation (i, row) x ∧
        Tied a.copies x y ∧ ¬ (g.cell x = g.cell y ∧ (Has steps a x ↔ Has steps a y))) ∧
      ∀ x y, Tied a.copies x y → ¬ (g.cell x = g.cell y ∧ (Has steps a x ↔ Has steps a y)) →
        ∃ i row z, .permutation i row ∈ failures r ∧ CellAt cs.permutation (i, row) z ∧ Tied a.copies x z := by
  obtain ⟨st, ss, p, c, cols, as, hm⟩ := made_of h
  exact ⟨st.asm, hm.assigned, fun g hg => hm.report_copies hb hf hv hg⟩

/-- The verdict on a circuit with its calls, without challenges and public inputs. -/
def verdictOf (cs : CS) (n : Nat) (steps : List Step) :
    Except Panic (Except SynthErr (Except Panic (Except (List Failure) Unit))) :=
  (Mock.runSteps 100 cs n steps (fun _ => 0) (fun _ => [])).map (·.map (·.verify))

theorem verdictOf_eq {cs : CS} {n : Nat} {steps : List Step}
    {v : Except Panic (Except (List Failure) Unit)} (h : verdictOf cs n steps = .ok (.ok v)) :
    ∃ m, Mock.runSteps 100 cs n steps (fun _ => 0) (fun _ => []) = .ok (.ok m) ∧ m.verify = v := by
  unfold verdictOf at h
  cases hr : Mock.runSteps 100 cs n steps (fun _ => 0) (fun _ => []) with
  | error e => rw [hr] at h; cases h
  | ok r =>
    rw [hr] at h
    cases r with
    | error e => cases h
    | ok m => exact ⟨m, rfl, by cases h; rfl⟩

/-- A lookup of the next row of one column in the next row of another. -/
def shiftCS : CS :=
  { numAdvice := 2, adviceQueries := [(0, 1), (1, 1)], advicePhase := [0, 0],
    lookups := [⟨[.advice 0 1], [.advice 1 1]⟩] }

/-- C87 fails for lookups that refer to the rows after the usable ones: `verify` takes the unknown value
there for an element of the table since the table, too, has an unknown value. A prover that puts
different random numbers in the two columns does not satisfy the lookup. -/
theorem C87_accepts_wrong : ∃ (cs : CS) (simple : Nat → Bool) (n : Nat) (m : Mock) (a : Assembly)
    (g : Grid), Built cs simple ∧ Guarded cs ∧ cs.permutation.length * n ≤ 100 ∧
      Mock.runSteps 100 cs n [] (fun _ => 0) (fun _ => []) = .ok (.ok m) ∧
      assigned cs n [] = .ok a ∧ Extends cs n a (fun _ => 0) (fun _ => []) g ∧
      m.verify = .ok (.ok ()) ∧ ¬ Satisfied cs n g a.copies := by
  obtain ⟨m, hm, hv⟩ := verdictOf_eq (show verdictOf shiftCS 8 [] = .ok (.ok (.ok (.ok ()))) by
    decide +kernel)
  have hu : shiftCS.usableRows 8 = 2 := by decide +kernel
  refine ⟨shiftCS, fun _ => true, 8, m, _,
    { fixed := fun _ _ => 0, advice := fun c r => if c = 0 ∧ r = 2 then 5 else 0,
      selector := fun _ _ => false, instance_ := fun _ _ => 0, challenge := fun _ => 0 },
    ⟨⟨by decide +kernel, by decide +kernel, by decide +kernel, by decide +kernel⟩, ?_,
      by decide, (by intro i h; cases h), by decide +kernel⟩,
    (by intro gate h; cases h), by decide, hm, rfl, ⟨?_, ?_, ?_, ?_, ?_⟩, hv, ?_⟩
  · have : shiftCS.degree = 4 := by decide +kernel
    rw [this]; unfold P; norm_num
  · intro c r hr
    rw [hu] at hr
    show (if c = 0 ∧ r = 2 then (5 : Fr) else 0) = 0
    rw [if_neg (by omega)]
  · intros; rfl
  · intros; rfl
  · intros; rfl
  · intros; rfl
  · intro hs
    obtain ⟨row', h1, h2⟩ := hs.lookups _ (List.mem_singleton.2 rfl) 1 (by rw [hu]; omega)
    have h3 : (5 : Fr) = 0 := List.singleton_injective h2
    revert h3
    decide +kernel

/-- A copy constraint between two cells of which only the first is assigned. -/
def halfCopy : List Step :=
  [.region [.advice 0 0 0, .equal ⟨0, 0, .advice 0⟩ ⟨0, 0, .advice 1⟩]]

def copyCS : CS :=
  { numAdvice := 2, adviceQueries := [(0, 0), (1, 0)], advicePhase := [0, 0],
    permutation := [.advice 0, .advice 1] }

/-- `verify` refuses a copy constraint between a cell with value 0 and a cell that was not assigned,
although every full assignment satisfies it: a cell that is not assigned holds 0. -/
theorem C87_false_alarm_copy : ∃ (cs : CS) (simple : Nat → Bool) (n : Nat) (steps : List Step) (m : Mock)
    (a : Assembly), Built cs simple ∧ Guarded cs ∧ LookupsInside cs n ∧ SameSelectors simple steps ∧
      cs.permutation.length * n ≤ 100 ∧
      Mock.runSteps 100 cs n steps (fun _ => 0) (fun _ => []) = .ok (.ok m) ∧
      assigned cs n steps = .ok a ∧ Tidy cs n steps a ∧
      (∀ g, Extends cs n a (fun _ => 0) (fun _ => []) g → Satisfied cs n g a.copies) ∧
      m.verify = .ok (.error [.permutation 0 0, .permutation 1 0]) := by
  obtain ⟨m, hm, hv⟩ := verdictOf_eq (show verdictOf copyCS 8 halfCopy =
    .ok (.ok (.ok (.error [.permutation 0 0, .permutation 1 0]))) by decide +kernel)
  have hu : copyCS.usableRows 8 = 2 := by decide +kernel
  refine ⟨copyCS, fun _ => true, 8, halfCopy, m, _,
    ⟨⟨by decide +kernel, by decide +kernel, by decide +kernel, by decide +kernel⟩, ?_,
      by decide, (by intro i h; simp [copyCS] at h), by decide +kernel⟩,
    (by intro gate h; cases h), (by intro l h; cases h), ?_, by decide, hm, rfl, ?_, ?_, hv⟩
  · have : copyCS.degree = 3 := by decide +kernel
    rw [this]; unfold P; norm_num
  · intro b hb s o he
    simp only [halfCopy, blocks, List.mem_singleton] at hb
    subst hb
    simp at he
  · intro p hp s o he
    have := (List.of_mem_zip (a := p.1) (b := p.2) hp).1
    simp only [halfCopy, blocks, List.mem_singleton] at this
    rw [this] at he
    simp at he
  · intro g hg
    refine ⟨(by intro gate h; cases h), (by intro l h; cases h), ?_⟩
    intro p hp
    have hp : p = ((.advice 0, 0), (.advice 1, 0)) := List.mem_singleton.1 hp
    subst hp
    show g.advice 0 0 = g.advice 1 0
    rw [hg.advice 0 0 (by rw [hu]; omega), hg.advice 1 0 (by rw [hu]; omega)]
    rfl

/-- A gate without a selector that vanishes for every value of the cell. -/
def plainCS : CS :=
  { numAdvice := 1, adviceQueries := [(0, 0)], advicePhase := [0],
    gates := [[.sum (.advice 0 0) (.neg (.advice 0 0))]] }

/-- `verify` refuses a gate without a selector that refers to advice cells, although every full
assignment satisfies it: in the unusable rows it takes a sum with an unknown value for unknown. -/
theorem C87_false_alarm_gate : ∃ (cs : CS) (simple : Nat → Bool) (n : Nat) (m : Mock) (a : Assembly),
    Built cs simple ∧ LookupsInside cs n ∧ cs.permutation.length * n ≤ 100 ∧
      Mock.runSteps 100 cs n [] (fun _ => 0) (fun _ => []) = .ok (.ok m) ∧
      assigned cs n [] = .ok a ∧ Tidy cs n [] a ∧ CopiesAlike [] a ∧
      (∀ g, Extends cs n a (fun _ => 0) (fun _ => []) g → Satisfied cs n g a.copies) ∧
      m.verify = .ok (.error [.poisoned 0 0]) := by
  obtain ⟨m, hm, hv⟩ := verdictOf_eq (show verdictOf plainCS 8 [] =
    .ok (.ok (.ok (.error [.poisoned 0 0]))) by decide +kernel)
  refine ⟨plainCS, fun _ => true, 8, m, _,
    ⟨⟨by decide +kernel, by decide +kernel, by decide +kernel, by decide +kernel⟩, ?_,
      by decide, (by intro i h; cases h), by decide +kernel⟩,
    (by intro l h; cases h), by decide, hm, rfl, (by intro p hp; cases hp), (by intro p hp; cases hp),
    ?_, hv⟩
  · have : plainCS.degree = 3 := by decide +kernel
    rw [this]; unfold P; norm_num
  · intro g hg
    refine ⟨?_, (by intro l h; cases h), (by intro p hp; cases hp)⟩
    intro gate hgate p hp row hrow
    have h1 := List.mem_singleton.1 hgate
    subst h1
    have h2 := List.mem_singleton.1 hp
    subst h2
    exact add_neg_cancel _

/-- A gate with a selector that compares a cell with a public input. -/
def publicCS : CS :=
  { numAdvice := 1, numInstance := 1, numSelectors := 1, adviceQueries := [(0, 0)], advicePhase := [0],
    instanceQueries := [(0, 0)],
    gates := [[.product (.selector ⟨0, true⟩) (.sum (.advice 0 0) (.neg (.instance_ 0 0)))]] }

def publicSteps : List Step := [.region [.enable ⟨0, true⟩ 0, .advice 0 0 0]]

/-- `verify` refuses a circuit in which a gate with a selector refers to a public input, although every
full assignment satisfies it: the public input counts as a cell its region did not assign. -/
theorem C87_false_alarm_instance : ∃ (cs : CS) (simple : Nat → Bool) (n : Nat) (steps : List Step)
    (m : Mock) (a : Assembly), Built cs simple ∧ Guarded cs ∧ LookupsInside cs n ∧
      SameSelectors simple steps ∧ cs.permutation.length * n ≤ 100 ∧
      Mock.runSteps 100 cs n steps (fun _ => 0) (fun _ => []) = .ok (.ok m) ∧
      assigned cs n steps = .ok a ∧ CopiesAlike steps a ∧
      (∀ g, Extends cs n a (fun _ => 0) (fun _ => []) g → Satisfied cs n g a.copies) ∧
      m.verify = .ok (.error [.cellNotAssigned 0 0 0 (.instance_ 0) 0]) := by
  obtain ⟨m, hm, hv⟩ := verdictOf_eq (show verdictOf publicCS 8 publicSteps =
    .ok (.ok (.ok (.error [.cellNotAssigned 0 0 0 (.instance_ 0) 0]))) by decide +kernel)
  have hu : publicCS.usableRows 8 = 2 := by decide +kernel
  refine ⟨publicCS, fun _ => true, 8, publicSteps, m, _,
    ⟨⟨by decide +kernel, by decide +kernel, by decide +kernel, by decide +kernel⟩, ?_,
      by decide, (by intro i h; cases h), by decide +kernel⟩,
    ?_, (by intro l h; cases h), ?_, by decide, hm, rfl, (by intro p hp; cases hp), ?_, hv⟩
  · have : publicCS.degree = 3 := by decide +kernel
    rw [this]; unfold P; norm_num
  · intro gate hgate p hp
    have h1 := List.mem_singleton.1 hgate
    subst h1
    have h2 := List.mem_singleton.1 hp
    subst h2
    exact ⟨_, .left .self⟩
  · intro b hb s o he
    simp only [publicSteps, blocks, List.mem_singleton] at hb
    subst hb
    simp at he
    rw [he.1]
  · intro g hg
    refine ⟨?_, (by intro l h; cases h), (by intro p hp; cases hp)⟩
    intro gate hgate p hp row hrow
    have h1 := List.mem_singleton.1 hgate
    subst h1
    have h2 := List.mem_singleton.1 hp
    subst h2
    show (if g.selector 0 row = true then (1 : Fr) else 0) *
      (g.advice 0 (rotate 8 row 0) + -g.instance_ 0 (rotate 8 row 0)) = 0
    rw [rotate_zero hrow, hg.selector, hg.instance_]
    by_cases h0 : row = 0
    · subst h0
      rw [hg.advice 0 0 (by rw [hu]; omega)]
      show _ * ((0 : Fr) + -0) = 0
      simp
    · rw [if_neg, zero_mul]
      show ¬ (Assembly.update (fun _ _ => false) 0 0 true 0 row = true)
      simp [Assembly.update, h0]

/-- A gate with a selector: 1 plus the product of a cell and a cell of the next row. -/
def nextCS : CS :=
  { numAdvice := 2, numSelectors := 1, adviceQueries := [(0, 1), (1, 0)], advicePhase := [0, 0],
    gates := [[.product (.selector ⟨0, true⟩)
      (.sum (.const 1) (.product (.advice 1 0) (.advice 0 1)))]] }

/-- `verify` panics (at an `unreachable!()`) on a gate that fails in the last usable row and multiplies
a cell of the next row by zero, instead of reporting the failure. -/
theorem C87_panic_poison : ∃ (cs : CS) (simple : Nat → Bool) (n : Nat) (steps : List Step) (m : Mock),
    Built cs simple ∧ Guarded cs ∧ LookupsInside cs n ∧ SameSelectors simple steps ∧
      cs.permutation.length * n ≤ 100 ∧
      Mock.runSteps 100 cs n steps (fun _ => 0) (fun _ => []) = .ok (.ok m) ∧
      m.verify = .error .unreachable := by
  obtain ⟨m, hm, hv⟩ := verdictOf_eq (show verdictOf nextCS 8
    [.region [.enable ⟨0, true⟩ 1, .advice 1 1 0]] = .ok (.ok (.error .unreachable)) by decide +kernel)
  refine ⟨nextCS, fun _ => true, 8, _, m,
    ⟨⟨by decide +kernel, by decide +kernel, by decide +kernel, by decide +kernel⟩, ?_,
      by decide, (by intro i h; cases h), by decide +kernel⟩,
    ?_, (by intro l h; cases h), ?_, by decide, hm, hv⟩
  · have : nextCS.degree = 3 := by decide +kernel
    rw [this]; unfold P; norm_num
  · intro gate hgate p hp
    have h1 := List.mem_singleton.1 hgate
    subst h1
    have h2 := List.mem_singleton.1 hp
    subst h2
    exact ⟨_, .left .self⟩
  · intro b hb s o he
    simp only [blocks, List.mem_singleton] at hb
    subst hb
    simp at he
    rw [he.1]

/-- `verify` panics (at an `unwrap`) on a region that enables a selector and assigns nothing, instead of
reporting the cells that the region should have assigned. -/
theorem C87_panic_region : ∃ (cs : CS) (simple : Nat → Bool) (n : Nat) (steps : List Step) (m : Mock),
    Built cs simple ∧ Guarded cs ∧ LookupsInside cs n ∧ SameSelectors simple steps ∧
      cs.permutation.length * n ≤ 100 ∧
      Mock.runSteps 100 cs n steps (fun _ => 0) (fun _ => []) = .ok (.ok m) ∧
      m.verify = .error .unwrap := by
  obtain ⟨m, hm, hv⟩ := verdictOf_eq (show verdictOf nextCS 8
    [.region [.enable ⟨0, true⟩ 0]] = .ok (.ok (.error .unwrap)) by decide +kernel)
  refine ⟨nextCS, fun _ => true, 8, _, m,
    ⟨⟨by decide +kernel, by decide +kernel, by decide +kernel, by decide +kernel⟩, ?_,
      by decide, (by intro i h; cases h), by decide +kernel⟩,
    ?_, (by intro l h; cases h), ?_, by decide, hm, hv⟩
  · have : nextCS.degree = 3 := by decide +kernel
    rw [this]; unfold P; norm_num
  · intro gate hgate p hp
    have h1 := List.mem_singleton.1 hgate
    subst h1
    have h2 := List.mem_singleton.1 hp
    subst h2
    exact ⟨_, .left .self⟩
  · intro b hb s o he
    simp only [blocks, List.mem_singleton] at hb
    subst hb
    simp at he
    rw [he.1]

/-- A circuit that is accepted: a lookup in a table, a gate that adds two cells, a copy between regions;
and the verdicts after a wrong value, a wrong copy, a value not in the table. -/
def smallCS : CS :=
  { numFixed := 1, numAdvice := 2, numSelectors := 2, adviceQueries := [(0, 0), (0, 1), (1, 0)],
    advicePhase := [0, 0], fixedQueries := [(0, 0)], permutation := [.advice 0, .advice 1],
    gates := [[.product (.selector ⟨1, true⟩)
      (.sum (.advice 0 1) (.neg (.sum (.advice 0 0) (.advice 1 0))))]],
    lookups := [⟨[.product (.selector ⟨0, false⟩) (.advice 0 0)], [.fixed 0 0]⟩] }

def smallSteps (x y z : Fr) : List Step :=
  [.table 0 [0, 3], .region [.enable ⟨0, false⟩ 1, .enable ⟨1, true⟩ 0,
    .advice 0 0 x, .advice 1 0 y, .advice 0 1 z],
   .region [.advice 1 0 z, .equal ⟨1, 0, .advice 1⟩ ⟨0, 1, .advice 0⟩]]

example : verdictOf smallCS 9 (smallSteps 1 2 3) = .ok (.ok (.ok (.ok ()))) := by decide +kernel
example : verdictOf smallCS 9 (smallSteps 1 1 3) = .ok (.ok (.ok (.error [.notSatisfied 0 0 0]))) := by
  decide +kernel
example : verdictOf smallCS 9 (smallSteps 2 2 4) = .ok (.ok (.ok (.error [.lookup 0 1]))) := by
  decide +kernel
example : verdictOf smallCS 9 [.region [.advice 0 0 1, .advice 1 0 2,
    .equal ⟨0, 0, .advice 0⟩ ⟨0, 0, .advice 1⟩]] =
    .ok (.ok (.ok (.error [.permutation 0 0, .permutation 1 0]))) := by decide +kernel

/-- The hypotheses of the theorems about any circuit are met by this one. -/
theorem small_good : Built smallCS (fun i => decide (i ≠ 0)) ∧ Guarded smallCS ∧
    LookupsInside smallCS 9 ∧ smallCS.permutation.length * 9 ≤ 100 ∧
    ∀ x y z, SameSelectors (fun i => decide (i ≠ 0)) (smallSteps x y z) := by
  refine ⟨⟨⟨by decide +kernel, by decide +kernel, by decide +kernel, by decide +kernel⟩, ?_,
      by decide, (by intro i h; simp [smallCS] at h), by decide +kernel⟩,
    ?_, ?_, by decide, ?_⟩
  · have : smallCS.degree = 5 := by decide +kernel
    rw [this]; unfold P; norm_num
  · intro gate hgate p hp
    have h1 := List.mem_singleton.1 hgate
    subst h1
    have h2 := List.mem_singleton.1 hp
    subst h2
    exact ⟨_, .left .self⟩
  · have h : ∀ l ∈ smallCS.lookups, ∀ e ∈ l.input ++ l.table, ∀ q ∈ queriesIn e, q.2 = 0 := by
      decide +kernel
    intro l hl e he c rot hq row hr
    have h0 : rot = 0 := h l hl e he _ hq
    subst h0
    have : smallCS.usableRows 9 = 3 := by decide +kernel
    rw [rotate_zero (by omega)]
    exact hr
  · intro x y z b hb s o he
    simp only [smallSteps, blocks, List.mem_cons, List.not_mem_nil, or_false] at hb
    rcases hb with rfl | rfl
    · simp at he
      rcases he with ⟨rfl, -⟩ | ⟨rfl, -⟩ <;> rfl
    · simp at he

/-- So C87 applies: the accepted circuit is satisfied. -/
example : ∃ a, assigned smallCS 9 (smallSteps 1 2 3) = .ok a ∧
    ∀ g, Extends smallCS 9 a (fun _ => 0) (fun _ => []) g → Satisfied smallCS 9 g a.copies := by
  obtain ⟨m, hm, hv⟩ := verdictOf_eq
    (show verdictOf smallCS 9 (smallSteps 1 2 3) = .ok (.ok (.ok (.ok ()))) by decide +kernel)
  exact C87_sound_partial smallCS _ small_good.1 100 9 small_good.2.2.2.1 small_good.2.2.1 _ _ _ m hm hv

/-- It keeps the conventions. -/
example : ∃ a, assigned smallCS 9 (smallSteps 1 2 3) = .ok a ∧
    Tidy smallCS 9 (smallSteps 1 2 3) a ∧ CopiesAlike (smallSteps 1 2 3) a := by
  obtain ⟨m, hm, hv⟩ := verdictOf_eq
    (show verdictOf smallCS 9 (smallSteps 1 2 3) = .ok (.ok (.ok (.ok ()))) by decide +kernel)
  obtain ⟨a, h1, h2, -⟩ := C87_verdict_partial smallCS _ small_good.1 100 9 small_good.2.2.2.1
    small_good.2.2.1 small_good.2.1 _ (small_good.2.2.2.2 1 2 3) _ _ m hm
  obtain ⟨h3, h4, -⟩ := (h2 ⟨a.advice, a.fixed, fun _ _ => 0, a.selector, fun _ => 0⟩
    ⟨fun _ _ _ => rfl, fun _ _ => rfl, fun _ _ => rfl, fun _ _ => rfl, fun _ => rfl⟩).1 hv
  exact ⟨a, h1, h3, h4⟩

/-- The reports apply to it: a value that is not in the table is named. -/
example : ∃ a, assigned smallCS 9 (smallSteps 2 2 4) = .ok a ∧
    ∀ g, Extends smallCS 9 a (fun _ => 0) (fun _ => []) g → ¬ ∃ row', row' < smallCS.usableRows 9 ∧
      [(if g.selector 0 1 then 1 else 0) * g.advice 0 1] = [g.fixed 0 row'] := by
  obtain ⟨m, hm, hv⟩ := verdictOf_eq
    (show verdictOf smallCS 9 (smallSteps 2 2 4) = .ok (.ok (.ok (.error [.lookup 0 1]))) by decide +kernel)
  obtain ⟨a, h1, h2⟩ := C87_report_lookups_partial smallCS _ small_good.1 100 9 small_good.2.2.1 _ _ _ m hm _ hv
  refine ⟨a, h1, fun g hg hno => ?_⟩
  obtain ⟨l, hl, hr, hn⟩ := (h2 g hg 0 1).1 (List.mem_singleton.2 rfl)
  cases hl
  obtain ⟨row', hr', e⟩ := hno
  have : row' < 9 := row_lt_of_usable hr'
  refine hn ⟨row', hr', ?_⟩
  show [_ * g.advice 0 (rotate 9 1 0)] = [g.fixed 0 (rotate 9 row' 0)]
  rw [rotate_zero (by omega), rotate_zero this]
  exact e

/-! ### The brainfuck circuit -/

/-- C88. `MockProver::run` on the brainfuck circuit never panics. For given tables, challenges and public
inputs it succeeds whenever the synthesis of a proof does. -/
theorem C88_run (fuel n : Nat) (hf : 16 * n ≤ fuel) (mx : Matrix) (ch : Nat → Fr) (inst : Nat → List Fr) :
    (∃ r, Mock.run fuel n mx ch inst = .ok r) ∧
      ((∃ a, synthesize n mx ch inst = .ok a) → ∃ m, Mock.run fuel n mx ch inst = .ok (.ok m)) := by
  obtain ⟨r, h1, h2⟩ := runs_iff hf mx ch inst
  refine ⟨⟨r, h1⟩, ?_⟩
  rintro ⟨a, ha⟩
  obtain ⟨-, l0, l1, ha⟩ := (synthesize_ok_iff _ _ _ _ _).1 ha
  obtain ⟨m, rfl⟩ := h2.2 ⟨l0, l1, a, padded_load ha⟩
  exact ⟨m, h1⟩

/-- C88. For any tables, challenges and public inputs: `verify` returns `Ok` exactly when the processor
table and the instruction table have a row and the assignment that a proof would be made of satisfies
the circuit, whatever random numbers the prover puts in the unusable rows. When the two tables have a
row, `verify` does not panic. -/
theorem C88_verdict (fuel n : Nat) (hf : 16 * n ≤ fuel) (mx : Matrix) (ch : Nat → Fr)
    (inst : Nat → List Fr) (a : Assembly) (m : Mock) (ha : synthesize n mx ch inst = .ok a)
    (hm : Mock.run fuel n mx ch inst = .ok (.ok m)) :
    (∀ g, Extends mainCS n a ch inst g →
      (m.verify = .ok (.ok ()) ↔
        mx.processor ≠ [] ∧ mx.instruction ≠ [] ∧ Satisfied mainCS n g a.copies)) ∧
    (mx.processor ≠ [] → mx.instruction ≠ [] → ∃ r, m.verify = .ok r) := by
  obtain ⟨steps, hs, hr⟩ := run_iff.1 hm
  obtain ⟨st, ss, p, c, cols, as, hmade⟩ := made_of hr
  obtain ⟨-, -, -, ha⟩ := (synthesize_ok_iff _ _ _ _ _).1 ha
  have h1 := (assigned_main hs _).2 (padded_load (n := n) ha)
  have h2 := hmade.assigned
  obtain rfl : a = st.asm := Except.ok.inj (h1.symm.trans h2)
  have hf' : mainCS.permutation.length * n ≤ fuel := by rw [C33_circuit.2]; exact hf
  have ht := main_tidy hs h1
  constructor
  · intro g hg
    rw [hmade.verdict mainCS_built hf' (mainCS_lookupsInside n) mainCS_guarded (main_consistent hs) hg, ht]
    constructor
    · rintro ⟨⟨h3, h4⟩, -, h5⟩; exact ⟨h3, h4, h5⟩
    · rintro ⟨h3, h4, h5⟩; exact ⟨⟨h3, h4⟩, main_copies hs h1, h5⟩
  · intro h3 h4
    exact hmade.no_panic mainCS_built hf' mainCS_guarded (main_consistent hs) (ht.2 ⟨h3, h4⟩)

theorem _root_.Verif.Spec.Extends.completes {n : Nat} {a : Assembly} {ch : Nat → Fr} {inst : Nat → List Fr} {g : Grid}
    (h : Extends mainCS n a ch inst g) : Completes n a ch inst g :=
  ⟨h.advice, fun c r _ => h.fixed c r, h.selector, h.instance_, h.challenge⟩

/-- C88. What the project's tests check: of a finished run of a program, with the program and the input
as public inputs, `MockProver` accepts the tables exactly when the run has read its whole input. This
holds for the fixed challenges of `MockProver` as for any others. -/
theorem C88_honest (checks : Bool) (src : List UInt8) (code : List Fr) (input : List Nat) (steps : Nat)
    (s : Interp) (fuel n : Nat) (hf : 16 * n ≤ fuel) (ch : Nat → Fr) (hp : GoodProgram checks src code)
    (hi : GoodInput 8 input) (hn : steps ≤ 2 ^ 62) (hlen : input.length < 2 ^ 64)
    (hr : runOn steps 8 code input = some (.ok s))
    (hrows : 263 ≤ n ∧ s.matrix.instruction.length + 7 ≤ n ∧ input.length + 7 ≤ n) :
    ∃ m, Mock.run fuel n s.matrix ch (publicInputs code (toFr input)) = .ok (.ok m) ∧
      (∃ v, m.verify = .ok v) ∧ (m.verify = .ok (.ok ()) ↔ s.input = []) := by
  obtain ⟨a, ha⟩ := (honest_room hp hi hn hr n ch).2 hrows
  obtain ⟨m, hm⟩ := (C88_run fuel n hf s.matrix ch (publicInputs code (toFr input))).2 ⟨a, ha⟩
  obtain ⟨hv, hnp⟩ := C88_verdict fuel n hf s.matrix ch _ a m ha hm
  obtain ⟨l1, -, l3, -⟩ := honest_lengths hp hi hn hr
  have hp0 : s.matrix.processor ≠ [] := by intro h0; rw [h0] at l3; simp at l3
  have hi0 : s.matrix.instruction ≠ [] := by
    intro h0; rw [h0] at l1
    have := List.length_pos_iff.2 hp0
    simp at l1; omega
  refine ⟨m, hm, hnp hp0 hi0, ?_⟩
  let g : Grid := ⟨a.advice, a.fixed, fun i r => (publicInputs code (toFr input) i).getD r 0,
    a.selector, ch⟩
  have hg : Extends mainCS n a ch (publicInputs code (toFr input)) g :=
    ⟨fun _ _ _ => rfl, fun _ _ => rfl, fun _ _ => rfl, fun _ _ => rfl, fun _ => rfl⟩
  rw [hv g hg, ← C15_accepts_iff_input_read_partial checks src code input steps s n ch a g hp hi hn hlen
    hr ha hg.completes]
  exact ⟨fun h => h.2.2, fun h => ⟨hp0, hi0, h⟩⟩

/-- `verify` is stricter than the circuit: it refuses empty tables whatever they satisfy. -/
theorem C88_empty (fuel n : Nat) (hf : 16 * n ≤ fuel) (mx : Matrix) (ch : Nat → Fr)
    (inst : Nat → List Fr) (a : Assembly) (m : Mock) (ha : synthesize n mx ch inst = .ok a)
    (hm : Mock.run fuel n mx ch inst = .ok (.ok m)) (h : mx.processor = [] ∨ mx.instruction = []) :
    m.verify ≠ .ok (.ok ()) := by
  intro hv
  obtain ⟨h1, h2, -⟩ := ((C88_verdict fuel n hf mx ch inst a m ha hm).1
    ⟨a.advice, a.fixed, fun i r => (inst i).getD r 0, a.selector, ch⟩
    ⟨fun _ _ _ => rfl, fun _ _ => rfl, fun _ _ => rfl, fun _ _ => rfl, fun _ => rfl⟩).1 hv
  rcases h with h | h
  · exact h1 h
  · exact h2 h

/-- C88. Zeros missing at the end of the public inputs make no difference to `MockProver`. -/
theorem C88_missing_zeros (fuel n : Nat) (mx : Matrix) (ch : Nat → Fr) (inst full : Nat → List Fr)
    (h : ∀ i, ∃ k, full i = inst i ++ List.replicate k 0) (hl : ∀ i, (full i).length ≤ n - 6) :
    Mock.run fuel n mx ch inst = Mock.run fuel n mx ch full := by
  have e1 : padded n inst = padded n full := by
    funext i
    obtain ⟨k, e⟩ := h i
    have := hl i
    unfold padded
    rw [e, List.length_append, List.length_replicate] at *
    rw [List.append_assoc, List.replicate_append_replicate]
    congr 2
    omega
  have e2 : (fun i r => (inst i).getD r (0 : Fr)) = fun i r => (full i).getD r 0 := by
    funext i r
    obtain ⟨k, e⟩ := h i
    rw [e]
    simp only [List.getD_eq_getElem?_getD]
    by_cases hr : r < (inst i).length
    · rw [List.getElem?_append_left hr]
    · rw [List.getElem?_append_right (by omega), List.getElem?_eq_none (by omega), List.getElem?_replicate]
      split_ifs <;> rfl
  have e3 : ∀ l : Nat → List Fr, (∀ i, (l i).length ≤ n - 6) →
      ((List.range mainCS.numInstance).any fun i => decide (mainCS.usableRows n < (l i).length)) = false := fun l hl => by
    rw [List.any_eq_false]
    intro i _
    rw [mainCS_usable, decide_eq_true_eq]
    have := hl i
    omega
  have hl' : ∀ i, (inst i).length ≤ n - 6 := fun i => by
    obtain ⟨k, e⟩ := h i
    have := hl i
    rw [e, List.length_append] at this
    omega
  unfold Mock.run
  rw [e1]
  cases mainSteps DOMAIN mainConfig mx ch (padded n full) with
  | error e => rfl
  | ok steps =>
    simp only
    unfold Mock.runSteps
    rw [e3 inst hl', e3 full hl]
    unfold Mock.of
    simp only [e2]

/-- `,` -/
def readCode : List Fr := toFr [44]

/-- C88. So `MockProver` accepts public inputs that no proof can be made with: the program `,` on the input 0, where the public
inputs say that there is one value and do not give it. -/
theorem C88_short (ch : Nat → Fr) : ∃ s m, runOn 10 8 readCode [0] = some (.ok s) ∧
    Mock.run 8192 512 s.matrix ch (fun i => if i = 1 then [1] else publicInputs readCode (toFr [0]) i) = .ok (.ok m) ∧
    m.verify = .ok (.ok ()) ∧
    ∀ a, synthesize 512 s.matrix ch (fun i => if i = 1 then [1] else publicInputs readCode (toFr [0]) i) ≠ .ok a := by
  have h : ((runOn 10 8 readCode [0]).map (fun r => r.map (fun s =>
      (s.matrix.processor.length, s.input, s.matrix.input.length)))) = some (.ok (2, [], 1)) := by decide +kernel
  obtain ⟨s, hs, e⟩ := ok_of_map h
  have hp1 : s.matrix.processor.length = 2 := congrArg Prod.fst e
  have hin : s.input = [] := congrArg (fun x => x.2.1) e
  have hil : s.matrix.input.length = 1 := congrArg (fun x => x.2.2) e
  have hg : GoodInput 8 [0] := by unfold GoodInput; decide
  have hgood : GoodProgram true [44] readCode := ⟨by decide, by decide, by decide, by decide⟩
  have l1 := (honest_lengths hgood hg (by norm_num) hs).1
  have l3 : s.matrix.instruction.length = 3 := by rw [l1, hp1]; rfl
  obtain ⟨m, hm, -, hv⟩ := C88_honest true [44] readCode [0] 10 s 8192 512 (by norm_num) ch
    hgood hg (by norm_num) (by norm_num) hs ⟨by norm_num, by rw [l3]; norm_num, by norm_num⟩
  refine ⟨s, m, hs, ?_, hv.2 hin, fun a ha => ?_⟩
  · rw [C88_missing_zeros 8192 512 s.matrix ch _ (publicInputs readCode (toFr [0])) (fun i => ?_) (fun i => ?_)]
    · exact hm
    · by_cases hi : i = 1
      · subst hi
        refine ⟨1, ?_⟩
        decide +kernel
      · exact ⟨0, by simp [hi]⟩
    · match i with
      | 0 => decide +kernel
      | 1 => decide +kernel
      | i + 2 => exact Nat.zero_le _
  · obtain ⟨-, -, -, ha⟩ := (synthesize_ok_iff _ _ _ _ _).1 ha
    rw [loadTable_ok_iff] at ha
    obtain ⟨p, ni, g, -, hn, -⟩ := ha
    unfold inputOps at hn
    rw [hil] at hn
    cases hn

/-- The demo program on input 2 is accepted, in 512 rows. -/
example (ch : Nat → Fr) : ∃ s m, runOn 100 8 demoCode [2] = some (.ok s) ∧
    Mock.run 8192 512 s.matrix ch (publicInputs demoCode (toFr [2])) = .ok (.ok m) ∧
    m.verify = .ok (.ok ()) := by
  have h : ((runOn 100 8 demoCode [2]).map (fun r => r.map (fun s =>
      (s.matrix.processor.length, s.input)))) = some (.ok (21, [])) := by decide +kernel
  obtain ⟨s, hs, e⟩ := ok_of_map h
  have hp1 : s.matrix.processor.length = 21 := congrArg Prod.fst e
  have hin : s.input = [] := congrArg Prod.snd e
  have l1 := (honest_lengths demo_good demo_input (by norm_num) hs).1
  have l3 : s.matrix.instruction.length = 33 := by rw [l1, hp1]; rfl
  obtain ⟨m, hm, -, hv⟩ := C88_honest true demo demoCode [2] 100 s 8192 512 (by norm_num) ch demo_good
    demo_input (by norm_num) (by norm_num) hs ⟨by norm_num, by rw [l3]; norm_num, by norm_num⟩
  exact ⟨s, m, hs, hm, hv.2 hin⟩

/-- The program `+` with an input byte it does not read is refused. -/
example (ch : Nat → Fr) : ∃ s m, runOn 10 8 plusCode [97] = some (.ok s) ∧
    Mock.run 8192 512 s.matrix ch (publicInputs plusCode (toFr [97])) = .ok (.ok m) ∧
    ∃ fs, m.verify = .ok (.error fs) := by
  have h : ((runOn 10 8 plusCode [97]).map (fun r => r.map (fun s =>
      (s.matrix.processor.length, s.input)))) = some (.ok (2, [97])) := by decide +kernel
  obtain ⟨s, hs, e⟩ := ok_of_map h
  have hp1 : s.matrix.processor.length = 2 := congrArg Prod.fst e
  have hin : s.input = [97] := congrArg Prod.snd e
  have hg : GoodInput 8 [97] := by unfold GoodInput; decide
  have l1 := (honest_lengths plus_good hg (by norm_num) hs).1
  have l3 : s.matrix.instruction.length = 3 := by rw [l1, hp1]; rfl
  obtain ⟨m, hm, ⟨v, hv1⟩, hv⟩ := C88_honest true [43] plusCode [97] 10 s 8192 512 (by norm_num) ch
    plus_good hg (by norm_num) (by norm_num) hs ⟨by norm_num, by rw [l3]; norm_num, by norm_num⟩
  refine ⟨s, m, hs, hm, ?_⟩
  cases v with
  | error fs => exact ⟨fs, hv1⟩
  | ok u => rw [hv.1 hv1] at hin; cases hin

#print axioms C87_run
#print axioms C87_sound_partial
#print axioms C87_verdict_partial
#print axioms C87_par
#print axioms C87_accepts_wrong
#print axioms C87_false_alarm_copy
#print axioms C87_false_alarm_gate
#print axioms C87_false_alarm_instance
#print axioms C87_panic_poison
#print axioms C87_panic_region
#print axioms C88_run
#print axioms C88_verdict
#print axioms C88_honest
#print axioms C88_empty
#print axioms C88_missing_zeros
#print axioms C88_short

end Verif.Props

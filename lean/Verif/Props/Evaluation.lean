import Verif.Lemmas.EvaluationLemmas
import Verif.Lemmas.MentionsLemmas

/-! Property C35: the prover's compiled evaluation of gates and lookups. -/

namespace Verif.Props

open Spec Graph

/-- C35, gates. For gates without selectors the graph is built without a panic, and evaluating it at
any row, on whatever an evaluation before has left, gives Horner's rule in `y` over the values of
the gates, starting at the previous value. -/
theorem C35_gates (gates : List (List Expr)) (nf na ni nc n : Nat) (hn : 0 < n)
    (hm : ∀ gate ∈ gates, ∀ e ∈ gate, Mentions nf na ni nc e) :
    ∃ G, ofGates gates = .ok G ∧
      ∀ (cols : Grid) (beta gamma theta y previous : Fr) (row : Nat) (data : List Fr),
        data.length = G.numIntermediates →
        ∃ data', data'.length = data.length ∧
          G.evaluate data ⟨columnsOf nf n cols.fixed, columnsOf na n cols.advice,
              columnsOf ni n cols.instance_, (List.range nc).map cols.challenge,
              beta, gamma, theta, y, previous⟩ row n =
            .ok (horner y previous (gates.flatten.map fun e => e.eval n cols row), data') := by
  have key := fun cols x hx => ofGates_ok (cg := cols) gates hn hm ⟨x, hx⟩
  obtain ⟨G, hG, -⟩ := key ⟨0, 0, 0, fun _ _ => false, 0⟩
    ⟨_, _, _, _, 0, 0, 0, 0, 0⟩ ⟨rfl, rfl, rfl, rfl⟩
  refine ⟨G, hG, ?_⟩
  intro cols beta gamma theta y previous row data hd
  have hs : Shows ⟨columnsOf nf n cols.fixed, columnsOf na n cols.advice,
      columnsOf ni n cols.instance_, (List.range nc).map cols.challenge,
      beta, gamma, theta, y, previous⟩ cols nf na ni nc n := ⟨rfl, rfl, rfl, rfl⟩
  obtain ⟨G', hG', h⟩ := key cols _ hs
  rw [hG] at hG'
  cases hG'
  exact h _ hs row data hd

/-- C35, lookups: the value is the product of the input compressed with `theta` plus `beta` and of the
table compressed with `theta` plus `gamma`. -/
theorem C35_lookup (l : Lookup) (nf na ni nc n : Nat) (hn : 0 < n)
    (hi : ∀ e ∈ l.input, Mentions nf na ni nc e) (ht : ∀ e ∈ l.table, Mentions nf na ni nc e) :
    ∃ G, ofLookup l = .ok G ∧
      ∀ (cols : Grid) (beta gamma theta y previous : Fr) (row : Nat) (data : List Fr),
        data.length = G.numIntermediates →
        ∃ data', data'.length = data.length ∧
          G.evaluate data ⟨columnsOf nf n cols.fixed, columnsOf na n cols.advice,
              columnsOf ni n cols.instance_, (List.range nc).map cols.challenge,
              beta, gamma, theta, y, previous⟩ row n =
            .ok ((horner theta 0 (l.input.map fun e => e.eval n cols row) + beta) *
              (horner theta 0 (l.table.map fun e => e.eval n cols row) + gamma), data') := by
  have key := fun cols x hx => ofLookup_ok (cg := cols) l hn hi ht ⟨x, hx⟩
  obtain ⟨G, hG, -⟩ := key ⟨0, 0, 0, fun _ _ => false, 0⟩
    ⟨_, _, _, _, 0, 0, 0, 0, 0⟩ ⟨rfl, rfl, rfl, rfl⟩
  refine ⟨G, hG, ?_⟩
  intro cols beta gamma theta y previous row data hd
  have hs : Shows ⟨columnsOf nf n cols.fixed, columnsOf na n cols.advice,
      columnsOf ni n cols.instance_, (List.range nc).map cols.challenge,
      beta, gamma, theta, y, previous⟩ cols nf na ni nc n := ⟨rfl, rfl, rfl, rfl⟩
  obtain ⟨G', hG', h⟩ := key cols _ hs
  rw [hG] at hG'
  cases hG'
  exact h _ hs row data hd

/-- C35 for the brainfuck circuit: whatever selectors are enabled, the compressed gates and lookups
meet the hypotheses of the two theorems above. -/
theorem C35_circuit (activations : List (List Bool)) (c : CS.Compressed) (cols : List (List Fr))
    (as : List SelectorAssignment)
    (h : mainCS.compressSelectors activations = .ok (c, cols, as)) :
    (∀ gate ∈ c.cs.gates, ∀ e ∈ gate, Mentions c.cs.numFixed 28 2 11 e) ∧
    ∀ l ∈ c.cs.lookups, (∀ e ∈ l.input, Mentions c.cs.numFixed 28 2 11 e) ∧
      ∀ e ∈ l.table, Mentions c.cs.numFixed 28 2 11 e := by
  have := compressed_mentions mainCS_sane mainCS_mentions h
  unfold expressions at this
  refine ⟨fun gate hg e he => this e (List.mem_append_left _ (List.mem_flatten.2 ⟨gate, hg, he⟩)),
    fun l hl => ⟨fun e he => this e (List.mem_append_right _ (List.mem_flatMap.2 ⟨l, hl,
      List.mem_append_left _ he⟩)), fun e he => this e (List.mem_append_right _
        (List.mem_flatMap.2 ⟨l, hl, List.mem_append_right _ he⟩))⟩⟩

/-- A selector that is still there makes the prover panic. -/
theorem C35_selector (s : Selector) (gates : List (List Expr)) :
    ofGates ([.selector s] :: gates) = .error .unreachable := rfl

/-- Repeated queries, products with 0, 1 and 2, a square, subtractions; stale intermediates. -/
example : (do
    let a := Expr.advice 0 0
    let b := Expr.advice 0 1
    let G ← ofGates [[a * b - Expr.const 2 * a, b * a], [.sum (.const 0) (a * a), .scaled (b - a) 3]]
    let r ← G.evaluate (List.replicate G.numIntermediates 77)
      ⟨[], [[5, 7, 9]], [], [], 0, 0, 0, 10, 4⟩ 1 3
    return (r.1, G.calculations.length)) =
    .ok ((((4 * 10 + (7 * 9 - 2 * 7)) * 10 + 9 * 7) * 10 + 7 * 7) * 10 + (9 - 7) * 3, 9) := by
  decide +kernel

#print axioms C35_gates
#print axioms C35_lookup
#print axioms C35_circuit
#print axioms C35_selector

end Verif.Props

import Verif.Lemmas.KeySize
import Verif.Lemmas.HonestCircuit
import Verif.Lemmas.DomainRange
import Verif.Spec.Key
import Verif.Props.Circuit
import Verif.Props.Compress
import Verif.Props.Domain

/-! Properties C34 and C38: verifying keys as bytes. -/

namespace Verif.Props

open BF Spec Compress

/-- C34. Every verifying key of the brainfuck circuit, written and read back (with anything after
it), is the same key: domain, commitments, constraint system and selector assignments. -/
theorem C34_round_trip (checks : Bool) (fuel : Nat) (activations : List (List Bool))
    (vk : VerifyingKey) (h : GeneratedFrom checks fuel activations vk) (rest : List UInt8) :
    VerifyingKey.read checks fuel mainCS (vk.write ++ rest) = .ok (some (vk, rest)) := by
  obtain ⟨⟨k, hk, hd, hdk⟩, ⟨cols, as, hcomp, has⟩, ⟨hfl, hf⟩, hpl, hp⟩ := h
  obtain ⟨h1, h2, -, h3⟩ := assignments_inRange hcomp
  refine VerifyingKey.read_append (by rw [hdk]; exact hk) (by rw [hdk]; exact hd)
    (by omega) hf hpl hp (by rw [has, List.length_map]; omega) ?_ ?_ rest
  · intro a ha
    rw [has] at ha
    obtain ⟨b, hb, rfl⟩ := List.mem_map.1 ha
    exact h3 b hb
  · rw [has, List.map_map]
    have : (fun a => (WAssignment.ofAssignment vk.cs.cs a).erase) = id := by
      funext a; exact erase_ofAssignment _ a
    show mainCS.recreate (as.map fun a => (WAssignment.ofAssignment vk.cs.cs a).erase) = _
    rw [this, List.map_id]
    exact C37_recreate _ _ _ _ _ hcomp

/-- Every `k` up to 24 and every table of enabled selectors give such keys. -/
theorem C34_exist (checks : Bool) (fuel : Nat) (hf : 48 ≤ fuel) (k : Nat) (hk : k ≤ 24)
    (activations : List (List Bool)) (hl : activations.length = 15) (n : Nat)
    (hn : ∀ act ∈ activations, act.length = n) (p : G1Raw) (hp : Reduced p) :
    ∃ vk, GeneratedFrom checks fuel activations vk ∧ vk.domain.k = k ∧
      vk.fixedCommitments = List.replicate vk.cs.cs.numFixed p := by
  have hns : mainCS.numSelectors = 15 := by decide +kernel
  have hdeg : mainCS.degree = 11 := by decide +kernel
  obtain ⟨c, cols, as, hcomp, -⟩ := C32_no_panic mainCS _ mainCS_sane activations
    (by rw [hl, hns]) n hn
  obtain ⟨d, hd, hdom⟩ := C40_circuit_partial checks k hk fuel hf
  refine ⟨⟨d, List.replicate c.cs.numFixed p, List.replicate mainCS.permutation.length p, c,
    as.map (WAssignment.ofAssignment c.cs)⟩, ⟨⟨k, ?_, ?_, ?_⟩, ⟨cols, as, hcomp,
    rfl⟩, ⟨?_, ?_⟩, ?_, ?_⟩, ?_, rfl⟩
  · omega
  · rw [hdeg]; exact hd
  · exact hdom.logRows
  · exact List.length_replicate
  · intro q hq; rw [List.eq_of_mem_replicate hq]; exact hp
  · exact List.length_replicate
  · intro q hq; rw [List.eq_of_mem_replicate hq]; exact hp
  · exact hdom.logRows

/-- C44. For every honest run of a good program that fits in the circuit, the verifying key written
for its circuit fits in the buffer of the on-chain verifier (4096 bytes): it has at most 2963. -/
theorem C44_key_fits (checks : Bool) (src : List UInt8) (code : List Fr) (input : List Nat)
    (n : Nat) (s : Interp) (rows : Nat) (ch : Nat → Fr) (inst : Nat → List Fr) (a : Assembly)
    (hp : GoodProgram checks src code) (hi : GoodInput 8 input) (hn : n ≤ 2 ^ 62)
    (hr : runOn n 8 code input = some (.ok s))
    (ha : synthesize rows s.matrix ch inst = .ok a)
    (checks' : Bool) (fuel : Nat) (vk : VerifyingKey)
    (h : GeneratedFrom checks' fuel (selectorTable rows a) vk) :
    vk.write.length ≤ 2963 ∧ 2963 ≤ 4096 := by
  refine ⟨?_, by norm_num⟩
  obtain ⟨-, ⟨cols, as, hcomp, has⟩, ⟨hfl, -⟩, hpl, -⟩ := h
  refine key_size hcomp has hfl hpl ?_
  obtain ⟨wcode, hist, w, m, t, hfin⟩ := finished_of_run hp (by norm_num) hi hn hr
  obtain ⟨l1, l2, -, -, -, l6⟩ := honest_lengths hp hi hn hr
  have hm : 0 < m := by
    rcases Nat.eq_zero_or_pos m with rfl | h
    · exfalso
      obtain ⟨h1, h2⟩ := hfin.fin
      cases h1
      have h3 := List.length_pos_iff.2 hp.nonempty
      have h4 : (commands src).length ≤ 0 := h2
      omega
    · exact h
  have hlen : s.matrix.processor.length = hist.length + 1 := by rw [hfin.processor]; simp
  have hproc : 2 ≤ s.matrix.processor.length := by have := hfin.len; omega
  have hcode : 1 ≤ code.length := by
    rw [hfin.code_eq, W.length_cast]; exact hfin.ok.nonempty
  obtain ⟨as', vin, vcode, hf⟩ := filled ha
    (g := ⟨a.advice, a.fixed, fun i r => (inst i).getD r 0, a.selector, ch⟩)
    ⟨fun _ _ _ => rfl, fun _ _ _ => rfl, fun _ _ => rfl, fun _ _ => rfl, fun _ => rfl⟩
  have hns : mainCS.numSelectors = 15 := by decide +kernel
  have hroom := hf.room
  obtain ⟨rows', rfl⟩ : ∃ r, rows = r + 1 := ⟨rows - 1, by omega⟩
  have hcount : (selectorTable (rows' + 1) a).countP (fun act => act[0]? ≠ some true) =
      (List.range 15).countP (fun i => a.selector i 0 ≠ true) := by
    unfold selectorTable
    rw [hns, List.countP_map]
    refine List.countP_congr fun i _ => ?_
    simp
  rw [hcount]
  have hs : ∀ i, i < 15 → a.selector i 0 ≠ true → i = 10 ∨ i = 12 ∨ i = 13 := by
    intro i hi hoff
    by_contra hne
    apply hoff
    have e1 : ∀ s, s = 0 ∨ s = 1 ∨ s = 4 → a.selector s 0 = true := fun s h => by
      have := hf.procSel s h 0; simp only at this; rw [this]; simp; omega
    have e2 : ∀ s, s = 2 ∨ s = 5 → a.selector s 0 = true := fun s h => by
      have := hf.procStep s h 0; simp only at this; rw [this]; simp; omega
    have e3 : a.selector 3 0 = true := by
      have := hf.procFirst 0; simp only at this; rw [this]; simp
    have e4 : a.selector 7 0 = true := by
      have := hf.memSel 0; simp only at this; rw [this]; simp; omega
    have e5 : a.selector 6 0 = true := by
      have := hf.memStep 0; simp only at this; rw [this]; simp; omega
    have e6 : ∀ s, s = 8 ∨ s = 9 ∨ s = 11 → a.selector s 0 = true := fun s h => by
      have := hf.insStep s h 0; simp only at this; rw [this]; simp; omega
    have e7 : a.selector 14 0 = true := by
      have := hf.progSel 0; simp only at this; rw [this]; simp; omega
    interval_cases i
    all_goals first
      | exact e3 | exact e4 | exact e5 | exact e7
      | exact e1 _ (by omega) | exact e2 _ (by omega) | exact e6 _ (by omega)
  calc (List.range 15).countP (fun i => a.selector i 0 ≠ true)
      ≤ (List.range 15).countP (fun i => i = 10 ∨ i = 12 ∨ i = 13) := by
        refine List.countP_mono_left fun i hi h => ?_
        rw [List.mem_range] at hi
        simpa using hs i hi (by simpa using h)
    _ = 3 := by decide

/-- A key for the run of the demo program. -/
example : ∃ (s : Interp) (rows : Nat) (a : Assembly) (vk : VerifyingKey),
    runOn 100 8 demoCode [2] = some (.ok s) ∧
    synthesize rows s.matrix (fun _ => 0) (publicInputs demoCode (toFr [2])) = .ok a ∧
    GeneratedFrom false 48 (selectorTable rows a) vk ∧ vk.write.length ≤ 2963 := by
  obtain ⟨s, a, g, hs, -, ha, -, -⟩ := demo_accepted (fun _ => 0)
  obtain ⟨vk, h, -, -⟩ := C34_exist false 48 (by norm_num) 9 (by norm_num)
    (selectorTable (2 ^ chooseK s.matrix.instruction.length) a)
    (by unfold selectorTable; rw [List.length_map, List.length_range]; decide +kernel)
    (2 ^ chooseK s.matrix.instruction.length) (by
      intro act hact
      unfold selectorTable at hact
      obtain ⟨i, -, rfl⟩ := List.mem_map.1 hact
      simp) ⟨⟨0, 0, 0, 0⟩, ⟨0, 0, 0, 0⟩⟩ (by unfold Reduced Limbs.Ok; decide)
  exact ⟨s, _, a, vk, hs, ha, h, (C44_key_fits true demo demoCode [2] 100 s _ _ _ a demo_good
    demo_input (by norm_num) hs ha false 48 vk h).1⟩

/-- A key with one combination of all selectors, each replaced by the constant 0. -/
example : ((mainCS.recreate ((List.range 15).map fun i => ⟨i, 0, .const 0⟩)).map fun c =>
    (c.cs.numFixed, c.selectorMap)) = .ok (2, List.replicate 15 1) := by decide +kernel

/-- A key from a table of 15 selectors over 3 rows, `k = 9`. -/
example : ∃ vk, GeneratedFrom false 48
      ((List.range 15).map fun i => [i % 2 == 0, i == 3, true]) vk ∧ vk.domain.k = 9 ∧
    VerifyingKey.read false 48 mainCS (vk.write ++ [7, 7]) = .ok (some (vk, [7, 7])) := by
  obtain ⟨vk, h, hk, -⟩ := C34_exist false 48 (by norm_num) 9 (by norm_num)
    ((List.range 15).map fun i => [i % 2 == 0, i == 3, true]) (by decide) 3 (by decide)
    ⟨⟨0, 0, 0, 0⟩, ⟨0, 0, 0, 0⟩⟩ (by unfold Reduced Limbs.Ok; decide)
  exact ⟨vk, h, hk, C34_round_trip _ _ _ vk h _⟩

/-- The bytes of a verifying key with the given commitments in which the expression of every
selector is the constant 0. -/
def voidKey (k : Nat) (fixed permutation : List G1Raw) : List UInt8 :=
  be32 k ++ be32 fixed.length ++ fixed.flatMap writeG1 ++ permutation.flatMap writeG1 ++
    be32 15 ++ ((List.range 15).map fun i => (⟨i, 0, .const 0⟩ : WAssignment)).flatMap
      WAssignment.write

/-- C38 is false. Whoever writes the verifying key into the witness can put the constant 0 in place
of every selector: the key fits in the buffer and is read without complaint for every `k` up to 24
and all commitments, and then every assignment of the advice columns, every program, every input and
all challenges satisfy every gate and the lookup, as long as the column of the range table (also
committed to in the key) has a 0 in it. -/
theorem C38_false (checks : Bool) (fuel : Nat) (hf : 48 ≤ fuel) (k : Nat) (hk : k ≤ 24)
    (fixed permutation : List G1Raw) (hfl : fixed.length = 2) (hfr : ∀ p ∈ fixed, Reduced p)
    (hpl : permutation.length = 16) (hpr : ∀ p ∈ permutation, Reduced p) :
    (voidKey k fixed permutation).length ≤ 4096 ∧
    ∃ vk, VerifyingKey.read checks fuel mainCS (voidKey k fixed permutation) = .ok (some (vk, [])) ∧
      vk.domain.n = 2 ^ k ∧ vk.fixedCommitments = fixed ∧ vk.permutation = permutation ∧
      ∀ (n : Nat) (g : Grid), (∃ row < mainCS.usableRows n, g.fixed 0 row = 0) →
        Satisfied vk.cs.cs n g [] := by
  have hdeg : mainCS.degree = 11 := by decide +kernel
  have hpc : mainCS.permutation.length = 16 := by decide +kernel
  obtain ⟨d, hd, hdom⟩ := C40_circuit_partial checks k hk fuel hf
  obtain ⟨c, hc⟩ : ∃ c, mainCS.recreate ((List.range 15).map fun i => ⟨i, 0, .const 0⟩) = .ok c := by
    have : ((mainCS.recreate ((List.range 15).map fun i => ⟨i, 0, .const 0⟩)).map fun c =>
      c.cs.numFixed) = .ok 2 := by decide +kernel
    cases h : mainCS.recreate ((List.range 15).map fun i => ⟨i, 0, .const 0⟩) with
    | error e => rw [h] at this; cases this
    | ok c => exact ⟨c, rfl⟩
  constructor
  · have hA : (((List.range 15).map fun i => (⟨i, 0, .const 0⟩ : WAssignment)).flatMap
        WAssignment.write).length = 615 := by
      have h41 : ∀ i, (WAssignment.write ⟨i, 0, .const 0⟩).length = 41 := by
        intro i
        simp only [WAssignment.write, WExpr.write, List.length_append, be32_length,
          List.length_cons, writeFr_length]
      have hl : ∀ l : List Nat, ((l.map fun i => (⟨i, 0, .const 0⟩ : WAssignment)).flatMap
          WAssignment.write).length = 41 * l.length := by
        intro l
        induction l with
        | nil => rfl
        | cons i l ih =>
          rw [List.map_cons, List.flatMap_cons, List.length_append, ih, h41, List.length_cons]
          omega
      rw [hl, List.length_range]
    unfold voidKey
    simp only [List.length_append, be32_length, writeG1s_length, hfl, hpl, hA]
    norm_num
  · have hread := VerifyingKey.read_append (checks := checks) (fuel := fuel) (cs := mainCS)
      (vk := ⟨d, fixed, permutation, c, (List.range 15).map fun i => ⟨i, 0, .const 0⟩⟩)
      (by show d.k < _; rw [hdom.logRows]; omega)
      (by show Domain.new checks fuel _ d.k = _; rw [hdeg, hdom.logRows]; exact hd)
      (by show fixed.length < _; omega) hfr (by show permutation.length = _; omega) hpr
      (by simp) (by
        intro a ha
        obtain ⟨i, hi, rfl⟩ := List.mem_map.1 ha
        rw [List.mem_range] at hi
        exact ⟨by show i < _; omega, by show 0 < _; norm_num, trivial⟩)
      (by rw [List.map_map]; exact hc) []
    refine ⟨⟨d, fixed, permutation, c, (List.range 15).map fun i => ⟨i, 0, .const 0⟩⟩,
      ?_, ?_, ?_, ?_, ?_⟩
    · rw [List.append_nil] at hread
      rw [← hread]
      unfold voidKey VerifyingKey.write
      simp only [hdom.logRows, List.length_map, List.length_range]
    · exact hdom.rows
    · rfl
    · rfl
    · intro n g hg
      obtain ⟨m, rs, hcs, hrl, hrs, -⟩ := recreate_eq hc
      have hz : ∀ i, rs.getD i (.const 0) = .const 0 := by
        intro i
        rw [List.getD_eq_getElem?_getD]
        cases hx : rs[i]? with
        | none => rfl
        | some x =>
          obtain ⟨a, ha, -, rfl⟩ := hrs i x hx
          obtain ⟨j, -, rfl⟩ := List.mem_map.1 ha
          rfl
      show Satisfied c.cs n g []
      rw [hcs]
      have hgates : ∀ e ∈ mainCS.gates.flatten, e.dead = true := by decide +kernel
      have hlook : ∀ l ∈ mainCS.lookups, (∀ e ∈ l.input, e.dead = true) ∧ l.input.length = 1 ∧
          l.table = [.fixed 0 0] := by decide +kernel
      refine ⟨?_, ?_, by simp⟩
      · intro gate hgate p hp row hrow
        rw [replaced_gates] at hgate
        obtain ⟨gt, hgt, rfl⟩ := List.mem_map.1 hgate
        obtain ⟨e, he, rfl⟩ := List.mem_map.1 hp
        exact dead_eval hz e (hgates e (List.mem_flatten.2 ⟨gt, hgt, he⟩))
      · intro l hl row hrow
        rw [replaced_lookups] at hl
        rw [replaced_usable] at hrow ⊢
        obtain ⟨l0, hl0, rfl⟩ := List.mem_map.1 hl
        obtain ⟨h1, h2, h3⟩ := hlook l0 hl0
        obtain ⟨row', hrow', hzero⟩ := hg
        refine ⟨row', hrow', ?_⟩
        obtain ⟨e, he⟩ := List.length_eq_one_iff.1 h2
        simp only [h3, he]
        show [(e.subst rs).eval n g row] = [g.fixed 0 (rotate n row' 0)]
        rw [dead_eval hz e (h1 e (by rw [he]; simp)), rotate_zero (row_lt_of_usable hrow'), hzero]

/-- C38, what is left of it. Whatever bytes are given as verifying key, if a key is read from them,
then for every grid `g` of the circuit and every grid `g'` with the same columns: if in `g'` the
expression the key gives for each selector is nonzero in exactly the rows in which the selector is
enabled in `g` (for the range check: 1 there and 0 elsewhere), then the gates and lookups of the key
hold in `g'` exactly if those of the brainfuck circuit hold in `g`. The permutation has the columns
of the circuit. So all that a key can change is when gates apply, and which cells are copies.
Missing: nothing ensures that the expressions are like that. -/
theorem C38_partial (checks : Bool) (fuel : Nat) (bytes rest : List UInt8) (vk : VerifyingKey)
    (h : VerifyingKey.read checks fuel mainCS bytes = .ok (some (vk, rest))) :
    vk.cs.cs.permutation = mainCS.permutation ∧ vk.permutation.length = 16 ∧
    ∃ rs : List Expr, rs.length = vk.selectorAssignments.length ∧ 15 ≤ rs.length ∧
      (∀ (i : Nat) (x : Expr), rs[i]? = some x →
        ∃ a ∈ vk.selectorAssignments, a.selector = i ∧ a.expression.erase = x) ∧
      ∀ (n : Nat) (g g' : Grid), g'.advice = g.advice → g'.instance_ = g.instance_ →
        g'.challenge = g.challenge → (∀ c, c < mainCS.numFixed → g'.fixed c = g.fixed c) →
        (∀ (i : Nat) (x : Expr), i < 15 → rs[i]? = some x → ∀ row, row < n →
          (x.eval n g' row = 0 ↔ g.selector i row = false) ∧
          (i = 0 → x.eval n g' row = if g.selector i row then 1 else 0)) →
        (Satisfied mainCS n g [] ↔ Satisfied vk.cs.cs n g' []) := by
  have hns : mainCS.numSelectors = 15 := by decide +kernel
  have hpc : mainCS.permutation.length = 16 := by decide +kernel
  obtain ⟨-, hpl, hr⟩ := VerifyingKey.read_some h
  obtain ⟨m, rs, hcs, hrl, hrs, hidx⟩ := recreate_eq hr
  have h15 : 15 ≤ rs.length := by
    obtain ⟨e, he, s, hs, hs14⟩ : ∃ e ∈ mainCS.gates.flatten, ∃ s ∈ selectorsIn e, s.index = 14 := by
      decide +kernel
    have := hidx e he s hs
    omega
  refine ⟨?_, by rw [hpl, hpc], rs, ?_, h15, ?_, ?_⟩
  · rw [hcs]
    obtain ⟨qs, hq⟩ := allocMany_same mainCS m
    rw [hq]; rfl
  · rw [hrl, List.length_map]
  · intro i x hx
    obtain ⟨a, ha, h1, h2⟩ := hrs i x hx
    obtain ⟨b, hb, rfl⟩ := List.mem_map.1 ha
    exact ⟨b, hb, h1, h2⟩
  · intro n g g' ha hi hc hfx hsel
    rw [hcs]
    refine replaced_satisfied mainCS_sane ha hi hc hfx ?_ [] (by simp)
    intro row hrow i hi
    rw [hns] at hi
    have hx : rs[i]? = some rs[i] := List.getElem?_eq_getElem (by omega)
    obtain ⟨h1, h2⟩ := hsel i _ hi hx row hrow
    rw [List.getD_eq_getElem?_getD, hx]
    refine ⟨by rw [Option.getD_some, h1]; simp, fun h0 => ?_⟩
    have h0 : i = 0 := by simpa using h0
    exact h2 h0

/-- The key that switches everything off, with both commitments and the permutation the point at
infinity, satisfied by a grid claiming a program of five instructions 7 on rows of noise. -/
example : ∃ vk, VerifyingKey.read false 48 mainCS
      (voidKey 9 (List.replicate 2 ⟨⟨0, 0, 0, 0⟩, ⟨0, 0, 0, 0⟩⟩)
        (List.replicate 16 ⟨⟨0, 0, 0, 0⟩, ⟨0, 0, 0, 0⟩⟩)) = .ok (some (vk, [])) ∧
    Satisfied vk.cs.cs 512 ⟨fun c r => c * r + 1, fun _ _ => 0, fun _ r => if r = 0 then 5 else 7,
      fun _ _ => true, fun _ => 3⟩ [] := by
  obtain ⟨-, vk, h, -, -, -, hs⟩ := C38_false false 48 (by norm_num) 9 (by norm_num)
    (List.replicate 2 ⟨⟨0, 0, 0, 0⟩, ⟨0, 0, 0, 0⟩⟩) (List.replicate 16 ⟨⟨0, 0, 0, 0⟩, ⟨0, 0, 0, 0⟩⟩) rfl
    (by unfold Reduced Limbs.Ok; decide) rfl (by unfold Reduced Limbs.Ok; decide)
  refine ⟨vk, h, hs _ _ ⟨0, ?_, rfl⟩⟩
  decide +kernel

#print axioms C34_round_trip
#print axioms C34_exist
#print axioms C44_key_fits
#print axioms C38_false
#print axioms C38_partial

end Verif.Props

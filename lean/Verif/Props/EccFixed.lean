import Verif.Lemmas.EccFixedShown
import Verif.Lemmas.EccFixedKeys
import Verif.Lemmas.EccFixedSumKeys
import Verif.Lemmas.EccFixedBaseDone
import Verif.Lemmas.EccFixedShort

/-!
C112 to C115 (multiples of fixed points in circuits: by scalars, by signed numbers of 64 bits, by elements of the base
field, by one scalar twice).
-/

namespace Verif.Props

open Verif.Gadget Verif.Spec.Gadget Verif.Spec Verif.Spec.Ecc Verif.Spec.EccFixed Verif.Lemmas.Ecc Verif.Lemmas.Gadget
open Verif.FloorPlanner (Call)
open Verif.Spec.Pow5 (SatAll FollowsAll)

/-- No two of the selectors of the gates are the same. -/
def FixedDistinct (q : Selector) (c : MulFixed) : Prop :=
  [q, c.runningSum.qRangeCheck, c.add.qAdd, c.addIncomplete.qAddIncomplete].Nodup

/-! ## C112 -/

/-- **C112 (soundness).** Whatever the prover puts into the cells: if the constraints of both regions hold, the cells of the
scalar contain 85 digits to the base 8, and the cells returned contain the multiple of the fixed point by the number with
these digits. -/
theorem C112_sound (c : MulFull) (chip : Chip Fp) (hchip : c.chip (5 : Fp) = .ok chip) (B : Pt (5 : Fp)) (hB : B ≠ 0)
    (base : FixedBase pallasBase) (t : TableOf 85 B base) (start : Nat) (scalar : Option (ZMod vestaBase))
    (regions : List (Calls Fp)) (out : EccPoint Fp) (windows : List (Assigned Fp))
    (h : c.assign start scalar base = .ok (regions, out, windows)) (table : Nat → List Fp) (w : Content Fp)
    (hs : SatAll chip table w start regions) : windows.length = 85 ∧ ∃ d : Nat → Nat, (∀ i, d i < 8) ∧
      (∀ i (hi : i < windows.length), w.at windows[i].cell = (d i : Fp)) ∧
      Holds w out ((∑ i ∈ Finset.range 85, d i * 8 ^ i) • B) :=
  full_sound hchip t hB h hs

/-- **C112 (completeness).** For every scalar the chip succeeds, and a prover who writes what it assigns meets the
constraints and gets the multiple by the scalar. -/
theorem C112_complete (c : MulFull) (chip : Chip Fp) (hchip : c.chip (5 : Fp) = .ok chip) (hd : FixedDistinct c.qFull c.sup)
    (B : Pt (5 : Fp)) (hB : B ≠ 0) (base : FixedBase pallasBase) (t : TableOf 85 B base) (start : Nat) (s : ZMod vestaBase)
    (table : Nat → List Fp) :
    ∃ regions out windows, c.assign start (some s) base = .ok (regions, out, windows) ∧ ∀ w, FollowsAll w start regions →
      SatAll chip table w start regions ∧ KnownPoint w out ∧ Holds w out (s.val • B) :=
  full_complete hchip hd t hB s

/-- **C112 (keys).** Without a scalar the chip succeeds. -/
theorem C112_runs (c : MulFull) (B : Pt (5 : Fp)) (base : FixedBase pallasBase) (t : TableOf 85 B base) (start : Nat) :
    ∃ regions out windows, c.assign (q := vestaBase) start none base = .ok (regions, out, windows) :=
  full_total t.sizes

/-- **C112 (keys).** What is called does not depend on the scalar. -/
theorem C112_keys (c : MulFull) (base : FixedBase pallasBase) (start : Nat) (scalar scalar' : Option (ZMod vestaBase))
    (regions regions' : List (Calls Fp)) (out out' : EccPoint Fp) (windows windows' : List (Assigned Fp))
    (h : c.assign start scalar base = .ok (regions, out, windows))
    (h' : c.assign start scalar' base = .ok (regions', out', windows')) :
    List.Forall₂ (List.Forall₂ SameCall) regions regions' ∧ SameCells out out' ∧
      List.Forall₂ (fun a a' => a.cell = a'.cell) windows windows' :=
  full_same h h'

/-! ## C113 -/

/-- **C113 (soundness).** Whatever the prover puts into the cells: if the constraints of both regions hold, the magnitude is
a number of 64 bits, the sign is 1 or -1, and the cells returned contain the multiple of the fixed point or its negative,
as the sign says. -/
theorem C113_sound (c : MulShort) (hc : c.sup.Configured) (chip : Chip Fp) (hchip : c.chip (5 : Fp) = .ok chip) (B : Pt (5 : Fp))
    (hB : B ≠ 0) (base : FixedBase pallasBase) (t : TableOf 22 B base) (start : Nat) (magnitude sign : Assigned Fp)
    (regions : List (Calls Fp)) (out : EccPoint Fp) (zs : List (Assigned Fp))
    (h : c.assign (q := vestaBase) start magnitude sign base = .ok (regions, out, zs)) (table : Nat → List Fp)
    (w : Content Fp) (hs : SatAll chip table w start regions) : (w.at magnitude.cell).val < 2 ^ 64 ∧
      (w.at sign.cell = 1 ∧ Holds w out ((w.at magnitude.cell).val • B) ∨
        w.at sign.cell = -1 ∧ Holds w out (-((w.at magnitude.cell).val • B))) :=
  short_sound hc.1 hchip t hB h hs

/-- **C113 (completeness).** For all numbers of 64 bits with a sign the chip succeeds, and a prover who writes what it
assigns meets the constraints and gets the multiple. -/
theorem C113_complete (c : MulShort) (hc : c.sup.Configured) (chip : Chip Fp) (hchip : c.chip (5 : Fp) = .ok chip)
    (hd : FixedDistinct c.qShort c.sup) (B : Pt (5 : Fp)) (hB : B ≠ 0) (base : FixedBase pallasBase) (t : TableOf 22 B base)
    (start : Nat) (magnitude sign : Assigned Fp) (m s : Fp) (hm : magnitude.value = some m) (hs : sign.value = some s)
    (hm' : m.val < 2 ^ 64) (hs' : s = 1 ∨ s = -1) (table : Nat → List Fp) :
    ∃ regions out zs, c.assign (q := vestaBase) start magnitude sign base = .ok (regions, out, zs) ∧
      ∀ w, FollowsAll w start regions → Known w magnitude → Known w sign → SatAll chip table w start regions ∧ KnownPoint w out ∧
        Holds w out (if s = -1 then -(m.val • B) else m.val • B) :=
  short_complete hc.1 hchip hd t hB hm hs hm' hs'

/-- **C113 (keys).** While the magnitude is not known the chip succeeds. -/
theorem C113_runs (c : MulShort) (B : Pt (5 : Fp)) (base : FixedBase pallasBase) (t : TableOf 22 B base) (start : Nat)
    (magnitude sign : Assigned Fp) (hm : magnitude.value = none) :
    ∃ regions out zs, c.assign (q := vestaBase) start magnitude sign base = .ok (regions, out, zs) := by
  obtain ⟨⟨r, o, z⟩, h⟩ := short_total (c := c) (start := start) (sign := sign) hm t.sizes
  exact ⟨r, o, z, h⟩

/-- **C113 (keys).** What is called depends on the cells given only, not on their values. -/
theorem C113_keys (c : MulShort) (base : FixedBase pallasBase) (start : Nat) (magnitude magnitude' sign sign' : Assigned Fp)
    (hm : magnitude.cell = magnitude'.cell) (hs : sign.cell = sign'.cell)
    (regions regions' : List (Calls Fp)) (out out' : EccPoint Fp) (zs zs' : List (Assigned Fp))
    (h : c.assign (q := vestaBase) start magnitude sign base = .ok (regions, out, zs))
    (h' : c.assign (q := vestaBase) start magnitude' sign' base = .ok (regions', out', zs')) :
    List.Forall₂ (List.Forall₂ SameCall) regions regions' ∧ SameCells out out' ∧
      List.Forall₂ (fun a a' => a.cell = a'.cell) zs zs' :=
  short_same hm hs h h'

/-! ## C114 -/

/-- No two of the selectors are the same. -/
def BaseDistinct (c : MulBaseField) : Prop := [c.qBase, c.sup.runningSum.qRangeCheck, c.sup.add.qAdd,
  c.sup.addIncomplete.qAddIncomplete, c.lookup.qBitshift, c.lookup.qLookup, c.lookup.qRunning].Nodup

/-- **C114 (soundness).** Whatever the prover puts into the cells: if the constraints of all regions hold, the cells
returned contain the multiple of the fixed point by the number in the cell given, taken from 0 to p - 1. -/
theorem C114_sound (c : MulBaseField) (hc : c.sup.Configured) (chip : Chip Fp) (hchip : c.chip (5 : Fp) = .ok chip) (B : Pt (5 : Fp))
    (hB : B ≠ 0) (base : FixedBase pallasBase) (t : TableOf 85 B base) (start : Nat) (scalar : Assigned Fp)
    (table : Nat → List Fp) (ht : IsTable 10 (table c.lookup.tableIdx)) (regions : List (Calls Fp)) (out : EccPoint Fp)
    (h : c.assign (q := vestaBase) start scalar base = .ok (regions, out)) (w : Content Fp)
    (hs : SatAll chip table w start regions) : Holds w out ((w.at scalar.cell).val • B) :=
  base_sound hc.1 ht hchip t hB h hs

/-- **C114 (completeness).** For every element of the base field the chip succeeds, and a prover who writes what it assigns
meets the constraints and gets the multiple. -/
theorem C114_complete (c : MulBaseField) (hc : c.sup.Configured) (chip : Chip Fp) (hchip : c.chip (5 : Fp) = .ok chip)
    (hd : BaseDistinct c) (B : Pt (5 : Fp)) (hB : B ≠ 0) (base : FixedBase pallasBase) (t : TableOf 85 B base)
    (start : Nat) (scalar : Assigned Fp) (x : Fp) (hx : scalar.value = some x) (table : Nat → List Fp)
    (ht : IsTable 10 (table c.lookup.tableIdx)) :
    ∃ regions out, c.assign (q := vestaBase) start scalar base = .ok (regions, out) ∧
      ∀ w, FollowsAll w start regions → Known w scalar → SatAll chip table w start regions ∧ KnownPoint w out ∧
        Holds w out (x.val • B) :=
  base_complete hc.1 hchip hd ht t hB hx

/-- **C114 (keys).** While the number is not known the chip succeeds. -/
theorem C114_runs (c : MulBaseField) (B : Pt (5 : Fp)) (base : FixedBase pallasBase) (t : TableOf 85 B base) (start : Nat)
    (scalar : Assigned Fp) (hm : scalar.value = none) :
    ∃ regions out, c.assign (q := vestaBase) start scalar base = .ok (regions, out) := by
  obtain ⟨⟨r, o⟩, h⟩ := base_total (c := c) (start := start) hm t.sizes
  exact ⟨r, o, h⟩

/-- **C114 (keys).** What is called depends on the cell given only, not on its value. -/
theorem C114_keys (c : MulBaseField) (base : FixedBase pallasBase) (start : Nat) (scalar scalar' : Assigned Fp)
    (hm : scalar.cell = scalar'.cell) (regions regions' : List (Calls Fp)) (out out' : EccPoint Fp)
    (h : c.assign (q := vestaBase) start scalar base = .ok (regions, out))
    (h' : c.assign (q := vestaBase) start scalar' base = .ok (regions', out')) :
    List.Forall₂ (List.Forall₂ SameCall) regions regions' ∧ SameCells out out' :=
  base_same hm h h'

/-! ## C115 -/

/-- **C115 (full statement).** If two multiplications are given the same scalar, the cells returned contain multiples of the
two fixed points by one and the same number, whatever the prover puts into the cells. -/
def OneScalar : Prop := ∀ (c : MulFull) (chip : Chip Fp), c.chip (5 : Fp) = .ok chip → ∀ (B B' : Pt (5 : Fp)), B ≠ 0 → B' ≠ 0 →
  ∀ (base base' : FixedBase pallasBase), TableOf 85 B base → TableOf 85 B' base' →
  ∀ (scalar : MulFull.ScalarFixed pallasBase vestaBase) (start start' : Nat), start + 2 ≤ start' →
  ∀ (regions regions' : List (Calls Fp)) (out out' : EccPoint Fp) (after after' : MulFull.ScalarFixed pallasBase vestaBase),
  c.mul start scalar base = .ok (regions, out, after) → c.mul start' scalar base' = .ok (regions', out', after') →
  ∀ (table : Nat → List Fp) (w : Content Fp), SatAll chip table w start regions → SatAll chip table w start' regions' →
  ∃ k : Nat, Holds w out (k • B) ∧ Holds w out' (k • B')

theorem mul_fresh {c : MulFull} {start : Nat} {value : Option (ZMod vestaBase)} {base : FixedBase pallasBase}
    {regions : List (Calls Fp)} {out : EccPoint Fp} {windows : List (Assigned Fp)}
    (h : c.assign start value base = .ok (regions, out, windows)) :
    c.mul start (.new value) base = .ok (regions, out, ⟨value, some windows⟩) := by
  unfold MulFull.mul MulFull.ScalarFixed.new
  simp only [h]
  rfl

/-- **C115 (false of the code).** The windows are witnessed anew in each multiplication and not tied to each other: with the
cells `twoScalars` the first product is 5 times (-1, 2) and the second 6 times (-1, 2). -/
theorem C115_not_tied : ¬ OneScalar := by
  intro h
  obtain ⟨chip, r, o, d, hc, ha, hs, hv⟩ := checkFull_sat (table := fun _ => []) five_check
  obtain ⟨chip', r', o', d', hc', ha', hs', hv'⟩ := checkFull_sat (table := fun _ => []) six_check
  obtain rfl : chip = chip' := Except.ok.inj (hc.symm.trans hc')
  obtain ⟨k, h1, h2⟩ := h demoFull chip hc pallasGen pallasGen pallasGen_ne pallasGen_ne fullBase fullBase fullBase_table
    fullBase_table (.new none) 0 2 (by norm_num) r r' o o' _ _ (mul_fresh ha) (mul_fresh ha') (fun _ => []) twoScalars hs hs'
  have e : ((fiveOut.1 : Fp), (fiveOut.2 : Fp)) = ((sixOut.1 : Fp), (sixOut.2 : Fp)) :=
    hv.symm.trans (h1.trans (h2.symm.trans hv'))
  have e1 : (fiveOut.1 : Fp) = (sixOut.1 : Fp) := congrArg Prod.fst e
  revert e1
  decide +kernel

/-- **C115 (false of the code).** Nor can the scalar that a multiplication returns be used in another: that panics. -/
theorem C115_again (c : MulFull) (start start' : Nat) (scalar after : MulFull.ScalarFixed pallasBase vestaBase)
    (base base' : FixedBase pallasBase) (regions : List (Calls Fp)) (out : EccPoint Fp)
    (h : c.mul start scalar base = .ok (regions, out, after)) : c.mul start' after base' = .error .panic := by
  unfold MulFull.mul at h
  split at h
  · cases h
  · obtain ⟨⟨r, o, d⟩, -, h⟩ := bind_ok h
    simp only [pure, Except.pure, Except.ok.injEq, Prod.mk.injEq] at h
    obtain ⟨-, -, rfl⟩ := h
    rfl

/-- **C115 (partial).** The two numbers are the same if the windows are the same. What is missing is that the circuit makes
sure of this. -/
theorem C115_partial (c : MulFull) (chip : Chip Fp) (hchip : c.chip (5 : Fp) = .ok chip) (B B' : Pt (5 : Fp)) (hB : B ≠ 0)
    (hB' : B' ≠ 0) (base base' : FixedBase pallasBase) (t : TableOf 85 B base) (t' : TableOf 85 B' base')
    (scalar scalar' : Option (ZMod vestaBase)) (start start' : Nat) (regions regions' : List (Calls Fp)) (out out' : EccPoint Fp)
    (windows windows' : List (Assigned Fp)) (h : c.assign start scalar base = .ok (regions, out, windows))
    (h' : c.assign start' scalar' base' = .ok (regions', out', windows')) (table : Nat → List Fp) (w : Content Fp)
    (hs : SatAll chip table w start regions) (hs' : SatAll chip table w start' regions')
    (htied : windows.map (fun a => w.at a.cell) = windows'.map (fun a => w.at a.cell)) :
    ∃ k : Nat, Holds w out (k • B) ∧ Holds w out' (k • B') := by
  obtain ⟨l, d, hd, hw, ho⟩ := full_sound hchip t hB h hs
  obtain ⟨l', d', hd', hw', ho'⟩ := full_sound hchip t' hB' h' hs'
  have hsame : ∀ i ∈ Finset.range 85, d' i * 8 ^ i = d i * 8 ^ i := by
    intro i hi
    have hi := Finset.mem_range.1 hi
    have e := congrArg (fun l => l[i]?) htied
    simp only [List.getElem?_map, List.getElem?_eq_getElem (l := windows) (i := i) (by omega),
      List.getElem?_eq_getElem (l := windows') (i := i) (by omega), Option.map_some, Option.some.injEq] at e
    rw [hw i (by omega), hw' i (by omega)] at e
    have h8 : 8 < pallasBase := by decide +kernel
    have e' := congrArg ZMod.val e
    rw [ZMod.val_natCast_of_lt (Nat.lt_trans (hd i) h8), ZMod.val_natCast_of_lt (Nat.lt_trans (hd' i) h8)] at e'
    rw [e']
  rw [Finset.sum_congr rfl hsame] at ho'
  exact ⟨_, ho, ho'⟩

/-! The hypotheses are met: columns as in the tests of the crate, and the tables of the point (-1, 2). -/

theorem demoFixed_configured : demoFixed.Configured := by unfold MulFixed.Configured; decide

theorem demo_table : IsTable 10 (RangeCheck.load (p := pallasBase) 10) := fun x => by
  simp only [RangeCheck.load, List.mem_map, List.mem_range]
  exact ⟨fun ⟨n, h, e⟩ => ⟨n, h, e.symm⟩, fun ⟨n, h, e⟩ => ⟨n, h, e.symm⟩⟩

/-- Cells that meet the constraints: 5 times the point. -/
example : ∃ chip regions out windows, demoFull.chip (5 : Fp) = .ok chip ∧
    demoFull.assign (q := vestaBase) 0 none fullBase = .ok (regions, out, windows) ∧
    SatAll chip (fun _ => []) twoScalars 0 regions ∧ ∃ d : Nat → Nat, (∀ i, d i < 8) ∧
      Holds twoScalars out ((∑ i ∈ Finset.range 85, d i * 8 ^ i) • pallasGen) := by
  obtain ⟨chip, r, o, d, hc, ha, hs, -⟩ := checkFull_sat (table := fun _ => []) five_check
  obtain ⟨-, k, hk, -, hh⟩ := C112_sound demoFull chip hc pallasGen pallasGen_ne fullBase fullBase_table 0 none r o d ha
    (fun _ => []) twoScalars hs
  exact ⟨chip, r, o, d, hc, ha, hs, k, hk, hh⟩

/-- For every scalar the chip succeeds. -/
example : ∃ chip, demoFull.chip (5 : Fp) = .ok chip ∧ ∀ s : ZMod vestaBase, ∃ regions out windows,
    demoFull.assign 0 (some s) fullBase = .ok (regions, out, windows) := by
  obtain ⟨chip, h⟩ : ∃ chip, demoFull.chip (5 : Fp) = .ok chip := ⟨_, rfl⟩
  refine ⟨chip, h, fun s => ?_⟩
  obtain ⟨r, o, d, h', -⟩ := C112_complete demoFull chip h (by unfold FixedDistinct; decide) pallasGen pallasGen_ne _
    fullBase_table 0 s (fun _ => [])
  exact ⟨r, o, d, h'⟩

/-- Cells that meet the constraints: -1000 times the point, computed independently. -/
example : Holds thousand ⟨⟨⟨1, 1, .advice 2⟩, none⟩, ⟨⟨1, 1, .advice 1⟩, none⟩⟩ (-(1000 • pallasGen)) ∧
    coords (-(1000 • pallasGen)) = ((thousandOut.1 : Fp), (thousandOut.2 : Fp)) := by
  obtain ⟨chip, r, o, d, hc, ha, hs, hv⟩ := checkShort_sat (table := fun _ => []) thousand_check
  have hm : (w : Content Fp) → w = thousand → (w.at ⟨2, 0, .advice 0⟩).val = 1000 ∧ w.at ⟨2, 0, .advice 1⟩ ≠ 1 ∧
      (w 1 (.advice 2) 1, w 1 (.advice 1) 1) = ((thousandOut.1 : Fp), (thousandOut.2 : Fp)) := fun w e => by
    subst e; decide +kernel
  obtain ⟨e1, e2, e3⟩ := hm _ rfl
  obtain ⟨-, h⟩ := C113_sound demoShort demoFixed_configured chip hc pallasGen pallasGen_ne shortBase shortBase_table 0 _ _ r o d ha
    (fun _ => []) thousand hs
  rcases h with ⟨h, -⟩ | ⟨-, h⟩
  · exact absurd h e2
  · rw [e1] at h
    have h' := h.symm.trans hv
    exact ⟨e3.trans h'.symm, h'⟩

example (cell cell' : Cell) : ∃ regions out zs, demoShort.assign (q := vestaBase) 0 ⟨cell, some 1000⟩ ⟨cell', some (-1)⟩
    shortBase = .ok (regions, out, zs) := by
  obtain ⟨chip, h⟩ : ∃ chip, demoShort.chip (5 : Fp) = .ok chip := ⟨_, rfl⟩
  obtain ⟨r, o, d, h', -⟩ := C113_complete demoShort demoFixed_configured chip h (by unfold FixedDistinct; decide) pallasGen
    pallasGen_ne _ shortBase_table 0 ⟨cell, some 1000⟩ ⟨cell', some (-1)⟩ 1000 (-1) rfl rfl (by decide +kernel) (Or.inr rfl) (fun _ => [])
  exact ⟨r, o, d, h'⟩

/-- Cells that meet the constraints: p - 1 times the point, computed independently. -/
example : coords ((pallasBase - 1) • pallasGen) = ((topOut.1 : Fp), (topOut.2 : Fp)) := by
  obtain ⟨chip, r, o, hc, ha, hs, hv⟩ := checkBase_sat top_check
  have hm : (w : Content Fp) → w = top → (w.at ⟨4, 0, .advice 0⟩).val = pallasBase - 1 := fun w e => by
    subst e; decide +kernel
  have h := C114_sound demoBase demoFixed_configured chip hc pallasGen pallasGen_ne fullBase fullBase_table 0 _
    (fun _ => RangeCheck.load 10) demo_table r o ha top hs
  rw [hm _ rfl] at h
  exact h.symm.trans hv

example (cell : Cell) (x : Fp) : ∃ regions out, demoBase.assign (q := vestaBase) 0 ⟨cell, some x⟩ fullBase = .ok (regions, out) := by
  obtain ⟨chip, h⟩ : ∃ chip, demoBase.chip (5 : Fp) = .ok chip := ⟨_, rfl⟩
  obtain ⟨r, o, h', -⟩ := C114_complete demoBase demoFixed_configured chip h (by unfold BaseDistinct; decide) pallasGen
    pallasGen_ne _ fullBase_table 0 ⟨cell, some x⟩ x rfl (fun _ => RangeCheck.load 10) demo_table
  exact ⟨r, o, h'⟩

/-- A multiplication with a scalar just made succeeds, and with the scalar it returns it panics. -/
example (s : ZMod vestaBase) : ∃ regions out after, demoFull.mul 0 (.new (some s)) fullBase = .ok (regions, out, after) ∧
    demoFull.mul 2 after fullBase = .error .panic := by
  obtain ⟨chip, h⟩ : ∃ chip, demoFull.chip (5 : Fp) = .ok chip := ⟨_, rfl⟩
  obtain ⟨r, o, d, h', -⟩ := C112_complete demoFull chip h (by unfold FixedDistinct; decide) pallasGen pallasGen_ne _
    fullBase_table 0 s (fun _ => [])
  exact ⟨r, o, _, mul_fresh h', C115_again _ _ _ _ _ _ _ _ _ (mul_fresh h')⟩

end Verif.Props

#print axioms Verif.Props.C112_sound
#print axioms Verif.Props.C112_complete
#print axioms Verif.Props.C112_runs
#print axioms Verif.Props.C112_keys
#print axioms Verif.Props.C113_sound
#print axioms Verif.Props.C113_complete
#print axioms Verif.Props.C113_runs
#print axioms Verif.Props.C113_keys
#print axioms Verif.Props.C114_sound
#print axioms Verif.Props.C114_complete
#print axioms Verif.Props.C114_runs
#print axioms Verif.Props.C114_keys
#print axioms Verif.Props.C115_not_tied
#print axioms Verif.Props.C115_again
#print axioms Verif.Props.C115_partial

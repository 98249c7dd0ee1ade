import Verif.Lemmas.EccMulForged
import Verif.Lemmas.EccMulKeys

/-!
C109 (the product of a point and a number in a circuit).
-/

namespace Verif.Props

open Verif.Gadget Verif.Spec.Gadget Verif.Spec Verif.Spec.Ecc Verif.Lemmas.Ecc Verif.Lemmas.Gadget
open Verif.FloorPlanner (Call)
open Verif.Spec.Pow5 (SatAll FollowsAll)

/-- The order of Pallas, of which the scalars are taken. -/
theorem C109_order : Nat.card (Pt (5 : Fp)) = vestaBase := pallas_card

/-- **C109 (full statement).** Whatever the prover puts into the cells: if the constraints of all regions hold and the cells
given contain a point other than the identity and a number, the cells returned contain the multiple of the point. -/
def MulSound : Prop := ∀ (c : Mul) (advices : Nat → Nat), c.Configured advices → ∀ (start : Nat) (alpha : Assigned Fp)
  (base : EccPoint Fp) (table : Nat → List Fp), IsTable 10 (table c.overflow.lookup.tableIdx) →
  ∀ (regions : List (Calls Fp)) (out : EccPoint Fp), c.assign start alpha base = .ok (regions, out) →
  ∀ (w : Content Fp), SatAll c.chip table w start regions → ∀ B : Pt (5 : Fp), B ≠ 0 → Holds w base B →
  Holds w out ((w.at alpha.cell).val • B)

/-- **C109 (false of the code).** The coordinates of the base are not copied into the loops, so that a prover may use another
point there. With the one of this witness, 1 times (-1, 2) is (-1, -2). -/
theorem C109_not_sound : ¬ MulSound := by
  intro h
  obtain ⟨regions, out, hok, hsat, hout⟩ := sat_of_check forged_check
  have h1 := h forgedMul id ⟨rfl, rfl, rfl, rfl, rfl⟩ 0 forgedAlpha forgedBase (fun _ => RangeCheck.load 10)
    (fun x => by
      simp only [RangeCheck.load, List.mem_map, List.mem_range]
      exact ⟨fun ⟨n, h, e⟩ => ⟨n, h, e.symm⟩, fun ⟨n, h, e⟩ => ⟨n, h, e.symm⟩⟩) regions out hok forged hsat pallasGen pallasGen_ne rfl
  have h2 : (w : Content Fp) → w = forged → (w.at forgedAlpha.cell).val = 1 := fun w e => by subst e; decide +kernel
  rw [h2 _ rfl, one_nsmul] at h1
  have h3 : coords pallasGen = ((-1 : Fp), (-2 : Fp)) := h1.symm.trans hout
  have h4 : (2 : Fp) = -2 := congrArg Prod.snd h3
  revert h4
  decide +kernel

/-- **C109 (soundness, partial).** It holds if the first row of the loops contains the base; the gates carry it to the other
rows. What is missing is that the circuit makes sure of this. -/
theorem C109_sound_partial (c : Mul) (advices : Nat → Nat) (hc : c.Configured advices) (start : Nat) (alpha : Assigned Fp)
    (base : EccPoint Fp) (table : Nat → List Fp) (ht : IsTable 10 (table c.overflow.lookup.tableIdx))
    (regions : List (Calls Fp)) (out : EccPoint Fp) (h : c.assign start alpha base = .ok (regions, out))
    (w : Content Fp) (hs : SatAll c.chip table w start regions) (B : Pt (5 : Fp)) (hB : B ≠ 0) (hb : Holds w base B)
    (hloop : (w start (.advice (advices 0)) 2, w start (.advice (advices 1)) 2) = coords B) :
    Holds w out ((w.at alpha.cell).val • B) :=
  mul_sound hc ht h hs hb hB (congrArg Prod.fst hloop) (congrArg Prod.snd hloop)

/-- No two of the selectors are the same. -/
def MulDistinct (c : Mul) : Prop := [c.qLsb, c.add.qAdd, c.hi.qMul1, c.hi.qMul2, c.hi.qMul3, c.lo.qMul1, c.lo.qMul2,
  c.lo.qMul3, c.complete.qDecompose, c.overflow.qOverflow, c.overflow.lookup.qBitshift, c.overflow.lookup.qLookup,
  c.overflow.lookup.qRunning].Nodup

/-- **C109 (completeness).** For every number and every point other than the identity the chip succeeds, and a prover who
writes what it assigns meets the constraints of all regions and gets the multiple of the point. -/
theorem C109_complete (c : Mul) (advices : Nat → Nat) (hc : c.Configured advices) (hd : MulDistinct c) (start : Nat)
    (alpha : Assigned Fp) (base : EccPoint Fp) (table : Nat → List Fp) (ht : IsTable 10 (table c.overflow.lookup.tableIdx))
    (a : Fp) (ha : alpha.value = some a) (B : Pt (5 : Fp)) (hB : B ≠ 0)
    (hb : (base.x.value, base.y.value) = (some (coords B).1, some (coords B).2)) :
    ∃ regions out, c.assign start alpha base = .ok (regions, out) ∧ ∀ w, Known w alpha → KnownPoint w base →
      FollowsAll w start regions → SatAll c.chip table w start regions ∧ KnownPoint w out ∧ Holds w out (a.val • B) :=
  mul_complete hc hd ht ha hB (congrArg Prod.fst hb) (congrArg Prod.snd hb)

/-- **C109 (keys).** While the base is not known the chip succeeds, whether or not the number is known. -/
theorem C109_runs (c : Mul) (start : Nat) (alpha : Assigned Fp) (base : EccPoint Fp)
    (hb : base.x.value = none ∨ base.y.value = none) : ∃ regions out, c.assign start alpha base = .ok (regions, out) :=
  mul_total hb

/-- **C109 (keys).** What is called depends on the cells given only, not on their values. -/
theorem C109_keys (c : Mul) (start : Nat) (alpha alpha' : Assigned Fp) (base base' : EccPoint Fp)
    (ha : alpha.cell = alpha'.cell) (hb : SameCells base base') (regions regions' : List (Calls Fp)) (out out' : EccPoint Fp)
    (h : c.assign start alpha base = .ok (regions, out)) (h' : c.assign start alpha' base' = .ok (regions', out')) :
    List.Forall₂ (List.Forall₂ SameCall) regions regions' ∧ SameCells out out' :=
  mul_same ha hb h h'

/-- **C109 (the identity).** If the base is known to be the identity the chip returns an error. -/
theorem C109_identity (c : Mul) (start : Nat) (alpha : Assigned Fp) (base : EccPoint Fp) (hx : base.x.value = some 0)
    (hy : base.y.value = some 0) : c.assign start alpha base = .error .error :=
  mul_identity hx hy

/-! The hypotheses are met: -1 times (-1, 2), by an honest prover. The product is computed independently. -/

example : ∃ regions out, forgedMul.assign 0 forgedAlpha forgedBase = .ok (regions, out) ∧
    SatAll forgedMul.chip (fun _ => RangeCheck.load 10) honest 0 regions ∧ honest.at forgedAlpha.cell = -1 ∧
    Holds honest forgedBase pallasGen ∧ Holds honest out ((pallasBase - 1) • pallasGen) ∧
    coords ((pallasBase - 1) • pallasGen) = (honestX, honestY) := by
  obtain ⟨regions, out, hok, hsat, hout⟩ := sat_of_check honest_check
  have h1 := C109_sound_partial forgedMul id ⟨rfl, rfl, rfl, rfl, rfl⟩ 0 forgedAlpha forgedBase (fun _ => RangeCheck.load 10)
    (fun x => by
      simp only [RangeCheck.load, List.mem_map, List.mem_range]
      exact ⟨fun ⟨n, h, e⟩ => ⟨n, h, e.symm⟩, fun ⟨n, h, e⟩ => ⟨n, h, e.symm⟩⟩) regions out hok honest hsat pallasGen pallasGen_ne rfl
    (Prod.ext (by decide +kernel) (by decide +kernel))
  have h2 : (w : Content Fp) → w = honest → (w.at forgedAlpha.cell).val = pallasBase - 1 := fun w e => by
    subst e; decide +kernel
  rw [h2 _ rfl] at h1
  exact ⟨regions, out, hok, hsat, rfl, rfl, h1, h1.symm.trans hout⟩

theorem forged_table : IsTable 10 (RangeCheck.load (p := pallasBase) 10) := fun x => by
  simp only [RangeCheck.load, List.mem_map, List.mem_range]
  exact ⟨fun ⟨n, h, e⟩ => ⟨n, h, e.symm⟩, fun ⟨n, h, e⟩ => ⟨n, h, e.symm⟩⟩

/-- -1 times (-1, 2) as the chip computes it: it succeeds. -/
example (cell : Cell) : ∃ regions out,
    forgedMul.assign 0 ⟨cell, some (-1 : Fp)⟩ ⟨⟨cell, some (-1)⟩, ⟨cell, some 2⟩⟩ = .ok (regions, out) := by
  have hd : MulDistinct forgedMul := by unfold MulDistinct; decide +kernel
  obtain ⟨regions, out, h, -⟩ := C109_complete forgedMul id ⟨rfl, rfl, rfl, rfl, rfl⟩ hd 0 ⟨cell, some (-1)⟩
    ⟨⟨cell, some (-1)⟩, ⟨cell, some 2⟩⟩ (fun _ => RangeCheck.load 10) forged_table (-1) rfl pallasGen pallasGen_ne rfl
  exact ⟨regions, out, h⟩

example (cell : Cell) : forgedMul.assign 0 ⟨cell, some (3 : Fp)⟩ ⟨⟨cell, some 0⟩, ⟨cell, some 0⟩⟩ = .error .error :=
  C109_identity _ _ _ _ rfl rfl

end Verif.Props

#print axioms Verif.Props.C109_complete
#print axioms Verif.Props.C109_runs
#print axioms Verif.Props.C109_keys
#print axioms Verif.Props.C109_identity
#print axioms Verif.Props.C109_order
#print axioms Verif.Props.C109_not_sound
#print axioms Verif.Props.C109_sound_partial

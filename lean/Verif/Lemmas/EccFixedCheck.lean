import Verif.Lemmas.EccFixedData
import Verif.Lemmas.EccFixedBase
import Verif.Lemmas.EccMulForged

/-! Checking given cells against the constraints of fixed-base multiplications by evaluation. -/

namespace Verif.Lemmas.Ecc

open Verif.Gadget Verif.Spec.Gadget Verif.Spec Verif.Spec.Ecc Verif.Spec.EccFixed Verif.Lemmas.Gadget
open Verif.FloorPlanner (Call)
open Verif.Spec.Pow5 (SatAll)

/-- The table made of rows, with the coefficients as numbers. -/
def literalBase (rows : List WindowRow) (lag : List (List Nat)) : FixedBase pallasBase where
  x := -1
  y := 2
  lagrange := lag.map fun l => l.map fun (v : Nat) => (v : Fp)
  z := rows.map Prod.fst
  u := rows.map fun r => r.2.map fun e => (e.2.1 : Fp)

def evalAt (l : List Fp) (k : Fp) : Fp := l.foldr (fun c acc => c + k * acc) 0

/-- The coefficients are those of polynomials through the points. -/
def lagrangeOk (rows : List WindowRow) (lag : List (List Nat)) : Bool := rows.length == lag.length &&
  (rows.zip lag).all fun (r, l) => l.length == 8 && (List.range 8).all fun k =>
    evalAt (l.map fun (v : Nat) => (v : Fp)) (k : Fp) == ((rowPoints r).getD k (0, 0)).1

theorem evalAt_sum : ∀ (l : List Fp) (k : Fp), evalAt l k = ∑ j ∈ Finset.range l.length, l.getD j 0 * k ^ j
  | [], k => by simp [evalAt]
  | c :: l, k => by
    have ih := evalAt_sum l k
    rw [List.length_cons, Finset.sum_range_succ']
    simp only [List.getD_cons_succ, List.getD_cons_zero, pow_zero, mul_one, pow_succ]
    rw [show evalAt (c :: l) k = c + k * evalAt l k from rfl, ih, Finset.mul_sum, add_comm]
    congr 1
    exact Finset.sum_congr rfl fun j _ => by ring

theorem literal_table {rows : List WindowRow} {lag : List (List Nat)} {n : Nat} {B : Pt (5 : Fp)} (t : TableOf n B (tableBase rows))
    (h : lagrangeOk rows lag = true) : TableOf n B (literalBase rows lag) := by
  unfold lagrangeOk at h
  rw [Bool.and_eq_true, beq_iff_eq] at h
  obtain ⟨hl, h⟩ := h
  have hn : rows.length = n := by
    have := t.sizes.2.1
    simpa [tableBase] using this
  refine ⟨t.generator, ⟨by simp [literalBase, ← hl, hn], t.sizes.2.1, t.sizes.2.2⟩, ?_, t.negative, t.root⟩
  intro w k hw hk
  have hw1 : w < rows.length := by omega
  have hw2 : w < lag.length := by omega
  have hm : (rows[w], lag[w]) ∈ rows.zip lag := by
    rw [List.mem_iff_getElem]
    exact ⟨w, by simpa using ⟨hw1, hw2⟩, by simp⟩
  have h1 := List.all_eq_true.1 h _ hm
  simp only [Bool.and_eq_true, beq_iff_eq] at h1
  obtain ⟨h8, h1⟩ := h1
  have h2 := List.all_eq_true.1 h1 k (List.mem_range.2 hk)
  rw [beq_iff_eq, evalAt_sum, List.length_map, h8] at h2
  have e1 : (literalBase rows lag).lagrange.getD w [] = lag[w].map fun (v : Nat) => (v : Fp) := by
    rw [List.getD_eq_getElem _ _ (by simpa [literalBase] using hw2)]
    simp [literalBase]
  rw [e1, h2, ← t.x w k hw hk]
  have e2 : (tableBase rows).lagrange.getD w [] = coefficients fun k => ((rowPoints rows[w]).getD k (0, 0)).1 := by
    rw [List.getD_eq_getElem _ _ (by simpa [tableBase] using hw1)]
    simp [tableBase]
  rw [e2, coefficients_eval _ hk]

/-- Ten advice columns and nine fixed ones. -/
def demoFixed : MulFixed where
  runningSum := ⟨⟨0, true⟩, 4⟩
  lagrange := id
  fixedZ := 8
  window := 4
  u := 5
  add := ⟨⟨1, true⟩, 4, 0, 1, 2, 3, 5, 6, 7, 8⟩
  addIncomplete := ⟨⟨2, true⟩, 0, 1, 2, 3⟩

def demoFull : MulFull := ⟨⟨3, true⟩, demoFixed⟩
def demoShort : MulShort := ⟨⟨4, true⟩, demoFixed⟩
def demoBase : MulBaseField := ⟨⟨5, true⟩, fun i => 6 + i, ⟨⟨6, false⟩, ⟨7, false⟩, ⟨8, true⟩, 9, 0⟩, demoFixed⟩

/-- Cells given as rows of the advice columns, region by region; the fixed cells are those of the table. -/
def cellsOf (base : FixedBase pallasBase) (regions : List (List (List Nat))) : Content Fp
  | i, .advice c, r => ((((regions.getD i []).getD r.toNat []).getD c 0 : Nat) : Fp)
  | _, .fixed c, r => if c = 8 then ((base.z.getD r.toNat 0 : Nat) : Fp) else (base.lagrange.getD r.toNat []).getD c 0
  | _, _, _ => 0

/-- The constraints without lookups hold. -/
def regionsOk (chip : Chip Fp) (w : Content Fp) (start : Nat) (regions : List (Calls Fp)) : Bool :=
  regions.zipIdx.all fun (calls, i) => calls.all (okCall chip w (start + i) calls)

/-- So do the lookups of numbers of ten bits. -/
def lookupsOk (chip : Chip Fp) (q : Selector) (w : Content Fp) (start : Nat) (regions : List (Calls Fp)) : Bool :=
  regions.zipIdx.all fun (calls, i) => calls.all fun
    | .enable s o => s != q || chip.lookups.all fun l => decide ((l.1.eval (enabled calls) (w (start + i)) o).val < 1024)
    | _ => true

theorem regions_sat {chip : Chip Fp} {w : Content Fp} {start : Nat} {regions : List (Calls Fp)} {table : Nat → List Fp}
    (h : regionsOk chip w start regions = true) (hl : chip.lookups = []) : SatAll chip table w start regions := by
  intro i hi
  have hm : (regions[i], i) ∈ regions.zipIdx := by
    rw [List.mem_zipIdx_iff_getElem?]
    exact List.getElem?_eq_getElem hi
  have h1 := List.all_eq_true.1 h _ hm
  exact ⟨ok_enforced h1, ok_gates h1, fun l h => by rw [hl] at h; cases h⟩

theorem regions_sat_lookup {chip : Chip Fp} {w : Content Fp} {start : Nat} {regions : List (Calls Fp)} {c : RangeCheck}
    (h : regionsOk chip w start regions = true) (h' : lookupsOk chip c.qLookup w start regions = true)
    (hl : chip.lookups = (c.chip 10 : Chip Fp).lookups) : SatAll chip (fun _ => RangeCheck.load 10) w start regions := by
  intro i hi
  have hm : (regions[i], i) ∈ regions.zipIdx := by
    rw [List.mem_zipIdx_iff_getElem?]
    exact List.getElem?_eq_getElem hi
  have h1 := List.all_eq_true.1 h _ hm
  have h2 := List.all_eq_true.1 h' _ hm
  refine ⟨ok_enforced h1, ok_gates h1, fun l h row => ?_⟩
  have hmem : ∀ x : Fp, x.val < 1024 → x ∈ (RangeCheck.load 10 : List Fp) := fun x hx =>
    List.mem_map.2 ⟨x.val, List.mem_range.2 hx, ZMod.natCast_zmod_val x⟩
  refine hmem _ ?_
  by_cases hen : enabled regions[i] c.qLookup row = true
  · obtain ⟨o, ho, rfl⟩ := enabled_iff.1 hen
    have h3 := List.all_eq_true.1 h2 _ ho
    simp only [bne_self_eq_false, Bool.false_or] at h3
    exact of_decide_eq_true (List.all_eq_true.1 h3 l h)
  · rw [hl] at h
    obtain ⟨-, e⟩ := eval_lookup (c := c) (k := 10) (sel := enabled regions[i]) (w := w (start + i)) (row := row) l h
    rw [e, if_neg hen, zero_mul, ZMod.val_zero]
    norm_num

def checkFull (base : FixedBase pallasBase) (w : Content Fp) (start : Nat) (out : Nat × Nat) : Bool :=
  match demoFull.chip (5 : Fp), demoFull.assign (q := vestaBase) start none base with
  | .ok chip, .ok (regions, r, _) => regionsOk chip w start regions && w.at r.x.cell == (out.1 : Fp) && w.at r.y.cell == (out.2 : Fp)
  | _, _ => false

theorem checkFull_sat {base : FixedBase pallasBase} {w : Content Fp} {start : Nat} {out : Nat × Nat} {table : Nat → List Fp}
    (h : checkFull base w start out = true) : ∃ chip regions r windows, demoFull.chip (5 : Fp) = .ok chip ∧
    demoFull.assign (q := vestaBase) start none base = .ok (regions, r, windows) ∧ SatAll chip table w start regions ∧
    (w.at r.x.cell, w.at r.y.cell) = ((out.1 : Fp), (out.2 : Fp)) := by
  unfold checkFull at h
  split at h
  case h_2 => cases h
  rename_i chip regions r windows hc ha
  simp only [Bool.and_eq_true, beq_iff_eq] at h
  exact ⟨chip, regions, r, windows, hc, ha, regions_sat h.1.1 (full_gates hc).1, Prod.ext h.1.2 h.2⟩

def checkShort (base : FixedBase pallasBase) (w : Content Fp) (magnitude sign : Cell) (out : Nat × Nat) : Bool :=
  match demoShort.chip (5 : Fp), demoShort.assign (q := vestaBase) 0 ⟨magnitude, none⟩ ⟨sign, none⟩ base with
  | .ok chip, .ok (regions, r, _) => regionsOk chip w 0 regions && w.at r.x.cell == (out.1 : Fp) && w.at r.y.cell == (out.2 : Fp)
  | _, _ => false

theorem checkShort_sat {base : FixedBase pallasBase} {w : Content Fp} {magnitude sign : Cell} {out : Nat × Nat} {table : Nat → List Fp}
    (h : checkShort base w magnitude sign out = true) : ∃ chip regions r zs, demoShort.chip (5 : Fp) = .ok chip ∧
    demoShort.assign (q := vestaBase) 0 ⟨magnitude, none⟩ ⟨sign, none⟩ base = .ok (regions, r, zs) ∧ SatAll chip table w 0 regions ∧
    (w.at r.x.cell, w.at r.y.cell) = ((out.1 : Fp), (out.2 : Fp)) := by
  unfold checkShort at h
  split at h
  case h_2 => cases h
  rename_i chip regions r windows hc ha
  simp only [Bool.and_eq_true, beq_iff_eq] at h
  exact ⟨chip, regions, r, windows, hc, ha, regions_sat h.1.1 (short_gates hc).2.1, Prod.ext h.1.2 h.2⟩

def checkBase (base : FixedBase pallasBase) (w : Content Fp) (scalar : Cell) (out : Nat × Nat) : Bool :=
  match demoBase.chip (5 : Fp), demoBase.assign (q := vestaBase) 0 ⟨scalar, none⟩ base with
  | .ok chip, .ok (regions, r) => regionsOk chip w 0 regions && lookupsOk chip demoBase.lookup.qLookup w 0 regions &&
    w.at r.x.cell == (out.1 : Fp) && w.at r.y.cell == (out.2 : Fp)
  | _, _ => false

theorem checkBase_sat {base : FixedBase pallasBase} {w : Content Fp} {scalar : Cell} {out : Nat × Nat}
    (h : checkBase base w scalar out = true) : ∃ chip regions r, demoBase.chip (5 : Fp) = .ok chip ∧
    demoBase.assign (q := vestaBase) 0 ⟨scalar, none⟩ base = .ok (regions, r) ∧
    SatAll chip (fun _ => RangeCheck.load 10) w 0 regions ∧
    (w.at r.x.cell, w.at r.y.cell) = ((out.1 : Fp), (out.2 : Fp)) := by
  unfold checkBase at h
  split at h
  case h_2 => cases h
  rename_i chip regions r hc ha
  simp only [Bool.and_eq_true, beq_iff_eq] at h
  exact ⟨chip, regions, r, hc, ha, regions_sat_lookup h.1.1.1 h.1.1.2 (base_gates hc).2.1, Prod.ext h.1.2 h.2⟩

end Verif.Lemmas.Ecc

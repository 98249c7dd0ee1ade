import Verif.Lemmas.EccTables
import Verif.Lemmas.EccFixedShown

/-!
C116 and C117 (the tables of a fixed point: those that are computed, and the check of given ones).
-/

namespace Verif.Props

open Verif.Gadget Verif.Spec.Gadget Verif.Spec Verif.Spec.Ecc Verif.Spec.EccFixed Verif.Lemmas.Ecc
open Verif.Gadget.Tables (lagrangeCoeffs findZsAndUs testZsAndUs)

/-! ## C116 -/

/-- **C116 (coefficients).** For every point of Pallas that is not the identity and 2 to 85 windows, coefficients are
returned, 8 for each window, and the polynomials with these coefficients take the first coordinates of the points. -/
theorem C116_coefficients (B : Pt (5 : Fp)) (hB : B ≠ 0) (x y : Fp) (hg : (x, y) = coords B) (n : Nat) (hn : 2 ≤ n) (hn' : n ≤ 85) :
    ∃ ls, lagrangeCoeffs vestaBase x y n = .ok ls ∧ ls.length = n ∧ ∀ w < n, (ls.getD w []).length = 8 ∧
      ∀ k : Nat, k < 8 → ∑ j ∈ Finset.range 8, (ls.getD w []).getD j 0 * (k : Fp) ^ j = (coords (windowPoint n B w k)).1 :=
  Tables.lagrangeCoeffs_ok hg hB hn hn'

/-- **C116 (search).** The search for the numbers `z` does not panic. It succeeds if and only if each window has a number
below 65536000 that fits, and then it returns the smallest one of each window. -/
theorem C116_search (sqrt : Fp → Option Fp) (hs : SquareRoot sqrt) (B : Pt (5 : Fp)) (hB : B ≠ 0) (x y : Fp)
    (hg : (x, y) = coords B) (n : Nat) (hn : 2 ≤ n) (hn' : n ≤ 85) :
    ∃ r, findZsAndUs sqrt vestaBase x y n = .ok r ∧ (r.isSome ↔ ∀ w < n, ∃ z < 65536000, Fits n B w z) ∧
      ∀ l, r = some l → l.length = n ∧ ∀ w (h : w < l.length), Fits n B w l[w].1 ∧ ∀ z < l[w].1, ¬ Fits n B w z := by
  obtain ⟨r, h1, h2, h3⟩ := Tables.findZsAndUs_ok hs hg hB hn hn'
  exact ⟨r, h1, h2, fun l e => ⟨(h3 l e).1, fun w h => ⟨((h3 l e).2 w h).2.1, ((h3 l e).2 w h).2.2.1⟩⟩⟩

/-- **C116 (tables).** What the two functions return for a point makes a table of this point, as the circuits for its
multiples need it. -/
theorem C116_table (sqrt : Fp → Option Fp) (hs : SquareRoot sqrt) (B : Pt (5 : Fp)) (hB : B ≠ 0) (x y : Fp)
    (hg : (x, y) = coords B) (n : Nat) (hn : 2 ≤ n) (hn' : n ≤ 85) (ls : List (List Fp)) (l : List (Nat × List Fp))
    (h : lagrangeCoeffs vestaBase x y n = .ok ls) (h' : findZsAndUs sqrt vestaBase x y n = .ok (some l)) :
    TableOf n B ⟨x, y, ls, l.map Prod.fst, l.map Prod.snd⟩ := by
  obtain ⟨ls', e1, e2, e3⟩ := Tables.lagrangeCoeffs_ok hg hB hn hn'
  obtain rfl : ls = ls' := Except.ok.inj (h.symm.trans e1)
  obtain ⟨r, f1, -, f3⟩ := Tables.findZsAndUs_ok hs hg hB hn hn'
  obtain rfl : some l = r := Except.ok.inj (h'.symm.trans f1)
  obtain ⟨g1, g2⟩ := f3 l rfl
  have hz : ∀ w (hw : w < l.length), (l.map Prod.fst).getD w 0 = l[w].1 := fun w hw => by
    rw [List.getD_eq_getElem _ _ (by simpa using hw), List.getElem_map]
  refine ⟨hg, ⟨e2, by simp [g1], by simp [g1]⟩, fun w k hw hk => (e3 w hw).2 k hk, fun w k hw hk => ?_, fun w k hw hk => ?_⟩
  · rw [hz w (by omega)]
    exact ((g2 w (by omega)).2.1 k hk).2
  · obtain ⟨r, h1, h2⟩ := (g2 w (by omega)).2.2.2.2 k hk
    rw [hz w (by omega)]
    refine ⟨r, ?_, h2⟩
    simp only [List.getElem?_map, List.getElem?_eq_getElem (show w < l.length by omega)]
    exact h1

/-- **C116 (one window).** With one window, or none, both functions panic. -/
theorem C116_one_panics (sqrt : Fp → Option Fp) (B : Pt (5 : Fp)) (hB : B ≠ 0) (x y : Fp) (hg : (x, y) = coords B) (n : Nat)
    (hn : n ≤ 1) :
    lagrangeCoeffs vestaBase x y n = .error .panic ∧ findZsAndUs sqrt vestaBase x y n = .error .panic :=
  Tables.one_panics hg hB hn

/-- There is a function that takes square roots. -/
theorem squareRoot_exists : ∃ sqrt : Fp → Option Fp, SquareRoot sqrt := by
  classical
  refine ⟨fun v => if h : ∃ r, r ^ 2 = v then some h.choose else none, fun v r e => ?_, fun v e => ?_⟩
  · split at e
    · rename_i h
      rw [← Option.some.inj e]
      exact h.choose_spec
    · cases e
  · rintro ⟨r, hr⟩
    rw [dif_pos ⟨r, by rw [hr, pow_two]⟩] at e
    cases e

/-- A table tells numbers that fit. -/
theorem fits_of_table {n : Nat} {B : Pt (5 : Fp)} {base : FixedBase pallasBase} (t : TableOf n B base) {w : Nat} (hw : w < n) :
    Fits n B w (base.z.getD w 0) := fun k hk => by
  obtain ⟨r, -, h⟩ := t.root w k hw hk
  exact ⟨⟨r, by rw [← pow_two]; exact h.symm⟩, t.negative w k hw hk⟩

/-- For (-1, 2) the functions find the tables for 85 windows and for 22. -/
example (sqrt : Fp → Option Fp) (hs : SquareRoot sqrt) : ∀ n ∈ [85, 22], ∃ ls l, lagrangeCoeffs vestaBase (-1 : Fp) 2 n = .ok ls ∧
    findZsAndUs sqrt vestaBase (-1 : Fp) 2 n = .ok (some l) ∧ TableOf n pallasGen ⟨-1, 2, ls, l.map Prod.fst, l.map Prod.snd⟩ := by
  have main : ∀ (n : Nat) (base : FixedBase pallasBase), 2 ≤ n → n ≤ 85 → TableOf n pallasGen base →
      (∀ z ∈ base.z, z < 65536000) → ∃ ls l, lagrangeCoeffs vestaBase (-1 : Fp) 2 n = .ok ls ∧
        findZsAndUs sqrt vestaBase (-1 : Fp) 2 n = .ok (some l) ∧
        TableOf n pallasGen ⟨-1, 2, ls, l.map Prod.fst, l.map Prod.snd⟩ := by
    intro n base h1 h2 t hz
    obtain ⟨ls, e1, -⟩ := C116_coefficients pallasGen pallasGen_ne (-1) 2 rfl n h1 h2
    obtain ⟨r, f1, f2, -⟩ := C116_search sqrt hs pallasGen pallasGen_ne (-1) 2 rfl n h1 h2
    obtain ⟨l, rfl⟩ := Option.isSome_iff_exists.1 (f2.2 fun w hw => ⟨base.z.getD w 0, by
      have : w < base.z.length := by rw [t.sizes.2.1]; exact hw
      rw [List.getD_eq_getElem _ _ this]
      exact hz _ (List.getElem_mem this), fits_of_table t hw⟩)
    exact ⟨ls, l, e1, f1, C116_table sqrt hs pallasGen pallasGen_ne (-1) 2 rfl n h1 h2 ls l e1 f1⟩
  intro n hn
  rcases List.mem_cons.1 hn with rfl | hn
  · exact main 85 fullBase (by norm_num) (by norm_num) fullBase_table (by decide +kernel)
  · obtain rfl := List.mem_singleton.1 hn
    exact main 22 shortBase (by norm_num) (by norm_num) shortBase_table (by decide +kernel)

/-! ## C117 -/

/-- **C117 (stated).** Numbers and roots that pass the check are those of a table of the point, together with the
coefficients that are computed. -/
def CheckedTables : Prop := ∀ (sqrt : Fp → Option Fp), SquareRoot sqrt → ∀ (B : Pt (5 : Fp)), B ≠ 0 → ∀ (x y : Fp),
  (x, y) = coords B → ∀ n : Nat, 2 ≤ n → n ≤ 85 → ∀ (ls : List (List Fp)), lagrangeCoeffs vestaBase x y n = .ok ls →
  ∀ (z : List Nat) (u : List (List Fp)), (∀ us ∈ u, us.length = 8) → testZsAndUs sqrt vestaBase x y z u n = .ok () →
    TableOf n B ⟨x, y, ls, z, u⟩

/-- **C117 (short tables).** Of what passes the check, any first part passes too, whether it is of the numbers or of the
roots. -/
theorem C117_first_part (sqrt : Fp → Option Fp) (hs : SquareRoot sqrt) (B : Pt (5 : Fp)) (hB : B ≠ 0) (x y : Fp)
    (hg : (x, y) = coords B) (n : Nat) (hn : 2 ≤ n) (hn' : n ≤ 85) (z : List Nat) (u : List (List Fp))
    (h : testZsAndUs sqrt vestaBase x y z u n = .ok ()) (i j : Nat) :
    testZsAndUs sqrt vestaBase x y (z.take i) (u.take j) n = .ok () := by
  rw [Tables.testZsAndUs_iff hs hg hB hn hn'] at h ⊢
  intro w h1 h2 hw k h4 h5
  simp only [List.getElem_take] at h4 ⊢
  rw [List.length_take] at h1 h2
  exact h w (by omega) (by omega) hw k h4 h5

/-- **C117 (empty tables).** No numbers and no roots pass the check, for every number of windows but 0. -/
theorem C117_empty (sqrt : Fp → Option Fp) (B : Pt (5 : Fp)) (hB : B ≠ 0) (x y : Fp) (hg : (x, y) = coords B) (n : Nat)
    (hn : 0 < n) : testZsAndUs sqrt vestaBase x y [] [] n = .ok () := by
  unfold testZsAndUs
  rw [Tables.windowTable_ok hg hB hn]
  rfl

/-- **C117 (false).** What passes the check need not be a table. -/
theorem C117_not_checked : ¬ CheckedTables := by
  intro h
  obtain ⟨sqrt, hs⟩ := squareRoot_exists
  obtain ⟨ls, e, -⟩ := C116_coefficients pallasGen pallasGen_ne (-1) 2 rfl 85 (by norm_num) (by norm_num)
  have t := h sqrt hs pallasGen pallasGen_ne (-1) 2 rfl 85 (by norm_num) (by norm_num) ls e [] []
    (fun us hu => absurd hu (by simp)) (C117_empty sqrt pallasGen pallasGen_ne (-1) 2 rfl 85 (by norm_num))
  have := t.sizes.2.1
  simp at this

/-- **C117 (partial).** With as many numbers and as many lists of roots as there are windows, exactly the tables of the point
pass the check. What is missing is that the check looks at how many there are. -/
theorem C117_partial (sqrt : Fp → Option Fp) (hs : SquareRoot sqrt) (B : Pt (5 : Fp)) (hB : B ≠ 0) (x y : Fp)
    (hg : (x, y) = coords B) (n : Nat) (hn : 2 ≤ n) (hn' : n ≤ 85) (ls : List (List Fp))
    (hl : lagrangeCoeffs vestaBase x y n = .ok ls) (z : List Nat) (u : List (List Fp)) (hz : z.length = n) (hu : u.length = n)
    (h8 : ∀ us ∈ u, us.length = 8) :
    testZsAndUs sqrt vestaBase x y z u n = .ok () ↔ TableOf n B ⟨x, y, ls, z, u⟩ := by
  obtain ⟨ls', e1, e2, e3⟩ := Tables.lagrangeCoeffs_ok hg hB hn hn'
  obtain rfl : ls = ls' := Except.ok.inj (hl.symm.trans e1)
  have h8' : ∀ w (hw : w < u.length), u[w].length = 8 := fun w hw => h8 _ (List.getElem_mem hw)
  have hzw : ∀ w (hw : w < z.length), z.getD w 0 = z[w] := fun w hw => List.getD_eq_getElem _ _ hw
  rw [Tables.testZsAndUs_iff hs hg hB hn hn']
  constructor
  · intro h
    refine ⟨hg, ⟨e2, hz, hu⟩, fun w k hw hk => (e3 w hw).2 k hk, fun w k hw hk => ?_, fun w k hw hk => ?_⟩
    · rw [hzw w (by omega)]
      exact (h w (by omega) (by omega) hw k (by rw [h8' w (by omega)]; exact hk) hk).2
    · have h9 : k < (u[w]'(by omega)).length := by rw [h8' w (by omega)]; exact hk
      refine ⟨u[w][k], ?_, ?_⟩
      · simp only [List.getElem?_eq_getElem (show w < u.length by omega), Option.bind_some, List.getElem?_eq_getElem h9]
      · rw [hzw w (by omega)]
        exact (h w (by omega) (by omega) hw k h9 hk).1
  · intro t w h1 h2 hw k h4 h5
    obtain ⟨r, r1, r2⟩ := t.root w k hw h5
    have n1 := t.negative w k hw h5
    simp only at r1 r2 n1
    rw [hzw w h2] at r2 n1
    simp only [List.getElem?_eq_getElem h1, Option.bind_some, List.getElem?_eq_getElem h4, Option.some.injEq] at r1
    rw [r1]
    exact ⟨r2, n1⟩

/-- The numbers and roots for (-1, 2) and 85 windows pass; so do the first 3. -/
example (sqrt : Fp → Option Fp) (hs : SquareRoot sqrt) :
    testZsAndUs sqrt vestaBase (-1 : Fp) 2 fullBase.z fullBase.u 85 = .ok () ∧
    testZsAndUs sqrt vestaBase (-1 : Fp) 2 (fullBase.z.take 3) (fullBase.u.take 3) 85 = .ok () := by
  obtain ⟨ls, e1, e2, e3⟩ := C116_coefficients pallasGen pallasGen_ne (-1) 2 rfl 85 (by norm_num) (by norm_num)
  have t := fullBase_table
  have h := (C117_partial sqrt hs pallasGen pallasGen_ne (-1) 2 rfl 85 (by norm_num) (by norm_num) ls e1 fullBase.z fullBase.u
    t.sizes.2.1 t.sizes.2.2 (by decide +kernel)).2
    ⟨rfl, ⟨e2, t.sizes.2.1, t.sizes.2.2⟩, fun w k hw hk => (e3 w hw).2 k hk, t.negative, t.root⟩
  exact ⟨h, C117_first_part sqrt hs pallasGen pallasGen_ne (-1) 2 rfl 85 (by norm_num) (by norm_num) _ _ h 3 3⟩

end Verif.Props

#print axioms Verif.Props.C116_coefficients
#print axioms Verif.Props.C116_search
#print axioms Verif.Props.C116_table
#print axioms Verif.Props.C116_one_panics
#print axioms Verif.Props.C117_first_part
#print axioms Verif.Props.C117_empty
#print axioms Verif.Props.C117_not_checked
#print axioms Verif.Props.C117_partial

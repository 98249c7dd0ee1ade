import Verif.Lemmas.Interpolate
import Verif.Lemmas.EccFixedDone
import Verif.Spec.EccTables

/-! The tables of a fixed point as they are computed. -/

namespace Verif.Gadget.Tables

open Verif.Spec Verif.Spec.Ecc Verif.Spec.EccFixed Verif.Lemmas.Ecc Verif.Lemmas.Gadget

theorem valueAt_sum {F : Type} [Field F] : ∀ (l : List F) (k : F), valueAt l k = ∑ j ∈ Finset.range l.length, l.getD j 0 * k ^ j
  | [], k => by simp [valueAt]
  | c :: l, k => by
    have ih := valueAt_sum l k
    rw [List.length_cons, Finset.sum_range_succ']
    simp only [List.getD_cons_succ, List.getD_cons_zero, pow_zero, mul_one, pow_succ]
    rw [valueAt_cons, ih, Finset.mul_sum, add_comm]
    congr 1
    exact Finset.sum_congr rfl fun j _ => by ring

theorem mapM_all {ε α β : Type} {f : α → Except ε β} {g : α → β} : ∀ {l : List α}, (∀ x ∈ l, f x = .ok (g x)) →
    l.mapM f = .ok (l.map g)
  | [], _ => rfl
  | x :: l, h => by
    rw [List.mapM_cons, h x (by simp), mapM_all fun y hy => h y (List.mem_cons_of_mem _ hy)]
    rfl

/-- A point as it is stored. -/
noncomputable def pointOf (P : Pt (5 : Fp)) : Aff Fp := ⟨(coords P).1, (coords P).2⟩

/-- The points of a window. -/
noncomputable def window (n : Nat) (B : Pt (5 : Fp)) (w : Nat) : List (Aff Fp) :=
  (List.range 8).map fun k => pointOf (windowPoint n B w k)

variable {n : Nat} {B : Pt (5 : Fp)} {x y : Fp}

theorem coordinates_ok {P : Pt (5 : Fp)} (h : P ≠ 0) : coordinates (pointOf P) = .ok (coords P) := by
  unfold coordinates pointOf
  rw [if_neg (coords_ne smooth_five h)]

theorem coordinates_zero : coordinates (pointOf 0) = .error .panic := by
  unfold coordinates pointOf
  rw [if_pos]
  exact ⟨rfl, rfl⟩

theorem multiple_point (hg : (x, y) = coords B) (hB : B ≠ 0) (s : ZMod vestaBase) :
    multiple vestaBase x y s = pointOf (s.val • B) := by
  have h := multiple_coords smooth_five hg hB (vesta_bytes (ZMod.val_lt s))
  unfold multiple pointOf
  rw [← h]

theorem windowTable_ok (hg : (x, y) = coords B) (hB : B ≠ 0) (hn : 0 < n) :
    windowTable vestaBase x y n = .ok ((List.range n).map (window n B)) := by
  obtain ⟨m, rfl⟩ : ∃ m, n = m + 1 := ⟨n - 1, by omega⟩
  unfold windowTable
  rw [if_neg (by omega)]
  simp only [Nat.add_sub_cancel, List.range_succ (n := m), List.map_append, List.map_cons, List.map_nil]
  congr 2
  · refine List.map_congr_left fun w hw => List.map_congr_left fun k _ => ?_
    have hw := List.mem_range.1 hw
    rw [multiple_point hg hB, windowPoint, if_pos (by omega), Nat.cast_add, Nat.cast_two, lower_smul]
  · congr 1
    refine List.map_congr_left fun k _ => ?_
    rw [multiple_point hg hB, windowPoint, if_neg (by omega), offset_sum, msb_smul]

theorem last_any (hB : B ≠ 0) (hn : 2 ≤ n) (hn' : n ≤ 85) : ∀ k < 8, windowPoint n B (n - 1) k ≠ 0 := by
  obtain ⟨m, rfl⟩ : ∃ m, n = m + 1 := ⟨n - 1, by omega⟩
  intro k hk
  have : ∀ m < 85, 0 < m → ∀ k < 8, (k * 8 ^ m) % vestaBase ≠ (∑ j ∈ Finset.range m, 2 * 8 ^ j) % vestaBase := by decide +kernel
  exact last_ne hB rfl (this m (by omega) (by omega) k hk)

theorem window_ne (hB : B ≠ 0) (hn : 2 ≤ n) (hn' : n ≤ 85) {w k : Nat} (hw : w < n) (hk : k < 8) : windowPoint n B w k ≠ 0 := by
  by_cases h : w + 1 < n
  · exact lower_ne hB h hn' hk
  · obtain rfl : w = n - 1 := by omega
    exact last_any hB hn hn' k hk

theorem window_coordinates (hB : B ≠ 0) (hn : 2 ≤ n) (hn' : n ≤ 85) {w : Nat} (hw : w < n) :
    (window n B w).mapM coordinates = .ok ((List.range 8).map fun k => coords (windowPoint n B w k)) := by
  have h := mapM_all (f := coordinates) (g := fun a : Aff Fp => (a.x, a.y)) (l := window n B w) (by
    intro a ha
    obtain ⟨k, hk, rfl⟩ := List.mem_map.1 ha
    exact coordinates_ok (window_ne hB hn hn' hw (List.mem_range.1 hk)))
  rw [h, window, List.map_map]
  rfl

theorem digits_nodup : ((List.range 8).map fun i : Nat => (i : Fp)).Nodup := by decide +kernel

theorem windowCoeffs_ok (hB : B ≠ 0) (hn : 2 ≤ n) (hn' : n ≤ 85) {w : Nat} (hw : w < n) :
    ∃ c, windowCoeffs (window n B w) = .ok c ∧ c.length = 8 ∧
      ∀ k : Nat, k < 8 → ∑ j ∈ Finset.range 8, c.getD j 0 * (k : Fp) ^ j = (coords (windowPoint n B w k)).1 := by
  obtain ⟨c, h1, h2, h3⟩ := interpolate_spec ((List.range 8).map fun i : Nat => (i : Fp))
    (((List.range 8).map fun k => coords (windowPoint n B w k)).map Prod.fst) (by simp) digits_nodup
  have h8 : c.length = 8 := by simpa using h2
  refine ⟨c, ?_, h8, fun k hk => ?_⟩
  · unfold windowCoeffs
    rw [window_coordinates hB hn hn' hw]
    exact h1
  · have := h3 k (by simpa using hk) (by simpa using hk)
    simp only [List.getElem_map, List.getElem_range] at this
    rw [valueAt_sum, h8] at this
    exact this

theorem lagrangeCoeffs_ok (hg : (x, y) = coords B) (hB : B ≠ 0) (hn : 2 ≤ n) (hn' : n ≤ 85) :
    ∃ ls, lagrangeCoeffs vestaBase x y n = .ok ls ∧ ls.length = n ∧ ∀ w < n, (ls.getD w []).length = 8 ∧
      ∀ k : Nat, k < 8 → ∑ j ∈ Finset.range 8, (ls.getD w []).getD j 0 * (k : Fp) ^ j = (coords (windowPoint n B w k)).1 := by
  have : ∀ w, ∃ c, w < n → windowCoeffs (window n B w) = .ok c ∧ c.length = 8 ∧
      ∀ k : Nat, k < 8 → ∑ j ∈ Finset.range 8, c.getD j 0 * (k : Fp) ^ j = (coords (windowPoint n B w k)).1 := fun w => by
    by_cases hw : w < n
    · obtain ⟨c, h⟩ := windowCoeffs_ok hB hn hn' hw
      exact ⟨c, fun _ => h⟩
    · exact ⟨[], fun h => absurd h hw⟩
  choose f hf using this
  refine ⟨(List.range n).map f, ?_, by simp, fun w hw => ?_⟩
  · unfold lagrangeCoeffs
    rw [windowTable_ok hg hB (by omega)]
    show ((List.range n).map (window n B)).mapM windowCoeffs = _
    have := mapM_all (f := fun w => windowCoeffs (window n B w)) (g := f) (l := List.range n)
      fun w hw => (hf w (List.mem_range.1 hw)).1
    rw [← this]
    generalize List.range n = l
    induction l with
    | nil => rfl
    | cons a l ih => rw [List.map_cons, List.mapM_cons, List.mapM_cons, ih]
  · have e : ((List.range n).map f).getD w [] = f w := by simp [hw]
    rw [e]
    exact (hf w hw).2

/-! ### The numbers `z` and the roots -/

variable {sqrt : Fp → Option Fp}

theorem sqrt_some (h : SquareRoot sqrt) {v : Fp} (hv : IsSquare v) : ∃ r, sqrt v = some r := by
  cases e : sqrt v with
  | none => exact absurd hv (h.none v e)
  | some r => exact ⟨r, rfl⟩

theorem sqrt_none (h : SquareRoot sqrt) {v : Fp} : sqrt v = none ↔ ¬ IsSquare v := by
  constructor
  · exact h.none v
  · intro hv
    cases e : sqrt v with
    | none => rfl
    | some r => exact absurd ⟨r, by rw [← h.root v r e]; ring⟩ hv

/-- When `z` fits a list of second coordinates. -/
def FitsAll (ys : List Fp) (z : Nat) : Prop := ∀ y ∈ ys, IsSquare (y + (z : Fp)) ∧ ¬ IsSquare (-y + (z : Fp))

theorem roots_spec (h : SquareRoot sqrt) (z : Nat) : ∀ ys : List Fp,
    (FitsAll ys z → ∃ us, roots sqrt ys z = some us) ∧
    ∀ us, roots sqrt ys z = some us → FitsAll ys z ∧ us.length = ys.length ∧
      ∀ k (h1 : k < us.length) (h2 : k < ys.length), us[k] ^ 2 = ys[k] + (z : Fp)
  | [] => ⟨fun _ => ⟨[], rfl⟩, fun us e => by
      cases Option.some.inj (show some [] = some us from e)
      exact ⟨fun y hy => absurd hy (by simp), rfl, fun k h1 => absurd h1 (by simp)⟩⟩
  | y :: ys => by
    obtain ⟨i1, i2⟩ := roots_spec h z ys
    unfold roots at i1 i2 ⊢
    simp only [List.mapM_cons]
    constructor
    · intro hf
      obtain ⟨us, hus⟩ := i1 fun v hv => hf v (List.mem_cons_of_mem _ hv)
      obtain ⟨f1, f2⟩ := hf y (by simp)
      obtain ⟨r, hr⟩ := sqrt_some h f1
      refine ⟨r :: us, ?_⟩
      rw [hus, hr, (sqrt_none h).2 f2]
      rfl
    · intro us e
      cases e1 : sqrt (-y + (z : Fp)) with
      | some _ => rw [e1] at e; cases e
      | none =>
        cases e2 : sqrt (y + (z : Fp)) with
        | none => rw [e1, e2] at e; cases e
        | some r =>
          cases e3 : ys.mapM fun y => if (sqrt (-y + (z : Fp))).isNone then sqrt (y + (z : Fp)) else none with
          | none => rw [e1, e2, e3] at e; cases e
          | some vs =>
            rw [e1, e2, e3] at e
            cases Option.some.inj (show some (r :: vs) = some us from e)
            obtain ⟨j1, j2, j3⟩ := i2 vs e3
            refine ⟨fun v hv => ?_, by simp [j2], fun k h1 h2 => ?_⟩
            · rcases List.mem_cons.1 hv with rfl | hv
              · exact ⟨⟨r, by rw [← h.root _ _ e2]; ring⟩, (sqrt_none h).1 e1⟩
              · exact j1 v hv
            · match k with
              | 0 => exact h.root _ _ e2
              | k + 1 => exact j3 k (by simpa using h1) (by simpa using h2)

theorem fits_iff {w z : Nat} : FitsAll (((List.range 8).map fun k => coords (windowPoint n B w k)).map Prod.snd) z ↔ Fits n B w z := by
  unfold FitsAll Fits
  simp only [List.map_map, List.mem_map, List.mem_range]
  constructor
  · intro h k hk
    exact h _ ⟨k, hk, rfl⟩
  · rintro h _ ⟨k, hk, rfl⟩
    exact h k hk

/-- What is found for a window. -/
def Found (n : Nat) (B : Pt (5 : Fp)) (w z : Nat) (us : List Fp) : Prop :=
  z < 65536000 ∧ Fits n B w z ∧ (∀ z' < z, ¬ Fits n B w z') ∧ us.length = 8 ∧
    ∀ k < 8, ∃ r, us[k]? = some r ∧ r ^ 2 = (coords (windowPoint n B w k)).2 + (z : Fp)

theorem findSome_least {α : Type} {f : Nat → Option α} : ∀ (m : Nat) {a : α}, (List.range m).findSome? f = some a →
    ∃ z < m, f z = some a ∧ ∀ z' < z, f z' = none
  | 0, a, h => by simp at h
  | m + 1, a, h => by
    rw [List.range_succ, List.findSome?_append] at h
    cases e : (List.range m).findSome? f with
    | some b =>
      rw [e] at h
      cases Option.some.inj (show some b = some a from h)
      obtain ⟨z, h1, h2⟩ := findSome_least m e
      exact ⟨z, by omega, h2⟩
    | none =>
      rw [e] at h
      refine ⟨m, by omega, by simpa using h, fun z' hz => ?_⟩
      exact List.findSome?_eq_none_iff.1 e z' (List.mem_range.2 hz)

theorem findZ_ok (hs : SquareRoot sqrt) (hB : B ≠ 0) (hn : 2 ≤ n) (hn' : n ≤ 85) {w : Nat} (hw : w < n) :
    ∃ r, findZ sqrt (window n B w) = .ok r ∧ (r.isSome ↔ ∃ z < 65536000, Fits n B w z) ∧
      ∀ z us, r = some (z, us) → Found n B w z us := by
  unfold findZ
  rw [window_coordinates hB hn hn' hw]
  refine ⟨_, rfl, ?_, ?_⟩
  · rw [List.findSome?_isSome_iff]
    constructor
    · rintro ⟨z, hz, e⟩
      rw [Option.isSome_map] at e
      obtain ⟨us, hus⟩ := Option.isSome_iff_exists.1 e
      exact ⟨z, by simpa using List.mem_range.1 hz, fits_iff.1 ((roots_spec hs z _).2 us hus).1⟩
    · rintro ⟨z, hz, hf⟩
      obtain ⟨us, hus⟩ := (roots_spec hs z _).1 (fits_iff.2 hf)
      exact ⟨z, List.mem_range.2 (by simpa using hz), by rw [hus]; rfl⟩
  · intro z us e
    obtain ⟨z0, h1, h2, h3⟩ := findSome_least _ e
    obtain ⟨vs, h4, h5⟩ := Option.map_eq_some_iff.1 h2
    cases h5
    obtain ⟨j1, j2, j3⟩ := (roots_spec hs z _).2 _ h4
    have h8 : us.length = 8 := by simpa using j2
    refine ⟨by simpa using h1, fits_iff.1 j1, fun z' hz' hf => ?_, h8, fun k hk => ?_⟩
    · obtain ⟨vs, hvs⟩ := (roots_spec hs z' _).1 (fits_iff.2 hf)
      have := h3 z' hz'
      rw [hvs] at this
      cases this
    · refine ⟨us[k], List.getElem?_eq_getElem _, ?_⟩
      have := j3 k (by omega) (by simpa using hk)
      simpa using this

theorem findAll_ok (hs : SquareRoot sqrt) (hB : B ≠ 0) (hn : 2 ≤ n) (hn' : n ≤ 85) : ∀ ws : List Nat, (∀ w ∈ ws, w < n) →
    ∃ r, findAll sqrt (ws.map (window n B)) = .ok r ∧ (r.isSome ↔ ∀ w ∈ ws, ∃ z < 65536000, Fits n B w z) ∧
      ∀ l, r = some l → l.length = ws.length ∧
        ∀ i (h1 : i < ws.length) (h2 : i < l.length), Found n B ws[i] l[i].1 l[i].2
  | [], _ => ⟨some [], rfl, by simp, fun l e => by
      cases Option.some.inj e
      exact ⟨rfl, fun i h => absurd h (by simp)⟩⟩
  | w :: ws, hw => by
    obtain ⟨r, h1, h2, h3⟩ := findZ_ok hs hB hn hn' (hw w (by simp))
    obtain ⟨r', i1, i2, i3⟩ := findAll_ok hs hB hn hn' ws fun v hv => hw v (List.mem_cons_of_mem _ hv)
    rw [List.map_cons, findAll, h1]
    cases r with
    | none =>
      refine ⟨none, rfl, ?_, fun l e => by cases e⟩
      simp only [Option.isSome_none, Bool.false_eq_true, false_iff]
      intro h
      have := h2.2 (h w (by simp))
      cases this
    | some a =>
      refine ⟨r'.map (a :: ·), by show (findAll sqrt (ws.map (window n B)) >>= _) = _; rw [i1]; rfl, ?_, ?_⟩
      · rw [Option.isSome_map, i2]
        constructor
        · intro h v hv
          rcases List.mem_cons.1 hv with rfl | hv
          · exact h2.1 rfl
          · exact h v hv
        · intro h v hv
          exact h v (List.mem_cons_of_mem _ hv)
      · intro l e
        obtain ⟨l', rfl, rfl⟩ := Option.map_eq_some_iff.1 e
        obtain ⟨k1, k2⟩ := i3 l' rfl
        refine ⟨by simp [k1], fun i h4 h5 => ?_⟩
        match i with
        | 0 => exact h3 a.1 a.2 rfl
        | i + 1 => exact k2 i (by simpa using h4) (by simpa using h5)

theorem findZsAndUs_ok (hs : SquareRoot sqrt) (hg : (x, y) = coords B) (hB : B ≠ 0) (hn : 2 ≤ n) (hn' : n ≤ 85) :
    ∃ r, findZsAndUs sqrt vestaBase x y n = .ok r ∧ (r.isSome ↔ ∀ w < n, ∃ z < 65536000, Fits n B w z) ∧
      ∀ l, r = some l → l.length = n ∧ ∀ w (h : w < l.length), Found n B w l[w].1 l[w].2 := by
  obtain ⟨r, h1, h2, h3⟩ := findAll_ok hs hB hn hn' (List.range n) fun w hw => List.mem_range.1 hw
  refine ⟨r, ?_, ?_, fun l e => ?_⟩
  · unfold findZsAndUs
    rw [windowTable_ok hg hB (by omega)]
    exact h1
  · rw [h2]
    exact ⟨fun h w hw => h w (List.mem_range.2 hw), fun h w hw => h w (List.mem_range.1 hw)⟩
  · obtain ⟨k1, k2⟩ := h3 l e
    have hl : l.length = n := by simpa using k1
    refine ⟨hl, fun w hw => ?_⟩
    have := k2 w (by simp; omega) hw
    simpa using this

/-- With one window, or none, both functions panic. -/
theorem one_panics (hg : (x, y) = coords B) (hB : B ≠ 0) (hn : n ≤ 1) :
    lagrangeCoeffs vestaBase x y n = .error .panic ∧ findZsAndUs sqrt vestaBase x y n = .error .panic := by
  rcases Nat.lt_or_ge n 1 with h | h
  · obtain rfl : n = 0 := by omega
    exact ⟨rfl, rfl⟩
  obtain rfl : n = 1 := by omega
  have hw : (window 1 B 0).mapM coordinates = .error .panic := by
    have e : windowPoint 1 B 0 0 = 0 := by
      rw [windowPoint, if_neg (by omega)]
      simp
    rw [window, List.range_succ_eq_map, List.map_cons, e, List.mapM_cons, coordinates_zero]
    rfl
  unfold lagrangeCoeffs findZsAndUs
  rw [windowTable_ok hg hB (by omega)]
  constructor
  · show ((List.range 1).map (window 1 B)).mapM windowCoeffs = _
    rw [List.range_one, List.map_cons, List.map_nil, List.mapM_cons, windowCoeffs, hw]
    rfl
  · show findAll sqrt ((List.range 1).map (window 1 B)) = _
    rw [List.range_one, List.map_cons, List.map_nil, findAll, findZ, hw]
    rfl

/-! ### The check of given tables -/

theorem testWindow_iff (hs : SquareRoot sqrt) (z : Nat) : ∀ (us : List Fp) (Ps : List (Pt (5 : Fp))), (∀ P ∈ Ps, P ≠ 0) →
    (testWindow sqrt z us (Ps.map pointOf) = .ok () ↔
      ∀ k (h1 : k < us.length) (h2 : k < Ps.length), us[k] ^ 2 = (coords Ps[k]).2 + (z : Fp) ∧ ¬ IsSquare (- (coords Ps[k]).2 + (z : Fp)))
  | [], Ps, _ => by
    rw [testWindow]
    · exact ⟨fun _ k h => absurd h (by simp), fun _ => rfl⟩
    · intro u us a as h; cases h
  | u :: us, [], _ => by
    rw [List.map_nil, testWindow]
    · exact ⟨fun _ k _ h => absurd h (by simp), fun _ => rfl⟩
    · intro v vs a as _ h; cases h
  | u :: us, P :: Ps, hP => by
    have ih := testWindow_iff hs z us Ps fun Q hQ => hP Q (List.mem_cons_of_mem _ hQ)
    rw [List.map_cons, testWindow, coordinates_ok (hP P (by simp))]
    constructor
    · intro h
      obtain ⟨⟨⟩, e1, h⟩ := bind_ok (show (assert ((z : Fp) + (coords P).2 == u * u) >>= _) = _ from h)
      obtain ⟨⟨⟩, e2, h⟩ := bind_ok h
      have e1 := assert_ok.1 e1
      have e2 := assert_ok.1 e2
      intro k h1 h2
      match k with
      | 0 =>
        refine ⟨?_, ?_⟩
        · simp only [List.getElem_cons_zero]
          rw [pow_two, ← beq_iff_eq.1 e1]
          ring
        · simp only [List.getElem_cons_zero]
          rw [neg_add_eq_sub]
          exact (sqrt_none hs).1 (Option.isNone_iff_eq_none.1 e2)
      | k + 1 => exact ih.1 h k (by simpa using h1) (by simpa using h2)
    · intro h
      have h0 := h 0 (by simp) (by simp)
      simp only [List.getElem_cons_zero] at h0
      show (assert ((z : Fp) + (coords P).2 == u * u) >>= _) = _
      rw [assert_ok.2 (by rw [beq_iff_eq, ← pow_two, h0.1]; ring)]
      show (assert _ >>= _) = _
      rw [assert_ok.2 (by rw [Option.isNone_iff_eq_none, sqrt_none hs, ← neg_add_eq_sub]; exact h0.2)]
      exact ih.2 fun k h1 h2 => h (k + 1) (by simpa using h1) (by simpa using h2)

theorem testWindows_iff (hs : SquareRoot sqrt) : ∀ (u : List (List Fp)) (z : List Nat) (Pss : List (List (Pt (5 : Fp)))),
    (∀ Ps ∈ Pss, ∀ P ∈ Ps, P ≠ 0) →
    (testWindows sqrt u z (Pss.map fun Ps => Ps.map pointOf) = .ok () ↔
      ∀ w (h1 : w < u.length) (h2 : w < z.length) (h3 : w < Pss.length), ∀ k (h4 : k < u[w].length) (h5 : k < Pss[w].length),
        u[w][k] ^ 2 = (coords Pss[w][k]).2 + (z[w] : Fp) ∧ ¬ IsSquare (- (coords Pss[w][k]).2 + (z[w] : Fp)))
  | [], z, Pss, _ => by
    rw [testWindows]
    · exact ⟨fun _ w h => absurd h (by simp), fun _ => rfl⟩
    · intro us u z zs a as h; cases h
  | us :: u, [], Pss, _ => by
    rw [testWindows]
    · exact ⟨fun _ w _ h => absurd h (by simp), fun _ => rfl⟩
    · intro us u z zs a as _ h; cases h
  | us :: u, z :: zs, [], _ => by
    rw [List.map_nil, testWindows]
    · exact ⟨fun _ w _ _ h => absurd h (by simp), fun _ => rfl⟩
    · intro us u z zs a as _ _ h; cases h
  | us :: u, z :: zs, Ps :: Pss, hP => by
    have ih := testWindows_iff hs u zs Pss fun Q hQ => hP Q (List.mem_cons_of_mem _ hQ)
    have ih' := testWindow_iff hs z us Ps (hP Ps (by simp))
    rw [List.map_cons, testWindows]
    constructor
    · intro h
      obtain ⟨⟨⟩, e1, h⟩ := bind_ok h
      intro w h1 h2 h3
      match w with
      | 0 => exact ih'.1 e1
      | w + 1 => exact ih.1 h w (by simpa using h1) (by simpa using h2) (by simpa using h3)
    · intro h
      rw [ih'.2 (h 0 (by simp) (by simp) (by simp))]
      exact ih.2 fun w h1 h2 h3 => h (w + 1) (by simpa using h1) (by simpa using h2) (by simpa using h3)

theorem testZsAndUs_iff (hs : SquareRoot sqrt) (hg : (x, y) = coords B) (hB : B ≠ 0) (hn : 2 ≤ n) (hn' : n ≤ 85)
    {u : List (List Fp)} {z : List Nat} :
    testZsAndUs sqrt vestaBase x y z u n = .ok () ↔
      ∀ w (h1 : w < u.length) (h2 : w < z.length), w < n → ∀ k (h4 : k < u[w].length), k < 8 →
        u[w][k] ^ 2 = (coords (windowPoint n B w k)).2 + (z[w] : Fp) ∧
        ¬ IsSquare (- (coords (windowPoint n B w k)).2 + (z[w] : Fp)) := by
  unfold testZsAndUs
  rw [windowTable_ok hg hB (by omega)]
  have e : (List.range n).map (window n B) =
      ((List.range n).map fun w => (List.range 8).map fun k => windowPoint n B w k).map fun Ps => Ps.map pointOf := by
    rw [List.map_map]
    refine List.map_congr_left fun w _ => ?_
    rw [window, Function.comp, List.map_map]
    rfl
  show testWindows sqrt u z ((List.range n).map (window n B)) = _ ↔ _
  rw [e, testWindows_iff hs]
  · constructor
    · intro h w h1 h2 h3 k h4 h5
      have := h w h1 h2 (by simpa using h3) k h4 (by simpa using h5)
      simpa using this
    · intro h w h1 h2 h3 k h4 h5
      have := h w h1 h2 (by simpa using h3) k h4 (by simpa using h5)
      simpa using this
  · intro Ps hPs P hP
    obtain ⟨w, hw, rfl⟩ := List.mem_map.1 hPs
    obtain ⟨k, hk, rfl⟩ := List.mem_map.1 hP
    exact window_ne hB hn hn' (List.mem_range.1 hw) (List.mem_range.1 hk)

end Verif.Gadget.Tables

import Verif.Spec.EccFixed
import Verif.Spec.Pow5
import Verif.Lemmas.EccIncomplete
import Verif.Lemmas.EccMul
import Verif.Lemmas.GadgetSum
import Verif.Lemmas.PallasOrder
import Mathlib.Data.Nat.Digits.Lemmas

/-! Multiplication of a fixed point in circuits: what the constraints say. -/

namespace Verif.Lemmas.Ecc

open Verif.Gadget Verif.Spec.Gadget Verif.Spec Verif.Spec.Ecc Verif.Lemmas.Gadget Verif.Spec.EccFixed
open Verif.FloorPlanner (Call)
open Verif.Spec.Pow5 (SatAll FollowsAll)

section inc

variable {F : Type} [Field F] [DecidableEq F] {b : F} {w : Content F} {region offset : Nat}

omit [DecidableEq F] in
/-- The gate of incomplete addition, where the calls are part of a larger region. -/
theorem incomplete_within {c : AddIncomplete} {p q : EccPoint F} {xr yr : Option F} {calls : Calls F}
    {sel : Selector → Int → Bool}
    (hsub : ∀ k ∈ incompleteCalls c region p q offset xr yr, k ∈ calls)
    (henf : ∀ k ∈ calls, Enforced w region k)
    (hgate : ∀ g ∈ (c.chip : Chip F).gates, ∀ e ∈ g.2, e.eval sel (w region) offset = 0) :
    (w region (.advice c.xQR) (offset + 1) + w.at q.x.cell + w.at p.x.cell) * (w.at p.x.cell - w.at q.x.cell) *
      (w.at p.x.cell - w.at q.x.cell) = (w.at p.y.cell - w.at q.y.cell) ^ 2 ∧
    (w region (.advice c.yQR) (offset + 1) + w.at q.y.cell) * (w.at p.x.cell - w.at q.x.cell) =
      (w.at p.y.cell - w.at q.y.cell) * (w.at q.x.cell - w region (.advice c.xQR) (offset + 1)) := by
  have c1 : w region (.advice c.xP) offset = w.at p.x.cell :=
    henf _ (hsub (.equal ⟨region, offset, .advice c.xP⟩ p.x.cell) (List.mem_of_getElem? (i := 2) rfl))
  have c2 : w region (.advice c.yP) offset = w.at p.y.cell :=
    henf _ (hsub (.equal ⟨region, offset, .advice c.yP⟩ p.y.cell) (List.mem_of_getElem? (i := 4) rfl))
  have c3 : w region (.advice c.xQR) offset = w.at q.x.cell :=
    henf _ (hsub (.equal ⟨region, offset, .advice c.xQR⟩ q.x.cell) (List.mem_of_getElem? (i := 6) rfl))
  have c4 : w region (.advice c.yQR) offset = w.at q.y.cell :=
    henf _ (hsub (.equal ⟨region, offset, .advice c.yQR⟩ q.y.cell) (List.mem_of_getElem? (i := 8) rfl))
  have h1 := hgate _ List.mem_cons_self _ List.mem_cons_self
  have h2 := hgate _ List.mem_cons_self _ (List.mem_cons_of_mem _ List.mem_cons_self)
  simp only [eval_mul, eval_sub, eval_add, eval_advice, eval_square, add_zero, c1, c2, c3, c4] at h1 h2
  exact ⟨by linear_combination h1, by linear_combination h2⟩

/-- Different multiples of a point, none the negative of the other. -/
theorem multiples_x {B : Pt b} {ord i j : Nat} (free : ∀ m, 0 < m → m < ord → m • B ≠ 0) (hj : 0 < j) (hij : j < i)
    (ho : i + j < ord) : (coords (i • B)).1 ≠ (coords (j • B)).1 := by
  intro e
  rcases same_x (free i (by omega) (by omega)) (free j hj (by omega)) e with e' | e'
  · apply free (i - j) (by omega) (by omega)
    apply add_right_cancel (b := j • B)
    rw [← add_nsmul, Nat.sub_add_cancel hij.le, zero_add, e']
  · apply free (i + j) (by omega) ho
    rw [add_nsmul, e', add_neg_cancel]

/-- Incomplete addition of different multiples of a point. -/
theorem incomplete_multiples {c : AddIncomplete} {p q : EccPoint F} {calls more : Calls F} {out : EccPoint F}
    {sel : Selector → Int → Bool} {B : Pt b} {ord i j : Nat} (free : ∀ m, 0 < m → m < ord → m • B ≠ 0)
    (h : c.assign region p q offset = .ok (more, out)) (hsub : ∀ k ∈ more, k ∈ calls)
    (henf : ∀ k ∈ calls, Enforced w region k)
    (hgate : ∀ g ∈ (c.chip : Chip F).gates, ∀ e ∈ g.2, e.eval sel (w region) offset = 0)
    (hj : 0 < j) (hij : j < i) (ho : i + j < ord) (hp : Holds w p (i • B)) (hq : Holds w q (j • B)) :
    Holds w out ((i + j) • B) := by
  obtain ⟨xr, yr, rfl, rfl, -, -⟩ := incomplete_ok h
  obtain ⟨e1, e2⟩ := incomplete_within hsub henf hgate
  have hp1 : w.at p.x.cell = (coords (i • B)).1 := congrArg Prod.fst hp
  have hp2 : w.at p.y.cell = (coords (i • B)).2 := congrArg Prod.snd hp
  have hq1 : w.at q.x.cell = (coords (j • B)).1 := congrArg Prod.fst hq
  have hq2 : w.at q.y.cell = (coords (j • B)).2 := congrArg Prod.snd hq
  rw [hp1, hp2, hq1, hq2] at e1 e2
  have hP : i • B ≠ 0 := free i (by omega) (by omega)
  have hQ : j • B ≠ 0 := free j hj (by omega)
  have hx := multiples_x free hj hij ho
  have := incompleteEqs_sound hP hQ hx e1 e2
  rw [add_nsmul]
  show (w region (.advice c.xQR) ((offset + 1 : Nat) : Int), w region (.advice c.yQR) ((offset + 1 : Nat) : Int)) = _
  push_cast
  exact this

end inc

section coords

variable {p : Nat} [Fact p.Prime] {b : ZMod p} {c : MulFixed} {v : Col → Int → ZMod p} {sel : Selector → Int → Bool} {row : Int}

theorem eval_power (window : Verif.Gadget.Expr (ZMod p)) : ∀ n, (MulFixed.power window n).eval sel v row =
    (window.eval sel v row) ^ n
  | 0 => by simp [MulFixed.power]
  | n + 1 => by
    have h := eval_power window n
    unfold MulFixed.power at h ⊢
    rw [List.range_succ, List.foldl_append]
    simp only [List.foldl_cons, List.foldl_nil, eval_mul, h, pow_succ]

theorem coordsCheck_iff {window : Verif.Gadget.Expr (ZMod p)} :
    (∀ e ∈ c.coordsCheck b window, e.eval sel v row = 0) ↔
      ∑ j ∈ Finset.range 8, v (.fixed (c.lagrange j)) row * (window.eval sel v row) ^ j = v (.advice c.add.xP) row ∧
      (v (.advice c.u) row) ^ 2 = v (.advice c.add.yP) row + v (.fixed c.fixedZ) row ∧
      (v (.advice c.add.yP) row) ^ 2 = (v (.advice c.add.xP) row) ^ 3 + b := by
  simp only [MulFixed.coordsCheck, List.mem_cons, List.not_mem_nil, or_false, forall_eq_or_imp, forall_eq, eval_sub, eval_mul,
    eval_square, eval_const, eval_advice, eval_fixed, add_zero, List.range_succ, List.range_zero, List.nil_append,
    List.cons_append, List.foldl_cons, List.foldl_nil, eval_add, eval_power, Finset.sum_range_succ, Finset.sum_range_zero]
  refine and_congr ?_ (and_congr ?_ ?_)
  · constructor
    · intro h; linear_combination h
    · intro h; linear_combination h
  · constructor
    · intro h; linear_combination h
    · intro h; linear_combination h
  · constructor
    · intro h; linear_combination h
    · intro h; linear_combination h

/-- A row that meets the gate with a digit contains the point the digit stands for. -/
theorem row_point_of {n : Nat} {B : Pt b} {base : FixedBase p} (u : Usable b) (t : TableOf n B base) {i k : Nat} (hi : i < n)
    (hk : k < 8) {x y r : ZMod p}
    (h1 : ∑ j ∈ Finset.range 8, (base.lagrange.getD i []).getD j 0 * (k : ZMod p) ^ j = x)
    (h2 : r ^ 2 = y + (base.z.getD i 0 : ZMod p)) (h3 : y ^ 2 = x ^ 3 + b) :
    (x, y) = coords (windowPoint n B i k) := by
  rw [t.x i k hi hk] at h1
  have hneg := t.negative i k hi hk
  match hP : windowPoint n B i k with
  | .zero =>
    rw [hP] at h1
    obtain rfl : 0 = x := h1
    exact absurd (by linear_combination h3 : y ^ 2 = b) (u.x y)
  | .some x' y' hn =>
    rw [hP] at h1 hneg
    obtain rfl : x' = x := h1
    have hc := (nonsingular_curve u.smooth).1 hn
    have hy : (y - y') * (y + y') = 0 := by linear_combination h3 - hc
    rcases mul_eq_zero.1 hy with e | e
    · rw [sub_eq_zero.1 e]; rfl
    · exact absurd ⟨r, by show -y' + _ = _; linear_combination -e - h2⟩ hneg

end coords

section inner

variable {c : MulFixed} {w : Content Fp} {region offset n : Nat} {base : FixedBase pallasBase} {B : Pt (5 : Fp)}
  {all : Calls Fp}

theorem processWindow_ok {i : Nat} {k scalar : Option Nat} {calls : Calls Fp} {out : EccPoint Fp}
    (h : c.processWindow n region offset i base k scalar = .ok (calls, out)) :
    base.u.length = n ∧ ∃ mulB u,
      onKnown scalar (MulFixed.mulB base) = .ok mulB ∧ onKnown k (MulFixed.rootOf base i) = .ok u ∧
      calls = [.advice c.add.xP (offset + i) (mulB.map Prod.fst), .advice c.add.yP (offset + i) (mulB.map Prod.snd),
        .advice c.u (offset + i) u] ∧
      out = ⟨⟨⟨region, offset + i, .advice c.add.xP⟩, mulB.map Prod.fst⟩,
        ⟨⟨region, offset + i, .advice c.add.yP⟩, mulB.map Prod.snd⟩⟩ := by
  unfold MulFixed.processWindow at h
  obtain ⟨_, h1, h⟩ := bind_ok h
  obtain ⟨mulB, h2, h⟩ := bind_ok h
  obtain ⟨u, h3, h⟩ := bind_ok h
  simp only [pure, Except.pure, Except.ok.injEq, Prod.mk.injEq] at h
  exact ⟨by simpa using assert_ok.1 h1, mulB, u, h2, h3, h.1.symm, h.2.symm⟩

/-- The cells of a window. -/
theorem processWindow_cells {i : Nat} {k scalar : Option Nat} {calls : Calls Fp} {out : EccPoint Fp}
    (h : c.processWindow n region offset i base k scalar = .ok (calls, out)) {P : Pt (5 : Fp)}
    (hP : (w region (.advice c.add.xP) ((offset + i : Nat) : Int), w region (.advice c.add.yP) ((offset + i : Nat) : Int)) =
      coords P) : Holds w out P := by
  obtain ⟨-, mulB, u, -, -, -, rfl⟩ := processWindow_ok h
  exact hP

/-- The sum of the windows from `i` on. -/
theorem addWindows_sound (hB : B ≠ 0) (d : Nat → Nat) (hd : ∀ i, d i < 8)
    (henf : ∀ k ∈ all, Enforced w region k)
    (hgate : ∀ o, Call.enable c.addIncomplete.qAddIncomplete o ∈ all → ∀ g ∈ (c.addIncomplete.chip : Chip Fp).gates,
      ∀ e ∈ g.2, e.eval (enabled all) (w region) (o : Int) = 0) :
    ∀ (ks : List (Option (ZMod vestaBase))) (i : Nat) (acc : EccPoint Fp) (calls : Calls Fp) (out : EccPoint Fp) (m : Nat),
    c.addWindows n region offset base i acc ks = .ok (calls, out) → (∀ k ∈ calls, k ∈ all) →
    (∀ j, i ≤ j → j < i + ks.length → (w region (.advice c.add.xP) ((offset + j : Nat) : Int),
      w region (.advice c.add.yP) ((offset + j : Nat) : Int)) = coords (((d j + 2) * 8 ^ j) • B)) →
    Holds w acc (m • B) → 0 < m → 7 * m + 9 ≤ 9 * 8 ^ i → i + ks.length ≤ 84 →
    Holds w out ((m + ∑ j ∈ Finset.range ks.length, (d (i + j) + 2) * 8 ^ (i + j)) • B)
  | [], i, acc, calls, out, m, h, _, _, hacc, _, _, _ => by
    simp only [MulFixed.addWindows, Except.ok.injEq, Prod.mk.injEq] at h
    obtain ⟨rfl, rfl⟩ := h
    simpa using hacc
  | k :: ks, i, acc, calls, out, m, h, hsub, hrow, hacc, hm0, hm, hl => by
    unfold MulFixed.addWindows at h
    obtain ⟨⟨c1, mulB⟩, h1, h⟩ := bind_ok h
    obtain ⟨⟨c2, acc'⟩, h2, h⟩ := bind_ok h
    obtain ⟨⟨c3, out'⟩, h3, h⟩ := bind_ok h
    simp only [pure, Except.pure, Except.ok.injEq, Prod.mk.injEq] at h
    obtain ⟨rfl, rfl⟩ := h
    simp only [List.length_cons] at hrow hl
    have hmul : Holds w mulB (((d i + 2) * 8 ^ i) • B) := processWindow_cells h1 (hrow i le_rfl (by omega))
    have hpos : 0 < 8 ^ i := by positivity
    have hmono : (8 : Nat) ^ i ≤ 8 ^ 83 := Nat.pow_le_pow_right (by norm_num) (by omega)
    have hdi := hd i
    have hmul1 : 2 * 8 ^ i ≤ (d i + 2) * 8 ^ i := Nat.mul_le_mul_right _ (by omega)
    have hmul2 : (d i + 2) * 8 ^ i ≤ 9 * 8 ^ i := Nat.mul_le_mul_right _ (by omega)
    have hv : 11 * 8 ^ 83 < vestaBase := by decide +kernel
    have hacc' : Holds w acc' (((d i + 2) * 8 ^ i + m) • B) := by
      refine incomplete_multiples (ord := vestaBase) (fun _ => pallas_free hB) h2 (fun k hk => hsub k (by simp [hk])) henf
        (hgate (offset + i) (hsub _ ?_)) hm0 (by omega) (by omega) hmul hacc
      obtain ⟨xr, yr, rfl, -⟩ := incomplete_ok h2
      simp [incompleteCalls]
    have ih := addWindows_sound hB d hd henf hgate ks (i + 1) acc' c3 out' ((d i + 2) * 8 ^ i + m) h3
      (fun k hk => hsub k (by simp [hk])) (fun j h1 h2 => hrow j (by omega) (by omega)) hacc' (by omega)
      (by rw [pow_succ]; omega) (by omega)
    rw [List.length_cons, Finset.sum_range_succ']
    have e : (d i + 2) * 8 ^ i + m + ∑ j ∈ Finset.range ks.length, (d (i + 1 + j) + 2) * 8 ^ (i + 1 + j) =
        m + (∑ j ∈ Finset.range ks.length, (d (i + (j + 1)) + 2) * 8 ^ (i + (j + 1)) + (d (i + 0) + 2) * 8 ^ (i + 0)) := by
      have : ∀ j, i + 1 + j = i + (j + 1) := fun j => by omega
      simp only [this, add_zero]
      omega
    rw [← e]
    exact ih

theorem inner_split {toggle : Selector} {ks : List (Option (ZMod vestaBase))} {calls : Calls Fp} {acc mulB : EccPoint Fp}
    (h : c.inner n region offset base toggle ks = .ok (calls, acc, mulB)) :
    ks.length = n ∧ 0 < n ∧ ∃ fixed c0 c1 c2 acc0 first last, c.assignFixed n offset toggle base = .ok fixed ∧
      ks[0]? = some first ∧ ks[n - 1]? = some last ∧
      c.processLower n region offset 0 base first = .ok (c0, acc0) ∧
      c.addWindows n region offset base 1 acc0 ((ks.take (n - 1)).drop 1) = .ok (c1, acc) ∧
      c.processMsb n region offset base last = .ok (c2, mulB) ∧ calls = fixed ++ c0 ++ c1 ++ c2 := by
  unfold MulFixed.inner at h
  obtain ⟨fixed, h1, h⟩ := bind_ok h
  split at h
  · rename_i first last e1 e2
    obtain ⟨⟨c0, acc0⟩, h2, h⟩ := bind_ok h
    obtain ⟨_, h3, h⟩ := bind_ok h
    obtain ⟨⟨c1, acc1⟩, h4, h⟩ := bind_ok h
    obtain ⟨⟨c2, m⟩, h5, h⟩ := bind_ok h
    simp only [pure, Except.pure, Except.ok.injEq, Prod.mk.injEq] at h
    obtain ⟨rfl, rfl, rfl⟩ := h
    have hl : ks.length = n := by simpa using assert_ok.1 h3
    refine ⟨hl, ?_, fixed, c0, c1, c2, acc0, first, last, h1, e1, e2, h2, h4, h5, rfl⟩
    rcases Nat.eq_zero_or_pos n with rfl | h0
    · rw [List.length_eq_zero_iff.1 hl] at e1
      cases e1
    · exact h0
  · cases h

theorem assignFixed_ok {toggle : Selector} {calls : Calls Fp} (h : c.assignFixed n offset toggle base = .ok calls) :
    base.lagrange.length = n ∧ base.z.length = n ∧
      calls = (List.range n).flatMap fun window =>
        .enable toggle (window + offset) ::
          (List.range 8).map (fun k => .fixed (c.lagrange k) (window + offset)
            (some ((base.lagrange.getD window []).getD k 0))) ++
          [.fixed c.fixedZ (window + offset) (some ((base.z.getD window 0 : Nat) : Fp))] := by
  unfold MulFixed.assignFixed at h
  obtain ⟨_, h1, h⟩ := bind_ok h
  obtain ⟨_, h2, h⟩ := bind_ok h
  simp only [pure, Except.pure, Except.ok.injEq] at h
  exact ⟨by simpa using assert_ok.1 h1, by simpa using assert_ok.1 h2, h.symm⟩

theorem assignFixed_mem {toggle : Selector} {calls : Calls Fp} (h : c.assignFixed n offset toggle base = .ok calls) {i : Nat}
    (hi : i < n) : Call.enable toggle (offset + i) ∈ calls ∧
      (∀ k < 8, Call.fixed (c.lagrange k) (offset + i) (some ((base.lagrange.getD i []).getD k 0)) ∈ calls) ∧
      Call.fixed c.fixedZ (offset + i) (some ((base.z.getD i 0 : Nat) : Fp)) ∈ calls := by
  obtain ⟨-, -, rfl⟩ := assignFixed_ok h
  rw [Nat.add_comm offset i]
  refine ⟨?_, fun k hk => ?_, ?_⟩
  · exact List.mem_flatMap.2 ⟨i, List.mem_range.2 hi, by simp⟩
  · refine List.mem_flatMap.2 ⟨i, List.mem_range.2 hi, List.mem_append_left _ (List.mem_cons_of_mem _ ?_)⟩
    exact List.mem_map.2 ⟨k, List.mem_range.2 hk, rfl⟩
  · exact List.mem_flatMap.2 ⟨i, List.mem_range.2 hi, by simp⟩

/-- What the two points returned are. -/
theorem inner_sound {toggle : Selector} {ks : List (Option (ZMod vestaBase))} {calls : Calls Fp} {acc mulB : EccPoint Fp}
    {word : Verif.Gadget.Expr Fp} (t : TableOf n B base) (hB : B ≠ 0) (hn : 2 ≤ n) (hn' : n ≤ 85)
    (h : c.inner n region offset base toggle ks = .ok (calls, acc, mulB)) (hsub : ∀ k ∈ calls, k ∈ all)
    (henf : ∀ k ∈ all, Enforced w region k)
    (hgate : ∀ o, Call.enable c.addIncomplete.qAddIncomplete o ∈ all → ∀ g ∈ (c.addIncomplete.chip : Chip Fp).gates,
      ∀ e ∈ g.2, e.eval (enabled all) (w region) (o : Int) = 0)
    (hcheck : ∀ o, Call.enable toggle o ∈ all → ∀ e ∈ c.coordsCheck (5 : Fp) word, e.eval (enabled all) (w region) (o : Int) = 0)
    (d : Nat → Nat) (hd : ∀ i, d i < 8)
    (hword : ∀ i < n, word.eval (enabled all) (w region) ((offset + i : Nat) : Int) = (d i : Fp)) :
    Holds w acc ((∑ i ∈ Finset.range (n - 1), (d i + 2) * 8 ^ i) • B) ∧
    Holds w mulB (windowPoint n B (n - 1) (d (n - 1))) := by
  obtain ⟨hl, -, fixed, c0, c1, c2, acc0, first, last, h1, -, -, h2, h3, h4, rfl⟩ := inner_split h
  have hfix : ∀ k ∈ fixed, k ∈ all := fun k hk => hsub k (by simp [hk])
  have hrow : ∀ i < n, (w region (.advice c.add.xP) ((offset + i : Nat) : Int),
      w region (.advice c.add.yP) ((offset + i : Nat) : Int)) = coords (windowPoint n B i (d i)) := by
    intro i hi
    obtain ⟨m1, m2, m3⟩ := assignFixed_mem h1 hi
    have hc := coordsCheck_iff.1 (hcheck _ (hfix _ m1))
    rw [hword i hi] at hc
    have f1 : ∀ k < 8, w region (.fixed (c.lagrange k)) ((offset + i : Nat) : Int) = (base.lagrange.getD i []).getD k 0 :=
      fun k hk => (Option.some.inj (henf _ (hfix _ (m2 k hk)))).symm
    have f2 : w region (.fixed c.fixedZ) ((offset + i : Nat) : Int) = ((base.z.getD i 0 : Nat) : Fp) :=
      (Option.some.inj (henf _ (hfix _ m3))).symm
    refine row_point_of usable_pallas t hi (hd i) (r := w region (.advice c.u) ((offset + i : Nat) : Int)) ?_ ?_ hc.2.2
    · rw [← hc.1]
      exact Finset.sum_congr rfl fun k hk => by rw [f1 k (Finset.mem_range.1 hk)]
    · rw [hc.2.1, f2]
  have hlow : ∀ i, i + 1 < n → windowPoint n B i (d i) = ((d i + 2) * 8 ^ i) • B := fun i hi => by
    rw [windowPoint, if_pos hi]
  have hacc0 : Holds w acc0 ((d 0 + 2) • B) := by
    have := processWindow_cells h2 (hrow 0 (by omega))
    rwa [hlow 0 (by omega), pow_zero, mul_one] at this
  have hlen : ((ks.take (n - 1)).drop 1).length = n - 2 := by simp [hl]; omega
  refine ⟨?_, processWindow_cells h4 (hrow (n - 1) (by omega))⟩
  have := addWindows_sound hB d hd henf hgate _ 1 acc0 c1 acc (d 0 + 2) h3 (fun k hk => hsub k (by simp [hk]))
    (fun j h5 h6 => by rw [hlen] at h6; rw [hrow j (by omega), hlow j (by omega)]) hacc0 (by omega)
    (by have := hd 0; omega) (by omega)
  rw [hlen] at this
  obtain ⟨m, rfl⟩ : ∃ m, n = m + 2 := ⟨n - 2, by omega⟩
  rw [show m + 2 - 1 = m + 1 by omega, Finset.sum_range_succ']
  rw [show m + 2 - 2 = m by omega] at this
  simp only [pow_zero, mul_one, Nat.add_comm 1] at this ⊢
  rwa [Nat.add_comm] at this

/-- The sum of the two points. -/
theorem windows_sum (hn : 0 < n) (d : Nat → Nat) :
    windowPoint n B (n - 1) (d (n - 1)) + (∑ i ∈ Finset.range (n - 1), (d i + 2) * 8 ^ i) • B =
      (∑ i ∈ Finset.range n, d i * 8 ^ i) • B := by
  obtain ⟨m, rfl⟩ : ∃ m, n = m + 1 := ⟨n - 1, by omega⟩
  rw [Nat.add_sub_cancel, windowPoint, if_neg (by omega), Finset.sum_range_succ]
  have e : ∑ i ∈ Finset.range m, (d i + 2) * 8 ^ i = ∑ i ∈ Finset.range m, d i * 8 ^ i + ∑ i ∈ Finset.range m, 2 * 8 ^ i := by
    rw [← Finset.sum_add_distrib]
    exact Finset.sum_congr rfl fun i _ => by ring
  rw [e, add_nsmul, add_nsmul]
  abel

end inner

section full

variable {c : MulFull} {w : Content Fp} {start : Nat} {base : FixedBase pallasBase} {B : Pt (5 : Fp)}
  {scalar : Option (ZMod vestaBase)} {table : Nat → List Fp} {chip : Chip Fp}

theorem full_chip (h : c.chip (5 : Fp) = .ok chip) :
    (c.qFull, c.sup.coordsCheck (5 : Fp) (.advice c.sup.window 0) ++ [rangeCheck (.advice c.sup.window 0) 8]) ∈ chip.gates ∧
    (∀ g ∈ (c.sup.add.chip : Chip Fp).gates, g ∈ chip.gates) ∧
    (∀ g ∈ (c.sup.addIncomplete.chip : Chip Fp).gates, g ∈ chip.gates) := by
  unfold MulFull.chip at h
  obtain ⟨sup, h1, h⟩ := bind_ok h
  unfold MulFixed.chip at h1
  obtain ⟨sum, h2, h1⟩ := bind_ok h1
  simp only [pure, Except.pure, Except.ok.injEq] at h h1
  subst h1 h
  refine ⟨by simp, fun g hg => ?_, fun g hg => ?_⟩
  · simp only [List.mem_append]; tauto
  · simp only [List.mem_append]; tauto

theorem witness_cells {bits n region offset : Nat} {calls : Calls Fp} {cells : List (Assigned Fp)}
    (h : c.witness bits n region offset scalar = .ok (calls, cells)) : ∃ ks : List (Option Nat), ks.length = n ∧
      (∃ ds, onKnown scalar (fun s => decomposeWord s bits 3) = .ok ds ∧ transposeVec ds n = .ok ks) ∧
      cells = (List.range n).map (fun i => ⟨⟨region, offset + i, .advice c.sup.window⟩,
        (ks.getD i none).map fun (k : Nat) => (k : Fp)⟩) ∧
      calls = (List.range n).map (fun idx => .enable c.qFull (offset + idx)) ++
        (List.range n).map (fun i => .advice c.sup.window (offset + i) ((ks.getD i none).map fun (k : Nat) => (k : Fp))) := by
  unfold MulFull.witness at h
  obtain ⟨ds, h1, h⟩ := bind_ok h
  obtain ⟨ks, h2, h⟩ := bind_ok h
  simp only [pure, Except.pure, Except.ok.injEq, Prod.mk.injEq] at h
  have hl := transposeVec_length h2
  refine ⟨ks, hl, ⟨ds, h1, h2⟩, ?_, ?_⟩
  · rw [← h.2]
    apply List.ext_getElem
    · simp [hl]
    · intro i h3 h4
      simp only [List.length_map, List.length_zipIdx] at h3
      simp [assignAdvice, h3]
  · rw [← h.1]
    congr 1
    rw [List.flatMap_map, ← hl]
    have : ∀ (l : List (Option Nat)) (s : Nat), (l.zipIdx s).flatMap (fun a => (assignAdvice region c.sup.window (offset + a.2)
        (a.1.map fun (k : Nat) => (k : Fp))).1) = (List.range l.length).map (fun i => .advice c.sup.window (offset + (s + i))
          ((l.getD i none).map fun (k : Nat) => (k : Fp))) := by
      intro l
      induction l with
      | nil => intro s; simp
      | cons a l ih =>
        intro s
        rw [List.zipIdx_cons, List.flatMap_cons, ih, List.length_cons, List.range_succ_eq_map, List.map_cons, List.map_map]
        simp only [assignAdvice, List.singleton_append, add_zero]
        congr 1
        apply List.map_congr_left
        intro i _
        simp only [Function.comp, List.getD_cons_succ]
        rw [show s + 1 + i = s + i.succ by omega]
    have := this ks 0
    simpa using this

theorem full_split {regions : List (Calls Fp)} {out : EccPoint Fp} {windows : List (Assigned Fp)}
    (h : c.assign start scalar base = .ok (regions, out, windows)) : ∃ c0 ks c1 acc mulB,
      c.witness 255 85 start 0 scalar = .ok (c0, windows) ∧ MulFixed.cellWindows (q := vestaBase) windows = .ok ks ∧
      c.sup.inner 85 start 0 base c.qFull ks = .ok (c1, acc, mulB) ∧
      regions = [c0 ++ c1, (c.sup.add.assign (start + 1) mulB acc 0).1] ∧
      out = (c.sup.add.assign (start + 1) mulB acc 0).2 := by
  unfold MulFull.assign at h
  obtain ⟨⟨c0, ws⟩, h1, h⟩ := bind_ok h
  obtain ⟨ks, h2, h⟩ := bind_ok h
  obtain ⟨⟨c1, acc, mulB⟩, h3, h⟩ := bind_ok h
  simp only [pure, Except.pure, Except.ok.injEq, Prod.mk.injEq] at h
  obtain ⟨e1, e2, rfl⟩ := h
  exact ⟨c0, ks, c1, acc, mulB, h1, h2, h3, e1.symm, e2.symm⟩

/-- Full-width multiplication: the windows are digits of a number, and the point returned is that multiple. -/
theorem full_sound (hchip : c.chip (5 : Fp) = .ok chip) (t : TableOf 85 B base) (hB : B ≠ 0) {regions : List (Calls Fp)}
    {out : EccPoint Fp} {windows : List (Assigned Fp)} (h : c.assign start scalar base = .ok (regions, out, windows))
    (hs : SatAll chip table w start regions) : windows.length = 85 ∧ ∃ d : Nat → Nat, (∀ i, d i < 8) ∧
      (∀ i (hi : i < windows.length), w.at windows[i].cell = (d i : Fp)) ∧
      Holds w out ((∑ i ∈ Finset.range 85, d i * 8 ^ i) • B) := by
  obtain ⟨c0, ks, c1, acc, mulB, h1, -, h3, rfl, rfl⟩ := full_split h
  obtain ⟨g1, g2, g3⟩ := full_chip hchip
  have s0 : Sat chip table w start (c0 ++ c1) := hs 0 (by simp)
  have s1 : Sat chip table w (start + 1) (c.sup.add.assign (start + 1) mulB acc 0).1 := hs 1 (by simp)
  obtain ⟨ks', -, -, hw, hc⟩ := witness_cells h1
  have hen : ∀ i < 85, Call.enable c.qFull i ∈ c0 ++ c1 := fun i hi => by
    rw [hc]
    refine List.mem_append_left _ (List.mem_append_left _ (List.mem_map.2 ⟨i, List.mem_range.2 hi, by simp⟩))
  have hdig : ∀ i : Nat, ∃ k : Nat, k < 8 ∧ (i < 85 → w start (.advice c.sup.window) (i : Int) = (k : Fp)) := by
    intro i
    by_cases hi : i < 85
    · have := sat_gate s0 g1 (e := rangeCheck (.advice c.sup.window 0) 8) (by simp) (hen i hi)
      rw [eval_rangeCheck _ _ _ _ (by norm_num)] at this
      obtain ⟨k, hk, e⟩ := this
      exact ⟨k, hk, fun _ => by simpa using e⟩
    · exact ⟨0, by norm_num, fun h => absurd h hi⟩
  choose d hd hdw using hdig
  refine ⟨by rw [hw]; simp, d, hd, ?_, ?_⟩
  · intro i hi
    have hi' : i < 85 := by rw [hw] at hi; simpa using hi
    have : windows[i] = ⟨⟨start, 0 + i, .advice c.sup.window⟩, (ks'.getD i none).map fun (k : Nat) => (k : Fp)⟩ := by
      simp only [hw, List.getElem_map, List.getElem_range]
    rw [this]
    show w start _ ((0 + i : Nat) : Int) = _
    rw [Nat.zero_add, hdw i hi']
  · obtain ⟨e1, e2⟩ := inner_sound (all := c0 ++ c1) (w := w) (word := .advice c.sup.window 0) t hB (by norm_num) (by norm_num) h3
      (fun k hk => List.mem_append_right _ hk) s0.enforced
      (fun o ho g hg e he => by
        have hs' : g.1 = c.sup.addIncomplete.qAddIncomplete := by
          simp only [AddIncomplete.chip, List.mem_singleton] at hg; rw [hg]
        exact sat_gate s0 (g3 g hg) he (by rw [hs']; exact ho))
      (fun o ho e he => sat_gate s0 g1 (List.mem_append_left _ he) ho) d hd
      (fun i hi => by simp only [eval_advice, add_zero, Nat.zero_add]; exact hdw i hi)
    rw [← windows_sum (B := B) (by norm_num) d]
    have hm : (c.sup.add.qAdd, c.sup.add.polys) ∈ chip.gates := g2 _ List.mem_cons_self
    exact add_sound usable_pallas (fun _ h => h) s1.enforced
      (fun e he => sat_gate s1 hm he (add_enable.2 ⟨rfl, rfl⟩)) e2 e1

end full

end Verif.Lemmas.Ecc

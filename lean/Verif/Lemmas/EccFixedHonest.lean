import Verif.Lemmas.EccFixed
import Verif.Lemmas.EccMulAll

/-! Multiplication of a fixed point in circuits by an honest prover. -/

namespace Verif.Lemmas.Ecc

open Verif.Gadget Verif.Spec.Gadget Verif.Spec Verif.Spec.Ecc Verif.Lemmas.Gadget Verif.Spec.EccFixed
open Verif.FloorPlanner (Call)
open Verif.Spec.Pow5 (SatAll FollowsAll)

/-- The values given are the coordinates of the point. -/
def Valued {F : Type} [Field F] {b : F} (p : EccPoint F) (P : Pt b) : Prop :=
  p.x.value = some (coords P).1 ∧ p.y.value = some (coords P).2

theorem Valued.holds {F : Type} [Field F] {b : F} {p : EccPoint F} {P : Pt b} {w : Content F} (h : Valued p P)
    (k : KnownPoint w p) : Holds w p P := by
  have h1 : p.x.value = some (w.at p.x.cell) := k.1
  have h2 : p.y.value = some (w.at p.y.cell) := k.2
  exact Prod.ext (Option.some.inj (h1.symm.trans h.1)) (Option.some.inj (h2.symm.trans h.2))

/-! Multiples by scalars. -/

theorem mod_smul (P : Pt (5 : Fp)) (m : Nat) : (m % vestaBase) • P = m • P := by
  conv_rhs => rw [← Nat.div_add_mod m vestaBase, add_nsmul, mul_comm, mul_nsmul, pallas_order, zero_add]

theorem cast_smul (P : Pt (5 : Fp)) (m : Nat) : ((m : ZMod vestaBase)).val • P = m • P := by
  rw [ZMod.val_natCast, mod_smul]

theorem add_smul (P : Pt (5 : Fp)) (a b : ZMod vestaBase) : (a + b).val • P = a.val • P + b.val • P := by
  rw [ZMod.val_add, mod_smul, add_nsmul]

theorem sub_smul (P : Pt (5 : Fp)) (a b : ZMod vestaBase) : (a - b).val • P = a.val • P - b.val • P := by
  rw [eq_sub_iff_add_eq, ← add_smul, sub_add_cancel]

section

variable {c : MulFixed} {region offset n : Nat} {base : FixedBase pallasBase} {B : Pt (5 : Fp)}

theorem aff_coords {F : Type} [Field F] {b : F} {r : Aff F} {A : Pt b} (h : AffIs r A) : (r.x, r.y) = coords A := by
  match A, h with
  | .zero, h => rw [show r = Aff.identity from h]; rfl
  | .some x y hn, h => rw [show r = ⟨x, y⟩ from h]; rfl

theorem jac_coords {F : Type} [Field F] {b x y : F} {A : Pt b} (h : (x, y) = coords A) (hA : A ≠ 0) :
    JacIs (⟨x, y, 1⟩ : Jac F) A := by
  match A, hA, h with
  | .zero, hA, _ => exact absurd rfl hA
  | .some x' y' hn, _, h =>
    refine jac_some.2 ⟨one_ne_zero, ?_, ?_⟩
    · rw [one_pow, mul_one]; exact congrArg Prod.fst h
    · rw [one_pow, mul_one]; exact congrArg Prod.snd h

theorem vesta_bytes {s : Nat} (h : s < vestaBase) : leNat (leBytes 32 s) = s := by
  apply leNat_leBytes
  exact Nat.lt_trans h (by decide +kernel)

theorem multiple_coords {F : Type} [Field F] [DecidableEq F] {b x y : F} (sm : Smooth b) {A : Pt b} (h : (x, y) = coords A)
    (hA : A ≠ 0) {bytes : List UInt8} {m : Nat} (hm : leNat bytes = m) :
    ((Jac.mul (⟨x, y, 1⟩ : Jac F) bytes).toAffine.x, (Jac.mul (⟨x, y, 1⟩ : Jac F) bytes).toAffine.y) = coords (m • A) := by
  subst hm
  exact aff_coords (toAffine_is (mul_is sm (jac_coords h hA) bytes))

/-- The multiple as it is computed. -/
theorem multiple_eq (hg : (base.x, base.y) = coords B) (hB : B ≠ 0) {s : Nat} (hs : s < vestaBase) :
    ((base.multiple s).x, (base.multiple s).y) = coords (s • B) := by
  unfold FixedBase.multiple
  exact multiple_coords smooth_five hg hB (vesta_bytes hs)

theorem mulB_ok (hg : (base.x, base.y) = coords B) (hB : B ≠ 0) {s : Nat} (hs : s < vestaBase) (h : s • B ≠ 0) :
    MulFixed.mulB base s = .ok (coords (s • B)) := by
  have e := multiple_eq hg hB hs
  have e1 : (base.multiple s).x = (coords (s • B)).1 := congrArg Prod.fst e
  have e2 : (base.multiple s).y = (coords (s • B)).2 := congrArg Prod.snd e
  unfold MulFixed.mulB
  simp only [e1, e2]
  rw [assert_ok.2 (by simpa using coords_x_ne usable_pallas h), assert_ok.2 (by simpa using coords_y_ne usable_pallas h)]
  rfl

/-- One window by an honest prover. -/
theorem processWindow_good (t : TableOf n B base) (hB : B ≠ 0) {i k : Nat} (hi : i < n) (hk : k < 8) {s : ZMod vestaBase}
    (hs : s.val • B = windowPoint n B i k) (hne : windowPoint n B i k ≠ 0) :
    ∃ calls out, c.processWindow n region offset i base (some k) (some s.val) = .ok (calls, out) ∧
      Valued out (windowPoint n B i k) ∧ ∀ w, Follows w region calls →
        (∀ k ∈ calls, Enforced w region k) ∧ (∀ s o, Call.enable s o ∉ calls) ∧ KnownPoint w out ∧
        (w region (.advice c.add.xP) ((offset + i : Nat) : Int), w region (.advice c.add.yP) ((offset + i : Nat) : Int)) =
          coords (windowPoint n B i k) ∧
        w region (.advice c.u) ((offset + i : Nat) : Int) ^ 2 =
          (coords (windowPoint n B i k)).2 + ((base.z.getD i 0 : Nat) : Fp) := by
  obtain ⟨r, hr, hr2⟩ := t.root i k hi hk
  have h1 : MulFixed.mulB base s.val = .ok (coords (windowPoint n B i k)) := by
    rw [← hs] at hne ⊢
    exact mulB_ok t.generator hB (ZMod.val_lt s) hne
  have h2 : MulFixed.rootOf base i k = .ok r := by
    unfold MulFixed.rootOf
    rw [hr]
  refine ⟨[.advice c.add.xP (offset + i) (some (coords (windowPoint n B i k)).1),
      .advice c.add.yP (offset + i) (some (coords (windowPoint n B i k)).2), .advice c.u (offset + i) (some r)],
    ⟨⟨⟨region, offset + i, .advice c.add.xP⟩, some (coords (windowPoint n B i k)).1⟩,
      ⟨⟨region, offset + i, .advice c.add.yP⟩, some (coords (windowPoint n B i k)).2⟩⟩, ?_, ⟨rfl, rfl⟩, ?_⟩
  · unfold MulFixed.processWindow
    rw [assert_ok.2 (by simpa using t.sizes.2.2)]
    simp only [onKnown, h1, h2, Except.map, bind, Except.bind, pure, Except.pure, assignAdvice, Option.map_some,
      List.cons_append, List.nil_append]
  · intro w hf
    have f1 := follows_at hf (col := c.add.xP) (o := offset + i) (v := (coords (windowPoint n B i k)).1) (by simp)
    have f2 := follows_at hf (col := c.add.yP) (o := offset + i) (v := (coords (windowPoint n B i k)).2) (by simp)
    have f3 := follows_at hf (col := c.u) (o := offset + i) (v := r) (by simp)
    refine ⟨?_, fun s o h => by simp at h, ⟨?_, ?_⟩, Prod.ext f1 f2, ?_⟩
    · intro k hk
      simp only [List.mem_cons, List.not_mem_nil, or_false] at hk
      rcases hk with rfl | rfl | rfl <;> trivial
    · exact congrArg some f1.symm
    · exact congrArg some f2.symm
    · rw [f3, hr2]

end

section inc

variable {F : Type} [Field F] [DecidableEq F] {b : F} {region offset : Nat}

/-- Incomplete addition of different multiples by an honest prover. -/
theorem incomplete_good {c : AddIncomplete} {p q : EccPoint F} (sm : Smooth b) {B : Pt b} {ord i j : Nat}
    (free : ∀ m, 0 < m → m < ord → m • B ≠ 0) (hj : 0 < j) (hij : j < i) (ho : i + j < ord)
    (hp : Valued p (i • B)) (hq : Valued q (j • B)) :
    ∃ calls out, c.assign region p q offset = .ok (calls, out) ∧ Valued out ((i + j) • B) ∧
      ∀ w, Follows w region calls → KnownPoint w p → KnownPoint w q →
        (∀ k ∈ calls, Enforced w region k) ∧
        (∀ s o, Call.enable s o ∈ calls → s = c.qAddIncomplete ∧ o = offset) ∧
        (∀ (sel : Selector → Int → Bool), ∀ g ∈ (c.chip : Chip F).gates, ∀ e ∈ g.2,
          e.eval sel (w region) (offset : Int) = 0) ∧
        KnownPoint w out := by
  have hP : i • B ≠ 0 := free i (by omega) (by omega)
  have hQ : j • B ≠ 0 := free j hj (by omega)
  have hx := multiples_x free hj hij ho
  have hex : ¬ Exceptional p q := by
    rintro ⟨xp, yp, xq, yq, h1, h2, h3, h4, h5⟩
    have e1 : xp = (coords (i • B)).1 := Option.some.inj (h1.symm.trans hp.1)
    have e2 : yp = (coords (i • B)).2 := Option.some.inj (h2.symm.trans hp.2)
    have e3 : xq = (coords (j • B)).1 := Option.some.inj (h3.symm.trans hq.1)
    have e4 : yq = (coords (j • B)).2 := Option.some.inj (h4.symm.trans hq.2)
    rw [e1, e2, e3, e4] at h5
    rcases h5 with h5 | h5 | h5
    · exact coords_ne sm hP h5
    · exact coords_ne sm hQ h5
    · exact hx h5
  obtain ⟨xr, yr, h, hxr, hyr⟩ := (incomplete_error (c := c) (region := region) (offset := offset)).2 hex
  have hz : zip4 p.x.value p.y.value q.x.value q.y.value =
      some ((coords (i • B)).1, (coords (i • B)).2, (coords (j • B)).1, (coords (j • B)).2) := by
    rw [hp.1, hp.2, hq.1, hq.2]; rfl
  rw [hz] at hxr hyr
  simp only [Option.map_some, incompleteSum hP hQ hx, ← add_nsmul] at hxr hyr
  refine ⟨_, _, h, ⟨hxr, hyr⟩, fun w hf kp kq => ?_⟩
  have ap := hp.holds kp
  have aq := hq.holds kq
  have a1 : w.at p.x.cell = (coords (i • B)).1 := congrArg Prod.fst ap
  have a2 : w.at p.y.cell = (coords (i • B)).2 := congrArg Prod.snd ap
  have a3 : w.at q.x.cell = (coords (j • B)).1 := congrArg Prod.fst aq
  have a4 : w.at q.y.cell = (coords (j • B)).2 := congrArg Prod.snd aq
  have f1 := follows_at hf (col := c.xP) (o := offset) (v := (coords (i • B)).1) (by simp [incompleteCalls, copyAdvice, hp.1])
  have f2 := follows_at hf (col := c.yP) (o := offset) (v := (coords (i • B)).2) (by simp [incompleteCalls, copyAdvice, hp.2])
  have f3 := follows_at hf (col := c.xQR) (o := offset) (v := (coords (j • B)).1) (by simp [incompleteCalls, copyAdvice, hq.1])
  have f4 := follows_at hf (col := c.yQR) (o := offset) (v := (coords (j • B)).2) (by simp [incompleteCalls, copyAdvice, hq.2])
  have f5 := follows_at hf (col := c.xQR) (o := offset + 1) (v := (coords ((i + j) • B)).1) (by simp [incompleteCalls, copyAdvice, hxr])
  have f6 := follows_at hf (col := c.yQR) (o := offset + 1) (v := (coords ((i + j) • B)).2) (by simp [incompleteCalls, copyAdvice, hyr])
  have k5 := f5
  have k6 := f6
  push_cast at f5 f6
  obtain ⟨e1, e2⟩ := incompleteEqs_complete hP hQ hx
  rw [← add_nsmul] at e1 e2
  have sat : Sat c.chip (fun _ => []) w region (incompleteCalls c region p q offset xr yr) := by
    apply incomplete_sat
    · rw [f1, a1]
    · rw [f2, a2]
    · rw [f3, a3]
    · rw [f4, a4]
    · rw [f5, a1, a2, a3, a4, e1]
    · rw [f5, f6, a1, a2, a3, a4, e2]
  refine ⟨sat.enforced, fun s o h => incomplete_enable.1 h, fun sel g hg e he => ?_, ?_, ?_⟩
  · simp only [AddIncomplete.chip, List.mem_cons, List.not_mem_nil, or_false] at hg
    subst hg
    simp only [List.mem_cons, List.not_mem_nil, or_false] at he
    rcases he with rfl | rfl
    · simp only [eval_mul, eval_sub, eval_add, eval_advice, eval_square, add_zero, f1, f2, f3, f4, f5]
      linear_combination e1
    · simp only [eval_mul, eval_sub, eval_add, eval_advice, add_zero, f1, f2, f3, f4, f5, f6]
      linear_combination e2
  · show xr = some (w region (.advice c.xQR) ((offset + 1 : Nat) : Int))
    rw [hxr, k5]
  · show yr = some (w region (.advice c.yQR) ((offset + 1 : Nat) : Int))
    rw [hyr, k6]

end inc

end Verif.Lemmas.Ecc

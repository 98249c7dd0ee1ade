import Verif.Lemmas.PairCayley
import Verif.Lemmas.PairLoop
import Verif.Lemmas.TowerExp

/-! The pairing is linear in both places. -/

namespace Verif.Spec

open WeierstrassCurve.Affine

variable {F K : Type} [Field F] [Field K] [DecidableEq F] [DecidableEq K]

theorem lineOf_neg {b : F} {A B : Pt b} {l n : F} (h : LineOf A B l n) : LineOf (-A) (-B) (-l) (-n) := by
  obtain ⟨a1, a2, a3, h1, h2, h3, rfl, rfl, e, M⟩ := h
  have hs : ∀ a, -(l * a + n) = -l * a + -n := fun a => by ring
  have hn : ∀ a, (curve b).Nonsingular a (l * a + n) → (curve b).Nonsingular a (-l * a + -n) := fun a h => by
    have := (nonsingular_neg a (l * a + n)).2 h
    rwa [negY_curve, hs] at this
  refine ⟨a1, a2, a3, hn _ h1, hn _ h2, hn _ h3, ?_, ?_, ?_, ⟨?_, ?_, ?_⟩⟩
  · rw [Point.neg_some]
    exact some_congr rfl (by rw [negY_curve, hs])
  · rw [Point.neg_some]
    exact some_congr rfl (by rw [negY_curve, hs])
  · rw [← neg_add, e, Point.neg_some]
    exact some_congr rfl (by rw [negY_curve, hs])
  · rw [M.e1]; ring
  · rw [M.e2]; ring
  · rw [M.e3]; ring

omit [DecidableEq F] [DecidableEq K] in
theorem meets_map (σ : F →+* K) (c : K) {b l n a1 a2 a3 : F} (M : Meets b l n a1 a2 a3) :
    Meets (σ b * c ^ 6) (σ l * c) (σ n * c ^ 3) (σ a1 * c ^ 2) (σ a2 * c ^ 2) (σ a3 * c ^ 2) := by
  have e1 := congrArg σ M.e1
  have e2 := congrArg σ M.e2
  have e3 := congrArg σ M.e3
  simp only [map_add, map_mul, map_sub, map_pow, map_neg, map_ofNat] at e1 e2 e3
  refine ⟨?_, ?_, ?_⟩
  · linear_combination c ^ 2 * e1
  · linear_combination c ^ 4 * e2
  · linear_combination c ^ 6 * e3

theorem lineOf_semi (σ : F →+* K) {c : K} (hc : c ≠ 0) {b : F} {b' : K} (s : Smooth b) (s' : Smooth b') (hb : σ b * c ^ 6 = b')
    {A B : Pt b} {l n : F} (h : LineOf A B l n) :
    LineOf (semiHom σ hc s s' hb A) (semiHom σ hc s s' hb B) (σ l * c) (σ n * c ^ 3) := by
  obtain ⟨a1, a2, a3, h1, h2, h3, rfl, rfl, e, M⟩ := h
  have hs : ∀ a, σ (l * a + n) * c ^ 3 = σ l * c * (σ a * c ^ 2) + σ n * c ^ 3 := fun a => by
    rw [map_add, map_mul]
    ring
  have hn : ∀ a, (curve b).Nonsingular a (l * a + n) →
      (curve b').Nonsingular (σ a * c ^ 2) (σ l * c * (σ a * c ^ 2) + σ n * c ^ 3) := fun a h => by
    rw [← hs]
    exact semi_on σ c s' hb h
  refine ⟨_, _, _, hn _ h1, hn _ h2, hn _ h3, ?_, ?_, ?_, hb ▸ meets_map σ c M⟩
  · exact some_congr rfl (hs _)
  · exact some_congr rfl (hs _)
  · rw [← map_add, ← map_neg, e]
    exact some_congr rfl (hs _)

end Verif.Spec

namespace Verif.Tower

open Verif.Spec WeierstrassCurve.Affine

/-- A line at a point. -/
noncomputable def ev (l n : Fq2 Fq) (p : Aff Fq) : Fq12 Fq := e1 p.y - e2 l * Fq12.w * e1 p.x - e2 n * Fq12.w ^ 3

theorem ev_eq (l n : Fq2 Fq) (p : Aff Fq) : ev l n p = lineVal (1, -l, -n) p := by
  have := lineVal_eq 1 l n p
  rw [map_one, one_mul, one_mul, one_mul] at this
  exact this.symm

theorem ev_ne {l n : Fq2 Fq} {p : Aff Fq} (h : p.y ≠ 0) : ev l n p ≠ 0 := by
  rw [ev_eq]
  exact lineVal_ne one_ne_zero h

theorem conj_ev (l n : Fq2 Fq) (p : Aff Fq) : (ev l n p).conjugate = ev (-l) (-n) p := by
  rw [ev_eq, ev_eq]
  refine Fq12.ext (Fq6.ext ?_ ?_ ?_) (Fq6.ext ?_ ?_ ?_)
  all_goals simp [lineVal, Fq12.conjugate]
  all_goals ext <;> simp

theorem ev_neg (l n : Fq2 Fq) (p : Aff Fq) : ev l n ⟨p.x, -p.y⟩ = -ev (-l) (-n) p := by
  unfold ev
  rw [map_neg, map_neg, map_neg]
  ring

theorem fe_ev_neg {l n : Fq2 Fq} {p : Aff Fq} (h : p.y ≠ 0) : fe (ev (-l) (-n) p) = (fe (ev l n p))⁻¹ := by
  rw [← conj_ev, fe_conj (ev_ne h)]

theorem fe_line {L : Line Fq} {A B : Pt B2} {l n : Fq2 Fq} (p : Aff Fq) (h : Through L A B) (hl : LineOf A B l n) :
    fe (lineVal L p) = fe (ev l n p) := by
  obtain ⟨c, l', n', hc, h', rfl⟩ := h
  obtain ⟨rfl, rfl⟩ := lineOf_unique h' hl
  rw [lineVal_eq, fe_mul, fe_e2 hc, one_mul]
  rfl

theorem Through.line {L : Line Fq} {A B : Pt B2} (h : Through L A B) : ∃ l n, LineOf A B l n := by
  obtain ⟨c, l', n', hc, h', rfl⟩ := h
  exact ⟨_, _, h'⟩

/-! ### Opposite points -/

theorem system_neg_left {p : Aff Fq} (hy : p.y ≠ 0) (B : Pt B2) :
    System ![p, ⟨p.x, -p.y⟩] ![B, B] fun _ => 1 where
  ne _ _ := one_ne_zero
  neg _ _ := inv_one.symm
  frob _ _ := (one_pow _).symm
  congr _ _ _ := rfl
  order := one_pow _
  line a b L _ _ _ h := by
    obtain ⟨l, n, hl⟩ := (h 0).line
    rw [Fin.prod_univ_two, fe_mul]
    have e0 := fe_line p (h 0) hl
    have e1 := fe_line ⟨p.x, -p.y⟩ (h 1) hl
    have hf := fe_ne (ev_ne (l := l) (n := n) hy)
    show fe (lineVal (L 0) p) * fe (lineVal (L 1) ⟨p.x, -p.y⟩) = _
    rw [e0, e1, ev_neg, fe_neg, fe_ev_neg hy, mul_inv_cancel₀ hf, inv_one, mul_one, mul_one]

theorem system_neg_right {p : Aff Fq} (hy : p.y ≠ 0) (B : Pt B2) :
    System ![p, p] ![B, -B] fun _ => 1 where
  ne _ _ := one_ne_zero
  neg _ _ := inv_one.symm
  frob _ _ := (one_pow _).symm
  congr _ _ _ := rfl
  order := one_pow _
  line a b L _ _ _ h := by
    obtain ⟨l, n, hl⟩ := (h 0).line
    have hl : LineOf (a • B) (b • B) l n := hl
    rw [Fin.prod_univ_two, fe_mul]
    have e0 := fe_line p (h 0) hl
    have h1 : Through (L 1) (a • -B) (b • -B) := h 1
    rw [zsmul_neg, zsmul_neg] at h1
    have e1 := fe_line p h1 (lineOf_neg hl)
    have hf := fe_ne (ev_ne (l := l) (n := n) hy)
    show fe (lineVal (L 0) p) * fe (lineVal (L 1) p) = _
    rw [e0, e1, fe_ev_neg hy, mul_inv_cancel₀ hf, inv_one, mul_one, mul_one]

/-! ### Sums in the first place -/

/-- The line of the first curve, at a point of the second. -/
noncomputable def mv (l n : Fq) : Pt B2 → Fq12 Fq
  | .zero => 1
  | .some x y _ => e2 y * Fq12.w ^ 3 - e1 l * (e2 x * Fq12.w ^ 2) - e1 n

theorem mv_some (l n : Fq) {x y : Fq2 Fq} (h : (curve B2).Nonsingular x y) :
    mv l n (.some x y h) = e2 y * Fq12.w ^ 3 - e1 l * (e2 x * Fq12.w ^ 2) - e1 n := rfl

theorem mv_coords (l n : Fq) (x y : Fq2 Fq) : e2 y * Fq12.w ^ 3 - e1 l * (e2 x * Fq12.w ^ 2) - e1 n =
    ⟨⟨-Fq2.of n, -(Fq2.of l * x), 0⟩, ⟨0, y, 0⟩⟩ := by
  rw [show (3 : Nat) = 2 + 1 by norm_num, pow_succ, w_sq]
  refine Fq12.ext (Fq6.ext ?_ ?_ ?_) (Fq6.ext ?_ ?_ ?_)
  all_goals simp [e1, e2, Fq12.w, Fq6.v]

theorem mv_ne {l n : Fq} {T : Pt B2} (h : T + T ≠ 0) : mv l n T ≠ 0 := by
  match T, h with
  | .zero, _ => exact one_ne_zero
  | .some x y hn, h =>
    intro e
    rw [mv_some, mv_coords] at e
    have hy : y = 0 := congrArg (fun a => a.c1.c1) e
    subst hy
    exact h add_self_zero

theorem mv_neg {l n : Fq} (T : Pt B2) (h : T ≠ 0) : mv l n (-T) = (mv l n T).conjugate := by
  match T, h with
  | .zero, h => exact absurd rfl h
  | .some x y hn, _ =>
    rw [Point.neg_some]
    show e2 _ * _ - _ - _ = (e2 _ * _ - _ - _).conjugate
    rw [mv_coords, mv_coords, negY_curve]
    refine Fq12.ext (Fq6.ext ?_ ?_ ?_) (Fq6.ext ?_ ?_ ?_)
    all_goals simp [Fq12.conjugate]

/-- Raising to the power of the characteristic. -/
noncomputable def frob12 : Fq12 Fq →+* Fq12 Fq := frobenius (Fq12 Fq) Q

theorem frob12_apply (a : Fq12 Fq) : frob12 a = a ^ Q := rfl

theorem frob12_e2 (a : Fq2 Fq) : frob12 (e2 a) = e2 a.conjugate := by rw [frob12_apply, ← map_pow, pow_q2]

theorem frob12_e1 (a : Fq) : frob12 (e1 a) = e1 a := by
  rw [frob12_apply, ← map_pow, ZMod.pow_card]

theorem frob12_w : frob12 Fq12.w = e2 gamma * Fq12.w := by rw [frob12_apply, w_pow]; rfl

theorem mv_frob {l n : Fq} (T : Pt B2) : mv l n (frob T) = mv l n T ^ Q := by
  match T with
  | .zero => exact (one_pow _).symm
  | .some x y hn =>
    obtain ⟨h', e⟩ := frob_some hn
    rw [e, ← frob12_apply]
    show e2 _ * _ - _ * (e2 _ * _) - _ = frob12 (e2 _ * _ - _ * (e2 _ * _) - _)
    simp only [map_sub, map_mul, map_pow, frob12_e1, frob12_e2, frob12_w]
    ring

theorem ev_frob (l n : Fq2 Fq) (p : Aff Fq) : ev (l.conjugate * gamma) (n.conjugate * gamma ^ 3) p = ev l n p ^ Q := by
  rw [← frob12_apply]
  unfold ev
  simp only [map_sub, map_mul, map_pow, frob12_e1, frob12_e2, frob12_w]
  ring

theorem P_odd {a : Int} (h : (P : Int) ∣ a + a) : (P : Int) ∣ a := by
  have hp : Prime (P : Int) := Nat.prime_iff_prime_int.1 (Fact.out : P.Prime)
  rw [← two_mul] at h
  exact (hp.dvd_or_dvd h).resolve_left (by decide +kernel)

theorem twice_ne {B : Pt B2} (hB : InG2 B) (h0 : B ≠ 0) {a : Int} (h : ¬ (P : Int) ∣ a) : a • B + a • B ≠ 0 := by
  rw [← add_zsmul]
  exact fun e => h (P_odd ((hB.smul_zero h0).1 e))

theorem frob_zsmul {B : Pt B2} (hB : InG2 B) (a : Int) : ((Q : Int) * a) • B = frob (a • B) := by
  rw [map_zsmul, hB.frob, mul_comm, mul_zsmul, natCast_zsmul]

theorem e2_b2 : e2 B2 * Fq12.w ^ 6 = 3 := by
  rw [w_six, ← map_mul, b2_xi]
  exact map_ofNat e2 3

theorem left_line {p1 p2 p3 : Aff Fq} {P1 P2 : Pt (3 : Fq)} (h1 : AffIs p1 P1) (h2 : AffIs p2 P2) (h3 : AffIs p3 (-(P1 + P2)))
    {l' n' : Fq} (hl : LineOf P1 P2 l' n') {A B : Pt B2} {l n : Fq2 Fq} (hT : LineOf A B l n) :
    fe (ev l n p1) * fe (ev l n p2) * fe (ev l n p3) = fe (mv l' n' A) * fe (mv l' n' B) * fe (mv l' n' (-(A + B))) := by
  obtain ⟨a1, a2, a3, k1, k2, k3, rfl, rfl, eC, M⟩ := hT
  rw [eC, mv_some, mv_some, mv_some]
  obtain ⟨x1, x2, x3, j1, j2, j3, rfl, rfl, eJ, N⟩ := hl
  rw [eJ] at h3
  have h1 : p1 = ⟨x1, l' * x1 + n'⟩ := h1
  have h2 : p2 = ⟨x2, l' * x2 + n'⟩ := h2
  have h3 : p3 = ⟨x3, l' * x3 + n'⟩ := h3
  subst h1 h2 h3
  have M' := meets_map e2 (Fq12.w : Fq12 Fq) M
  rw [e2_b2] at M'
  have N' := meets_map e1 (1 : Fq12 Fq) N
  simp only [one_pow, mul_one, map_ofNat] at N'
  have key := reciprocity M' N'
  rw [← fe_mul, ← fe_mul, ← fe_mul, ← fe_mul, ← fe_neg]
  refine congrArg fe ?_
  unfold ev
  simp only [map_add, map_mul]
  linear_combination -key

theorem system_left {p1 p2 p3 : Aff Fq} {P1 P2 : Pt (3 : Fq)} (h1 : AffIs p1 P1) (h2 : AffIs p2 P2) (h3 : AffIs p3 (-(P1 + P2)))
    {l' n' : Fq} (hl : LineOf P1 P2 l' n') {B : Pt B2} (hB : InG2 B) (h0 : B ≠ 0) :
    System ![p1, p2, p3] ![B, B, B] fun a => fe (mv l' n' (a • B)) := by
  refine ⟨?_, ?_, ?_, ?_, ?_, ?_⟩
  · intro a h
    exact fe_ne (mv_ne (twice_ne hB h0 h))
  · intro a h
    rw [neg_zsmul, mv_neg _ (fun e => h ((hB.smul_zero h0).1 e)), fe_conj (mv_ne (twice_ne hB h0 h))]
  · intro a h
    rw [frob_zsmul hB, mv_frob, fe_pow]
  · intro a b h
    rw [hB.congr h]
  · exact fe_order (mv_ne (twice_ne hB h0 not_dvd_one))
  · intro a b L ha hb hab h
    have hab' : (a + b) • B ≠ 0 := fun e => hab ((hB.smul_zero h0).1 e)
    rw [← fe_conj (mv_ne (twice_ne hB h0 hab)), ← mv_neg _ hab']
    obtain ⟨l, n, hT⟩ := (h 0).line
    have hT : LineOf (a • B) (b • B) l n := hT
    have g0 := fe_line p1 (h 0) hT
    have g1 := fe_line p2 (h 1) hT
    have g2 := fe_line p3 (h 2) hT
    rw [Fin.prod_univ_three, fe_mul, fe_mul]
    show fe (lineVal (L 0) p1) * fe (lineVal (L 1) p2) * fe (lineVal (L 2) p3) = _
    rw [g0, g1, g2, left_line h1 h2 h3 hl hT, add_zsmul]

/-! ### Sums in the second place -/

open Classical in
/-- The line through two points of the second curve, at a point of the first. -/
noncomputable def gv (p : Aff Fq) (A B : Pt B2) : Fq12 Fq :=
  if h : ∃ c : Fq2 Fq × Fq2 Fq, LineOf A B c.1 c.2 then fe (ev h.choose.1 h.choose.2 p) else 1

theorem gv_eq {p : Aff Fq} {A B : Pt B2} {l n : Fq2 Fq} (h : LineOf A B l n) : gv p A B = fe (ev l n p) := by
  have hx : ∃ c : Fq2 Fq × Fq2 Fq, LineOf A B c.1 c.2 := ⟨(l, n), h⟩
  unfold gv
  rw [dif_pos hx]
  obtain ⟨e1, e2⟩ := lineOf_unique hx.choose_spec h
  rw [e1, e2]

theorem nine_ev {p : Aff Fq} (hp : p.y ^ 2 = p.x ^ 3 + 3) {T1 T2 S1 S2 : Pt B2} {l1 n1 l2 n2 l3 n3 lt nt ls ns lu nu : Fq2 Fq}
    (h1 : LineOf T1 S1 l1 n1)
    (h2 : LineOf T2 S2 l2 n2) (h3 : LineOf (-(T1 + T2)) (-(S1 + S2)) l3 n3) (ht : LineOf T1 T2 lt nt) (hs : LineOf S1 S2 ls ns)
    (hu : LineOf (-(T1 + S1)) (-(T2 + S2)) lu nu) :
    fe (ev l1 n1 p) * fe (ev l2 n2 p) * fe (ev l3 n3 p) = fe (ev lt nt p) * fe (ev ls ns p) * fe (ev lu nu p) := by
  obtain ⟨c, hc, e⟩ := nine h1 h2 h3 ht hs hu
  have hw : (Fq12.w : Fq12 Fq) ≠ 0 := fun h => one_ne_zero (congrArg (fun a => a.c1.c0.c0) h)
  have hon : (e1 p.y * (Fq12.w ^ 3)⁻¹) ^ 2 = (e1 p.x * (Fq12.w ^ 2)⁻¹) ^ 3 + e2 B2 := by
    have h6 : e2 B2 = 3 * (Fq12.w ^ 6)⁻¹ := by rw [← e2_b2, mul_assoc, mul_inv_cancel₀ (pow_ne_zero _ hw), mul_one]
    have hp' := congrArg e1 hp
    rw [map_add, map_pow, map_pow, map_ofNat] at hp'
    rw [h6, mul_pow, mul_pow, hp', inv_pow, inv_pow, ← pow_mul, ← pow_mul]
    ring
  have e' := congrArg (evalAt e2 _ _ hon) e
  simp only [map_mul, evalAt_line, evalAt_const] at e'
  have hev : ∀ l n, e1 p.y * (Fq12.w ^ 3)⁻¹ - e2 l * (e1 p.x * (Fq12.w ^ 2)⁻¹) - e2 n = ev l n p * (Fq12.w ^ 3)⁻¹ := by
    intro l n
    unfold ev
    field_simp
  simp only [hev] at e'
  have key : ev l1 n1 p * ev l2 n2 p * ev l3 n3 p = ev lt nt p * ev ls ns p * ev lu nu p * e2 c := by
    have h9 : ((Fq12.w : Fq12 Fq) ^ 3)⁻¹ ^ 3 ≠ 0 := pow_ne_zero _ (inv_ne_zero (pow_ne_zero _ hw))
    refine mul_right_cancel₀ h9 ?_
    linear_combination e'
  rw [← fe_mul, ← fe_mul, ← fe_mul, ← fe_mul, key, fe_mul, fe_e2 hc, mul_one]

theorem system_right {p : Aff Fq} (hp : p.y ^ 2 = p.x ^ 3 + 3) (hy : p.y ≠ 0) {Q1 Q2 : Pt B2} (g1 : InG2 Q1) (g2 : InG2 Q2)
    (n1 : Q1 ≠ 0) (n2 : Q2 ≠ 0) (n3 : Q1 + Q2 ≠ 0) :
    System ![p, p, p] ![Q1, Q2, -(Q1 + Q2)] fun a => gv p (a • Q1) (a • Q2) := by
  have ex : ∀ a : Int, ¬ (P : Int) ∣ a → ∃ l n, LineOf (a • Q1) (a • Q2) l n := fun a h =>
    lineOf_exists smooth2 (fun e => h ((g1.smul_zero n1).1 e)) (fun e => h ((g2.smul_zero n2).1 e))
      (fun e => h (((g1.add g2).smul_zero n3).1 (by rw [zsmul_add, e])))
  refine ⟨?_, ?_, ?_, ?_, ?_, ?_⟩
  · intro a h
    obtain ⟨l, n, hl⟩ := ex a h
    rw [gv_eq hl]
    exact fe_ne (ev_ne hy)
  · intro a h
    obtain ⟨l, n, hl⟩ := ex a h
    have hl' := lineOf_neg hl
    rw [← neg_zsmul, ← neg_zsmul] at hl'
    rw [gv_eq hl, gv_eq hl', fe_ev_neg hy]
  · intro a h
    obtain ⟨l, n, hl⟩ := ex a h
    have hl' : LineOf (frob (a • Q1)) (frob (a • Q2)) (l.conjugate * gamma) (n.conjugate * gamma ^ 3) :=
      lineOf_semi conjHom gamma_ne smooth2 smooth2 conj_b2 hl
    rw [← frob_zsmul g1, ← frob_zsmul g2] at hl'
    rw [gv_eq hl, gv_eq hl', ev_frob, fe_pow]
  · intro a b h
    rw [g1.congr h, g2.congr h]
  · obtain ⟨l, n, hl⟩ := ex 1 not_dvd_one
    rw [gv_eq hl]
    exact fe_order (ev_ne hy)
  · intro a b L ha hb hab h
    obtain ⟨lt, nt, ht⟩ := ex a ha
    obtain ⟨ls, ns, hs⟩ := ex b hb
    obtain ⟨lu, nu, hu⟩ := ex (a + b) hab
    rw [gv_eq ht, gv_eq hs, gv_eq hu, ← fe_ev_neg hy]
    have hu' := lineOf_neg hu
    rw [add_zsmul, add_zsmul] at hu'
    obtain ⟨l1, n1, h1⟩ := (h 0).line
    obtain ⟨l2, n2, h2⟩ := (h 1).line
    obtain ⟨l3, n3, h3⟩ := (h 2).line
    have f0 := fe_line p (h 0) h1
    have f1 := fe_line p (h 1) h2
    have f2 := fe_line p (h 2) h3
    have h3 : LineOf (a • -(Q1 + Q2)) (b • -(Q1 + Q2)) l3 n3 := h3
    rw [zsmul_neg, zsmul_neg, zsmul_add, zsmul_add] at h3
    rw [Fin.prod_univ_three, fe_mul, fe_mul]
    show fe (lineVal (L 0) p) * fe (lineVal (L 1) p) * fe (lineVal (L 2) p) = _
    rw [f0, f1, f2]
    exact nine_ev hp h1 h2 h3 ht hs hu'

end Verif.Tower

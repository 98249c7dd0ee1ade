import Mathlib.Algebra.BigOperators.Fin
import Verif.Lemmas.PairMiller

/-! What the Miller loops of several pairs give together, after the final exponentiation. -/

namespace Verif.Tower

open Verif.Spec

/-- The final power. -/
noncomputable def fe (a : Fq12 Fq) : Fq12 Fq := a ^ ((Q ^ 12 - 1) / P)

theorem fe_mul (a b : Fq12 Fq) : fe (a * b) = fe a * fe b := mul_pow _ _ _

theorem fe_one : fe 1 = 1 := one_pow _

theorem fe_ne {a : Fq12 Fq} (h : a ≠ 0) : fe a ≠ 0 := pow_ne_zero _ h

theorem fe_order {a : Fq12 Fq} (h : a ≠ 0) : fe a ^ P = 1 := by
  unfold fe
  rw [← pow_mul, show (Q ^ 12 - 1) / P * P = Q ^ 12 - 1 by decide +kernel, ← Fq12.card]
  exact FiniteField.pow_card_sub_one_eq_one a h

theorem fe_of {c : Fq6 Fq} (h : c ≠ 0) : fe (Fq12.of c) = 1 := by
  unfold fe
  rw [show (Q ^ 12 - 1) / P = (Q ^ 6 - 1) * ((Q ^ 6 + 1) / P) by decide +kernel, pow_mul, ← map_pow, ← Fq6.card,
    FiniteField.pow_card_sub_one_eq_one c h, map_one, one_pow]

theorem fe_e2 {c : Fq2 Fq} (h : c ≠ 0) : fe (e2 c) = 1 := fe_of ((map_ne_zero Fq6.of).2 h)

theorem fe_neg (a : Fq12 Fq) : fe (-a) = fe a := by
  have h : fe (-1) = 1 := by
    have := fe_of (c := -1) (neg_ne_zero.2 one_ne_zero)
    rwa [map_neg, map_one] at this
  rw [neg_eq_neg_one_mul, fe_mul, h, one_mul]

theorem fe_conj {a : Fq12 Fq} (h : a ≠ 0) : fe a.conjugate = (fe a)⁻¹ := by
  refine eq_inv_of_mul_eq_one_right ?_
  rw [← fe_mul, Fq12.mul_conjugate, fe_of (Fq12.norm_ne_zero h)]

theorem fe_pow (a : Fq12 Fq) (n : Nat) : fe (a ^ n) = fe a ^ n := by
  unfold fe
  rw [← pow_mul, mul_comm, pow_mul]

theorem fe_prod {ι : Type} [Fintype ι] (f : ι → Fq12 Fq) : fe (∏ i, f i) = ∏ i, fe (f i) := (Finset.prod_pow _ _ _).symm

/-! ### One run -/

/-- A run that is at the `n`-fold of its point. -/
structure At (t : Run) (B : Pt B2) (n : Int) : Prop where
  r : JacIs t.r (n • B)
  f : t.f ≠ 0
  y : t.p.y ≠ 0
  q : AffIs t.q B
  grp : InG2 B
  ne : B ≠ 0

theorem At.dbl {t : Run} {B : Pt B2} {n : Int} (h : At t B n) (h1 : ¬ (P : Int) ∣ n) (h2 : ¬ (P : Int) ∣ n + n) :
    At t.dbl B (n + n) ∧ Through (doublingStep t.r).2 (n • B) (n • B) := by
  obtain ⟨hr, hl⟩ := doublingStep_is smooth2 h.r (fun e => h1 ((h.grp.smul_zero h.ne).1 e))
    (fun e => h2 ((h.grp.smul_zero h.ne).1 ((add_zsmul _ _ _).trans e)))
  have hL : (doublingStep t.r).2.1 ≠ 0 := by
    obtain ⟨c, l, n, hc, -, e⟩ := hl
    rw [e]
    exact hc
  exact ⟨⟨by rw [add_zsmul]; exact hr, mul_ne_zero (mul_ne_zero h.f h.f) (lineVal_ne hL h.y), h.y, h.q, h.grp, h.ne⟩, hl⟩

theorem At.addTo {t : Run} {B : Pt B2} {n c : Int} {q : Aff (Fq2 Fq)} (h : At t B n) (hq : AffIs q (c • B))
    (h1 : ¬ (P : Int) ∣ n) (h2 : ¬ (P : Int) ∣ c) (h3 : ¬ (P : Int) ∣ n - c) (h4 : ¬ (P : Int) ∣ n + c) :
    At (t.addTo q) B (n + c) ∧ Through (additionStep t.r q).2 (n • B) (c • B) := by
  obtain ⟨hr, hl⟩ := additionStep_is smooth2 h.r hq (fun e => h1 ((h.grp.smul_zero h.ne).1 e))
    (fun e => h2 ((h.grp.smul_zero h.ne).1 e))
    (fun e => h3 ((h.grp.smul_zero h.ne).1 (by rw [sub_zsmul, e, add_neg_cancel])))
    (fun e => h4 ((h.grp.smul_zero h.ne).1 ((add_zsmul _ _ _).trans e)))
  have hL : (additionStep t.r q).2.1 ≠ 0 := by
    obtain ⟨c, l, n, hc, -, e⟩ := hl
    rw [e]
    exact hc
  exact ⟨⟨by rw [add_zsmul]; exact hr, mul_ne_zero h.f (lineVal_ne hL h.y), h.y, h.q, h.grp, h.ne⟩, hl⟩

theorem At.frob {t : Run} {B : Pt B2} {n b : Int} (h : At t B n) (hb : b = Q) : AffIs (frobTwist decoded t.q) (b • B) := by
  have e : b • B = Tower.frob B := by rw [hb, natCast_zsmul, h.grp.frob]
  rw [e]
  exact frobTwist_is h.q

theorem At.frob2 {t : Run} {B : Pt B2} {n b c : Int} (h : At t B n) (hb : b = Q) (hc : c = -(b * b)) :
    AffIs (minusFrobTwist2 decoded t.q) (c • B) := by
  have e : c • B = -Tower.frob (Tower.frob B) := by
    rw [hc, neg_zsmul, mul_zsmul, hb, natCast_zsmul, natCast_zsmul, h.grp.frob, map_nsmul, h.grp.frob]
  rw [e]
  exact minusFrobTwist2_is h.q

/-- What a digit stands for. -/
def digitVal (x : Int) : Int := if x = 1 then 1 else if x = -1 then -1 else 0

/-- No step on the way meets a special case. -/
def goodAt (n x : Int) : Bool :=
  decide (¬ (P : Int) ∣ n) && decide (¬ (P : Int) ∣ n + n) && decide (¬ (P : Int) ∣ n + n + digitVal x) && decide (¬ (P : Int) ∣ n + n - digitVal x)

def goodAll : List Int → Int → Bool
  | [], n => decide (¬ (P : Int) ∣ n)
  | x :: xs, n => goodAt n x && goodAll xs (n + n + digitVal x)

/-- The number that the digits stand for. -/
def numOf : List Int → Int → Int
  | [], n => n
  | x :: xs, n => numOf xs (n + n + digitVal x)

theorem goodAt_iff {n x : Int} : goodAt n x = true ↔
    ¬ (P : Int) ∣ n ∧ ¬ (P : Int) ∣ n + n ∧ ¬ (P : Int) ∣ n + n + digitVal x ∧ ¬ (P : Int) ∣ n + n - digitVal x := by
  unfold goodAt
  simp only [Bool.and_eq_true, decide_eq_true_eq, and_assoc]

theorem not_dvd_one : ¬ (P : Int) ∣ 1 := by decide +kernel

theorem not_dvd_neg_one : ¬ (P : Int) ∣ -1 := by decide +kernel

theorem At.minus {t : Run} {B : Pt B2} {n : Int} (h : At t B n) : AffIs (⟨t.q.x, -t.q.y⟩ : Aff (Fq2 Fq)) ((-1 : Int) • B) := by
  rw [neg_one_zsmul]
  exact affNeg_is h.q

theorem At.plus {t : Run} {B : Pt B2} {n : Int} (h : At t B n) : AffIs t.q ((1 : Int) • B) := by
  rw [one_zsmul]
  exact h.q

theorem At.digit {t : Run} {B : Pt B2} {n x : Int} (h : At t B n) (hg : goodAt n x = true) :
    At (t.digit x) B (n + n + digitVal x) := by
  obtain ⟨g1, g2, g3, g4⟩ := goodAt_iff.1 hg
  have hd := (h.dbl g1 g2).1
  unfold digitVal at g3 g4 ⊢
  unfold Run.digit
  by_cases h1 : x = 1
  · rw [if_pos h1] at g3 g4
    rw [if_pos h1, if_pos h1]
    exact (hd.addTo hd.plus g2 not_dvd_one g4 g3).1
  · rw [if_neg h1] at g3 g4
    rw [if_neg h1, if_neg h1]
    by_cases h2 : x = -1
    · rw [if_pos h2] at g3 g4
      rw [if_pos h2, if_pos h2]
      exact (hd.addTo hd.minus g2 not_dvd_neg_one g4 g3).1
    · rw [if_neg h2, if_neg h2, add_zero]
      exact hd

/-! ### Several runs together -/

variable {ι : Type} [Fintype ι]

/-- The values `g` tell what the lines of the runs give together. -/
structure System (p : ι → Aff Fq) (B : ι → Pt B2) (g : Int → Fq12 Fq) : Prop where
  ne : ∀ a, ¬ (P : Int) ∣ a → g a ≠ 0
  neg : ∀ a, ¬ (P : Int) ∣ a → g (-a) = (g a)⁻¹
  frob : ∀ a, ¬ (P : Int) ∣ a → g (Q * a) = g a ^ Q
  congr : ∀ a b, (P : Int) ∣ a - b → g a = g b
  order : g 1 ^ P = 1
  line : ∀ (a b : Int) (L : ι → Line Fq), ¬ (P : Int) ∣ a → ¬ (P : Int) ∣ b → ¬ (P : Int) ∣ a + b →
    (∀ i, Through (L i) (a • B i) (b • B i)) → fe (∏ i, lineVal (L i) (p i)) = g a * g b * (g (a + b))⁻¹

variable {p : ι → Aff Fq} {B : ι → Pt B2} {g : Int → Fq12 Fq}

theorem System.dbl (S : System p B g) {t : ι → Run} {n : Int} (ht : ∀ i, At (t i) (B i) n) (hp : ∀ i, (t i).p = p i)
    (h1 : ¬ (P : Int) ∣ n) (h2 : ¬ (P : Int) ∣ n + n) (hf : fe (∏ i, (t i).f) * g n = g 1 ^ n) :
    fe (∏ i, (t i).dbl.f) * g (n + n) = g 1 ^ (n + n) := by
  have e : ∏ i, (t i).dbl.f = (∏ i, (t i).f) * (∏ i, (t i).f) * ∏ i, lineVal (doublingStep (t i).r).2 (p i) := by
    rw [← Finset.prod_mul_distrib, ← Finset.prod_mul_distrib]
    refine Finset.prod_congr rfl fun i _ => ?_
    rw [← hp i]
    rfl
  have hl := S.line n n _ h1 h1 h2 fun i => ((ht i).dbl h1 h2).2
  have n2 := S.ne _ h2
  rw [e, fe_mul, fe_mul, hl, zpow_add₀ (S.ne 1 not_dvd_one), ← hf]
  field_simp

theorem System.addTo (S : System p B g) {t : ι → Run} {q : ι → Aff (Fq2 Fq)} {n c : Int} (ht : ∀ i, At (t i) (B i) n)
    (hp : ∀ i, (t i).p = p i) (hq : ∀ i, AffIs (q i) (c • B i))
    (h1 : ¬ (P : Int) ∣ n) (h2 : ¬ (P : Int) ∣ c) (h3 : ¬ (P : Int) ∣ n - c) (h4 : ¬ (P : Int) ∣ n + c)
    (hc : g c = g 1 ^ c) (hf : fe (∏ i, (t i).f) * g n = g 1 ^ n) :
    fe (∏ i, ((t i).addTo (q i)).f) * g (n + c) = g 1 ^ (n + c) := by
  have e : ∏ i, ((t i).addTo (q i)).f = (∏ i, (t i).f) * ∏ i, lineVal (additionStep (t i).r (q i)).2 (p i) := by
    rw [← Finset.prod_mul_distrib]
    refine Finset.prod_congr rfl fun i _ => ?_
    rw [← hp i]
    rfl
  have hl := S.line n c _ h1 h2 h4 fun i => ((ht i).addTo (hq i) h1 h2 h3 h4).2
  have n2 := S.ne _ h4
  rw [e, fe_mul, hl, zpow_add₀ (S.ne 1 not_dvd_one), ← hf, ← hc]
  field_simp

theorem System.minus_one (S : System p B g) : g (-1) = g 1 ^ (-1 : Int) := by
  rw [S.neg 1 not_dvd_one, zpow_neg_one]

theorem System.digit (S : System p B g) {t : ι → Run} {n x : Int} (ht : ∀ i, At (t i) (B i) n) (hp : ∀ i, (t i).p = p i)
    (hg : goodAt n x = true) (hf : fe (∏ i, (t i).f) * g n = g 1 ^ n) :
    fe (∏ i, ((t i).digit x).f) * g (n + n + digitVal x) = g 1 ^ (n + n + digitVal x) := by
  obtain ⟨g1, g2, g3, g4⟩ := goodAt_iff.1 hg
  have hd := S.dbl ht hp g1 g2 hf
  have ht' := fun i => ((ht i).dbl g1 g2).1
  unfold digitVal at g3 g4 ⊢
  unfold Run.digit
  by_cases h1 : x = 1
  · rw [if_pos h1] at g3 g4
    simp only [if_pos h1]
    exact S.addTo ht' hp (fun i => (ht' i).plus) g2 not_dvd_one g4 g3 (by rw [zpow_one]) hd
  · rw [if_neg h1] at g3 g4
    simp only [if_neg h1]
    by_cases h2 : x = -1
    · rw [if_pos h2] at g3 g4
      simp only [if_pos h2]
      exact S.addTo ht' hp (fun i => (ht' i).minus) g2 not_dvd_neg_one g4 g3 S.minus_one hd
    · simp only [if_neg h2, add_zero]
      exact hd

theorem At.digits (xs : List Int) : ∀ {t : Run} {B : Pt B2} {n : Int}, At t B n → goodAll xs n = true →
    At (t.digits xs) B (numOf xs n) := by
  induction xs with
  | nil => intro t B n h _; exact h
  | cons x xs ih =>
    intro t B n h hg
    unfold goodAll at hg
    rw [Bool.and_eq_true] at hg
    exact ih (h.digit hg.1) hg.2

theorem System.digits (S : System p B g) (xs : List Int) : ∀ {t : ι → Run} {n : Int}, (∀ i, At (t i) (B i) n) →
    (∀ i, (t i).p = p i) → goodAll xs n = true → fe (∏ i, (t i).f) * g n = g 1 ^ n →
    fe (∏ i, ((t i).digits xs).f) * g (numOf xs n) = g 1 ^ (numOf xs n) := by
  induction xs with
  | nil => intro t n _ _ _ hf; exact hf
  | cons x xs ih =>
    intro t n ht hp hg hf
    unfold goodAll at hg
    rw [Bool.and_eq_true] at hg
    exact ih (fun i => (ht i).digit hg.1) (fun i => ((t i).digit_p x).trans (hp i)) hg.2 (S.digit ht hp hg.1 hf)

theorem good_loop : goodAll loopDigits 1 = true := by decide +kernel

theorem At.start {p : Aff Fq} {q : Aff (Fq2 Fq)} {B : Pt B2} (hy : p.y ≠ 0) (hq : AffIs q B) (hB : InG2 B) (h0 : B ≠ 0) :
    At (start p q) B 1 := by
  refine ⟨?_, one_ne_zero, hy, hq, hB, h0⟩
  rw [one_zsmul]
  match B, hq, h0 with
  | .zero, _, h0 => exact absurd rfl h0
  | .some x y hn, hq, _ =>
    have h' : q = ⟨x, y⟩ := hq
    subst h'
    exact jac_one

/-- What is needed of `6u + 2`, `q` and `-q²`; the point behind the last lines is the third image under the Frobenius
map. -/
structure Ends (a b c : Int) : Prop where
  num : numOf loopDigits 1 = a
  hb : b = Q
  hc : c = -(b * b)
  d1 : ¬ (P : Int) ∣ a
  d2 : ¬ (P : Int) ∣ b
  d3 : ¬ (P : Int) ∣ a - b
  d4 : ¬ (P : Int) ∣ a + b
  d5 : ¬ (P : Int) ∣ c
  d6 : ¬ (P : Int) ∣ a + b - c
  d7 : ¬ (P : Int) ∣ a + b + c
  d8 : ¬ (P : Int) ∣ b * b
  d9 : ¬ (P : Int) ∣ b * (b * b)
  dvd : (P : Int) ∣ a + b + c - -(b * (b * b))

theorem ends : ∃ a b c, Ends a b c :=
  ⟨6 * BN_X + 2, Q, -(Q * Q), by decide +kernel, rfl, rfl, by decide +kernel, by decide +kernel, by decide +kernel,
    by decide +kernel, by decide +kernel, by decide +kernel, by decide +kernel, by decide +kernel, by decide +kernel,
    by decide +kernel⟩

theorem At.last {t : Run} {B : Pt B2} {a b c : Int} (h : At t B a) (E : Ends a b c) : At t.last B (a + b + c) := by
  have h1 := (h.addTo (h.frob E.hb) E.d1 E.d2 E.d3 E.d4).1
  unfold Run.last
  exact (h1.addTo (h.frob2 E.hb E.hc) E.d4 E.d5 E.d6 E.d7).1

theorem System.last (S : System p B g) {t : ι → Run} {a b c : Int} (h : ∀ i, At (t i) (B i) a) (hp : ∀ i, (t i).p = p i)
    (E : Ends a b c) (gb : g b = g 1 ^ b) (gc : g c = g 1 ^ c) (hf : fe (∏ i, (t i).f) * g a = g 1 ^ a) :
    fe (∏ i, (t i).last.f) * g (a + b + c) = g 1 ^ (a + b + c) := by
  have e2 := S.addTo h hp (fun i => (h i).frob E.hb) E.d1 E.d2 E.d3 E.d4 gb hf
  have hD2 := fun i => ((h i).addTo ((h i).frob E.hb) E.d1 E.d2 E.d3 E.d4).1
  unfold Run.last
  exact S.addTo hD2 (fun i => ((t i).addTo_p _).trans (hp i)) (fun i => (h i).frob2 E.hb E.hc) E.d4 E.d5 E.d6 E.d7 gc e2

theorem value_ne {D : List Int} {p : Aff Fq} {q : Aff (Fq2 Fq)} {B : Pt B2} (hy : p.y ≠ 0) (hq : AffIs q B) (hB : InG2 B)
    (h0 : B ≠ 0) (hg : goodAll D 1 = true) {a b c : Int} (E : Ends a b c) (hn : numOf D 1 = a) : value D p q ≠ 0 := by
  have h := At.digits D (At.start hy hq hB h0) hg
  rw [hn] at h
  exact (h.last E).f

theorem single_ne {p : Aff Fq} {q : Aff (Fq2 Fq)} {B : Pt B2} (hy : p.y ≠ 0) (hq : AffIs q B) (hB : InG2 B) (h0 : B ≠ 0) :
    single p q ≠ 0 := by
  obtain ⟨a, b, c, E⟩ := ends
  exact value_ne hy hq hB h0 good_loop E E.num

theorem System.zpow_eq (S : System p B g) {a b : Int} (h : (P : Int) ∣ a - b) : g 1 ^ a = g 1 ^ b := by
  obtain ⟨c, hc⟩ := h
  rw [show a = P * c + b by rw [← hc]; ring, zpow_add₀ (S.ne 1 not_dvd_one), zpow_mul, zpow_natCast, S.order, one_zpow, one_mul]

theorem System.value (S : System p B g) {D : List Int} {q : ι → Aff (Fq2 Fq)} (hy : ∀ i, (p i).y ≠ 0)
    (hq : ∀ i, AffIs (q i) (B i)) (hB : ∀ i, InG2 (B i)) (h0 : ∀ i, B i ≠ 0) (hg : goodAll D 1 = true) {a b c : Int}
    (E : Ends a b c) (hn : numOf D 1 = a) : fe (∏ i, Tower.value D (p i) (q i)) = 1 := by
  have hs := fun i => At.start (hy i) (hq i) (hB i) (h0 i)
  have hD := fun i => At.digits D (hs i) hg
  have e1 := S.digits D hs (fun i => rfl) hg (by
    have : ∏ i, (start (p i) (q i)).f = 1 := Finset.prod_eq_one fun i _ => rfl
    rw [this, fe_one, one_mul, zpow_one])
  rw [hn] at e1
  simp only [hn] at hD
  have hp := fun i => (start (p i) (q i)).digits_p D
  have gQ : ∀ a : Int, ¬ (P : Int) ∣ a → g a = g 1 ^ a → g (b * a) = g 1 ^ (b * a) := by
    intro a ha h
    rw [E.hb, S.frob a ha, h, mul_comm, zpow_mul, zpow_natCast]
  have g1 := gQ 1 not_dvd_one (zpow_one _).symm
  rw [mul_one] at g1
  have g2 := gQ b E.d2 g1
  have g3 := gQ (b * b) E.d8 g2
  have gm2 : g c = g 1 ^ c := by
    rw [E.hc, S.neg _ E.d8, g2, ← zpow_neg]
  have e3 := S.last hD hp E g1 gm2 e1
  rw [S.congr _ _ E.dvd, S.neg _ E.d9, g3, ← zpow_neg, S.zpow_eq E.dvd] at e3
  exact mul_right_cancel₀ (zpow_ne_zero _ (S.ne 1 not_dvd_one)) (e3.trans (one_mul _).symm)

/-- All runs together give one. -/
theorem System.total (S : System p B g) {q : ι → Aff (Fq2 Fq)} (hy : ∀ i, (p i).y ≠ 0) (hq : ∀ i, AffIs (q i) (B i))
    (hB : ∀ i, InG2 (B i)) (h0 : ∀ i, B i ≠ 0) : fe (∏ i, single (p i) (q i)) = 1 := by
  obtain ⟨a, b, c, E⟩ := ends
  exact S.value hy hq hB h0 good_loop E E.num

end Verif.Tower

import Verif.Lemmas.AsmField

/-! C79: the field arithmetic written in assembly (feature `asm`) loses carries. -/

namespace Verif.Props

open Spec

/-- The stored limbs of the element for which squaring, multiplying and encoding go wrong. -/
def lost : Limbs := ⟨2 ^ 64 - 1, 2 ^ 64 - 1, 2 ^ 64 - 1, 0⟩

/-- The limbs are words. -/
def _root_.Verif.Limbs.words (a : Limbs) : Bool :=
  decide (a.l0 < W64) && decide (a.l1 < W64) && decide (a.l2 < W64) && decide (a.l3 < W64)

/-- Registers that are all zero. -/
def zeroState : Asm.State := ⟨fun _ => 0, false, false⟩

theorem high_independent {l : List Asm.Instr} (h : Asm.writesFirst l [.r12, .r13, .r14, .r15] = true) (e : Asm.Env) (s t : Asm.State) :
    Asm.high (Asm.run e l s) = Asm.high (Asm.run e l t) := by
  have := Asm.writesFirst_run h e s t
  unfold Asm.high
  rw [this .r12 (by simp), this .r13 (by simp), this .r14 (by simp), this .r15 (by simp)]

theorem low_independent {l : List Asm.Instr} (h : Asm.writesFirst l [.r8, .r9, .r10, .r11] = true) (e : Asm.Env) (s t : Asm.State) :
    Asm.low (Asm.run e l s) = Asm.low (Asm.run e l t) := by
  have := Asm.writesFirst_run h e s t
  unfold Asm.low
  rw [this .r8 (by simp), this .r9 (by simp), this .r10 (by simp), this .r11 (by simp)]

/-- C79: results do not depend on what the registers and flags held before. -/
theorem C79_registers (c : FieldConsts) (a b : Limbs) (t : Limbs8) (s s' : Asm.State) :
    Asm.add c s a b = Asm.add c s' a b ∧ Asm.sub c s a b = Asm.sub c s' a b ∧ Asm.double c s a = Asm.double c s' a ∧
    Asm.neg c s a = Asm.neg c s' a ∧ Asm.mul c s a b = Asm.mul c s' a b ∧ Asm.square c s a = Asm.square c s' a ∧
    Asm.montgomeryReduce c s t = Asm.montgomeryReduce c s' t :=
  ⟨high_independent (by decide +kernel) _ _ _, high_independent (by decide +kernel) _ _ _, high_independent (by decide +kernel) _ _ _,
    low_independent (by decide +kernel) _ _ _, high_independent (by decide +kernel) _ _ _, high_independent (by decide +kernel) _ _ _,
    high_independent (by decide +kernel) _ _ _⟩

theorem stands_exists {c : FieldConsts} {p : Nat} (S : Setup c p) {a : Limbs} (ha : a.Ok) (hb : a.val < c.modulus.val) :
    ∃ x, Stands p a x := by
  obtain ⟨i, hi⟩ := S.unit
  refine ⟨a.val * i, ha, by rw [← S.val]; exact hb, ?_⟩
  rw [mul_assoc, mul_comm i, hi, mul_one]

/-- What is computed for the witness: results in canonical form that differ from those of the portable code. -/
def goesWrong (c : FieldConsts) : Bool :=
  decide (lost.val < c.modulus.val) &&
  (Asm.square c zeroState lost).words && decide ((Asm.square c zeroState lost).val < c.modulus.val) &&
  decide (Asm.square c zeroState lost ≠ c.square lost) &&
  (Asm.mul c zeroState lost lost).words && decide ((Asm.mul c zeroState lost lost).val < c.modulus.val) &&
  decide (Asm.mul c zeroState lost lost ≠ c.mul lost lost) &&
  (Asm.montgomeryReduce c zeroState ⟨lost.l0, lost.l1, lost.l2, lost.l3, 0, 0, 0, 0⟩).words &&
  decide ((Asm.montgomeryReduce c zeroState ⟨lost.l0, lost.l1, lost.l2, lost.l3, 0, 0, 0, 0⟩).val < c.modulus.val) &&
  decide (Asm.toRepr c zeroState lost ≠ c.toRepr lost)

theorem wrong_fq : goesWrong fqConsts = true := by decide +kernel

theorem wrong_fr : goesWrong frConsts = true := by decide +kernel

theorem words_ok {a : Limbs} (h : a.words = true) : a.Ok := by
  simpa [Limbs.words, Limbs.Ok, and_assoc] using h

/-- C79 is false: in both fields there is an element whose square, product with itself and encoding are wrong, whatever
the registers hold. The results are elements of the field in canonical form, so nothing shows the error. -/
theorem C79_refuted {c : FieldConsts} {p : Nat} (h : Bn256Field c p) : ∃ (a : Limbs) (x : ZMod p), Stands p a x ∧ ∀ s : Asm.State,
    (∃ y, Stands p (Asm.square c s a) y ∧ y ≠ x * x) ∧ (∃ y, Stands p (Asm.mul c s a a) y ∧ y ≠ x * x) ∧
    ∃ y : ZMod p, Asm.toRepr c s a = leBytes 32 y.val ∧ y ≠ x := by
  have S := setup_of h
  have hw : goesWrong c = true := by
    rcases h with ⟨rfl, rfl⟩ | ⟨rfl, rfl⟩
    · exact wrong_fq
    · exact wrong_fr
  simp only [goesWrong, Bool.and_eq_true, decide_eq_true_eq] at hw
  obtain ⟨⟨⟨⟨⟨⟨⟨⟨⟨w0, w1⟩, w2⟩, w3⟩, w4⟩, w5⟩, w6⟩, w7⟩, w8⟩, w9⟩ := hw
  have hok : lost.Ok := words_ok (by decide +kernel)
  obtain ⟨x, hx⟩ := stands_exists S hok w0
  refine ⟨lost, x, hx, fun s => ?_⟩
  have hr := C79_registers c lost lost ⟨lost.l0, lost.l1, lost.l2, lost.l3, 0, 0, 0, 0⟩ s zeroState
  obtain ⟨-, -, -, -, r1, r2, r3⟩ := hr
  rw [r1, r2]
  refine ⟨?_, ?_, ?_⟩
  · obtain ⟨y, hy⟩ := stands_exists S (words_ok w1) w2
    refine ⟨y, hy, ?_⟩
    rintro rfl
    exact w3 (S.unique hy (S.square hx))
  · obtain ⟨y, hy⟩ := stands_exists S (words_ok w4) w5
    refine ⟨y, hy, ?_⟩
    rintro rfl
    exact w6 (S.unique hy (S.mul hx hx))
  · have e : Asm.toRepr c s lost = Asm.toRepr c zeroState lost := by
      unfold Asm.toRepr
      rw [r3]
    have e' : Asm.toRepr c zeroState lost =
        leBytes 32 (Asm.montgomeryReduce c zeroState ⟨lost.l0, lost.l1, lost.l2, lost.l3, 0, 0, 0, 0⟩).val := by
      unfold Asm.toRepr
      exact leBytes_limbs (words_ok w7)
    rw [S.val] at w8
    refine ⟨((Asm.montgomeryReduce c zeroState ⟨lost.l0, lost.l1, lost.l2, lost.l3, 0, 0, 0, 0⟩).val : ZMod p), ?_, ?_⟩
    · rw [e, e', ZMod.val_natCast, Nat.mod_eq_of_lt w8]
    · intro hc
      apply w9
      rw [S.toRepr hx, e', ← hc, ZMod.val_natCast, Nat.mod_eq_of_lt w8]

theorem inv_word {c : FieldConsts} {p : Nat} (h : Bn256Field c p) : c.inv < W64 := by
  rcases h with ⟨rfl, rfl⟩ | ⟨rfl, rfl⟩ <;> decide +kernel

/-- C79, the part that holds: `add`, `sub`, `double` and `neg` are the operations of the field for all elements, whatever the
registers hold; `mul`, `square` and the encoding are, when no instruction `adc r, 0` overflows. Missing: the
elements for which one does. -/
theorem C79_partial {c : FieldConsts} {p : Nat} (h : Bn256Field c p) {a b : Limbs} {x y : ZMod p} (ha : Stands p a x) (hb : Stands p b y)
    (s : Asm.State) (hs : Asm.Words s) :
    Stands p (Asm.add c s a b) (x + y) ∧ Stands p (Asm.sub c s a b) (x - y) ∧ Stands p (Asm.double c s a) (x + x) ∧
    Stands p (Asm.neg c s a) (-x) ∧
    (Asm.keepsCarries (Asm.env c a b) Asm.mulAsm s = true → Stands p (Asm.mul c s a b) (x * y)) ∧
    (Asm.keepsCarries (Asm.env c a a) Asm.squareAsm s = true → Stands p (Asm.square c s a) (x * x)) ∧
    (Asm.keepsCarries ⟨Asm.word8 ⟨a.l0, a.l1, a.l2, a.l3, 0, 0, 0, 0⟩, fun _ => 0, Asm.word4 c.modulus, c.inv⟩ Asm.reduceAsm s = true →
      Asm.toRepr c s a = leBytes 32 x.val) := by
  have S := setup_of h
  have hi := inv_word h
  have hw : Asm.Words64 s := hs
  refine ⟨?_, Asm.subtraction_stands S s ha hb, ?_, Asm.negation_stands S s ha, fun hk => Asm.multiplication_stands S hi hw ha hb hk,
    fun hk => Asm.square_stands S hi hw ha hk, fun hk => ?_⟩
  · rw [Asm.add_eq]
    exact Asm.addition_stands S ha hb
  · rw [Asm.double_eq]
    exact Asm.addition_stands S ha ha
  · obtain ⟨i, hi'⟩ := S.unit
    have hz : (0 : Nat) < W64 := by norm_num [W64]
    have e : Limbs8.val ⟨a.l0, a.l1, a.l2, a.l3, 0, 0, 0, 0⟩ = a.val := by simp [Limbs8.val, Limbs.val]
    have r := Asm.reduction_stands S hi hw (t := ⟨a.l0, a.l1, a.l2, a.l3, 0, 0, 0, 0⟩)
      ⟨ha.ok.1, ha.ok.2.1, ha.ok.2.2.1, ha.ok.2.2.2, hz, hz, hz, hz⟩
      (by rw [e]; exact lt_of_lt_of_le ha.below (Nat.le_mul_of_pos_left _ (by norm_num [W64])))
      (z := x * i) (by rw [e, ha.value]; linear_combination (-x * 2 ^ 256) * hi') hk
    have hv := r.value
    rw [mul_assoc, mul_comm i, hi', mul_one] at hv
    have : NeZero p := ⟨S.pos.ne'⟩
    unfold Asm.toRepr
    dsimp only
    rw [leBytes_limbs r.ok, ← hv, ZMod.val_natCast, Nat.mod_eq_of_lt r.below]

/-- C79: with the hypothesis of `C79_partial` the assembly gives exactly what the portable code gives. -/
theorem C79_same_partial {c : FieldConsts} {p : Nat} (h : Bn256Field c p) {a b : Limbs} {x y : ZMod p} (ha : Stands p a x)
    (hb : Stands p b y) (s : Asm.State) (hs : Asm.Words s) :
    Asm.add c s a b = c.add a b ∧ Asm.sub c s a b = c.sub a b ∧ Asm.double c s a = c.double a ∧ Asm.neg c s a = c.neg a ∧
    (Asm.keepsCarries (Asm.env c a b) Asm.mulAsm s = true → Asm.mul c s a b = c.mul a b) ∧
    (Asm.keepsCarries (Asm.env c a a) Asm.squareAsm s = true → Asm.square c s a = c.square a) := by
  have S := setup_of h
  obtain ⟨h1, h2, h3, h4, h5, h6, -⟩ := C79_partial h ha hb s hs
  exact ⟨S.unique h1 (S.add ha hb), S.unique h2 (S.sub ha hb), S.unique h3 (S.add ha ha), S.unique h4 (S.neg ha),
    fun hk => S.unique (h5 hk) (S.mul ha hb), fun hk => S.unique (h6 hk) (S.square ha)⟩

/-- The witness in the scalar field: its stored form is `2^192 - 1`, and the assembly squares it wrongly. -/
example : Asm.square frConsts zeroState lost ≠ frConsts.square lost := by decide +kernel

/-- Elements for which no carry is lost: the stored forms of one and of `2^256`. -/
example : Asm.keepsCarries (Asm.env frConsts frConsts.r frConsts.r2) Asm.mulAsm zeroState = true := by decide +kernel

example : Asm.keepsCarries (Asm.env fqConsts fqConsts.r2 fqConsts.r2) Asm.squareAsm zeroState = true := by decide +kernel

example : Asm.keepsCarries (Asm.env frConsts lost lost) Asm.squareAsm zeroState = false := by decide +kernel

/-- So the product is right there. -/
example : Stands P (Asm.mul frConsts zeroState frConsts.r frConsts.r2) (1 * 2 ^ 256) :=
  (C79_partial (.inr ⟨rfl, rfl⟩) fr_setup.r fr_setup.r2 zeroState (fun _ => by simp [zeroState])).2.2.2.2.1 (by decide +kernel)

end Verif.Props

#print axioms Verif.Props.C79_registers
#print axioms Verif.Props.C79_refuted
#print axioms Verif.Props.C79_partial
#print axioms Verif.Props.C79_same_partial

import Verif.Model.Batch
import Verif.Lemmas.ShplonkComplete
import Verif.Lemmas.ForgeBytes
import Mathlib.Algebra.Polynomial.Roots

/-! What a batch of proofs comes to: a sum with powers of the factor. -/

namespace Verif.Batch

open Spec Plonk Keygen Shplonk Transcript

variable {G G₂ GT : Type} [AddCommGroup G] [Module Fr G]
variable [AddCommGroup G₂] [Module Fr G₂] [AddCommGroup GT] [Module Fr GT] [DecidableEq GT]

open Verify in
/-- The terms that a proof adds to the accumulator. -/
def terms (codec : Codec G) (hash : Hash) (params : VerifierParams G G₂) (i : Item G) : Except Verify.Stop (Dual G) := do
  let (com, ch, t) ← readCommitments codec hash i.key i.repr i.instances i.proof
  let (e, t) ← readEvals i.key com t
  let queries ← total (claims (Ref.ofKey i.key) params.n i.instances (Ref.ofCommitments com) ch e)
  let (y, v, h1, u, h2, _) ← readOpening codec hash t
  let (left, right) ← total (verify params.g0 (queries.map Ref.toClaim) y v h1 u h2)
  return ⟨left, right⟩

theorem accumulate_eq (codec : Codec G) (hash : Hash) (params : VerifierParams G G₂) (c : Fr) (acc : Dual G) (i : Item G) :
    accumulate codec hash params c acc i = (terms codec hash params i).map fun d =>
      ⟨(acc.scale c).left ++ d.left, (acc.scale c).right ++ d.right⟩ := by
  unfold accumulate terms
  simp only [bind, Except.bind, pure, Except.pure]
  repeat' split
  all_goals rfl

/-- What is checked in the end. -/
def gap (pairing : G →ₗ[Fr] G₂ →ₗ[Fr] GT) (params : VerifierParams G G₂) (d : Dual G) : GT :=
  pairing (msmSum d.left) params.sG2 + pairing (msmSum d.right) (-params.g2)

theorem check_gap (pairing : G →ₗ[Fr] G₂ →ₗ[Fr] GT) (params : VerifierParams G G₂) (d : Dual G) :
    check pairing params.g2 params.sG2 d.left d.right = .ok (decide (gap pairing params d = 0)) := by
  unfold check
  rw [evalMsm_eq, evalMsm_eq]
  rfl

theorem verifyProof_eq (codec : Codec G) (hash : Hash) (pairing : G →ₗ[Fr] G₂ →ₗ[Fr] GT) (params : VerifierParams G G₂)
    (i : Item G) : verifyProof codec hash pairing params i.key i.repr i.instances i.proof =
      (terms codec hash params i).bind fun d =>
        if gap pairing params d = 0 then .ok () else .error (.error .constraintSystemFailure) := by
  unfold verifyProof terms accepts
  cases h1 : Verify.readCommitments codec hash i.key i.repr i.instances i.proof with
  | error e => rfl
  | ok a =>
    obtain ⟨com, ch, t⟩ := a
    simp only [bind, Except.bind]
    cases h2 : Verify.readEvals i.key com t with
    | error e => rfl
    | ok b =>
      obtain ⟨e, t'⟩ := b
      dsimp only
      cases h3 : claims (Ref.ofKey i.key) params.n i.instances (Ref.ofCommitments com) ch e with
      | error e => rfl
      | ok Q =>
        dsimp only [Verify.total]
        cases h4 : Verify.readOpening codec hash t' with
        | error e => rfl
        | ok d =>
          obtain ⟨y, v, g1, u, g2, t''⟩ := d
          dsimp only
          cases h5 : verify params.g0 (Q.map Ref.toClaim) y v g1 u g2 with
          | error e => rfl
          | ok lr =>
            obtain ⟨left, right⟩ := lr
            dsimp only [pure, Except.pure]
            have := check_gap pairing params ⟨left, right⟩
            dsimp only at this
            rw [this]
            by_cases hg : gap pairing params ⟨left, right⟩ = 0
            · simp [hg]
            · simp [hg]

/-- A proof is accepted exactly if it has terms and they are balanced. -/
theorem verifyProof_iff (codec : Codec G) (hash : Hash) (pairing : G →ₗ[Fr] G₂ →ₗ[Fr] GT) (params : VerifierParams G G₂)
    (i : Item G) : verifyProof codec hash pairing params i.key i.repr i.instances i.proof = .ok () ↔
      ∃ d, terms codec hash params i = .ok d ∧ gap pairing params d = 0 := by
  rw [verifyProof_eq]
  cases terms codec hash params i with
  | error e => simp [Except.bind]
  | ok d =>
    simp only [Except.bind]
    split <;> simp_all

theorem gap_step (pairing : G →ₗ[Fr] G₂ →ₗ[Fr] GT) (params : VerifierParams G G₂) (c : Fr) (acc d : Dual G) :
    gap pairing params ⟨(acc.scale c).left ++ d.left, (acc.scale c).right ++ d.right⟩ =
      c • gap pairing params acc + gap pairing params d := by
  unfold gap Dual.scale
  dsimp only
  rw [msmSum_append, msmSum_append, msmSum_scale, msmSum_scale]
  simp only [map_add, map_smul, LinearMap.add_apply, LinearMap.smul_apply, map_neg, smul_add, smul_neg]
  abel

/-- A batch is accepted exactly if every proof has terms, and the sum of these with the powers of the factor is
balanced. -/
theorem batch_iff (codec : Codec G) (hash : Hash) (pairing : G →ₗ[Fr] G₂ →ₗ[Fr] GT) (params : VerifierParams G G₂)
    (c : Fr) (items : List (Item G)) : verifyBatch codec hash pairing params c items = .ok true ↔
      ∃ ds, List.Forall₂ (fun i d => terms codec hash params i = .ok d) items ds ∧
        (ds.map (gap pairing params)).foldl (fun a d => c • a + d) 0 = 0 := by
  have key : ∀ (items : List (Item G)) (acc : Dual G),
      (∃ r, accumulateAll codec hash params c acc items = .ok r ∧ gap pairing params r = 0) ↔
      ∃ ds, List.Forall₂ (fun i d => terms codec hash params i = .ok d) items ds ∧
        (ds.map (gap pairing params)).foldl (fun a d => c • a + d) (gap pairing params acc) = 0 := by
    intro items
    induction items with
    | nil =>
      intro acc
      constructor
      · rintro ⟨r, h1, h2⟩
        cases h1
        exact ⟨[], .nil, h2⟩
      · rintro ⟨ds, h1, h2⟩
        cases h1
        exact ⟨acc, rfl, h2⟩
    | cons i items ih =>
      intro acc
      constructor
      · rintro ⟨r, h1, h2⟩
        obtain ⟨acc', h1, h3⟩ := Transcript.bind_ok.1 h1
        rw [accumulate_eq] at h1
        cases h4 : terms codec hash params i with
        | error e => rw [h4] at h1; cases h1
        | ok d =>
          rw [h4] at h1
          obtain rfl := Except.ok.inj h1
          obtain ⟨ds, a1, a2⟩ := (ih _).1 ⟨r, h3, h2⟩
          refine ⟨d :: ds, .cons h4 a1, ?_⟩
          rw [gap_step] at a2
          exact a2
      · rintro ⟨ds, h1, h2⟩
        cases h1 with
        | cons h3 h4 =>
          rename_i d ds
          obtain ⟨r, a1, a2⟩ := (ih ⟨(acc.scale c).left ++ d.left, (acc.scale c).right ++ d.right⟩).2 ⟨ds, h4, by
            rw [gap_step]; exact h2⟩
          refine ⟨r, Transcript.bind_ok.2 ⟨_, ?_, a1⟩, a2⟩
          rw [accumulate_eq, h3]
          rfl
  have h0 : gap pairing params ({} : Dual G) = 0 := by
    unfold gap msmSum
    simp
  have := key items {}
  rw [h0] at this
  rw [← this]
  unfold verifyBatch
  cases accumulateAll codec hash params c {} items with
  | error e => simp [bind, Except.bind]
  | ok r =>
    simp only [bind, Except.bind]
    rw [check_gap]
    simp [Verify.total]

open Polynomial in
/-- The sum as a polynomial in the factor. -/
theorem horner_roots (l : List Fr) : ∀ p : Fr[X], (∀ n : Nat, p.degree < n → (l.foldl (fun p a => X * p + C a) p).degree < (n + l.length : Nat)) ∧
    (l.foldl (fun p a => X * p + C a) p = 0 → p = 0 ∧ ∀ a ∈ l, a = 0) ∧
    ∀ c, (l.foldl (fun p a => X * p + C a) p).eval c = l.foldl (fun a d => c * a + d) (p.eval c) := by
  induction l with
  | nil => intro p; simp
  | cons a l ih =>
    intro p
    obtain ⟨h1, h2, h3⟩ := ih (X * p + C a)
    refine ⟨fun n hn => ?_, fun h => ?_, fun c => ?_⟩
    · have := h1 (n + 1) ?_
      · rw [List.foldl_cons, List.length_cons]
        convert this using 2
        omega
      · by_cases hp : p = 0
        · subst hp
          rw [mul_zero, zero_add]
          exact lt_of_le_of_lt degree_C_le (by norm_cast; omega)
        refine lt_of_le_of_lt (degree_add_le _ _) (max_lt ?_ (lt_of_le_of_lt degree_C_le (by norm_cast; omega)))
        rw [degree_mul, degree_X]
        rw [degree_eq_natDegree hp] at hn ⊢
        norm_cast at hn ⊢
        omega
    · obtain ⟨h4, h5⟩ := h2 h
      have ha : a = 0 := by
        have := congrArg (coeff · 0) h4
        simpa using this
      subst ha
      rw [C_0, add_zero, mul_eq_zero] at h4
      refine ⟨h4.resolve_left X_ne_zero, ?_⟩
      simpa using h5
    · rw [List.foldl_cons, h3]
      simp

end Verif.Batch

import Verif.Lemmas.CurveGroup
import Verif.Lemmas.Ipa

/-! Properties C96 and C97: the commitment scheme without a trusted setup. -/

namespace Verif.Props

open Spec Spec.Ipa Verif.Ipa

variable {M K : Type} [AddCommGroup M] [Module Fr M] [DecidableEq M] [DecidableEq K] [Neg K]

/-- C96: the prover commits to any polynomial and opens it at any point; the verifier accepts, for all random values and all
challenges without a zero in the rounds. -/
theorem C96_complete {cs : Coords K M} (law : Lawful cs) (params : Params M) (ok : Ok params) (draws : Draws)
    (hs : draws.s.length = params.n) (hr : draws.rounds.length = params.k) (p : List Fr) (hp : p.length = params.n)
    (blind x xi z : Fr) (us : List Fr) (hu : us.length = params.k) (h0 : ∀ u ∈ us, u ≠ 0) {m : Msm K} {a : M}
    (hm : m.eval cs params = .ok a) (ha : commit params p blind = .ok a) :
    ∃ proof, prove params draws p blind x xi z us = .ok proof ∧
      accepts cs params m proof x (polyAt p x) xi z us = .ok true := by
  obtain ⟨g0, gs, hg⟩ := g_cons ok
  obtain ⟨sc, st, h1, h4, h5, h6, h7⟩ := prove_start params ok draws hs p hp blind x xi z us
  obtain ⟨ms, c, f, h8, -, h9⟩ := rounds_ok params z params.k st draws.rounds us (by rw [h4, ok.n]) (by rw [h5]; simp)
    (by rw [h6, ok.g, ok.n]) hr hu h0
  refine ⟨⟨sc, ms, c, f⟩, ?_, ?_⟩
  · rw [h1, h8]
    rfl
  · rw [accepts_eq law params ok hm hg _ _ _ _ _ hu]
    refine congrArg Except.ok (decide_eq_true ?_)
    rw [h7 g0 gs hg a ha, h5, h6] at h9
    unfold rest
    dsimp only
    rw [hu, ← sub_eq_zero.2 h9]
    module

omit [DecidableEq M] in
/-- C96: a challenge zero in a round makes the prover panic. -/
theorem C96_zero (params : Params M) (ok : Ok params) (draws : Draws)
    (hs : draws.s.length = params.n) (hr : draws.rounds.length = params.k) (p : List Fr) (hp : p.length = params.n)
    (blind x xi z : Fr) (us : List Fr) (hu : us.length = params.k) (h0 : 0 ∈ us) :
    prove params draws p blind x xi z us = .error .unwrap := by
  obtain ⟨sc, st, h1, h4, h5, h6, h7⟩ := prove_start params ok draws hs p hp blind x xi z us
  rw [h1, rounds_panic params z params.k st draws.rounds us (by rw [h4, ok.n]) (by rw [h5]; simp)
    (by rw [h6, ok.g, ok.n]) hr hu ⟨0, h0, rfl⟩]
  rfl

/-- C96: a wrong claim is rejected, whatever the prover does, but for few challenges: one value of `ξ`, then one value of `z`,
then two values in each of the rounds. -/
theorem C96_sound {cs : Coords K M} (law : Lawful cs) (params : Params M) (ok : Ok params) (ind : Independent params)
    {m : Msm K} {a : M} (hm : m.eval cs params = .ok a) {x v : Fr} (h : ¬ Opens params a x v) (σ : Strategy M) :
    ∃ (bx : Finset Fr) (bz : Fr → Finset Fr) (bu : Fr → Fr → List Fr → Finset Fr),
      bx.card ≤ 1 ∧ (∀ xi, (bz xi).card ≤ 1) ∧ (∀ xi z us, (bu xi z us).card ≤ 2) ∧
      ∀ xi z (us : List Fr), us.length = params.k → accepts cs params m (σ.proof xi z us) x v xi z us = .ok true →
        xi ∈ bx ∨ z ∈ bz xi ∨ ∃ j, ∃ hj : j < us.length, us[j] ∈ bu xi z (us.take j) := by
  obtain ⟨g0, gs, hg⟩ := g_cons ok
  obtain ⟨bx, bz, bu, h1, h2, h3, h4⟩ := sound_core ok ind hg h σ
  refine ⟨bx, bz, bu, h1, h2, h3, fun xi z us hus hacc => h4 xi z us hus ?_⟩
  rw [accepts_eq law params ok hm hg _ _ _ _ _ hus] at hacc
  exact of_decide_eq_true (Except.ok.inj hacc)

/-- The coefficients that a prover with known coefficients comes to. -/
noncomputable def relation (params : Params M) (g0 a : Rep params.n) (proof : Proof (Rep params.n)) (x v xi z : Fr) (us : List Fr) :
    Rep params.n :=
  a + rest (Rep.params params.k params.n) g0 proof x v xi z us - proof.c • dot (coeffs us) (Rep.params params.k params.n).g

/-- C96, for a curve: the points of a curve are never independent, but to find a relation is hard. Take a prover that makes its
points from the parameters, so that it knows their coefficients, as it does for the commitment. If the claim is wrong, then,
but for few challenges, it knows coefficients, not all zero, and the verifier accepts only if they are a relation
between the parameters. -/
theorem C96_binding {cs : Coords K M} (law : Lawful cs) (params : Params M) (ok : Ok params) (a : Rep params.n)
    {m : Msm K} (hm : m.eval cs params = .ok (a.value params)) {x v : Fr}
    (h : ¬ (a.2.2 = 0 ∧ polyAt (List.ofFn a.1) x = v)) (σ : Strategy (Rep params.n)) :
    ∃ (g0 : Rep params.n) (bx : Finset Fr) (bz : Fr → Finset Fr) (bu : Fr → Fr → List Fr → Finset Fr),
      bx.card ≤ 1 ∧ (∀ xi, (bz xi).card ≤ 1) ∧ (∀ xi z us, (bu xi z us).card ≤ 2) ∧
      ∀ xi z (us : List Fr), us.length = params.k → xi ∉ bx → z ∉ bz xi →
        (∀ j, ∀ hj : j < us.length, us[j] ∉ bu xi z (us.take j)) →
        ∃ relation : Rep params.n, relation = Props.relation params g0 a (σ.proof xi z us) x v xi z us ∧ relation ≠ 0 ∧
          (accepts cs params m ((σ.value params).proof xi z us) x v xi z us = .ok true ↔ relation.value params = 0) := by
  obtain ⟨g0, gs, hg⟩ := g_cons (rep_ok ok)
  obtain ⟨bx, bz, bu, h1, h2, h3, h4⟩ := sound_core (rep_ok ok) (rep_independent params.k params.n) hg
    (fun hc => h (rep_opens hc)) σ
  refine ⟨g0, bx, bz, bu, h1, h2, h3, fun xi z us hus n1 n2 n3 => ⟨_, rfl, ?_, ?_⟩⟩
  · intro hc
    rcases h4 xi z us hus hc with hc | hc | ⟨j, hj, hc⟩
    · exact n1 hc
    · exact n2 hc
    · exact n3 j hj hc
  · have hG := value_gens ok
    rw [hg, List.map_cons] at hG
    rw [accepts_eq law params ok hm hG.symm _ _ _ _ _ hus]
    have e : (relation params g0 a (σ.proof xi z us) x v xi z us).value params =
        a.value params + rest params (valueMap params g0) ((σ.value params).proof xi z us) x v xi z us -
          ((σ.value params).proof xi z us).c • dot (coeffs us) params.g := by
      show valueMap params _ = _
      unfold relation rest
      rw [map_sub, map_smul, ← dot_map, value_gens ok]
      simp only [map_add, map_sub, map_neg, map_smul, value_w, value_u, value_sent]
      unfold Strategy.proof Strategy.value
      simp only [List.map_map]
      rfl
    rw [e]
    simp only [Except.ok.injEq, decide_eq_true_eq]

/-- C96: the verifier does not panic, whatever the proof. -/
theorem C96_total {cs : Coords K M} (law : Lawful cs) (params : Params M) (ok : Ok params) {m : Msm K} {a : M}
    (hm : m.eval cs params = .ok a) (proof : Proof M) (x v xi z : Fr) {us : List Fr} (hu : us.length = params.k) :
    ∃ b, accepts cs params m proof x v xi z us = .ok b := by
  obtain ⟨g0, gs, hg⟩ := g_cons ok
  exact ⟨_, accepts_eq law params ok hm hg proof x v xi z hu⟩

/-- C96: the verifier can take the last generator from someone else: with the right one the sum is the same. -/
theorem C96_useG {cs : Coords K M} (law : Lawful cs) (params : Params M) (ok : Ok params) {m : Msm K} {a : M}
    (hm : m.eval cs params = .ok a) (proof : Proof M) (x v xi z : Fr) {us : List Fr} (hu : us.length = params.k) :
    ∃ guard g m₁ m₂ b, verify cs params m proof x v xi z us = .ok guard ∧ guard.computeG params = .ok g ∧
      guard.useChallenges params.n = .ok m₁ ∧ guard.useG cs g = .ok m₂ ∧ m₁.eval cs params = .ok b ∧ m₂.eval cs params = .ok b := by
  obtain ⟨g0, gs, hg⟩ := g_cons ok
  have hgood := eval_inv cs params hm
  rw [ok.g] at hgood
  obtain ⟨m1, h1, h2, -⟩ := verify_ok law params ok hgood hg proof x v xi z us
  obtain ⟨m2, h4, h5, h6⟩ := useChallenges_ok params ok h2 (-proof.c) hu
  obtain ⟨m3, h7, h8, h9⟩ := appendTerm_ok law params h2 (-proof.c) (dot (coeffs us) params.g)
  have hne : us ≠ [] := by
    rintro rfl
    have := ok.k
    simp at hu
    omega
  refine ⟨_, dot (coeffs us) params.g, m2, m3, val cs params m2, h1, ?_, h4, h7, eval_eq cs params (by rw [ok.g]; exact h5), ?_⟩
  · unfold Guard.computeG
    dsimp only
    rw [computeS_eq hne, show (coeffs us).map (· * 1) = coeffs us by simp]
    exact multiexp_dot (by rw [coeffs_length, hu, ok.g, ok.n])
  · rw [eval_eq cs params (by rw [ok.g]; exact h8), h6, h9]

omit [DecidableEq M] in
/-- C96: sums of multiples of points mean what they say. -/
theorem C96_sums {cs : Coords K M} (law : Lawful cs) [DecidableEq M] (params : Params M) (ok : Ok params) {m o : Msm K} {a b : M}
    (hm : m.eval cs params = .ok a) (ho : o.eval cs params = .ok b) (c : Fr) (p : M) :
    (∃ m', m.appendTerm cs c p = .ok m' ∧ m'.eval cs params = .ok (a + c • p)) ∧
    (∃ m', m.add params.n o = .ok m' ∧ m'.eval cs params = .ok (a + b)) ∧
    (m.scale c).eval cs params = .ok (c • a) ∧
    m.check cs params = .ok (decide (a = 0)) := by
  have g1 := eval_inv cs params hm
  have g2 := eval_inv cs params ho
  have e1 : a = val cs params m := Except.ok.inj (hm.symm.trans (eval_eq cs params g1))
  have e2 : b = val cs params o := Except.ok.inj (ho.symm.trans (eval_eq cs params g2))
  refine ⟨?_, ?_, ?_, ?_⟩
  · obtain ⟨m', h1, h2, h3⟩ := appendTerm_ok law params g1 c p
    exact ⟨m', h1, by rw [eval_eq cs params h2, h3, e1]⟩
  · rw [ok.g] at g1 g2
    obtain ⟨m', h1, h2, h3⟩ := add_ok law params g1 g2
    exact ⟨m', h1, by rw [eval_eq cs params (by rw [ok.g]; exact h2), h3, e1, e2]⟩
  · rw [eval_eq cs params (scale_ok params g1 c).1, (scale_ok params g1 c).2, e1]
  · unfold Msm.check
    rw [hm]
    rfl

/-- C96: parameters for polynomials with one coefficient: the verifier panics, whatever the proof. -/
theorem C96_one {cs : Coords K M} (law : Lawful cs) (params : Params M) (hn : params.n = 1)
    (hg : params.g.length = 1) {m : Msm K} {a : M} (hm : m.eval cs params = .ok a) (proof : Proof M) (x v xi z : Fr) :
    accepts cs params m proof x v xi z [] = .error .assert := by
  obtain ⟨g, hg'⟩ := List.length_eq_one_iff.1 hg
  have hgood := eval_inv cs params hm
  rw [hg] at hgood
  obtain ⟨m1, h1, h2, h3⟩ := addConstant_ok params le_rfl hgood hg' (-v)
  obtain ⟨m2, h4, h5, h6⟩ := appendTerm_ok law params h2 xi proof.s
  unfold accepts verify
  rw [hn]
  simp only [bind, Except.bind, h1, h4, List.zip_nil_right, List.foldlM_nil, pure, Except.pure]
  rfl

omit [DecidableEq M] [AddCommGroup M] [Module Fr M] in
/-- C96: parameters can be made smaller with `downsize`. -/
theorem C96_downsize (params : Params M) (ok : Ok params) (k : Nat) (hk : k ≤ params.k) (h1 : 1 ≤ k) :
    ∃ params', downsize params k = .ok params' ∧ Ok params' ∧ params'.k = k ∧ params'.w = params.w ∧ params'.u = params.u ∧
      params'.g = params.g.take (2 ^ k) := by
  unfold downsize
  rw [if_neg (by omega)]
  refine ⟨_, rfl, ⟨h1, rfl, ?_⟩, rfl, rfl, rfl, rfl⟩
  have := Nat.pow_le_pow_right (n := 2) (by norm_num) hk
  simp [ok.g, ok.n]
  omega

/-- C96: after `shrink` to something smaller the parameters are of no use: the prover panics for every polynomial, the verifier
for every proof. -/
theorem C96_shrink (cs : Coords K M) (params : Params M) (ok : Ok params) (k : Nat) (hk : k < params.k) :
    ∃ params', shrink params k = .ok params' ∧
      (∀ draws p blind x xi z us, ∃ e, prove params' draws p blind x xi z us = .error e) ∧
      ∀ m : Msm K, (∀ g, m.g = some g → g.length = params.n) → ∀ proof x v xi z us,
        ∃ e, accepts cs params' m proof x v xi z us = .error e := by
  unfold shrink
  rw [if_neg (by omega)]
  have hlt : 2 ^ k < params.n := by
    rw [ok.n]
    exact Nat.pow_lt_pow_right (by norm_num) hk
  have hl : (params.g.take (2 ^ k)).length = 2 ^ k := by
    rw [List.length_take, ok.g]
    omega
  refine ⟨_, rfl, ?_, ?_⟩
  · intro draws p blind x xi z us
    unfold prove
    dsimp only
    by_cases hp : p.length = params.n
    · rw [if_neg (by simpa using hp)]
      cases hs : draws.s with
      | nil => exact ⟨_, rfl⟩
      | cons s0 ss =>
        simp only [bind, Except.bind]
        cases hc : commit { params with g := params.g.take (2 ^ k) } ((s0 - evalPolynomial (s0 :: ss) x) :: ss) draws.sBlind with
        | error e => exact ⟨e, rfl⟩
        | ok a =>
          have := (multiexp_ok hc).1
          dsimp only at this
          rw [List.length_append, List.length_append, hl] at this
          dsimp only
          rw [if_pos (by simp at this ⊢; omega)]
          exact ⟨_, rfl⟩
    · rw [if_pos hp]
      exact ⟨_, rfl⟩
  · intro m hm proof x v xi z us
    cases h : accepts cs { params with g := params.g.take (2 ^ k) } m proof x v xi z us with
    | error e => exact ⟨e, rfl⟩
    | ok b =>
      obtain ⟨m', a, g, h1, h2, h3⟩ := accepts_inv (params := { params with g := params.g.take (2 ^ k) }) hm h
      have := (eval_inv cs _ h1).g g h2
      dsimp only at this h3
      omega

/-- C97: openings that are accepted one by one are accepted together. -/
theorem C97_complete {cs : Coords K M} (law : Lawful cs) (params : Params M) (ok : Ok params) (items : List (Item M))
    (hu : ∀ i ∈ items, i.us.length = params.k)
    (h : ∀ i ∈ items, ∃ m : Msm K, m.eval cs params = .ok i.commitment ∧ accepts cs params m i.proof i.x i.v i.xi i.z i.us = .ok true) :
    acceptsBatch cs params items = .ok true := by
  obtain ⟨g0, gs, hg⟩ := g_cons ok
  rw [batch_eq law params ok hg items hu]
  refine congrArg Except.ok (decide_eq_true ?_)
  induction items with
  | nil => rfl
  | cons i items ih =>
    obtain ⟨m, h1, h2⟩ := h i (by simp)
    rw [accepts_defect law params ok hg i (hu i (by simp)) h1] at h2
    have h3 := of_decide_eq_true (Except.ok.inj h2)
    rw [List.foldl_cons, h3, smul_zero, add_zero]
    exact ih (fun j hj => hu j (by simp [hj])) (fun j hj => h j (by simp [hj]))

/-- C97, as far as it holds: a batch of one opening is accepted exactly if the opening is. -/
theorem C97_one_partial {cs : Coords K M} (law : Lawful cs) (params : Params M) (ok : Ok params) (i : Item M)
    (hu : i.us.length = params.k) {m : Msm K} (hm : m.eval cs params = .ok i.commitment) :
    acceptsBatch cs params [i] = accepts cs params m i.proof i.x i.v i.xi i.z i.us := by
  obtain ⟨g0, gs, hg⟩ := g_cons ok
  rw [batch_eq law params ok hg [i] (by simpa using hu), accepts_defect law params ok hg i hu hm, List.foldl_cons, List.foldl_nil,
    smul_zero, zero_add]

/-- C97 is false in the other direction: openings that are accepted together need not be right. Take two that are accepted and add `δ` to the value that the
first claims, take `42 δ` from the value that the second claims: both are rejected alone, together they are accepted. -/
theorem C97_unsound {cs : Coords K M} (law : Lawful cs) (params : Params M) (ok : Ok params) {g0 : M} {gs : List M}
    (hg : params.g = g0 :: gs) (h0 : g0 ≠ 0) (δ : Fr) (hδ : δ ≠ 0) (i₁ i₂ : Item M) (hu₁ : i₁.us.length = params.k)
    (hu₂ : i₂.us.length = params.k) {m₁ m₂ : Msm K} (h₁ : m₁.eval cs params = .ok i₁.commitment)
    (h₂ : m₂.eval cs params = .ok i₂.commitment)
    (hi₁ : accepts cs params m₁ i₁.proof i₁.x i₁.v i₁.xi i₁.z i₁.us = .ok true)
    (hi₂ : accepts cs params m₂ i₂.proof i₂.x i₂.v i₂.xi i₂.z i₂.us = .ok true) :
    acceptsBatch cs params [{ i₁ with v := i₁.v + δ }, { i₂ with v := i₂.v - 42 * δ }] = .ok true ∧
      accepts cs params m₁ i₁.proof i₁.x (i₁.v + δ) i₁.xi i₁.z i₁.us = .ok false ∧
      accepts cs params m₂ i₂.proof i₂.x (i₂.v - 42 * δ) i₂.xi i₂.z i₂.us = .ok false := by
  rw [accepts_defect law params ok hg i₁ hu₁ h₁] at hi₁
  rw [accepts_defect law params ok hg i₂ hu₂ h₂] at hi₂
  have d₁ := of_decide_eq_true (Except.ok.inj hi₁)
  have d₂ := of_decide_eq_true (Except.ok.inj hi₂)
  have e₁ : defect params g0 { i₁ with v := i₁.v + δ } = -(δ • g0) := by
    rw [← sub_zero (defect params g0 { i₁ with v := i₁.v + δ }), ← d₁]
    unfold defect rest
    module
  have e₂ : defect params g0 { i₂ with v := i₂.v - 42 * δ } = (42 * δ) • g0 := by
    rw [← sub_zero (defect params g0 { i₂ with v := i₂.v - 42 * δ }), ← d₂]
    unfold defect rest
    module
  have h42 : (42 : Fr) ≠ 0 := by
    intro hc
    have : ((42 : Nat) : Fr) = 0 := by exact_mod_cast hc
    rw [ZMod.natCast_eq_zero_iff] at this
    exact absurd (Nat.le_of_dvd (by norm_num) this) (by norm_num [P])
  refine ⟨?_, ?_, ?_⟩
  · rw [batch_eq law params ok hg _ (by simp [hu₁, hu₂])]
    refine congrArg Except.ok (decide_eq_true ?_)
    rw [List.foldl_cons, List.foldl_cons, List.foldl_nil, e₁, e₂]
    module
  · rw [accepts_defect law params ok hg { i₁ with v := i₁.v + δ } hu₁ h₁, e₁]
    refine congrArg Except.ok (decide_eq_false ?_)
    rw [neg_eq_zero, smul_eq_zero]
    tauto
  · rw [accepts_defect law params ok hg { i₂ with v := i₂.v - 42 * δ } hu₂ h₂, e₂]
    refine congrArg Except.ok (decide_eq_false ?_)
    rw [smul_eq_zero, mul_eq_zero]
    tauto

open WeierstrassCurve.Affine in
/-- C96: the points of any curve have such coordinates. -/
theorem C96_curve {F : Type} [Field F] [DecidableEq F] (b : F) : Lawful (curveCoords b) := by
  refine ⟨?_, ?_⟩
  · intro p hp
    cases p with
    | zero => exact absurd rfl hp
    | some x y h =>
      refine ⟨x, y, rfl, ?_⟩
      simp [curveCoords, h]
  · intro x y y' p p' h1 h2
    unfold curveCoords at h1 h2
    dsimp only at h1 h2
    split at h1
    · rename_i n1
      split at h2
      · rename_i n2
        cases h1
        cases h2
        have e1 := point_eq n1
        have e2 := point_eq n2
        have : (y - y') * (y + y') = 0 := by linear_combination e1 - e2
        rcases mul_eq_zero.1 this with h | h
        · exact .inl (sub_eq_zero.1 h)
        · have hy : y = -y' := eq_neg_of_add_eq_zero_left h
          refine .inr ⟨hy, ?_⟩
          subst hy
          rw [Point.neg_some]
          congr 1
          simp [negY, curve]
      · cases h2
    · cases h1

/-! ### Examples -/

/-- A group as its own coordinates. -/
def plainCoords (M : Type) [AddCommGroup M] [DecidableEq M] : Coords M M where
  coords p := if p = 0 then none else some (p, 0)
  fromXY x y := if y = 0 then some x else none

theorem plainCoords_lawful (M : Type) [AddCommGroup M] [DecidableEq M] : Lawful (plainCoords M) := by
  refine ⟨fun p hp => ⟨p, 0, by simp [plainCoords, hp], by simp [plainCoords]⟩, ?_⟩
  intro x y y' p p' h1 h2
  unfold plainCoords at h1 h2
  dsimp only at h1 h2
  split at h1
  · split at h2
    · left
      simp_all
    · cases h2
  · cases h1

/-- The sum that is one point. -/
theorem single_eval (params : Params M) (law : Lawful cs) (a : M) :
    ∃ m : Msm K, m.eval cs params = .ok a := by
  obtain ⟨h1, h2⟩ := empty_good cs params params.g.length
  obtain ⟨m, -, h4, h5⟩ := appendTerm_ok law params h1 1 a
  exact ⟨m, by rw [eval_eq cs params h4, h5, h2, zero_add, one_smul]⟩

/-- Parameters without relations, for polynomials with two coefficients. -/
example : Ok (Rep.params 1 2) ∧ Independent (Rep.params 1 2) :=
  ⟨⟨by decide, rfl, by simp [Rep.params]⟩, rep_independent 1 2⟩

/-- The opening of `3 + 5 X` at 2. -/
example : ∃ (m : Msm (Rep 2)) (proof : Proof (Rep 2)),
    prove (Rep.params 1 2) ⟨[8, 9], 4, [(1, 2)]⟩ [3, 5] 6 2 10 11 [7] = .ok proof ∧
      accepts (plainCoords (Rep 2)) (Rep.params 1 2) m proof 2 (polyAt [3, 5] 2) 10 11 [7] = .ok true := by
  have ok : Ok (Rep.params 1 2) := ⟨by decide, rfl, by simp [Rep.params]⟩
  have law := plainCoords_lawful (Rep 2)
  obtain ⟨m, hm⟩ := single_eval (Rep.params 1 2) law (dot [3, 5] (Rep.params 1 2).g + (6 : Fr) • (Rep.params 1 2).w)
  obtain ⟨proof, h1, h2⟩ := C96_complete law (Rep.params 1 2) ok ⟨[8, 9], 4, [(1, 2)]⟩ rfl rfl [3, 5] rfl 6 2 10 11 [7] rfl
    (by simp; decide +kernel) hm (Spec.Ipa.commit_eq (Rep.params 1 2) ok rfl 6)
  exact ⟨m, proof, h1, h2⟩

/-- A wrong claim about it. -/
example : ¬ Opens (Rep.params 1 2) ((![3, 5], 6, 0) : Rep 2) 2 14 := by
  intro h
  have := (rep_opens h).2
  revert this
  simp [polyAt]
  decide +kernel

/-- Parameters with relations: the numbers modulo `P` as the group. -/
example : Ok (⟨1, 2, [1, 2], 3, 4⟩ : Params Fr) ∧ ¬ Independent (⟨1, 2, [1, 2], 3, 4⟩ : Params Fr) := by
  refine ⟨⟨by decide, rfl, rfl⟩, ?_⟩
  intro h
  have := (h [-2, 1] 0 0 rfl (by simp [dot])).1 1 (by simp)
  exact one_ne_zero this

#print axioms C96_complete
#print axioms C96_zero
#print axioms C96_sound
#print axioms C96_binding
#print axioms C96_total
#print axioms C96_useG
#print axioms C96_sums
#print axioms C96_one
#print axioms C96_downsize
#print axioms C96_shrink
#print axioms C96_curve
#print axioms C97_complete
#print axioms C97_one_partial
#print axioms C97_unsound

end Verif.Props

import Verif.Lemmas.IpaOpenComplete
import Verif.Props.Ipa

/-! Property C98: the opening of many claims without a trusted setup. -/

namespace Verif.Props

open Spec Spec.Ipa Spec.IpaOpen Verif.IpaOpen
open Verif.Ipa (Coords Msm Params Draws)
open Shplonk (Claim)

variable {ρ M K : Type} [DecidableEq ρ] [AddCommGroup M] [Module Fr M]

/-- The claims, about commitments. -/
def commitments (params : Params M) (qs : List (Claim ρ (List Fr × Fr))) : List (Claim ρ M) :=
  qs.map fun q => ⟨q.ref, commitment params q.object, q.point, q.value⟩

omit [DecidableEq ρ] in
theorem commitments_same (params : Params M) (qs : List (Claim ρ (List Fr × Fr))) :
    List.Forall₂ (Same fun o a => a = commitment params o) qs (commitments params qs) := by
  unfold commitments
  induction qs with
  | nil => exact .nil
  | cons q qs ih => exact .cons ⟨rfl, rfl, rfl, rfl⟩ ih

omit [DecidableEq ρ] in
theorem points_card (qs : List (Claim ρ T)) : (points qs).length = (qs.map Claim.point).toFinset.card := by
  rw [← List.toFinset_card_of_nodup (points_spec qs).1]
  congr 1
  ext p
  simp [(points_spec qs).2 p]

variable [DecidableEq M] [DecidableEq K] [Neg K]

/-- C98: true claims about committed polynomials are accepted, for all random values, all challenges without a zero in the rounds and
all points `x3` that are not queried. The verifier can have the commitments as points or as sums. -/
theorem C98_complete {coords : Coords K M} (law : Lawful coords) (params : Params M) (ok : Ok params)
    (qs : List (Claim ρ (List Fr × Fr))) (hne : qs ≠ []) (hc : Consistent qs) (ht : ∀ q ∈ qs, q.value = polyAt q.object.1 q.point)
    (hl : ∀ q ∈ qs, q.object.1.length = params.n) (hn : (qs.map Claim.point).toFinset.card ≤ params.n)
    (cs : List (Claim ρ (Committed K M))) (hcs : List.Forall₂ (Same fun o c => Stands coords params c (commitment params o)) qs cs)
    (draws : Draws) (hs : draws.s.length = params.n) (hr : draws.rounds.length = params.k) (x1 x2 qPrimeBlind x3 x4 xi z : Fr)
    (hx : ∀ q ∈ qs, q.point ≠ x3) (us : List Fr) (hu : us.length = params.k) (h0 : ∀ u ∈ us, u ≠ 0) :
    ∃ proof, prove params qs x1 x2 qPrimeBlind x3 x4 draws xi z us = .ok proof ∧
      accepts coords params cs proof x1 x2 x3 x4 xi z us = .ok true := by
  have hx' : x3 ∉ points qs := by
    rw [(points_spec qs).2]
    rintro ⟨q, hq, h⟩
    exact hx q hq h
  obtain ⟨qPrime, p, r, u, h1, h2, h3, h4, h5, h6⟩ := prover_ok ok hne hc ht hl (by rw [points_card]; exact hn) hx' x1 x2 qPrimeBlind x4
  obtain ⟨m, hm⟩ := single_eval params law (commitment params (p, r))
  obtain ⟨ipa, a1, a2⟩ := C96_complete law params ok draws hs hr p h2 r x3 xi z us hu h0 hm (Spec.Ipa.commit_eq params ok h2 r)
  refine ⟨⟨commitment params (qPrime, qPrimeBlind), u, ipa⟩, ?_, ?_⟩
  · rw [h4, a1]
    rfl
  · obtain ⟨g0, gs, hg⟩ := g_cons ok
    have hsame := commitments_same params qs
    have hstand : Standing coords params (commitments params qs) cs := by
      unfold Standing commitments
      rw [List.forall₂_map_left_iff]
      exact hcs.imp fun _ _ h => ⟨h.ref, h.point, h.value, h.object⟩
    rw [Spec.Ipa.accepts_eq law params ok hm hg _ _ _ _ _ hu] at a2
    have hd := of_decide_eq_true (Except.ok.inj a2)
    rw [((accepts_eq law ok hg hstand _ x1 x2 x3 x4 xi z hu).2.1) (by rw [pointSets_same hsame]; dsimp only; omega)
      (by rw [points_same hsame]; exact hx')]
    refine congrArg Except.ok (decide_eq_true (Eq.trans ?_ hd))
    unfold IpaOpen.defect
    dsimp only
    rw [pointSets_same hsame, List.take_of_length_le h3.le, finalValue_same hsame, ← h5, h6]
    congr 2
    unfold finalPoint setPoint
    rw [pointSets_same hsame]
    congr 2
    refine List.map_congr_left fun s _ => ?_
    congr 1
    have : ∀ {a : List (Claim ρ (List Fr × Fr))} {b : List (Claim ρ M)}, List.Forall₂ (Same fun o a => a = commitment params o) a b →
        b.map Claim.object = a.map fun q => commitment params q.object := by
      intro a b hab
      induction hab with
      | nil => rfl
      | cons h _ ih => rw [List.map_cons, List.map_cons, ih, h.object]
    exact this (group_same hsame s)

/-- C98: a wrong claim among claims that do not contradict each other is rejected, whatever the prover does, but for few challenges. -/
theorem C98_sound {coords : Coords K M} (law : Lawful coords) (params : Params M) (ok : Ok params) (ind : Independent params)
    (ps : List (Claim ρ M)) (hc : Consistent ps) (hf : Functional ps) (hfalse : ∃ q ∈ ps, ¬ Opens params q.object q.point q.value)
    (σ : Spec.IpaOpen.Strategy M) :
    ∃ (B1 : Finset Fr) (B2 : Fr → Finset Fr) (B3 : Fr → Fr → Finset Fr) (B4 : Fr → Fr → Fr → Finset Fr)
      (bx : Fr → Fr → Fr → Fr → Finset Fr) (bz : Fr → Fr → Fr → Fr → Fr → Finset Fr)
      (bu : Fr → Fr → Fr → Fr → Fr → Fr → List Fr → Finset Fr),
      B1.card < ps.length ∧ (∀ x1, (B2 x1).card < ps.length) ∧
      (∀ x1 x2, (B3 x1 x2).card ≤ (ps.map Claim.point).toFinset.card + params.n) ∧
      (∀ x1 x2 x3, (B4 x1 x2 x3).card ≤ ps.length) ∧ (∀ x1 x2 x3 x4, (bx x1 x2 x3 x4).card ≤ 1) ∧
      (∀ x1 x2 x3 x4 xi, (bz x1 x2 x3 x4 xi).card ≤ 1) ∧ (∀ x1 x2 x3 x4 xi z us, (bu x1 x2 x3 x4 xi z us).card ≤ 2) ∧
      ∀ cs : List (Claim ρ (Committed K M)), List.Forall₂ (Same fun a c => Stands coords params c a) ps cs →
        ∀ x1 x2 x3 x4 xi z (us : List Fr), us.length = params.k →
        accepts coords params cs (σ.proof x1 x2 x3 x4 xi z us) x1 x2 x3 x4 xi z us = .ok true →
        x1 ∈ B1 ∨ x2 ∈ B2 x1 ∨ x3 ∈ B3 x1 x2 ∨ x4 ∈ B4 x1 x2 x3 ∨ xi ∈ bx x1 x2 x3 x4 ∨ z ∈ bz x1 x2 x3 x4 xi ∨
          ∃ j, ∃ hj : j < us.length, us[j] ∈ bu x1 x2 x3 x4 xi z (us.take j) := by
  obtain ⟨g0, gs, hg⟩ := g_cons ok
  obtain ⟨B1, B2, B3, B4, bx, bz, bu, h1, h2, h3, h4, h5, h6, h7, h8⟩ := open_sound ok ind hg hc hf hfalse σ
  refine ⟨B1, B2, B3, B4, bx, bz, bu, h1, h2, by rwa [← points_card], h4, h5, h6, h7, ?_⟩
  intro cs hcs x1 x2 x3 x4 xi z us hus hacc
  obtain ⟨a1, a2, a3⟩ := accepts_eq law ok hg hcs (σ.proof x1 x2 x3 x4 xi z us) x1 x2 x3 x4 xi z hus
  by_cases hl : (σ.u x1 x2 x3).length < (pointSets ps).length
  · rw [a1 hl] at hacc
    cases hacc
  · by_cases hx : x3 ∈ points ps
    · exact absurd hacc (a3 hl hx true)
    · rw [a2 hl hx] at hacc
      exact h8 x1 x2 x3 x4 xi z us hus hx hl (of_decide_eq_true (Except.ok.inj hacc))

/-- The claims, about the points with these coefficients. -/
def values (params : Params M) (ps : List (Claim ρ (Rep params.n))) : List (Claim ρ M) :=
  ps.map fun q => ⟨q.ref, q.object.value params, q.point, q.value⟩

/-- C98, for a curve: take a prover that makes its points from the parameters, so that it knows their coefficients, as it does for the
commitments. If a claim is wrong, then, but for few challenges, it knows coefficients, not all zero, and the verifier accepts only
if they are a relation between the parameters. -/
theorem C98_binding {coords : Coords K M} (law : Lawful coords) (params : Params M) (ok : Ok params)
    (ps : List (Claim ρ (Rep params.n))) (hc : Consistent ps) (hf : Functional ps)
    (hfalse : ∃ q ∈ ps, ¬ (q.object.2.2 = 0 ∧ polyAt (List.ofFn q.object.1) q.point = q.value)) (σ : Spec.IpaOpen.Strategy (Rep params.n)) :
    ∃ (relation : Fr → Fr → Fr → Fr → Fr → Fr → List Fr → Rep params.n)
      (B1 : Finset Fr) (B2 : Fr → Finset Fr) (B3 : Fr → Fr → Finset Fr) (B4 : Fr → Fr → Fr → Finset Fr)
      (bx : Fr → Fr → Fr → Fr → Finset Fr) (bz : Fr → Fr → Fr → Fr → Fr → Finset Fr)
      (bu : Fr → Fr → Fr → Fr → Fr → Fr → List Fr → Finset Fr),
      (∃ g0, ∀ x1 x2 x3 x4 xi z us, relation x1 x2 x3 x4 xi z us =
        IpaOpen.defect (Rep.params params.k params.n) g0 ps (σ.proof x1 x2 x3 x4 xi z us) x1 x2 x3 x4 xi z us) ∧
      B1.card < ps.length ∧ (∀ x1, (B2 x1).card < ps.length) ∧
      (∀ x1 x2, (B3 x1 x2).card ≤ (ps.map Claim.point).toFinset.card + params.n) ∧
      (∀ x1 x2 x3, (B4 x1 x2 x3).card ≤ ps.length) ∧ (∀ x1 x2 x3 x4, (bx x1 x2 x3 x4).card ≤ 1) ∧
      (∀ x1 x2 x3 x4 xi, (bz x1 x2 x3 x4 xi).card ≤ 1) ∧ (∀ x1 x2 x3 x4 xi z us, (bu x1 x2 x3 x4 xi z us).card ≤ 2) ∧
      ∀ cs : List (Claim ρ (Committed K M)), List.Forall₂ (Same fun a c => Stands coords params c a) (values params ps) cs →
        ∀ x1 x2 x3 x4 xi z (us : List Fr), us.length = params.k → x1 ∉ B1 → x2 ∉ B2 x1 → x3 ∉ B3 x1 x2 → x4 ∉ B4 x1 x2 x3 →
        xi ∉ bx x1 x2 x3 x4 → z ∉ bz x1 x2 x3 x4 xi → (∀ j, ∀ hj : j < us.length, us[j] ∉ bu x1 x2 x3 x4 xi z (us.take j)) →
        accepts coords params cs ((σ.value params).proof x1 x2 x3 x4 xi z us) x1 x2 x3 x4 xi z us = .ok true →
        relation x1 x2 x3 x4 xi z us ≠ 0 ∧ (relation x1 x2 x3 x4 xi z us).value params = 0 := by
  obtain ⟨g0, gs, hg⟩ := g_cons (rep_ok ok)
  obtain ⟨q, hq, hno⟩ := hfalse
  obtain ⟨B1, B2, B3, B4, bx, bz, bu, h1, h2, h3, h4, h5, h6, h7, h8⟩ := open_sound (rep_ok ok) (rep_independent params.k params.n) hg hc hf
    ⟨q, hq, fun ho => hno (rep_opens ho)⟩ σ
  refine ⟨_, B1, B2, B3, B4, bx, bz, bu, ⟨g0, fun _ _ _ _ _ _ _ => rfl⟩, h1, h2, by rw [← points_card]; exact h3, h4, h5, h6, h7, ?_⟩
  intro cs hcs x1 x2 x3 x4 xi z us hus n1 n2 n3 n4 n5 n6 n7 hacc
  have hG := value_gens ok
  rw [hg, List.map_cons] at hG
  have hsame : List.Forall₂ (Same fun a b => b = valueMap params a) ps (values params ps) := by
    unfold values
    clear hcs hno hq h8 h4 h3 h2 h1 hc hf
    induction ps with
    | nil => exact .nil
    | cons q ps ih => exact .cons ⟨rfl, rfl, rfl, rfl⟩ ih
  obtain ⟨a1, a2, a3⟩ := accepts_eq law ok hG.symm hcs ((σ.value params).proof x1 x2 x3 x4 xi z us) x1 x2 x3 x4 xi z hus
  rw [pointSets_same hsame, points_same hsame] at *
  by_cases hl : (σ.u x1 x2 x3).length < (pointSets ps).length
  · rw [a1 hl] at hacc
    cases hacc
  by_cases hx : x3 ∈ points ps
  · exact absurd hacc (a3 hl hx true)
  rw [a2 hl hx] at hacc
  have hd := of_decide_eq_true (Except.ok.inj hacc)
  refine ⟨fun hz => ?_, ?_⟩
  · rcases h8 x1 x2 x3 x4 xi z us hus hx hl hz with c | c | c | c | c | c | ⟨j, hj, c⟩
    · exact n1 c
    · exact n2 c
    · exact n3 c
    · exact n4 c
    · exact n5 c
    · exact n6 c
    · exact n7 j hj c
  · refine Eq.trans ?_ hd
    show valueMap params _ = _
    have hobj : ∀ s, setPoint x1 (values params ps) s = valueMap params (setPoint x1 ps s) := by
      intro s
      unfold setPoint
      rw [← horner_map, List.map_map]
      congr 1
      have : ∀ {a : List (Claim ρ (Rep params.n))} {b : List (Claim ρ M)}, List.Forall₂ (Same fun a b => b = valueMap params a) a b →
          b.map Claim.object = a.map (valueMap params ∘ Claim.object) := by
        intro a b hab
        induction hab with
        | nil => rfl
        | cons h _ ih => rw [List.map_cons, List.map_cons, ih, h.object]; rfl
      exact this (group_same hsame s)
    have hfin : ∀ q, finalPoint x1 x4 (values params ps) (valueMap params q) = valueMap params (finalPoint x1 x4 ps q) := by
      intro q
      unfold finalPoint
      rw [← horner_map, pointSets_same hsame, List.map_cons, List.map_map]
      congr 2
      exact List.map_congr_left fun s _ => hobj s
    unfold IpaOpen.defect
    rw [finalValue_same hsame, pointSets_same hsame]
    rw [map_sub, map_add, map_smul, ← dot_map, value_gens ok, ← hfin]
    unfold rest
    simp only [map_add, map_sub, map_neg, map_smul, value_w, value_u, value_sent]
    unfold Spec.IpaOpen.Strategy.proof Spec.IpaOpen.Strategy.value Spec.Ipa.Strategy.proof Spec.Ipa.Strategy.value
    simp only [List.map_map]
    rfl

/-- C98: what the verifier can answer: it rejects a proof with too few values, it panics if `x3` is a point that is queried, and it gives
an answer otherwise, whatever the proof. -/
theorem C98_answers {coords : Coords K M} (law : Lawful coords) (params : Params M) (ok : Ok params) (ps : List (Claim ρ M))
    (cs : List (Claim ρ (Committed K M))) (hcs : List.Forall₂ (Same fun a c => Stands coords params c a) ps cs) (proof : OpenProof M)
    (x1 x2 x3 x4 xi z : Fr) (us : List Fr) (hu : us.length = params.k) :
    ((∃ q ∈ ps, q.point = x3) → (∃ e, accepts coords params cs proof x1 x2 x3 x4 xi z us = .error e) ∨
      accepts coords params cs proof x1 x2 x3 x4 xi z us = .ok false) ∧
    ((∃ q ∈ ps, q.point = x3) → ps.length ≤ proof.u.length → ∃ e, accepts coords params cs proof x1 x2 x3 x4 xi z us = .error e) ∧
    ((∀ q ∈ ps, q.point ≠ x3) → ∃ b, accepts coords params cs proof x1 x2 x3 x4 xi z us = .ok b) := by
  obtain ⟨g0, gs, hg⟩ := g_cons ok
  obtain ⟨a1, a2, a3⟩ := accepts_eq law ok hg hcs proof x1 x2 x3 x4 xi z hu
  have hpanic : ¬ proof.u.length < (pointSets ps).length → (∃ q ∈ ps, q.point = x3) →
      ∃ e, accepts coords params cs proof x1 x2 x3 x4 xi z us = .error e := by
    intro hl hx
    have := a3 hl (((points_spec ps).2 x3).2 hx)
    cases h : accepts coords params cs proof x1 x2 x3 x4 xi z us with
    | error e => exact ⟨e, rfl⟩
    | ok b => exact absurd h (this b)
  refine ⟨fun hx => ?_, fun hx hl => hpanic (by have := (pointSets_spec ps).2.2; omega) hx, fun hx => ?_⟩
  · by_cases hl : proof.u.length < (pointSets ps).length
    · exact .inr (a1 hl)
    · exact .inl (hpanic hl hx)
  · by_cases hl : proof.u.length < (pointSets ps).length
    · exact ⟨false, a1 hl⟩
    · exact ⟨_, a2 hl fun hc => by
        obtain ⟨q, hq, h⟩ := ((points_spec ps).2 x3).1 hc
        exact hx q hq h⟩

/-! ### Examples -/

/-- Two polynomials with two coefficients, the first opened at 1 and 2, the second at 1. -/
def twoClaims : List (Claim Nat (List Fr × Fr)) := [⟨0, ([3, 5], 6), 1, 8⟩, ⟨1, ([1, 1], 7), 1, 2⟩, ⟨0, ([3, 5], 6), 2, 13⟩]

example : ∃ (cs : List (Claim Nat (Committed (Rep 2) (Rep 2)))) (proof : OpenProof (Rep 2)),
    prove (Rep.params 1 2) twoClaims 4 5 6 7 8 ⟨[8, 9], 4, [(1, 2)]⟩ 10 11 [7] = .ok proof ∧
      accepts (plainCoords (Rep 2)) (Rep.params 1 2) cs proof 4 5 7 8 10 11 [7] = .ok true := by
  have ok : Ok (Rep.params 1 2) := ⟨by decide, rfl, by simp [Rep.params]⟩
  have law := plainCoords_lawful (Rep 2)
  obtain ⟨proof, h1, h2⟩ := C98_complete law (Rep.params 1 2) ok twoClaims (by simp [twoClaims]) (by simp [Consistent, twoClaims])
    (by simp [twoClaims, polyAt]; decide +kernel) (by simp [twoClaims, Rep.params]) (by simp only [twoClaims, Rep.params]; decide +kernel)
    (twoClaims.map fun q => ⟨q.ref, .point (commitment (Rep.params 1 2) q.object), q.point, q.value⟩)
    (by
      rw [List.forall₂_map_right_iff, List.forall₂_same]
      exact fun _ _ => ⟨rfl, rfl, rfl, rfl⟩)
    ⟨[8, 9], 4, [(1, 2)]⟩ rfl rfl 4 5 6 7 8 10 11 (by simp [twoClaims]; decide +kernel) [7] rfl (by simp; decide +kernel)
  exact ⟨_, proof, h1, h2⟩

/-- Claims that do not contradict each other, the last one wrong. -/
example : ∃ ps : List (Claim Nat (Rep 2)), Consistent ps ∧ Functional ps ∧
    ∃ q ∈ ps, ¬ (q.object.2.2 = 0 ∧ polyAt (List.ofFn q.object.1) q.point = q.value) := by
  refine ⟨[⟨0, (![3, 5], 6, 0), 1, 8⟩, ⟨1, (![1, 1], 7, 0), 1, 2⟩, ⟨0, (![3, 5], 6, 0), 2, 14⟩], by simp [Consistent], ?_, ?_⟩
  · simp [Functional]
    decide +kernel
  · refine ⟨⟨0, (![3, 5], 6, 0), 2, 14⟩, by simp, ?_⟩
    rintro ⟨-, h⟩
    revert h
    simp [polyAt]
    decide +kernel

#print axioms C98_complete
#print axioms C98_sound
#print axioms C98_binding
#print axioms C98_answers

end Verif.Props

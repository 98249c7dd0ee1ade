import Verif.Lemmas.Gwc
import Verif.Lemmas.KzgLemmas
import Verif.Props.Domain

/-! Property C93: opening queries with one quotient per point. -/

namespace Verif.Props

open Spec Plonk Shplonk

variable {ρ : Type} {G G₂ GT : Type} [AddCommGroup G] [Module Fr G]
variable [AddCommGroup G₂] [Module Fr G₂] [AddCommGroup GT] [Module Fr GT] [DecidableEq GT]

/-- How many points there are in the claims. -/
def pointCount {T : Type} (qs : List (Claim ρ T)) : Nat := (qs.map (·.point)).dedup.length

/-- C93, true claims. Take parameters for polynomials of `2^k` coefficients made from any secret, any true claims about
such polynomials and the verifier's claims about their commitments. Whatever the challenges, without exception, the prover
makes one polynomial for each of the points and commits to it without panic, and the verifier accepts the commitments. -/
theorem C93_complete (pairing : G →ₗ[Fr] G₂ →ₗ[Fr] GT) (g1 : G) (g2 : G₂) (k : Nat) (s : Fr)
    (p : Srs G G₂) (hp : Srs.setup g1 g2 k s = .ok p)
    (ps : List (Claim ρ (List Fr))) (cs : List (Claim ρ (Committed G)))
    (hsame : List.Forall₂ (SameClaim s g1) ps cs) (ht : ∀ q ∈ ps, ClaimTrue q)
    (hl : ∀ q ∈ ps, q.object.length = 2 ^ k) (v u : Fr) :
    ∃ polys ws g0, Gwc.openAll ps v = .ok polys ∧ polys.length = pointCount ps ∧
      List.Forall₂ (fun w c => p.commit w = .ok c) polys ws ∧
      p.g[0]? = some g0 ∧ Gwc.accepts pairing g0 p.g2 p.sG2 cs v ws u = .ok true := by
  rw [setup_eq] at hp
  split at hp
  · exact absurd hp (by simp)
  · split at hp
    · exact absurd hp (by simp)
    · obtain rfl := Except.ok.inj hp
      have hg := Gwc.groups_ok ps
      have hall : ∀ gs : List (Fr × List (Claim ρ (List Fr))), (∀ e ∈ gs, e ∈ Gwc.groups ps) →
          ∃ polys, gs.mapM (Gwc.openAt v) = .ok polys ∧ polys.length = gs.length ∧ (∀ w ∈ polys, w.length ≤ 2 ^ k) ∧
            ∀ x ∈ gs.zip polys, Gwc.defect v s x = 0 := by
        intro gs
        induction gs with
        | nil => intro _; exact ⟨[], rfl, rfl, by simp, by simp⟩
        | cons e gs ih =>
          intro h
          obtain ⟨polys, h1, h2, h3, h4⟩ := ih fun e he => h e (by simp [he])
          have he := h e (by simp)
          obtain ⟨w, w1, w2, w3⟩ := Gwc.openAt_ok (Nat.two_pow_pos k) v e (hg.nonempty e he) (hg.point e he)
            (fun q hq => hl q ((hg.mem q).2 ⟨e, he, hq⟩)) (fun q hq => ht q ((hg.mem q).2 ⟨e, he, hq⟩))
          refine ⟨w :: polys, ?_, by simp [h2], ?_, ?_⟩
          · rw [List.mapM_cons, w1, h1]
            rfl
          · intro x hx
            rcases List.mem_cons.1 hx with rfl | hx
            · omega
            · exact h3 x hx
          · intro x hx
            rw [List.zip_cons_cons] at hx
            rcases List.mem_cons.1 hx with rfl | hx
            · exact w3 s
            · exact h4 x hx
      obtain ⟨polys, h1, h2, h3, h4⟩ := hall _ fun e he => he
      refine ⟨polys, polys.map fun w => polyAt w s • g1, g1, h1, by rw [h2, Gwc.groups_length]; rfl, ?_, ?_, ?_⟩
      · rw [List.forall₂_map_right_iff, List.forall₂_same]
        intro w hw
        exact commit_srsFor g1 g2 k s w (h3 w hw)
      · simp [srsFor, Nat.two_pow_pos k]
      · show Gwc.accepts pairing g1 g2 (s • g2) cs v _ u = _
        rw [Gwc.accepts_value pairing g1 g2 s hsame, polyAt_map_zero _ _ _ h4]
        simp

/-- C93, false claims. The prover answers with one polynomial of at most `N` coefficients for each point, any functions
of the challenge `v`. If one of its claims is false, the verifier's check passes only if `v`, `u` or the secret falls in a
set that is fixed before it is drawn (the secret counts as drawn last) and small: fewer elements than there are claims
for `v`, fewer than there are points for `u`, at most `N` for the secret. -/
theorem C93_sound (ps : List (Claim ρ (List Fr))) (hfalse : ∃ q ∈ ps, ¬ ClaimTrue q) (N : Nat)
    (hl : ∀ q ∈ ps, q.object.length ≤ N) (ws : Fr → List (List Fr)) (hw : ∀ v, (ws v).length = pointCount ps)
    (hlw : ∀ v, ∀ w ∈ ws v, w.length ≤ N) :
    ∃ (Bv : Finset Fr) (Bu : Fr → Finset Fr) (Bs : Fr → Fr → Finset Fr),
      Bv.card < ps.length ∧ (∀ v, (Bu v).card < pointCount ps) ∧ (∀ v u, (Bs v u).card ≤ N) ∧
      ∀ v u s, ∀ (pairing : G →ₗ[Fr] G₂ →ₗ[Fr] GT) (g : G) (g2 : G₂), pairing g g2 ≠ 0 →
        ∀ cs : List (Claim ρ (Committed G)), List.Forall₂ (SameClaim s g) ps cs →
        Gwc.accepts pairing g g2 (s • g2) cs v ((ws v).map fun w => polyAt w s • g) u = .ok true →
        v ∈ Bv ∨ u ∈ Bu v ∨ s ∈ Bs v u := by
  have := Gwc.sound (G := G) (G₂ := G₂) (GT := GT) hfalse hl ws (fun v => (hw v).trans (Gwc.groups_length ps).symm) hlw
  rwa [Gwc.groups_length] at this

/-- C93: the verifier's check never panics, whatever the claims, points and challenges. -/
theorem C93_total (pairing : G →ₗ[Fr] G₂ →ₗ[Fr] GT) (g0 : G) (g2 sG2 : G₂) (cs : List (Claim ρ (Committed G))) (v : Fr)
    (ws : List G) (u : Fr) : ∃ ok, Gwc.accepts pairing g0 g2 sG2 cs v ws u = .ok ok := by
  obtain ⟨left, right, h1, -, -⟩ := Gwc.verify_value g0 cs v ws u
  unfold Gwc.accepts
  rw [h1]
  show ∃ ok, check pairing g2 sG2 left right = .ok ok
  unfold check
  rw [evalMsm_eq, evalMsm_eq]
  exact ⟨_, rfl⟩

/-- Two polynomials, the first opened at 1 and 2, the second at 1, with the prover's secret: two commitments, accepted. -/
example (v u : Fr) : ∃ (p : Srs Fr Fr) (polys : List (List Fr)) (ws : List Fr) (g0 : Fr),
    Srs.setup (1 : Fr) (1 : Fr) 2 42 = .ok p ∧
    Gwc.openAll [⟨0, [1, 2, 3, 4], 1, 10⟩, ⟨1, [5, 0, 0, 1], 1, 6⟩, ⟨0, [1, 2, 3, 4], 2, 49⟩] v = .ok polys ∧
    polys.length = 2 ∧ List.Forall₂ (fun w c => p.commit w = .ok c) polys ws ∧ p.g[0]? = some g0 ∧
    Gwc.accepts (ρ := Nat) (LinearMap.mul Fr Fr) g0 p.g2 p.sG2 [⟨0, .point (polyAt [1, 2, 3, 4] 42), 1, 10⟩,
      ⟨1, .point (polyAt [5, 0, 0, 1] 42), 1, 6⟩, ⟨0, .point (polyAt [1, 2, 3, 4] 42), 2, 49⟩] v ws u = .ok true := by
  obtain ⟨p, hp⟩ := C43_secret (1 : Fr) (1 : Fr) 2 (by norm_num)
  have hsame : ∀ r (c : List Fr) (x w : Fr), SameClaim (ρ := Nat) 42 (1 : Fr) ⟨r, c, x, w⟩
      ⟨r, .point (polyAt c 42), x, w⟩ := fun r c x w => ⟨rfl, rfl, rfl, by simp [valueOf]⟩
  obtain ⟨polys, ws, g0, a1, a2, a3, a4, a5⟩ := C93_complete (LinearMap.mul Fr Fr) 1 1 2 42 p hp
    [⟨0, [1, 2, 3, 4], 1, 10⟩, ⟨1, [5, 0, 0, 1], 1, 6⟩, ⟨0, [1, 2, 3, 4], 2, 49⟩]
    [⟨0, .point (polyAt [1, 2, 3, 4] 42), 1, 10⟩,
      ⟨1, .point (polyAt [5, 0, 0, 1] 42), 1, 6⟩, ⟨0, .point (polyAt [1, 2, 3, 4] 42), 2, 49⟩]
    (.cons (hsame ..) (.cons (hsame ..) (.cons (hsame ..) .nil)))
    (by
      simp only [List.mem_cons, List.not_mem_nil, or_false, forall_eq_or_imp, forall_eq, ClaimTrue]
      refine ⟨?_, ?_, ?_⟩ <;> simp only [polyAt_cons, polyAt_nil, smul_eq_mul] <;> norm_num)
    (by simp) v u
  refine ⟨p, polys, ws, g0, hp, a1, a2.trans ?_, a3, a4, a5⟩
  decide +kernel

/-- The claim that `X` has the value 5 at 1, with any constant for the opening: no `v` and no `u` helps, and two
secrets at most. -/
example (w : Fr) : ∃ (Bv : Finset Fr) (Bu : Fr → Finset Fr) (Bs : Fr → Fr → Finset Fr), Bv.card < 1 ∧
    (∀ v, (Bu v).card < 1) ∧ (∀ v u, (Bs v u).card ≤ 2) ∧ ∀ v u s,
      Gwc.accepts (ρ := Nat) (LinearMap.mul Fr Fr) (1 : Fr) (1 : Fr) (s • (1 : Fr)) [⟨0, .point s, 1, 5⟩] v [w] u =
        .ok true → v ∈ Bv ∨ u ∈ Bu v ∨ s ∈ Bs v u := by
  obtain ⟨Bv, Bu, Bs, a2, a3, a4, a5⟩ := C93_sound (G := Fr) (G₂ := Fr) (GT := Fr) (ρ := Nat)
    [⟨0, [0, 1], 1, 5⟩] ⟨_, List.mem_singleton_self _, by
      simp only [ClaimTrue, polyAt_cons, polyAt_nil, smul_eq_mul]
      intro h
      exact absurd h (by decide +kernel)⟩
    2 (by simp) (fun _ => [[w]]) (by intro v; simp [pointCount]) (by simp)
  refine ⟨Bv, Bu, Bs, a2, by simpa [pointCount] using a3, a4, fun v u s ha => a5 v u s (LinearMap.mul Fr Fr) 1 1 (by simp)
    [⟨0, .point s, 1, 5⟩] (.cons ⟨rfl, rfl, rfl, ?_⟩ .nil) ?_⟩
  · simp [valueOf, polyAt_cons, polyAt_nil]
  · rw [List.map_cons, List.map_nil, polyAt_cons, polyAt_nil]
    simpa using ha

#print axioms C93_complete
#print axioms C93_sound
#print axioms C93_total

end Verif.Props

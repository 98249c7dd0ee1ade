import Verif.Lemmas.ShplonkSound
import Verif.Lemmas.KzgLemmas
import Verif.Props.Domain

/-! Properties C48 to C50: opening the queries of a proof. -/

namespace Verif.Props

open Spec Plonk Shplonk

variable {ρ : Type} [DecidableEq ρ] {G G₂ GT : Type} [AddCommGroup G] [Module Fr G]
variable [AddCommGroup G₂] [Module Fr G₂] [AddCommGroup GT] [Module Fr GT] [DecidableEq GT]

/-- C48. The opening of true claims is accepted. Take parameters for polynomials of `2^k` coefficients
made from any secret, claims about such polynomials at no more than `2^k` points, all true, and the
verifier's claims about their commitments. Whatever the challenges `y` and `v`, and `u` at no queried
point, the prover makes two polynomials and commits to them without panic (debug assertions on or
off), and the verifier accepts the two commitments. -/
theorem C48_complete (checks : Bool) (pairing : G →ₗ[Fr] G₂ →ₗ[Fr] GT) (g1 : G) (g2 : G₂) (k : Nat) (s : Fr)
    (p : Srs G G₂) (hp : Srs.setup g1 g2 k s = .ok p)
    (ps : List (Claim ρ (List Fr))) (cs : List (Claim ρ (Committed G))) (hne : ps ≠ [])
    (hsame : List.Forall₂ (SameClaim s g1) ps cs) (ht : ∀ q ∈ ps, ClaimTrue q) (hc : Consistent ps)
    (hl : ∀ q ∈ ps, q.object.length = 2 ^ k)
    (points : List Fr) (hpts : ∀ q ∈ ps, q.point ∈ points) (hfew : points.length ≤ 2 ^ k)
    (y v u : Fr) (hu : ∀ q ∈ ps, q.point ≠ u) :
    ∃ hx sets superPoints h1 lx h2 g0,
      openFirst (2 ^ k) ps y v = .ok (hx, sets, superPoints) ∧ p.commit hx = .ok h1 ∧
      openSecond checks sets superPoints hx y v u = .ok lx ∧ p.commit lx = .ok h2 ∧
      p.g[0]? = some g0 ∧ accepts pairing g0 p.g2 p.sG2 cs y v h1 u h2 = .ok true := by
  rw [setup_eq] at hp
  split at hp
  · exact absurd hp (by simp)
  · split at hp
    · exact absurd hp (by simp)
    · obtain rfl := Except.ok.inj hp
      obtain ⟨hx, sets, sup, h1, h2, h3⟩ := open_verify checks pairing g1 g2 s (Nat.two_pow_pos k) hne hsame ht hc hl
        points hpts hfew y v
      obtain ⟨lx, h4, h5, h6⟩ := h3 u hu
      refine ⟨hx, sets, sup, _, lx, _, g1, h1, commit_srsFor g1 g2 k s hx (by omega), h4,
        commit_srsFor g1 g2 k s lx h5, ?_, h6⟩
      simp [srsFor, Nat.two_pow_pos k]

/-- Two polynomials, the first opened at 1 and 2, the second at 1, with the prover's secret. -/
example (y v : Fr) : ∃ (p : Srs Fr Fr) (hx : List Fr) (sets : List ExtendedSet) (sup : List Fr) (h1 : Fr)
    (lx : List Fr) (h2 g0 : Fr), Srs.setup (1 : Fr) (1 : Fr) 2 42 = .ok p ∧
    openFirst 4 [⟨0, [1, 2, 3, 4], 1, 10⟩, ⟨1, [5, 0, 0, 1], 1, 6⟩, ⟨0, [1, 2, 3, 4], 2, 49⟩] y v =
      .ok (hx, sets, sup) ∧ p.commit hx = .ok h1 ∧
    openSecond true sets sup hx y v 7 = .ok lx ∧ p.commit lx = .ok h2 ∧ p.g[0]? = some g0 ∧
    accepts (ρ := Nat) (LinearMap.mul Fr Fr) g0 p.g2 p.sG2 [⟨0, .point (polyAt [1, 2, 3, 4] 42), 1, 10⟩,
      ⟨1, .point (polyAt [5, 0, 0, 1] 42), 1, 6⟩, ⟨0, .point (polyAt [1, 2, 3, 4] 42), 2, 49⟩] y v h1 7 h2 =
      .ok true := by
  obtain ⟨p, hp⟩ := C43_secret (1 : Fr) (1 : Fr) 2 (by norm_num)
  have hsame : ∀ r (c : List Fr) (x w : Fr), SameClaim (ρ := Nat) 42 (1 : Fr) ⟨r, c, x, w⟩
      ⟨r, .point (polyAt c 42), x, w⟩ := fun r c x w => ⟨rfl, rfl, rfl, by simp [valueOf]⟩
  obtain ⟨hx, sets, sup, h1, lx, h2, g0, a1, a2, a3, a4, a5, a6⟩ := C48_complete true (LinearMap.mul Fr Fr) 1 1 2 42 p hp
    [⟨0, [1, 2, 3, 4], 1, 10⟩, ⟨1, [5, 0, 0, 1], 1, 6⟩, ⟨0, [1, 2, 3, 4], 2, 49⟩]
    [⟨0, .point (polyAt [1, 2, 3, 4] 42), 1, 10⟩,
      ⟨1, .point (polyAt [5, 0, 0, 1] 42), 1, 6⟩, ⟨0, .point (polyAt [1, 2, 3, 4] 42), 2, 49⟩] (by simp)
    (.cons (hsame ..) (.cons (hsame ..) (.cons (hsame ..) .nil)))
    (by
      simp only [List.mem_cons, List.not_mem_nil, or_false, forall_eq_or_imp, forall_eq, ClaimTrue]
      refine ⟨?_, ?_, ?_⟩ <;> simp only [polyAt_cons, polyAt_nil, smul_eq_mul] <;> norm_num)
    (by
      simp only [Consistent, List.mem_cons, List.not_mem_nil, or_false, forall_eq_or_imp, forall_eq]
      simp)
    (by simp) [1, 2] (by simp) (by norm_num) y v 7
    (by
      simp only [List.mem_cons, List.not_mem_nil, or_false, forall_eq_or_imp, forall_eq]
      refine ⟨?_, ?_, ?_⟩ <;> decide +kernel)
  exact ⟨p, hx, sets, sup, h1, lx, h2, g0, hp, a1, a2, a3, a4, a5, a6⟩

/-- C49. A false claim is accepted only by chance. The prover answers with polynomials of at most `N`
coefficients, the two of the opening being any functions of the challenges before them. If one of its
claims is false, the verifier's check passes only if `y`, `v`, `u` or the secret falls in a set that
is fixed before it is drawn (the secret counts as drawn last) and small: fewer elements than there
are claims for `y` and `v`, at most `N` and the number of points for `u`, at most `N` for the
secret. -/
theorem C49_sound (ps : List (Claim ρ (List Fr))) (hfalse : ∃ q ∈ ps, ¬ ClaimTrue q) (hc : Consistent ps)
    (hf : Functional ps) (N : Nat) (hl : ∀ q ∈ ps, q.object.length ≤ N)
    (points : List Fr) (hpts : ∀ q ∈ ps, q.point ∈ points)
    (h1 : Fr → Fr → List Fr) (l1 : ∀ y v, (h1 y v).length ≤ N)
    (h2 : Fr → Fr → Fr → List Fr) (l2 : ∀ y v u, (h2 y v u).length ≤ N) :
    ∃ (By : Finset Fr) (Bv : Fr → Finset Fr) (Bu : Fr → Fr → Finset Fr) (Bs : Fr → Fr → Fr → Finset Fr),
      By.card < ps.length ∧ (∀ y, (Bv y).card < ps.length) ∧ (∀ y v, (Bu y v).card ≤ points.length + N) ∧
      (∀ y v u, (Bs y v u).card ≤ N) ∧
      ∀ y v u s, ∀ (pairing : G →ₗ[Fr] G₂ →ₗ[Fr] GT) (g : G) (g2 : G₂), pairing g g2 ≠ 0 →
        ∀ cs : List (Claim ρ (Committed G)), List.Forall₂ (SameClaim s g) ps cs →
        accepts pairing g g2 (s • g2) cs y v (polyAt (h1 y v) s • g) u (polyAt (h2 y v u) s • g) = .ok true →
        y ∈ By ∨ v ∈ Bv y ∨ u ∈ Bu y v ∨ s ∈ Bs y v u :=
  open_sound hfalse hc hf hl points hpts h1 l1 h2 l2

/-- The claim that `X` has the value 5 at 1: with any constants for the opening. -/
example (h1 h2 : Fr) : ∃ (By : Finset Fr) (Bv : Fr → Finset Fr) (Bu : Fr → Fr → Finset Fr)
    (Bs : Fr → Fr → Fr → Finset Fr), By.card < 1 ∧ (∀ y, (Bv y).card < 1) ∧ (∀ y v, (Bu y v).card ≤ 3) ∧
    (∀ y v u, (Bs y v u).card ≤ 2) ∧ ∀ y v u s,
      accepts (ρ := Nat) (LinearMap.mul Fr Fr) (1 : Fr) (1 : Fr) (s • (1 : Fr)) [⟨0, .point s, 1, 5⟩] y v h1 u h2 =
        .ok true → y ∈ By ∨ v ∈ Bv y ∨ u ∈ Bu y v ∨ s ∈ Bs y v u := by
  obtain ⟨By, Bv, Bu, Bs, a1, a2, a3, a4, a5⟩ := C49_sound (G := Fr) (G₂ := Fr) (GT := Fr) (ρ := Nat)
    [⟨0, [0, 1], 1, 5⟩] ⟨_, List.mem_singleton_self _, by
      simp only [ClaimTrue, polyAt_cons, polyAt_nil, smul_eq_mul]
      intro h
      exact absurd h (by decide +kernel)⟩
    (fun q hq q' hq' _ => by rw [List.mem_singleton.1 hq, List.mem_singleton.1 hq'])
    (fun q hq q' hq' _ _ => by rw [List.mem_singleton.1 hq, List.mem_singleton.1 hq']) 2 (by simp) [1] (by simp)
    (fun _ _ => [h1]) (by simp) (fun _ _ _ => [h2]) (by simp)
  refine ⟨By, Bv, Bu, Bs, a1, a2, a3, a4, fun y v u s ha => a5 y v u s (LinearMap.mul Fr Fr) 1 1 (by simp)
    [⟨0, .point s, 1, 5⟩] (.cons ⟨rfl, rfl, rfl, ?_⟩ .nil) ?_⟩
  · simp [valueOf, polyAt_cons, polyAt_nil]
  · rw [polyAt_cons, polyAt_cons, polyAt_nil]
    simpa using ha

/-- The second commitment of an opening, for someone who knows the secret `s`: solve the verifier's
equation for it. -/
def forgeOpening (s : Fr) (g0 : G) (cs : List (Claim ρ (Committed G))) (y v : Fr) (h1 : G) (u : Fr) :
    Except Panic G := do
  let (_, right) ← verify g0 cs y v h1 u 0
  let r ← evalMsm right
  return (s - u)⁻¹ • r

theorem forgeOpening_accepted (pairing : G →ₗ[Fr] G₂ →ₗ[Fr] GT) (g1 : G) (g2 : G₂) (s : Fr)
    (cs : List (Claim ρ (Committed G))) (hne : cs ≠ [])
    (y v : Fr) (h1 : G) (u : Fr) (hs : u ≠ s) (hu : ∀ q ∈ cs, q.point ≠ u) :
    ∃ h2, forgeOpening s g1 cs y v h1 u = .ok h2 ∧ accepts pairing g1 g2 (s • g2) cs y v h1 u h2 = .ok true := by
  obtain ⟨sets, sup, v1, v2⟩ := intermediateSets_ok cs
  cases sets with
  | nil => exact absurd rfl (sets_ne v2 hne)
  | cons s0 rest =>
    have hz : vanishing (diffs sup s0.points) u ≠ 0 := by
      rw [Ne, vanishing_zero]
      intro hmem
      obtain ⟨q, hq, hqu⟩ := (v2.mem u).1 (List.mem_filter.1 hmem).1
      exact hu q hq hqu
    obtain ⟨left, right, w1, w2, w3⟩ := (verify_ok (g0 := g1) v1 v2 y v h1 u 0).2 hz
    have hr : msmSum right = rightValue g1 sup y v u h1 s0 rest := by rw [w3, smul_zero, add_zero]
    refine ⟨(s - u)⁻¹ • msmSum right, ?_, ?_⟩
    · unfold forgeOpening
      rw [w1]
      simp only [bind, Except.bind]
      rw [evalMsm_eq]
      rfl
    · obtain ⟨left', right', x1, x2, x3⟩ := (verify_ok (g0 := g1) v1 v2 y v h1 u
        ((s - u)⁻¹ • msmSum right)).2 hz
      unfold accepts
      rw [x1]
      simp only [bind, Except.bind]
      rw [check_eq, x2, x3, ← hr]
      have hsu : s - u ≠ 0 := sub_ne_zero.2 (Ne.symm hs)
      have : s • (s - u)⁻¹ • msmSum right - (msmSum right + u • (s - u)⁻¹ • msmSum right) = 0 := by
        rw [smul_smul, smul_smul]
        nth_rw 2 [← one_smul Fr (msmSum right)]
        rw [← add_smul, ← sub_smul]
        have : s * (s - u)⁻¹ - (1 + u * (s - u)⁻¹) = 0 := by
          field_simp
          ring
        rw [this, zero_smul]
      rw [this]
      simp

/-- C50 is false of the code: whoever knows the secret can open any commitments to any values. For all
claims, true or false, whatever the challenges and the first commitment of the opening, the second
commitment computed above is accepted, unless `u` is the secret or a queried point. The secret of the
prover is the constant 42 of the published source. -/
theorem C50_forgery (pairing : G →ₗ[Fr] G₂ →ₗ[Fr] GT) (g1 : G) (g2 : G₂) (k : Nat) (s : Fr)
    (p : Srs G G₂) (hp : Srs.setup g1 g2 k s = .ok p) (cs : List (Claim ρ (Committed G))) (hne : cs ≠ [])
    (y v : Fr) (h1 : G) (u : Fr) (hs : u ≠ s) (hu : ∀ q ∈ cs, q.point ≠ u) :
    ∃ g0 h2, p.g[0]? = some g0 ∧ forgeOpening s g0 cs y v h1 u = .ok h2 ∧
      accepts pairing g0 p.g2 p.sG2 cs y v h1 u h2 = .ok true := by
  rw [setup_eq] at hp
  split at hp
  · exact absurd hp (by simp)
  · split at hp
    · exact absurd hp (by simp)
    · obtain rfl := Except.ok.inj hp
      obtain ⟨h2, e1, e2⟩ := forgeOpening_accepted pairing g1 g2 s cs hne y v h1 u hs hu
      exact ⟨g1, h2, by simp [srsFor, Nat.two_pow_pos k], e1, e2⟩

/-- The commitment to 0 opened at 1 to the value 5. -/
example (y v : Fr) : ∃ (p : Srs Fr Fr) (g0 h2 : Fr), Srs.setup (1 : Fr) (1 : Fr) 9 42 = .ok p ∧
    accepts (ρ := Nat) (LinearMap.mul Fr Fr) g0 p.g2 p.sG2 [⟨0, .point 0, 1, 5⟩] y v 0 7 h2 = .ok true := by
  obtain ⟨p, hp⟩ := C43_secret (1 : Fr) (1 : Fr) 9 (by norm_num)
  obtain ⟨g0, h2, -, -, h⟩ := C50_forgery (ρ := Nat) (LinearMap.mul Fr Fr) 1 1 9 42 p hp [⟨0, .point 0, 1, 5⟩]
    (by simp) y v 0 7 (by decide +kernel) (by simp; decide +kernel)
  exact ⟨p, g0, h2, hp, h⟩

end Verif.Props

#print axioms Verif.Props.C48_complete
#print axioms Verif.Props.C49_sound
#print axioms Verif.Props.C50_forgery

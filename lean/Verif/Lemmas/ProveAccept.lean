import Verif.Lemmas.ProveClaims
import Verif.Props.Openings

/-! The bytes of the prover are accepted by the verifier. -/

namespace Verif.Transcript

open Plonk Spec PlonkProver Shplonk

variable {G G₂ GT : Type} [AddCommGroup G] [Module Fr G]
variable [AddCommGroup G₂] [Module Fr G₂] [AddCommGroup GT] [Module Fr GT] [DecidableEq GT]

/-- The root of unity of a domain. -/
theorem new_omega {checks : Bool} {fuel j k : Nat} {d : Domain} (h : Domain.new checks fuel j k = .ok d)
    (hd : IsDomain d j k) : d.omega = rootFor k := by
  unfold Domain.new at h
  split at h
  · exact absurd h (by simp)
  dsimp only at h
  obtain ⟨n, -, h⟩ := bind_ok.1 h
  obtain ⟨limit, -, h⟩ := bind_ok.1 h
  obtain ⟨ek, -, h⟩ := bind_ok.1 h
  obtain ⟨ts, -, h⟩ := bind_ok.1 h
  obtain ⟨len, -, h⟩ := bind_ok.1 h
  split at h
  · exact absurd h (by simp)
  obtain ⟨n', -, h⟩ := bind_ok.1 h
  obtain ⟨en, -, h⟩ := bind_ok.1 h
  obtain rfl := Except.ok.inj h
  have h1 := hd.k_le
  have h2 := hd.ek_le
  dsimp only at h1 h2 ⊢
  rw [Domain.squares_eq, Domain.squares_eq, ← pow_mul, ← pow_add]
  unfold rootFor
  congr 2
  simp only [twoAdicity]
  omega

/-- The commitments of parameters. -/
theorem commits_setup {g1 : G} {g2 : G₂} {k j : Nat} {s : Fr} {srs : Srs G G₂} {d : Domain}
    (hsetup : Srs.setup g1 g2 k s = .ok srs) (hd : IsDomain d j k) (hw : d.omega = rootFor k) :
    Commits srs d k (fun c => polyAt c s • g1) := by
  have hset := (Props.C43_setup g1 g2 k s).1 ⟨srs, hsetup⟩
  rw [setup_eq, if_neg (by omega), if_neg hset.2] at hsetup
  obtain rfl := Except.ok.inj hsetup
  have main : ∀ (col p : List Fr), d.lagrangeToCoeff col = .ok p →
      (srsFor g1 g2 k s).commitLagrange col = .ok (polyAt p s • g1) := by
    intro col p h
    obtain ⟨h1, h2⟩ := lagrange_inv hd h
    obtain ⟨p', h3, -, h4⟩ := hd.lagrangeToCoeff_values col h1
    rw [h] at h3
    obtain rfl := Except.ok.inj h3
    rw [← commitLagrange_srsFor g1 g2 k hset.1 s hset.2 p h2]
    congr 1
    apply List.ext_getElem (by simp [h1])
    intro i i1 i2
    simp only [List.getElem_map, List.getElem_range]
    rw [← h4 i i1, hw]
  refine ⟨rfl, fun c hc => commit_srsFor g1 g2 k s c hc, main, ?_⟩
  obtain ⟨p, h3, h4, h5⟩ := hd.lagrangeToCoeff_values (List.replicate (2 ^ k) (0 : Fr)) (by simp)
  rw [main _ _ h3]
  have hz : polyAt (List.replicate (2 ^ k) (0 : Fr)) s = 0 := by
    rw [show List.replicate (2 ^ k) (0 : Fr) = (List.range (2 ^ k)).map (fun _ => 0) by simp,
      polyAt_map_zero _ _ _ (fun _ _ => rfl)]
  have := hd.lagrangeToCoeff_unique (List.replicate (2 ^ k) (0 : Fr)) (by simp)
  have hv : ((List.range (2 ^ k)).map fun i => polyAt (List.replicate (2 ^ k) (0 : Fr)) (d.omega ^ i)) =
      List.replicate (2 ^ k) (0 : Fr) := by
    apply List.ext_getElem (by simp)
    intro i i1 i2
    simp only [List.getElem_map, List.getElem_range, List.getElem_replicate]
    rw [show List.replicate (2 ^ k) (0 : Fr) = (List.range (2 ^ k)).map (fun _ => 0) by simp,
      polyAt_map_zero _ _ _ (fun _ _ => rfl)]
  rw [hv, h3] at this
  rw [Except.ok.inj this, hz, zero_smul]

variable {checks : Bool} {codec : Codec G} {hash : Hash} {srs : Srs G G₂} {pk : ProvingKey} {repr : Fr}
  {instances : List (List Fr)} {synth : Nat → List Fr → Except PlonkProver.Stop (List (List Fr))}
  {blinds : Blinds} {out : List UInt8} {k : Nat}

theorem Run.accepted (r : Run checks codec hash srs pk repr instances synth blinds out) (hl : Lawful codec)
    (hpk : ProvingKeyFor pk k) (hb : EnoughBlinds pk.cs blinds) {g1 : G} {g2 : G₂} {s : Fr}
    (hsetup : Srs.setup g1 g2 k s = .ok srs) (hw : pk.domain.omega = rootFor k)
    {Q0 : List (Query Poly)} (hcl : claims (verifyingKeyOf pk) (2 ^ k) instances r.com r.ch r.e = .ok Q0)
    (hold : ∀ q ∈ Q0, Spec.Holds q) (hu : r.u ^ 2 ^ k ≠ r.ch.x ^ 2 ^ k) (pairing : G →ₗ[Fr] G₂ →ₗ[Fr] GT)
    (rest : List UInt8) :
    verifyProof codec hash pairing ⟨2 ^ k, g1, g2, s • g2⟩ (mapKey (fun c => polyAt c s • g1) (verifyingKeyOf pk))
      repr instances (out ++ rest) = .ok () := by
  have hd := hpk.domain
  have hc := commits_setup (g1 := g1) (g2 := g2) (s := s) hsetup hd hw
  obtain ⟨t, t', t'', r1, r2, r3⟩ := r.read hl hpk hb hc rest
  obtain ⟨len1, len2, len3, len4, len5, len6⟩ := r.lengths hpk hc.rows
  have hsh := r.shaped hpk hc.rows hb
  generalize hf : (fun c : List Fr => polyAt c s • g1) = f at *
  -- the queries
  have hQ : ∃ Q, claims (Ref.ofKey (verifyingKeyOf pk)) (2 ^ k) instances (Ref.ofCommitments r.com) r.ch r.e = .ok Q ∧
      Q.map (mapQuery Prod.snd) = Q0 := by
    have h1 := claims_map Prod.snd (Ref.ofKey (verifyingKeyOf pk)) (2 ^ k) instances (Ref.ofCommitments r.com) r.ch r.e
    rw [mapKey_ofKey, mapCommitments_ofCommitments, hcl] at h1
    cases h2 : claims (Ref.ofKey (verifyingKeyOf pk)) (2 ^ k) instances (Ref.ofCommitments r.com) r.ch r.e with
    | error e => rw [h2] at h1; exact absurd h1 (by simp [Except.map])
    | ok Q =>
      rw [h2] at h1
      exact ⟨Q, rfl, (Except.ok.inj h1).symm⟩
  obtain ⟨Q, hQ, hQ0⟩ := hQ
  have hv : claims (Ref.ofKey (mapKey f (verifyingKeyOf pk))) (2 ^ k) instances
      (Ref.ofCommitments (mapCommitments f r.com)) r.ch r.e = .ok (Q.map (mapQuery fun p => (p.1, f p.2))) := by
    rw [ofKey_map, ofCommitments_map, claims_map, hQ]
    rfl
  -- the quotient
  have hcomb := r.hPolyEq
  rw [hc.rows] at hcomb
  obtain ⟨lh, hh⟩ := combineQuotient_value len6 hcomb
  have hts : ∀ (z : Fr), polyAt r.hPoly z =
      ((combinePieces (r.ch.x ^ 2 ^ k) (Ref.ofCommitments r.com).pieces).map fun t => t.1 * polyAt t.2.2 z).sum := by
    intro z
    rw [hh z]
    have : r.com.pieces = ((Ref.ofCommitments r.com).pieces).map Prod.snd := by
      simp [Ref.ofCommitments, Function.comp_def]
    conv_lhs => rw [this]
    rw [combinePieces_map, List.map_map]
    rfl
  have hmatch : r.queries = Q.map (polyClaim r.hPoly) := by
    refine queries_match (n := 2 ^ k) (instances := instances) r.eEq r.queriesEq ?_ hQ ?_
    · rw [hsh.lookupProducts, hsh.permuted]
    · intro v hv
      have := hold _ (by rw [← hQ0]; exact List.mem_map_of_mem hv)
      unfold Spec.Holds mapQuery at this
      dsimp only at this
      rw [evalPolynomial_eq, hts, ← this, List.map_map]
      rfl
  have hfix : ∀ p ∈ pk.fixedPolys, p.length = 2 ^ k := by
    intro p hp
    obtain ⟨i, hi, rfl⟩ := List.getElem_of_mem hp
    have := (hpk.fixed.2.2 i (by rw [← hpk.fixed.2.1]; exact hi)).2.1
    rwa [List.getD_eq_getElem?_getD, List.getElem?_eq_getElem hi, Option.getD_some] at this
  have hsig : ∀ p ∈ pk.sigmaPolys, p.length = 2 ^ k := by
    intro p hp
    obtain ⟨i, hi, rfl⟩ := List.getElem_of_mem hp
    have := (hpk.sigma.2.2 i (by rw [← hpk.sigma.2.1]; exact hi)).2.1
    rwa [List.getD_eq_getElem?_getD, List.getElem?_eq_getElem hi, Option.getD_some] at this
  obtain ⟨object, hgood⟩ := queries_good hd r.queriesEq len1 len2 len3 len4 len5 lh hfix hsig
  have hroot : ∀ j : Int, (pk.domain.omega ^ j) ^ 2 ^ k = 1 := by
    intro j
    rw [← zpow_natCast, ← zpow_mul, mul_comm, zpow_mul, zpow_natCast, hd.omega.pow_eq_one, one_zpow]
  have hpt : ∀ q ∈ r.queries, q.point ^ 2 ^ k = r.ch.x ^ 2 ^ k := by
    intro q hq
    obtain ⟨-, -, -, j, hj⟩ := hgood q hq
    rw [hj, mul_pow, hroot, mul_one]
  have hsame : List.Forall₂ (SameClaim s g1) r.queries
      ((Q.map (mapQuery fun p => (p.1, f p.2))).map Ref.toClaim) := by
    rw [hmatch, List.map_map, List.forall₂_map_left_iff, List.forall₂_map_right_iff, List.forall₂_same]
    rintro ⟨c, x, v⟩ hq
    cases c with
    | point c =>
      refine ⟨rfl, rfl, rfl, ?_⟩
      show f c.2 = _
      rw [← hf]
      rfl
    | msm ts =>
      refine ⟨rfl, rfl, rfl, ?_⟩
      obtain ⟨rfl, rfl⟩ := claims_msm hQ hq
      show (((((combinePieces (r.ch.x ^ 2 ^ k) (Ref.ofCommitments r.com).pieces).map fun t => (t.1, (t.2.1, f t.2.2))).map
        fun t => (t.1, t.2.2)).map fun t => t.1 • t.2).sum) = polyAt r.hPoly s • g1
      rw [hts, List.map_map, List.map_map, ← hf]
      generalize combinePieces (r.ch.x ^ 2 ^ k) (Ref.ofCommitments r.com).pieces = l
      induction l with
      | nil => simp
      | cons a l ih =>
        rw [List.map_cons, List.sum_cons, ih, List.map_cons, List.sum_cons, add_smul, mul_smul]
        rfl
  have hne : r.queries ≠ [] := by
    rw [hmatch]
    obtain ⟨a, b, c, d, -, -, -, rfl⟩ := claims_split hQ
    simp
  obtain ⟨hx, sets, sup, h1, lx, h2, g0, o1, o2, o3, o4, o5, o6⟩ := Props.C48_complete checks pairing g1 g2 k s srs hsetup
    r.queries _ hne hsame (fun q hq => (hgood q hq).2.1)
    (fun q hq q' hq' h => by rw [(hgood q hq).1, (hgood q' hq').1, h]) (fun q hq => (hgood q hq).2.2.1)
    ((List.range (2 ^ k)).map fun i => r.ch.x * pk.domain.omega ^ i) (fun q hq => by
      obtain ⟨-, -, -, j, hj⟩ := hgood q hq
      have : NeZero (2 ^ k) := ⟨by positivity⟩
      obtain ⟨i, hi, he⟩ := hd.omega.eq_pow_of_pow_eq_one (hroot j)
      exact List.mem_map.2 ⟨i, List.mem_range.2 hi, by rw [hj, he]⟩) (by simp) r.y' r.v r.u
    (fun q hq h => hu (by rw [← h, hpt q hq]))
  have e1 := r.openFirst
  rw [hc.rows, o1] at e1
  have e1 := Except.ok.inj e1
  obtain ⟨rfl, rfl, rfl⟩ : hx = r.hx ∧ sets = r.sets ∧ sup = r.superPoints := by
    simpa using e1
  have e2 := r.openSecond
  rw [o3] at e2
  obtain rfl := Except.ok.inj e2
  have e3 := r.h1Eq
  rw [o2] at e3
  obtain rfl := Except.ok.inj e3
  have e4 := r.h2Eq
  rw [o4] at e4
  obtain rfl := Except.ok.inj e4
  have hs : srs = srsFor g1 g2 k s := by
    have hset := (Props.C43_setup g1 g2 k s).1 ⟨srs, hsetup⟩
    rw [setup_eq, if_neg (by omega), if_neg hset.2] at hsetup
    exact (Except.ok.inj hsetup).symm
  have hg0 : g1 = g0 := by
    rw [hs] at o5
    simpa [srsFor, Nat.two_pow_pos k] using o5
  have hg2 : srs.g2 = g2 := by rw [hs]; rfl
  have hsg2 : srs.sG2 = s • g2 := by rw [hs]; rfl
  rw [hg2, hsg2] at o6
  unfold verifyProof
  rw [r1]
  simp only [bind, Except.bind, r2, hv, r3, Verify.total]
  have : accepts pairing g1 g2 (s • g2) ((Q.map (mapQuery fun p => (p.1, f p.2))).map Ref.toClaim) r.y' r.v r.h1 r.u r.h2 =
      .ok true := by
    rw [hg0]
    exact o6
  rw [this]
  rfl

end Verif.Transcript

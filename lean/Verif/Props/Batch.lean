import Verif.Lemmas.Batch
import Verif.Props.Forge
import Mathlib.LinearAlgebra.Dual.Lemmas

/-! Property C92: verifying several proofs at once. -/

namespace Verif.Props

open Spec Plonk Keygen Shplonk Transcript Batch

variable {G G₂ GT : Type} [AddCommGroup G] [Module Fr G]
variable [AddCommGroup G₂] [Module Fr G₂] [AddCommGroup GT] [Module Fr GT] [DecidableEq GT]

/-- C92, one half: a batch of proofs that are accepted one by one is accepted, whatever the factor. -/
theorem C92_complete (codec : Codec G) (hash : Hash) (pairing : G →ₗ[Fr] G₂ →ₗ[Fr] GT) (params : VerifierParams G G₂)
    (factor : Fr) (items : List (Item G))
    (h : ∀ i ∈ items, verifyProof codec hash pairing params i.key i.repr i.instances i.proof = .ok ()) :
    verifyBatch codec hash pairing params factor items = .ok true := by
  rw [batch_iff]
  induction items with
  | nil => exact ⟨[], .nil, rfl⟩
  | cons i items ih =>
    obtain ⟨d, d1, d2⟩ := (verifyProof_iff ..).1 (h i (by simp))
    obtain ⟨ds, a1, a2⟩ := ih fun j hj => h j (by simp [hj])
    refine ⟨d :: ds, .cons d1 a1, ?_⟩
    rw [List.map_cons, List.foldl_cons, d2, smul_zero, add_zero]
    exact a2

/-- C92, as far as the other half holds: if a proof of the batch is not accepted by itself, then the batch is accepted
for fewer factors than there are proofs. So a factor that is drawn at random after the proofs are given would do. -/
theorem C92_random_partial (codec : Codec G) (hash : Hash) (pairing : G →ₗ[Fr] G₂ →ₗ[Fr] GT)
    (params : VerifierParams G G₂) (items : List (Item G)) (i : Item G) (hi : i ∈ items)
    (h : verifyProof codec hash pairing params i.key i.repr i.instances i.proof ≠ .ok ()) :
    ∃ B : Finset Fr, B.card < items.length ∧
      ∀ factor, verifyBatch codec hash pairing params factor items = .ok true → factor ∈ B := by
  classical
  have hpos : 0 < items.length := List.length_pos_of_mem hi
  by_cases hall : ∃ ds, List.Forall₂ (fun i d => terms codec hash params i = .ok d) items ds
  swap
  · refine ⟨∅, by simpa using hpos, fun c hc => ?_⟩
    obtain ⟨ds, h1, -⟩ := (batch_iff ..).1 hc
    exact absurd ⟨ds, h1⟩ hall
  obtain ⟨ds, hds⟩ := hall
  have hd : ∃ d ∈ ds, gap pairing params d ≠ 0 := by
    clear hpos
    induction hds with
    | nil => cases hi
    | cons h1 h2 ih =>
      rename_i j d js ds
      rcases List.mem_cons.1 hi with rfl | hi
      · exact ⟨d, by simp, fun hz => h ((verifyProof_iff ..).2 ⟨d, h1, hz⟩)⟩
      · obtain ⟨d', h3, h4⟩ := ih hi
        exact ⟨d', by simp [h3], h4⟩
  obtain ⟨d, hd, hne⟩ := hd
  obtain ⟨φ, hφ⟩ : ∃ φ : Module.Dual Fr GT, φ (gap pairing params d) ≠ 0 := by
    by_contra hn
    push Not at hn
    exact hne ((Module.forall_dual_apply_eq_zero_iff Fr _).1 hn)
  obtain ⟨h1, h2, h3⟩ := horner_roots ((ds.map (gap pairing params)).map φ) 0
  set p := ((ds.map (gap pairing params)).map φ).foldl (fun p a => Polynomial.X * p + Polynomial.C a) 0 with hp
  have hp0 : p ≠ 0 := fun hz => hφ ((h2 hz).2 _ (List.mem_map.2 ⟨_, List.mem_map.2 ⟨d, hd, rfl⟩, rfl⟩))
  refine ⟨p.roots.toFinset, ?_, fun c hc => ?_⟩
  · have := h1 0 (by simp)
    rw [List.length_map, List.length_map, ← hds.length_eq, zero_add] at this
    have h5 := Polynomial.card_roots' p
    have h6 := Multiset.toFinset_card_le p.roots
    rw [Polynomial.degree_eq_natDegree hp0] at this
    norm_cast at this
    omega
  · obtain ⟨ds', h4, h5⟩ := (batch_iff ..).1 hc
    have : ds' = ds := by
      clear h5 hp hp0 h1 h2 h3 p hd hi hc hpos
      induction h4 generalizing ds with
      | nil => cases hds; rfl
      | cons a b ih =>
        cases hds with
        | cons a' b' =>
          rw [a] at a'
          cases a'
          rw [ih _ b']
    subst this
    rw [Multiset.mem_toFinset, Polynomial.mem_roots hp0, Polynomial.IsRoot, h3]
    have lin : ∀ (l : List GT) (a : GT), (l.map φ).foldl (fun a d => c * a + d) (φ a) =
        φ (l.foldl (fun a d => c • a + d) a) := by
      intro l
      induction l with
      | nil => intro a; rfl
      | cons b l ih =>
        intro a
        rw [List.map_cons, List.foldl_cons, List.foldl_cons, ← ih, map_add, map_smul, smul_eq_mul]
    have := lin (ds'.map (gap pairing params)) 0
    rw [h5, map_zero] at this
    rw [Polynomial.eval_zero]
    exact this

open Verify in
/-- The first part of a forged proof for a batch, made with the point `g` for every commitment: the right side of the
verifier's last equation if the last commitment were zero, and the challenge that goes with it. -/
def forgeHalf (codec : Codec G) (hash : Hash) (params : VerifierParams G G₂) (key : Key G) (repr : Fr)
    (instances : List (List Fr)) (g : G) : Except Verify.Stop (G × Fr) := do
  let (com, ch, e, y, v, h1, u) ← forgeMessages codec hash key repr instances g
  let queries ← total (claims (Ref.ofKey key) params.n instances (Ref.ofCommitments com) ch e)
  let (_, right) ← total (verify params.g0 (queries.map Ref.toClaim) y v h1 u 0)
  let r ← total (evalMsm right)
  return (r, u)

/-- Two proofs for whatever is claimed in the two items (their own proofs are replaced), for someone who knows the
factor of the batch and nothing else: solve two equations for the two last commitments. The result is the two items
with the new proofs, and the two last commitments. -/
def forgePair (codec : Codec G) (hash : Hash) (params : VerifierParams G G₂) (factor : Fr) (g g' : G) (i j : Item G) :
    Except Verify.Stop (Item G × Item G × G × G) := do
  let (r, u) ← forgeHalf codec hash params i.key i.repr i.instances g
  let (r', u') ← forgeHalf codec hash params j.key j.repr j.instances g'
  let h := -((u - u')⁻¹ • (r + factor⁻¹ • r'))
  let h' := -(factor • h)
  return ({ i with proof := forgeStart codec i.key g ++ codec.toBytes h },
    { j with proof := forgeStart codec j.key g' ++ codec.toBytes h' }, h, h')

/-- Half of the forgery: which terms the verifier makes of it. -/
theorem forgeHalf_ok (codec : Codec G) (hl : Lawful codec) (hash : Hash) (k : Nat) (g0 : G) (key : Key G)
    (hkey : KeyShape key k) (repr : Fr) (instances : List (List Fr)) (hi : instances.length = 2) (g : G)
    (hg : codec.coords g ≠ none) {com : Commitments G} {ch : Challenges} {e : Evals} {y v : Fr} {h1 : G} {u : Fr}
    (hm : forgeMessages codec hash key repr instances g = .ok (com, ch, e, y, v, h1, u))
    (hx : ch.x ^ 2 ^ k ≠ 1) (hux : u ^ 2 ^ k ≠ ch.x ^ 2 ^ k) :
    ∃ r, ∀ g2 sG2 : G₂, forgeHalf codec hash ⟨2 ^ k, g0, g2, sG2⟩ key repr instances g = .ok (r, u) ∧
      ∀ h2, codec.coords h2 ≠ none → ∃ left right,
        terms codec hash ⟨2 ^ k, g0, g2, sG2⟩ ⟨key, repr, instances, forgeStart codec key g ++ codec.toBytes h2⟩ =
          .ok ⟨left, right⟩ ∧ msmSum left = h2 ∧ msmSum right = r + u • h2 := by
  obtain ⟨⟨gx, gy⟩, hgc⟩ := Option.ne_none_iff_exists'.1 hg
  obtain ⟨com', ch', t, e', ab, y', v', u', a1, a2, hy, hv, hu, -, a3⟩ :=
    forgeMessages_ok codec hl hash k key hkey repr instances hi g hgc
  rw [a3] at hm
  obtain ⟨rfl, rfl, rfl, rfl, rfl, rfl, rfl⟩ := (by simpa using Except.ok.inj hm :
    com' = com ∧ ch' = ch ∧ e' = e ∧ y' = y ∧ v' = v ∧ g = h1 ∧ u' = u)
  obtain ⟨s1, s2, s3⟩ := read_shaped hkey.fixedLength hkey.sigmaLength (a1 []) (a2 [])
  obtain ⟨Q, q1, q2, q3⟩ := claims_total hkey.domain hkey.closed hkey.advice hkey.fixed s1 s2 s3 hx
  have total_ok : ∀ {α : Type} {x : Except Panic α} {a : α}, x = .ok a → Verify.total x = .ok a := by
    intro α x a h
    rw [h]
    rfl
  obtain ⟨sets, sup, v1, v2⟩ := intermediateSets_ok (Q.map Ref.toClaim)
  cases sets with
  | nil => exact absurd rfl (sets_ne v2 (by simpa using q2))
  | cons s0 rest =>
    have hz : vanishing (diffs sup s0.points) u' ≠ 0 := by
      rw [Ne, vanishing_zero]
      intro hmem
      obtain ⟨q, hq, he⟩ := (v2.mem u').1 (List.mem_filter.1 hmem).1
      obtain ⟨q', hq', rfl⟩ := List.mem_map.1 hq
      refine hux ?_
      rw [← q3 q' hq', ← he]
      obtain ⟨c, x, v⟩ := q'
      cases c <;> rfl
    obtain ⟨left, right, w1, w2, w3⟩ := (verify_ok (g0 := g0) v1 v2 y' v' g u' 0).2 hz
    rw [smul_zero, add_zero] at w3
    refine ⟨rightValue g0 sup y' v' u' g s0 rest, fun g2 sG2 => ⟨?_, fun h2 hc => ?_⟩⟩
    · exact Transcript.bind_ok.2 ⟨_, a3, Transcript.bind_ok.2 ⟨Q, total_ok q1, Transcript.bind_ok.2
        ⟨(left, right), total_ok w1, Transcript.bind_ok.2 ⟨_, total_ok ((evalMsm_eq _).trans (by rw [w3])), rfl⟩⟩⟩⟩
    · obtain ⟨left', right', x1, x2, x3⟩ := (verify_ok (g0 := g0) v1 v2 y' v' g u' h2).2 hz
      refine ⟨left', right', ?_, x2, x3⟩
      obtain ⟨⟨hx2, hy2⟩, hc⟩ := Option.ne_none_iff_exists'.1 hc
      refine Transcript.bind_ok.2 ⟨_, a1 _, Transcript.bind_ok.2 ⟨_, a2 _, Transcript.bind_ok.2 ⟨Q, total_ok q1,
        Transcript.bind_ok.2 ⟨(y', v', g, u', h2, ⟨(ab ++ [0] ++ [0] ++ 1 :: (gx ++ gy)) ++ [0] ++ 1 :: (hx2 ++ hy2), []⟩), ?_,
        Transcript.bind_ok.2 ⟨(left', right'), total_ok x1, rfl⟩⟩⟩⟩⟩
      unfold Verify.readOpening
      have p1 := point_read (e := .opening) hl hgc (ab ++ [0] ++ [0]) (codec.toBytes h2)
      have p2 := point_read (e := .opening) hl hc (ab ++ [0] ++ [0] ++ 1 :: (gx ++ gy) ++ [0]) []
      rw [repeated_one] at p1
      rw [repeated_one, List.append_nil] at p2
      refine Transcript.bind_ok.2 ⟨_, p1, Transcript.bind_ok.2 ⟨_, p2, ?_⟩⟩
      rw [hy, hv, hu]
      rfl

/-- C92 is false of the code, for any circuit. The factor is a constant, so it is known. Whoever knows it gets from
`forgePair` two proofs that are accepted as a batch, whatever the two keys and the public inputs, whatever the hash
function and whatever the parameters: the secret is not needed. Unless an evaluation point is in the domain, a challenge
`u` is one of its rotations, the two challenges `u` are the same, or one of the last commitments has no coordinates. And
the first of the proofs by itself is accepted for at most one secret. -/
theorem C92_false (codec : Codec G) (hl : Lawful codec) (hash : Hash) (pairing : G →ₗ[Fr] G₂ →ₗ[Fr] GT) (k : Nat)
    (factor : Fr) (hf : factor ≠ 0) (g0 g g' : G) (hg : codec.coords g ≠ none) (hg' : codec.coords g' ≠ none)
    (i j : Item G) (hi : KeyShape i.key k) (hj : KeyShape j.key k) (hii : i.instances.length = 2)
    (hji : j.instances.length = 2) :
    ∃ com ch e y v h1 u com' ch' e' y' v' h1' u',
      forgeMessages codec hash i.key i.repr i.instances g = .ok (com, ch, e, y, v, h1, u) ∧
      forgeMessages codec hash j.key j.repr j.instances g' = .ok (com', ch', e', y', v', h1', u') ∧
      (ch.x ^ 2 ^ k ≠ 1 → ch'.x ^ 2 ^ k ≠ 1 → u ^ 2 ^ k ≠ ch.x ^ 2 ^ k → u' ^ 2 ^ k ≠ ch'.x ^ 2 ^ k → u ≠ u' →
        ∃ i' j' h h', (∀ g2 sG2 : G₂, forgePair codec hash ⟨2 ^ k, g0, g2, sG2⟩ factor g g' i j = .ok (i', j', h, h')) ∧
          (i'.key, i'.repr, i'.instances) = (i.key, i.repr, i.instances) ∧
          (j'.key, j'.repr, j'.instances) = (j.key, j.repr, j.instances) ∧
          (codec.coords h ≠ none → codec.coords h' ≠ none → ∀ g2 sG2 : G₂,
            verifyBatch codec hash pairing ⟨2 ^ k, g0, g2, sG2⟩ factor [i', j'] = .ok true) ∧
          (codec.coords h ≠ none → ∀ g2 : G₂, pairing h g2 ≠ 0 → ∀ s s' : Fr,
            verifyProof codec hash pairing ⟨2 ^ k, g0, g2, s • g2⟩ i'.key i'.repr i'.instances i'.proof = .ok () →
            verifyProof codec hash pairing ⟨2 ^ k, g0, g2, s' • g2⟩ i'.key i'.repr i'.instances i'.proof = .ok () →
            s = s')) := by
  obtain ⟨⟨gx, gy⟩, hgc⟩ := Option.ne_none_iff_exists'.1 hg
  obtain ⟨⟨gx', gy'⟩, hgc'⟩ := Option.ne_none_iff_exists'.1 hg'
  obtain ⟨com, ch, -, e, -, y, v, u, -, -, -, -, -, -, a3⟩ :=
    forgeMessages_ok codec hl hash k i.key hi i.repr i.instances hii g hgc
  obtain ⟨com', ch', -, e', -, y', v', u', -, -, -, -, -, -, b3⟩ :=
    forgeMessages_ok codec hl hash k j.key hj j.repr j.instances hji g' hgc'
  refine ⟨com, ch, e, y, v, g, u, com', ch', e', y', v', g', u', a3, b3, fun hx hx' hux hux' huu => ?_⟩
  obtain ⟨r, hr⟩ := forgeHalf_ok (G₂ := G₂) codec hl hash k g0 i.key hi i.repr i.instances hii g hg a3 hx hux
  obtain ⟨r', hr'⟩ := forgeHalf_ok (G₂ := G₂) codec hl hash k g0 j.key hj j.repr j.instances hji g' hg' b3 hx' hux'
  refine ⟨_, _, _, _, fun g2 sG2 => Transcript.bind_ok.2 ⟨_, (hr g2 sG2).1, Transcript.bind_ok.2 ⟨_, (hr' g2 sG2).1, rfl⟩⟩,
    rfl, rfl, fun hc hc' g2 sG2 => ?_, fun hc g2 hp s s' h1 h2 => ?_⟩
  · obtain ⟨left, right, t1, t2, t3⟩ := (hr g2 sG2).2 _ hc
    obtain ⟨left', right', t1', t2', t3'⟩ := (hr' g2 sG2).2 _ hc'
    refine (batch_iff ..).2 ⟨_, .cons t1 (.cons t1' .nil), ?_⟩
    show factor • (factor • 0 + gap pairing _ _) + gap pairing _ _ = 0
    unfold gap
    dsimp only
    rw [t2, t3, t2', t3']
    set h := -((u - u')⁻¹ • (r + factor⁻¹ • r')) with hh
    have lin : ∀ (a b : G) (q : G₂), factor • pairing a q + pairing b q = pairing (factor • a + b) q := by
      intro a b q
      simp
    rw [smul_zero, zero_add, smul_add, add_add_add_comm, lin, lin]
    have e1 : factor • h + -(factor • h) = 0 := add_neg_cancel _
    have e2 : factor • (r + u • h) + (r' + u' • -(factor • h)) = 0 := by
      have huu' : u - u' ≠ 0 := sub_ne_zero.2 huu
      have : factor • (r + u • h) + (r' + u' • -(factor • h)) = factor • r + r' + (factor * (u - u')) • h := by
        module
      rw [this, hh, smul_neg, smul_smul, mul_assoc, mul_inv_cancel₀ huu', mul_one, smul_add, smul_smul,
        mul_inv_cancel₀ hf, one_smul, add_neg_cancel]
    rw [e1, e2]
    simp
  · obtain ⟨left, right, t1, t2, t3⟩ := (hr g2 (s • g2)).2 _ hc
    obtain ⟨left', right', t1', t2', t3'⟩ := (hr g2 (s' • g2)).2 _ hc
    obtain ⟨d, d1, d2⟩ := (verifyProof_iff (i := ⟨_, _, _, _⟩) ..).1 h1
    obtain ⟨d', d1', d2'⟩ := (verifyProof_iff (i := ⟨_, _, _, _⟩) ..).1 h2
    rw [t1] at d1
    rw [t1'] at d1'
    obtain rfl := Except.ok.inj d1
    obtain rfl := Except.ok.inj d1'
    unfold gap at d2 d2'
    dsimp only at d2 d2'
    rw [t2, t3] at d2
    rw [t2', t3'] at d2'
    have := d2.trans d2'.symm
    rw [add_left_inj, map_smul, map_smul] at this
    rw [← sub_eq_zero, ← sub_smul, smul_eq_zero] at this
    exact sub_eq_zero.1 (this.resolve_right hp)

/-- C92 is false of the code, for the brainfuck circuit: two programs with any inputs, also such as never end, with the
keys generated for any traces. -/
theorem C92_circuit_false (codec : Codec G) (hl : Lawful codec) (hash : Hash) (pairing : G →ₗ[Fr] G₂ →ₗ[Fr] GT)
    (factor : Fr) (hf : factor ≠ 0) (checks : Bool) (fuel fuel' k : Nat) (hk : k ≤ 24) (hfu : 48 ≤ fuel)
    (hfu' : 16 * 2 ^ k ≤ fuel') (g0 g g' : G) (hg : codec.coords g ≠ none) (hg' : codec.coords g' ≠ none)
    (mx mx' : Matrix) (c c' : Nat → Fr) (inst inst' : Nat → List Fr) (key key' : Key G)
    (commit commit' : List Fr → Except Panic G)
    (hkey : keygenVk commit checks fuel fuel' k mx c inst = .ok (.ok key))
    (hkey' : keygenVk commit' checks fuel fuel' k mx' c' inst' = .ok (.ok key')) (repr repr' : Fr)
    (code code' input input' : List Fr) :
    ∃ com ch e y v h1 u com' ch' e' y' v' h1' u',
      forgeMessages codec hash key repr [publicInputs code input 0, publicInputs code input 1] g =
        .ok (com, ch, e, y, v, h1, u) ∧
      forgeMessages codec hash key' repr' [publicInputs code' input' 0, publicInputs code' input' 1] g' =
        .ok (com', ch', e', y', v', h1', u') ∧
      (ch.x ^ 2 ^ k ≠ 1 → ch'.x ^ 2 ^ k ≠ 1 → u ^ 2 ^ k ≠ ch.x ^ 2 ^ k → u' ^ 2 ^ k ≠ ch'.x ^ 2 ^ k → u ≠ u' →
        ∃ proof proof' h h', (∀ g2 sG2 : G₂, forgePair codec hash ⟨2 ^ k, g0, g2, sG2⟩ factor g g'
            ⟨key, repr, [publicInputs code input 0, publicInputs code input 1], []⟩
            ⟨key', repr', [publicInputs code' input' 0, publicInputs code' input' 1], []⟩ =
              .ok (⟨key, repr, [publicInputs code input 0, publicInputs code input 1], proof⟩,
                ⟨key', repr', [publicInputs code' input' 0, publicInputs code' input' 1], proof'⟩, h, h')) ∧
          (codec.coords h ≠ none → codec.coords h' ≠ none → ∀ g2 sG2 : G₂,
            verifyBatch codec hash pairing ⟨2 ^ k, g0, g2, sG2⟩ factor
              [⟨key, repr, [publicInputs code input 0, publicInputs code input 1], proof⟩,
                ⟨key', repr', [publicInputs code' input' 0, publicInputs code' input' 1], proof'⟩] = .ok true)) := by
  obtain ⟨com, ch, e, y, v, h1, u, com', ch', e', y', v', h1', u', m1, m2, hall⟩ := C92_false codec hl hash pairing k factor
    hf g0 g g' hg hg' ⟨key, repr, [publicInputs code input 0, publicInputs code input 1], []⟩
    ⟨key', repr', [publicInputs code' input' 0, publicInputs code' input' 1], []⟩ (keygen_shape hk hfu hfu' hkey)
    (keygen_shape hk hfu hfu' hkey') rfl rfl
  refine ⟨com, ch, e, y, v, h1, u, com', ch', e', y', v', h1', u', m1, m2, fun hx hx' hux hux' huu => ?_⟩
  obtain ⟨⟨k1, r1, n1, p1⟩, ⟨k2, r2, n2, p2⟩, h, h', f1, f2, f3, f4, -⟩ := hall hx hx' hux hux' huu
  simp only [Prod.mk.injEq] at f2 f3
  obtain ⟨rfl, rfl, rfl⟩ := f2
  obtain ⟨rfl, rfl, rfl⟩ := f3
  exact ⟨p1, p2, h, h', f1, f4⟩

/-- A hash function that looks at two bytes only. -/
def twoByteHash : Hash := fun l =>
  if l.getD (l.length - 67) 0 = 0x30 then [2] else if l.getD (l.length - 65) 0 = 0 then [3] else [5]

theorem twoByteHash_append (a b : List UInt8) (h : 67 ≤ b.length) : twoByteHash (a ++ b) = twoByteHash b := by
  have e : ∀ m, m ≤ 67 → (a ++ b).getD ((a ++ b).length - m) 0 = b.getD (b.length - m) 0 := by
    intro m hm
    rw [List.getD_eq_getElem?_getD, List.getD_eq_getElem?_getD, List.length_append,
      List.getElem?_append_right (by omega)]
    congr 2
    omega
  unfold twoByteHash
  rw [e 67 (by omega), e 65 (by omega)]

theorem forgedChallenges (p q : Fr)
    (hq : (squeeze twoByteHash (repeated 2 (1 :: (scalarBytes p ++ scalarBytes p)))).1 = 2)
    (hq' : (squeeze twoByteHash ([0] ++ [0] ++ 1 :: (scalarBytes p ++ scalarBytes p))).1 = q)
    (key : Key Fr) (hs : KeyShape key 9) (repr : Fr) (instances : List (List Fr)) (hi : instances.length = 2)
    {com : Commitments Fr} {ch : Challenges} {e : Evals} {y v : Fr} {h1 : Fr} {u : Fr}
    (hm : forgeMessages scalarCodec twoByteHash key repr instances p = .ok (com, ch, e, y, v, h1, u)) :
    ch.x = 2 ∧ u = q := by
  obtain ⟨com', ch', t, e', ab, y', v', u', -, -, -, -, hu, ⟨before, hx⟩, a3⟩ := forgeMessages_ok scalarCodec
    scalarCodec_lawful twoByteHash 9 key hs repr instances hi p rfl
  rw [a3] at hm
  obtain ⟨rfl, rfl, rfl, rfl, rfl, rfl, rfl⟩ := (by simpa using Except.ok.inj hm :
    com' = com ∧ ch' = ch ∧ e' = e ∧ y' = y ∧ v' = v ∧ p = h1 ∧ u' = u)
  have hlen : (scalarBytes p).length = 32 := scalarCodec_lawful.length p
  constructor
  · rw [hx, show repeated 10 (1 :: (scalarBytes p ++ scalarBytes p)) =
      repeated 8 (1 :: (scalarBytes p ++ scalarBytes p)) ++ repeated 2 (1 :: (scalarBytes p ++ scalarBytes p))
      from by simp [repeated], ← List.append_assoc, ← hq]
    unfold squeeze
    dsimp only
    rw [List.append_assoc, twoByteHash_append _ _ (by simp [repeated, hlen])]
  · rw [hu, ← hq']
    unfold squeeze
    dsimp only
    rw [List.append_assoc ab, List.append_assoc ab, List.append_assoc ab, twoByteHash_append _ _ (by simp [hlen])]

/-- Two proofs for the program `+[]`, an endless loop, that are accepted as a batch with the factor 7, whatever the
parameters. -/
example : ∃ (key : Key Fr) (proof proof' : List UInt8), compile true [43, 91, 93] = .ok [43, 91, 5, 93, 3] ∧
    ∀ s : Fr, verifyBatch scalarCodec twoByteHash (LinearMap.mul Fr Fr) ⟨2 ^ 9, 1, 1, s • (1 : Fr)⟩ 7
      [⟨key, 7, [publicInputs [43, 91, 5, 93, 3] [] 0, publicInputs [43, 91, 5, 93, 3] [] 1], proof⟩,
        ⟨key, 7, [publicInputs [43, 91, 5, 93, 3] [] 0, publicInputs [43, 91, 5, 93, 3] [] 1], proof'⟩] = .ok true := by
  obtain ⟨mx, key', h1, -, -, -⟩ := silent_case
  obtain ⟨h, -⟩ := keygenVk_map (commit := fun _ => .ok (1 : Fr)) (f := fun _ => 1) (fun _ _ _ => rfl) h1
  have hs := keygen_shape (by norm_num) (by norm_num) (by norm_num) h
  generalize mapKey (fun _ => (1 : Fr)) key' = key at h hs
  obtain ⟨com, ch, e, y, v, g1, u, com', ch', e', y', v', g1', u', m1, m2, hall⟩ := C92_circuit_false (G₂ := Fr) scalarCodec
    scalarCodec_lawful twoByteHash (LinearMap.mul Fr Fr) 7 (by decide) false 48 8192 9 (by norm_num) (by norm_num)
    (by norm_num) 1 (-1) (-2) (by simp [scalarCodec]) (by simp [scalarCodec]) mx mx _ _ _ _ key key _ _ h h 7 7
    [43, 91, 5, 93, 3] [43, 91, 5, 93, 3] [] []
  obtain ⟨x1, x2⟩ := forgedChallenges (-1) 3 (by decide +kernel) (by decide +kernel) key hs 7 _ rfl m1
  obtain ⟨x3, x4⟩ := forgedChallenges (-2) 5 (by decide +kernel) (by decide +kernel) key hs 7 _ rfl m2
  obtain ⟨proof, proof', h, h', -, hok⟩ := hall (by rw [x1]; decide +kernel) (by rw [x3]; decide +kernel)
    (by rw [x1, x2]; decide +kernel) (by rw [x3, x4]; decide +kernel) (by rw [x2, x4]; decide +kernel)
  exact ⟨key, proof, proof', by decide +kernel, fun s => hok (by simp [scalarCodec]) (by simp [scalarCodec]) 1 _⟩

/-- Three times the same accepted proof, and a batch with a proof that is not accepted. -/
example : ∃ (srs : Srs Fr Fr) (i j : Item Fr),
    verifyProof scalarCodec oneByteHash (LinearMap.mul Fr Fr) ⟨2 ^ 9, -1, srs.g2, srs.sG2⟩ i.key i.repr i.instances i.proof =
      .ok () ∧
    verifyBatch scalarCodec oneByteHash (LinearMap.mul Fr Fr) ⟨2 ^ 9, -1, srs.g2, srs.sG2⟩ 7 [i, i, i] = .ok true ∧
    verifyProof scalarCodec oneByteHash (LinearMap.mul Fr Fr) ⟨2 ^ 9, -1, srs.g2, srs.sG2⟩ j.key j.repr j.instances j.proof ≠
      .ok () ∧
    ∃ B : Finset Fr, B.card < 2 ∧ ∀ factor, verifyBatch scalarCodec oneByteHash (LinearMap.mul Fr Fr)
      ⟨2 ^ 9, -1, srs.g2, srs.sG2⟩ factor [i, j] = .ok true → factor ∈ B := by
  obtain ⟨srs, mx, key, proof, -, -, h1, h2⟩ := forged_case
  have hs := keygen_shape (by norm_num) (by norm_num) (by norm_num) h1
  have hbad : verifyProof scalarCodec oneByteHash (LinearMap.mul Fr Fr) ⟨2 ^ 9, -1, srs.g2, srs.sG2⟩ key 7 [] proof ≠
      .ok () := by
    unfold verifyProof Verify.readCommitments
    rw [if_pos (by rw [hs.instances]; simp)]
    intro h
    cases h
  refine ⟨srs, ⟨key, 7, [publicInputs [43, 91, 5, 93, 3] [] 0, publicInputs [43, 91, 5, 93, 3] [] 1], proof⟩,
    ⟨key, 7, [], proof⟩, h2, C92_complete _ _ _ _ _ _ (by simpa using h2), hbad,
    C92_random_partial _ _ _ _ [_, ⟨key, 7, [], proof⟩] ⟨key, 7, [], proof⟩ (by simp) hbad⟩

#print axioms C92_complete
#print axioms C92_random_partial
#print axioms C92_false
#print axioms C92_circuit_false

end Verif.Props

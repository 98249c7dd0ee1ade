import Verif.Lemmas.ForgeBytes
import Verif.Lemmas.KeyShape
import Verif.Lemmas.ReadCalm
import Verif.Lemmas.VerifyTotal
import Verif.Props.Messages
import Verif.Props.Openings
import Verif.Props.Transcript

/-! Properties C55 and C56: how a run of the verifier can end, and proofs made with the known secret. -/

namespace Verif.Props

open Spec Plonk Keygen Shplonk Transcript

variable {G G₂ GT : Type} [AddCommGroup G] [Module Fr G]
variable [AddCommGroup G₂] [Module Fr G₂] [AddCommGroup GT] [Module Fr GT] [DecidableEq GT]

theorem total_panic {α : Type} {x : Except Panic α} {p : Panic} (h : Verify.total x = .error (.panic p)) :
    x = .error p := by
  cases x with
  | ok a => cases h
  | error q => cases h; rfl

/-- C55, as far as it holds. With a generated key, whatever the bytes of the proof, the public inputs,
the hash function and the encoding of points: the verifier panics only if the evaluation point `x` is one
of the `2^k` points of the domain, or the challenge `u` of the opening one of the `2^k` rotations of
`x`. -/
theorem C55_panics_partial (k : Nat) (key : Key G) (hkey : KeyShape key k) (codec : Codec G) (hash : Hash)
    (pairing : G →ₗ[Fr] G₂ →ₗ[Fr] GT) (params : VerifierParams G G₂) (hn : params.n = 2 ^ k) (repr : Fr)
    (instances : List (List Fr)) (proof : List UInt8) (p : Panic)
    (h : verifyProof codec hash pairing params key repr instances proof = .error (.panic p)) :
    ∃ com ch t, Verify.readCommitments codec hash key repr instances proof = .ok (com, ch, t) ∧
      (ch.x ^ 2 ^ k = 1 ∨ ∃ e t' y v h1 u h2 t'', Verify.readEvals key com t = .ok (e, t') ∧
        Verify.readOpening codec hash t' = .ok (y, v, h1, u, h2, t'') ∧ u ^ 2 ^ k = ch.x ^ 2 ^ k) := by
  unfold verifyProof at h
  rcases bind_cases h with h | ⟨a, r1, h⟩
  · exact absurd h (calm_commitments _ _ _ _ _)
  rcases bind_cases h with h | ⟨b, r2, h⟩
  · exact absurd h (calm_evals _ _ _ _)
  refine ⟨a.1, a.2.1, a.2.2, r1, ?_⟩
  by_cases hx : a.2.1.x ^ 2 ^ k = 1
  · exact .inl hx
  obtain ⟨s1, s2, s3⟩ := read_shaped hkey.fixedLength hkey.sigmaLength r1 r2
  obtain ⟨Q, q1, q2, q3⟩ := claims_total hkey.domain hkey.closed hkey.advice hkey.fixed s1 s2 s3 hx
  rcases bind_cases h with h | ⟨c, r3, h⟩
  · have := total_panic h
    rw [hn, q1] at this
    cases this
  rw [hn, q1] at r3
  obtain rfl := Except.ok.inj r3
  rcases bind_cases h with h | ⟨d, r4, h⟩
  · exact absurd h (calm_opening _ _)
  refine .inr ⟨_, _, _, _, _, _, _, _, r2, r4, ?_⟩
  by_contra hu
  obtain ⟨ok, hok⟩ := accepts_total pairing params.g0 params.g2 params.sG2 (cs := Q.map Ref.toClaim) (by simpa using q2)
    d.1 d.2.1 d.2.2.1 d.2.2.2.1 d.2.2.2.2.1 (by
      intro q hq he
      obtain ⟨q', hq', rfl⟩ := List.mem_map.1 hq
      refine hu ?_
      rw [← q3 q' hq', ← he]
      obtain ⟨c, x, v⟩ := q'
      cases c <;> rfl)
  rcases bind_cases h with h | ⟨e, r5, h⟩
  · have := total_panic h
    rw [hok] at this
    cases this
  · split at h <;> cases h

/-- C55 for every key generated for the brainfuck circuit: the verifier accepts or returns an error,
except for those challenges. -/
theorem C55_circuit_partial (checks : Bool) (fuel fuel' k : Nat) (hk : k ≤ 24) (hf : 48 ≤ fuel)
    (hf' : 16 * 2 ^ k ≤ fuel') (mx : Matrix) (c : Nat → Fr) (inst : Nat → List Fr) (key : Key G)
    (commit : List Fr → Except Panic G) (hkey : keygenVk commit checks fuel fuel' k mx c inst = .ok (.ok key))
    (codec : Codec G) (hash : Hash) (pairing : G →ₗ[Fr] G₂ →ₗ[Fr] GT) (params : VerifierParams G G₂)
    (hn : params.n = 2 ^ k) (repr : Fr) (instances : List (List Fr)) (proof : List UInt8) :
    verifyProof codec hash pairing params key repr instances proof = .ok () ∨
    (∃ e, verifyProof codec hash pairing params key repr instances proof = .error (.error e)) ∨
    ∃ com ch t, Verify.readCommitments codec hash key repr instances proof = .ok (com, ch, t) ∧
      (ch.x ^ 2 ^ k = 1 ∨ ∃ e t' y v h1 u h2 t'', Verify.readEvals key com t = .ok (e, t') ∧
        Verify.readOpening codec hash t' = .ok (y, v, h1, u, h2, t'') ∧ u ^ 2 ^ k = ch.x ^ 2 ^ k) := by
  cases h : verifyProof codec hash pairing params key repr instances proof with
  | ok a => exact .inl rfl
  | error s =>
    cases s with
    | error e => exact .inr (.inl ⟨e, rfl⟩)
    | panic p => exact .inr (.inr (C55_panics_partial k key (keygen_shape hk hf hf' hkey) codec hash pairing params hn repr
        instances proof p h))

/-- C55 is false of the code: with an evaluation point in the domain the verifier panics, whatever the
rest of the proof is. -/
theorem C55_false (key : Key G) (codec : Codec G) (hash : Hash)
    (pairing : G →ₗ[Fr] G₂ →ₗ[Fr] GT) (params : VerifierParams G G₂) (repr : Fr)
    (instances : List (List Fr)) (proof : List UInt8) (com : Commitments G) (ch : Challenges) (t t' : Reader) (e : Evals)
    (h1 : Verify.readCommitments codec hash key repr instances proof = .ok (com, ch, t))
    (h2 : Verify.readEvals key com t = .ok (e, t')) (hx : ch.x ^ params.n = 1) :
    ∃ p, verifyProof codec hash pairing params key repr instances proof = .error (.panic p) := by
  have hc : ∃ p, claims (Ref.ofKey key) params.n instances (Ref.ofCommitments com) ch e = .error p := by
    cases hq : claims (Ref.ofKey key) params.n instances (Ref.ofCommitments com) ch e with
    | error p => exact ⟨p, rfl⟩
    | ok Q =>
      exfalso
      unfold claims at hq
      obtain ⟨a, -, hq⟩ := Transcript.bind_ok.1 hq
      dsimp only at hq
      split at hq
      · cases hq
      obtain ⟨b, -, hq⟩ := Transcript.bind_ok.1 hq
      obtain ⟨c, -, hq⟩ := Transcript.bind_ok.1 hq
      obtain ⟨d, -, hq⟩ := Transcript.bind_ok.1 hq
      rw [if_pos (by rw [hx, sub_self])] at hq
      cases hq
  obtain ⟨p, hp⟩ := hc
  refine ⟨p, ?_⟩
  unfold verifyProof
  rw [h1]
  show (Verify.readEvals key com t >>= _) = _
  rw [h2]
  show (Verify.total (claims (Ref.ofKey key) params.n instances (Ref.ofCommitments com) ch e) >>= _) = _
  rw [hp]
  rfl

/-- The first part of a forged proof: the same point for every commitment, zero for every scalar. -/
def forgeStart (codec : Codec G) (key : Key G) (g : G) : List UInt8 :=
  repeated (readPointCount key) (codec.toBytes g) ++ (repeated (readScalarCount key) (scalarBytes 0) ++ codec.toBytes g)

/-- With such a proof the verifier panics if the hash function always returns 1. -/
example : ∃ (key : Key Fr) (p : Panic), verifyProof scalarCodec (fun _ => [1]) (LinearMap.mul Fr Fr)
    ⟨2 ^ 9, 1, 1, (42 : Fr) • (1 : Fr)⟩ key 7 [publicInputs demoCode (toFr [2]) 0, publicInputs demoCode (toFr [2]) 1]
    (forgeStart scalarCodec key 1) = .error (.panic p) := by
  obtain ⟨mx, key', h1, -, -, -⟩ := silent_case
  obtain ⟨h, -⟩ := keygenVk_map (commit := fun _ => .ok (1 : Fr)) (f := fun _ => 1) (fun _ _ _ => rfl) h1
  have hs := keygen_shape (by norm_num) (by norm_num) (by norm_num) h
  generalize mapKey (fun _ => (1 : Fr)) key' = key at h hs
  obtain ⟨com, ch, ab, r1, r2⟩ := commitments_eats (hash := fun _ => [1]) (p := (1 : Fr)) scalarCodec_lawful (by simp [scalarCodec]) key 7
    [publicInputs demoCode (toFr [2]) 0, publicInputs demoCode (toFr [2]) 1] (by rw [hs.instances]; rfl)
    (repeated (readScalarCount key) (scalarBytes 0) ++ scalarCodec.toBytes 1)
  obtain ⟨c1, c2, -⟩ := commitments_used r1
  obtain ⟨e, ab', r3⟩ := evals_eats key com c1 c2 ab (scalarCodec.toBytes 1)
  obtain ⟨before, hx⟩ := r2 _ _ rfl
  refine ⟨key, C55_false key scalarCodec _ _ _ 7 _ _ com ch _ _ e r1 r3 ?_⟩
  rw [hx]
  have : (squeeze (fun _ => [1]) (before ++ repeated key.domain.quotientPolyDegree
    (1 :: (scalarBytes 1 ++ scalarBytes 1)))).1 = 1 := by
    show ((leNat [1] : Nat) : Fr) = 1
    decide
  rw [this, one_pow]

open Verify in
/-- What the verifier reads from such a proof, up to the challenge `u` of the opening. -/
def forgeMessages (codec : Codec G) (hash : Hash) (key : Key G) (repr : Fr) (instances : List (List Fr)) (g : G) :
    Except Verify.Stop (Commitments G × Challenges × Evals × Fr × Fr × G × Fr) := do
  let (com, ch, t) ← readCommitments codec hash key repr instances (forgeStart codec key g)
  let (e, t) ← readEvals key com t
  let (y, t) := draw hash t
  let (v, t) := draw hash t
  let (h1, t) ← orErr .opening (readPoint codec t)
  let (u, _) := draw hash t
  return (com, ch, e, y, v, h1, u)

open Verify in
/-- A proof for any program and input, for someone who knows the secret `s` of the parameters: send
anything, and solve the verifier's last equation for the last commitment. The result is the proof and
its last commitment. -/
def forge (codec : Codec G) (hash : Hash) (params : VerifierParams G G₂) (key : Key G) (repr : Fr)
    (instances : List (List Fr)) (s : Fr) : Except Verify.Stop (List UInt8 × G) := do
  let (com, ch, e, y, v, h1, u) ← forgeMessages codec hash key repr instances params.g0
  let queries ← total (claims (Ref.ofKey key) params.n instances (Ref.ofCommitments com) ch e)
  let h2 ← total (forgeOpening s params.g0 (queries.map Ref.toClaim) y v h1 u)
  return (forgeStart codec key params.g0 ++ codec.toBytes h2, h2)

omit [Module Fr G] in
/-- How the messages are read. -/
theorem forgeMessages_ok (codec : Codec G) (hl : Lawful codec) (hash : Hash) (k : Nat) (key : Key G) (hkey : KeyShape key k)
    (repr : Fr) (instances : List (List Fr)) (hi : instances.length = 2) (g : G) {gx gy : List UInt8}
    (hg : codec.coords g = some (gx, gy)) : ∃ com ch t e ab y v u,
      (∀ rest, Verify.readCommitments codec hash key repr instances (forgeStart codec key g ++ rest) =
        .ok (com, ch, ⟨t, repeated (readScalarCount key) (scalarBytes 0) ++ (codec.toBytes g ++ rest)⟩)) ∧
      (∀ rest, Verify.readEvals key com ⟨t, repeated (readScalarCount key) (scalarBytes 0) ++ (codec.toBytes g ++ rest)⟩ =
        .ok (e, ⟨ab, codec.toBytes g ++ rest⟩)) ∧
      y = (squeeze hash ab).1 ∧ v = (squeeze hash (ab ++ [0])).1 ∧
      u = (squeeze hash (ab ++ [0] ++ [0] ++ 1 :: (gx ++ gy))).1 ∧
      (∃ before, ch.x = (squeeze hash (before ++ repeated 10 (1 :: (gx ++ gy)))).1) ∧
      forgeMessages codec hash key repr instances g = .ok (com, ch, e, y, v, g, u) := by
  have hg' : codec.coords g ≠ none := by rw [hg]; simp
  obtain ⟨com, ch, t, r1, r2⟩ := commitments_eats (hash := hash) (p := g) hl hg' key repr
    instances (by rw [hkey.instances]; exact hi) (repeated (readScalarCount key) (scalarBytes 0) ++ codec.toBytes g)
  obtain ⟨c1, c2, used, c3, c4, c5⟩ := commitments_used r1
  obtain ⟨e, ab, r3⟩ := evals_eats key com c1 c2 t (codec.toBytes g)
  obtain ⟨used', d1, d2, d3⟩ := evals_used r3
  have hused : used = repeated (readPointCount key) (codec.toBytes g) := List.append_cancel_right c4.symm
  have hused' : used' = repeated (readScalarCount key) (scalarBytes 0) := List.append_cancel_right d2.symm
  subst hused hused'
  have h1 : ∀ rest, Verify.readCommitments codec hash key repr instances (forgeStart codec key g ++ rest) =
      .ok (com, ch, ⟨t, repeated (readScalarCount key) (scalarBytes 0) ++ (codec.toBytes g ++ rest)⟩) := by
    intro rest
    have := c5 (repeated (readScalarCount key) (scalarBytes 0) ++ (codec.toBytes g ++ rest))
    unfold forgeStart
    rw [List.append_assoc, List.append_assoc]
    exact this
  have h2 : ∀ rest, Verify.readEvals key com ⟨t, repeated (readScalarCount key) (scalarBytes 0) ++
      (codec.toBytes g ++ rest)⟩ = .ok (e, ⟨ab, codec.toBytes g ++ rest⟩) := fun rest => d3 _
  refine ⟨com, ch, t, e, ab, _, _, _, h1, h2, rfl, rfl, rfl, ?_, ?_⟩
  · obtain ⟨before, hb⟩ := r2 _ _ hg
    rw [hkey.domain.quotient, hkey.degree] at hb
    exact ⟨before, hb⟩
  · have g1 := h1 []
    have g2 := h2 []
    simp only [List.append_nil] at g1 g2
    unfold forgeMessages
    refine Transcript.bind_ok.2 ⟨_, g1, Transcript.bind_ok.2 ⟨_, g2, Transcript.bind_ok.2
      ⟨(g, ⟨ab ++ [0] ++ [0] ++ 1 :: (gx ++ gy), []⟩), ?_, rfl⟩⟩⟩
    have := point_read (e := .opening) hl hg (ab ++ [0] ++ [0]) []
    rw [repeated_one, List.append_nil] at this
    exact this

/-- C56 is false of the code, for any circuit. Let the parameters be made from a secret `s`. Whoever
knows `s` gets from `forge` a proof the verifier accepts, for any key and any public inputs, whatever the
hash function: unless the evaluation point is in the domain, the challenge `u` is one of its rotations or
the secret itself, or the last commitment has no coordinates. -/
theorem C56_forgery (codec : Codec G) (hl : Lawful codec) (hash : Hash) (pairing : G →ₗ[Fr] G₂ →ₗ[Fr] GT) (k : Nat)
    (key : Key G) (hkey : KeyShape key k) (g : G) (hg : codec.coords g ≠ none) (g2 : G₂) (s : Fr) (repr : Fr)
    (instances : List (List Fr)) (hi : instances.length = 2) :
    ∃ com ch e y v h1 u, forgeMessages codec hash key repr instances g = .ok (com, ch, e, y, v, h1, u) ∧
      (ch.x ^ 2 ^ k ≠ 1 → u ^ 2 ^ k ≠ ch.x ^ 2 ^ k → u ≠ s →
        ∃ proof h2, forge codec hash ⟨2 ^ k, g, g2, s • g2⟩ key repr instances s = .ok (proof, h2) ∧
          (codec.coords h2 ≠ none →
            verifyProof codec hash pairing ⟨2 ^ k, g, g2, s • g2⟩ key repr instances proof = .ok ())) := by
  obtain ⟨⟨gx, gy⟩, hgc⟩ := Option.ne_none_iff_exists'.1 hg
  obtain ⟨com, ch, t, e, ab, y, v, u, a1, a2, hy, hv, hu, -, a3⟩ := forgeMessages_ok codec hl hash k key hkey repr instances hi g hgc
  refine ⟨com, ch, e, y, v, g, u, a3, fun hx hux hus => ?_⟩
  obtain ⟨s1, s2, s3⟩ := read_shaped hkey.fixedLength hkey.sigmaLength (a1 []) (a2 [])
  obtain ⟨Q, q1, q2, q3⟩ := claims_total hkey.domain hkey.closed hkey.advice hkey.fixed s1 s2 s3 hx
  obtain ⟨h2, f1, f2⟩ := forgeOpening_accepted pairing g g2 s (Q.map Ref.toClaim) (by simpa using q2) y v g u hus (by
      intro q hq he
      obtain ⟨q', hq', rfl⟩ := List.mem_map.1 hq
      refine hux ?_
      rw [← q3 q' hq', ← he]
      obtain ⟨c, x, v⟩ := q'
      cases c <;> rfl)
  have total_ok : ∀ {α : Type} {x : Except Panic α} {a : α}, x = .ok a → Verify.total x = .ok a := by
    intro α x a h
    rw [h]
    rfl
  refine ⟨_, h2, Transcript.bind_ok.2 ⟨_, a3, Transcript.bind_ok.2 ⟨Q, total_ok q1, Transcript.bind_ok.2
    ⟨h2, total_ok f1, rfl⟩⟩⟩, fun hc => ?_⟩
  obtain ⟨⟨hx2, hy2⟩, hc⟩ := Option.ne_none_iff_exists'.1 hc
  refine (C54_bytes codec hash pairing ⟨2 ^ k, g, g2, s • g2⟩ key hkey.fixedLength hkey.sigmaLength repr instances _).2
    ⟨com, ch, _, e, _, y, v, g, u, h2, ⟨(ab ++ [0] ++ [0] ++ 1 :: (gx ++ gy)) ++ [0] ++ 1 :: (hx2 ++ hy2), []⟩,
      a1 _, a2 _, ?_, s1, Q, q1, f2⟩
  unfold Verify.readOpening
  have p1 := point_read (e := .opening) hl hgc (ab ++ [0] ++ [0]) (codec.toBytes h2)
  have p2 := point_read (e := .opening) hl hc (ab ++ [0] ++ [0] ++ 1 :: (gx ++ gy) ++ [0]) []
  rw [repeated_one] at p1
  rw [repeated_one, List.append_nil] at p2
  refine Transcript.bind_ok.2 ⟨_, p1, Transcript.bind_ok.2 ⟨_, p2, ?_⟩⟩
  rw [hy, hv, hu]
  rfl

/-- C56 is false of the code, for the brainfuck circuit: the secret is the constant 42, so this goes for
every program and every input, with the key generated for any trace, also if the program never ends. -/
theorem C56_circuit_false (codec : Codec G) (hl : Lawful codec) (hash : Hash) (pairing : G →ₗ[Fr] G₂ →ₗ[Fr] GT)
    (checks : Bool) (fuel fuel' k : Nat) (hk : k ≤ 24) (hf : 48 ≤ fuel) (hf' : 16 * 2 ^ k ≤ fuel') (g : G)
    (hg : codec.coords g ≠ none) (g2 : G₂) (srs : Srs G G₂) (hsrs : Srs.setup g g2 k 42 = .ok srs) (mx : Matrix)
    (c : Nat → Fr) (inst : Nat → List Fr) (key : Key G)
    (hkey : keygenVk srs.commitLagrange checks fuel fuel' k mx c inst = .ok (.ok key)) (repr : Fr)
    (code input : List Fr) :
    ∃ com ch e y v h1 u, forgeMessages codec hash key repr [publicInputs code input 0, publicInputs code input 1] g =
        .ok (com, ch, e, y, v, h1, u) ∧
      (ch.x ^ 2 ^ k ≠ 1 → u ^ 2 ^ k ≠ ch.x ^ 2 ^ k → u ≠ 42 →
        ∃ proof h2, forge codec hash ⟨2 ^ k, g, srs.g2, srs.sG2⟩ key repr
            [publicInputs code input 0, publicInputs code input 1] 42 = .ok (proof, h2) ∧
          (codec.coords h2 ≠ none →
            verifyProof codec hash pairing ⟨2 ^ k, g, srs.g2, srs.sG2⟩ key repr
              [publicInputs code input 0, publicInputs code input 1] proof = .ok ())) := by
  have h2 : srs.g2 = g2 ∧ srs.sG2 = (42 : Fr) • g2 := by
    rw [setup_eq] at hsrs
    split at hsrs
    · exact absurd hsrs (by simp)
    · split at hsrs
      · exact absurd hsrs (by simp)
      · obtain rfl := Except.ok.inj hsrs
        exact ⟨rfl, rfl⟩
  rw [h2.1, h2.2]
  exact C56_forgery codec hl hash pairing k key (keygen_shape hk hf hf' hkey) g hg g2 42 repr _ rfl

/-- A hash function that looks at one byte only. -/
def oneByteHash : Hash := fun l => if l.getD (l.length - 67) 0 = 0x30 then [2] else [3]

theorem oneByteHash_append (a b : List UInt8) (h : 67 ≤ b.length) : oneByteHash (a ++ b) = oneByteHash b := by
  have : (a ++ b).getD ((a ++ b).length - 67) 0 = b.getD (b.length - 67) 0 := by
    rw [List.getD_eq_getElem?_getD, List.getD_eq_getElem?_getD, List.length_append,
      List.getElem?_append_right (by omega)]
    congr 2
    omega
  unfold oneByteHash
  rw [this]

/-- A proof for the program `+[]`, an endless loop, with the key made for a run of another program. -/
theorem forged_case : ∃ (srs : Srs Fr Fr) (mx : Matrix) (key : Key Fr) (proof : List UInt8),
    compile true [43, 91, 93] = .ok [43, 91, 5, 93, 3] ∧ Srs.setup (-1 : Fr) (1 : Fr) 9 42 = .ok srs ∧
    keygenVk srs.commitLagrange false 48 8192 9 mx (fun _ => 0) (publicInputs demoCode (toFr [2])) = .ok (.ok key) ∧
    verifyProof scalarCodec oneByteHash (LinearMap.mul Fr Fr) ⟨2 ^ 9, -1, srs.g2, srs.sG2⟩ key 7
      [publicInputs [43, 91, 5, 93, 3] [] 0, publicInputs [43, 91, 5, 93, 3] [] 1] proof = .ok () := by
  obtain ⟨srs, hsrs⟩ : ∃ srs, Srs.setup (-1 : Fr) (1 : Fr) 9 42 = .ok srs := C43_secret _ _ 9 (by norm_num)
  obtain ⟨mx, key', h1, -, -, -⟩ := silent_case
  have hs' := keygen_shape (by norm_num) (by norm_num) (by norm_num) h1
  have hd := hs'.domain
  have hw := (keygenVk_map (f := id) (commit := key'.domain.lagrangeToCoeff) (fun _ _ h => h) h1).2
  have hdeg : mainCS.degree = key'.cs.degree := by rw [hs'.degree]; exact degree_11
  rw [hdeg] at hw
  have hcommit := commits_setup (g1 := (-1 : Fr)) (g2 := (1 : Fr)) (s := 42) hsrs hd (new_omega hw hd)
  have hvk := (keygenVk_map hcommit.lagrange h1).1
  generalize mapKey _ key' = key at hvk
  have hs := keygen_shape (by norm_num) (by norm_num) (by norm_num) hvk
  have hb : scalarCodec.coords (-1) = some (scalarBytes (-1), scalarBytes (-1)) := rfl
  obtain ⟨com, ch, t, e, ab, y, v, u, -, -, -, -, hu, ⟨before, hx⟩, a3⟩ := forgeMessages_ok scalarCodec
    scalarCodec_lawful oneByteHash 9 key hs 7 [publicInputs [43, 91, 5, 93, 3] [] 0, publicInputs [43, 91, 5, 93, 3] [] 1]
    rfl (-1) hb
  obtain ⟨com', ch', e', y', v', h1', u', a4, hall⟩ := C56_circuit_false scalarCodec scalarCodec_lawful oneByteHash
    (LinearMap.mul Fr Fr) false 48 8192 9 (by norm_num) (by norm_num) (by norm_num) (-1) (by simp [scalarCodec]) 1 srs hsrs mx
    (fun _ => 0) _ key hvk 7 [43, 91, 5, 93, 3] []
  rw [a3] at a4
  obtain ⟨rfl, rfl, rfl, rfl, rfl, rfl, rfl⟩ := (by simpa using Except.ok.inj a4 :
    com = com' ∧ ch = ch' ∧ e = e' ∧ y = y' ∧ v = v' ∧ (-1 : Fr) = h1' ∧ u = u')
  have hx2 : ch.x = 2 := by
    rw [hx, show repeated 10 (1 :: (scalarBytes (-1) ++ scalarBytes (-1))) =
      repeated 8 (1 :: (scalarBytes (-1) ++ scalarBytes (-1))) ++ repeated 2 (1 :: (scalarBytes (-1) ++ scalarBytes (-1)))
      from by simp [repeated], ← List.append_assoc]
    unfold squeeze
    dsimp only
    rw [List.append_assoc, oneByteHash_append _ _ (by decide +kernel)]
    decide +kernel
  have hu3 : u = 3 := by
    rw [hu]
    unfold squeeze
    dsimp only
    rw [List.append_assoc (ab ++ [0]), List.append_assoc (ab ++ [0]), oneByteHash_append _ _ (by decide +kernel)]
    decide +kernel
  obtain ⟨proof, h2, -, hok⟩ := hall (by rw [hx2]; decide +kernel) (by rw [hx2, hu3]; decide +kernel)
    (by rw [hu3]; decide +kernel)
  exact ⟨srs, mx, key, proof, by decide +kernel, hsrs, hvk, hok (by simp [scalarCodec])⟩

#print axioms C55_panics_partial
#print axioms C55_circuit_partial
#print axioms C55_false
#print axioms C56_forgery
#print axioms C56_circuit_false

end Verif.Props

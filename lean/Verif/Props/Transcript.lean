import Verif.Lemmas.ProveAccept
import Verif.Lemmas.ProveDraws
import Verif.Lemmas.TrailingBytes
import Verif.Props.Completeness

/-! Properties C51 to C53: the bytes the prover writes are accepted by the verifier; how a run of the
prover ends; which bytes the verifier looks at. -/

namespace Verif.Props

open Spec Plonk Keygen PlonkProver Shplonk Transcript

variable {G G₂ GT : Type} [AddCommGroup G] [Module Fr G]
variable [AddCommGroup G₂] [Module Fr G₂] [AddCommGroup GT] [Module Fr GT] [DecidableEq GT]

/-- C51. For a compiled program and an input that the run reads to its end, whenever the instruction
table and the input leave 7 of the `2^k` rows free (`9 ≤ k ≤ 24`), with parameters made from any secret:
key generation gives a proving key and a verifying key. Whatever the hash function and the blinding
values, if the prover ends with bytes, the verifier reads from them (and from whatever follows them) the
messages and draws challenges; and it accepts, unless β or γ fall in sets of at most `2^k` and
`17 · 2^k` elements fixed before they are drawn, or x is one of the `2^k` points of the domain, or u is
one of the `2^k` rotations of x. -/
theorem C51_accepted (checks checks' checks'' : Bool) (src : List UInt8) (code : List Fr) (input : List Nat)
    (n : Nat) (s : Verif.Interp) (hp : GoodProgram checks src code) (hi : GoodInput 8 input)
    (hn : n ≤ 2 ^ 62) (hlen : input.length < 2 ^ 64) (hr : runOn n 8 code input = some (.ok s))
    (hread : s.input = []) (fuel fuel' k : Nat) (hk : k ≤ 24) (hk9 : 9 ≤ k) (hf : 48 ≤ fuel)
    (hf' : 16 * 2 ^ k ≤ fuel') (hroom : s.matrix.instruction.length + 7 ≤ 2 ^ k)
    (hroom' : input.length + 7 ≤ 2 ^ k) (ch : Nat → Fr)
    (g1 : G) (g2 : G₂) (secret : Fr) (srs : Srs G G₂) (hsrs : Srs.setup g1 g2 k secret = .ok srs)
    (pairing : G →ₗ[Fr] G₂ →ₗ[Fr] GT) (codec : Codec G) (hl : Lawful codec) :
    ∃ (pk : ProvingKey) (vk : Key G),
      keygenPk checks' fuel fuel' k s.matrix ch (publicInputs code (toFr input)) = .ok (.ok pk) ∧
      keygenVk srs.commitLagrange checks' fuel fuel' k s.matrix ch (publicInputs code (toFr input)) = .ok (.ok vk) ∧
      ∃ (Bβ : List Fr → Fr → Finset Fr) (Bγ : List Fr → Fr → Fr → Finset Fr),
        (∀ user θ, (Bβ user θ).card ≤ 2 ^ k) ∧ (∀ user θ β, (Bγ user θ β).card ≤ 17 * 2 ^ k) ∧
        ∀ (hash : Hash) (repr : Fr) (blinds : Blinds) (out rest : List UInt8), EnoughBlinds pk.cs blinds →
          prove checks'' codec hash srs pk repr [publicInputs code (toFr input) 0, publicInputs code (toFr input) 1]
            (circuitSynth k s.matrix (publicInputs code (toFr input))) blinds = .ok out →
          ∃ com c t e t' y v h1 u h2 t'',
            Verify.readCommitments codec hash vk repr
              [publicInputs code (toFr input) 0, publicInputs code (toFr input) 1] (out ++ rest) = .ok (com, c, t) ∧
            Verify.readEvals vk com t = .ok (e, t') ∧
            Verify.readOpening codec hash t' = .ok (y, v, h1, u, h2, t'') ∧
            (c.beta ∉ Bβ c.user c.theta → c.gamma ∉ Bγ c.user c.theta c.beta → c.x ^ 2 ^ k ≠ 1 →
              u ^ 2 ^ k ≠ c.x ^ 2 ^ k →
              verifyProof codec hash pairing ⟨2 ^ k, g1, g2, secret • g2⟩ vk repr
                [publicInputs code (toFr input) 0, publicInputs code (toFr input) 1] (out ++ rest) = .ok ()) := by
  classical
  have h9 : 2 ^ 9 ≤ 2 ^ k := Nat.pow_le_pow_right (by norm_num) hk9
  have hsyn : ∀ ch, ∃ a, synthesize (2 ^ k) s.matrix ch (publicInputs code (toFr input)) = .ok a := fun ch =>
    (honest_room hp hi hn hr (2 ^ k) ch).2 ⟨by omega, hroom, hroom'⟩
  obtain ⟨a, ha⟩ := hsyn ch
  obtain ⟨pk, asm, c, cols, as, h1, h2, h3, h4, h5, h6, h7, h8, h10⟩ :=
    keygenPk_ok checks' fuel fuel' k hk hf hf' s.matrix ch _ a ha
  have hd := h3.domain
  have hw := (keygenVk_map (f := id) (commit := pk.domain.lagrangeToCoeff) (fun _ _ h => h) h2).2
  have hdeg : pk.cs.degree = mainCS.degree := by rw [h7, C32_degree _ _ mainCS_sane _ _ _ _ h5]
  rw [← hdeg] at hw
  have homega := new_omega hw hd
  have hcommit := commits_setup (g1 := g1) (g2 := g2) (s := secret) hsrs hd homega
  have hvk := (keygenVk_map hcommit.lagrange h2).1
  refine ⟨pk, _, h1, hvk, ?_⟩
  obtain ⟨g1', g2', g3', g4', g5', g6'⟩ := gates_count
  have hna : mainCS.numAdvice = 28 := by decide +kernel
  obtain ⟨c1, c2, c3, c4, c5, c6, c7, c8, c9, c10⟩ := compressed_permutation mainCS_sane h5
  obtain ⟨p1, p2⟩ := compressed_phases mainCS_sane h5
  obtain ⟨hnd, h16⟩ := C33_circuit
  have hus : c.cs.usableRows (2 ^ k) = 2 ^ k - 6 := by
    unfold CS.usableRows; rw [c10, g6']
  have hcl := compressed_closed mainCS_sane mainCS_closed h5
  obtain ⟨-, hl0, hl1, -⟩ := (synthesize_ok_iff _ _ _ _ _).1 ha
  have main : ∀ user : List Fr, ∃ (Bβ : Fr → Finset Fr) (Bγ : Fr → Fr → Finset Fr),
      (∀ θ, (Bβ θ).card ≤ 2 ^ k) ∧ (∀ θ β, (Bγ θ β).card ≤ 17 * 2 ^ k) ∧
      (user.length = 11 → ∀ witness, witnessColumns k s.matrix user (publicInputs code (toFr input)) = .ok witness →
        ∀ θ β γ y x, β ∉ Bβ θ → γ ∉ Bγ θ β → x ^ 2 ^ k ≠ 1 → ∀ b, EnoughBlinds pk.cs b →
        Succeeds (verifyingKeyOf pk) (2 ^ k) [publicInputs code (toFr input) 0, publicInputs code (toFr input) 1]
          ⟨user, θ, β, γ, y, x⟩ (createProof pk (2 ^ k)
            [publicInputs code (toFr input) 0, publicInputs code (toFr input) 1] witness ⟨user, θ, β, γ, y, x⟩ b)) := by
    intro user
    by_cases hu : user.length = 11
    · obtain ⟨a0, ha0⟩ := hsyn (fun _ => 0)
      obtain ⟨a1, ha1⟩ := hsyn (fun i => user.getD i 0)
      have hwit : witnessColumns k s.matrix user (publicInputs code (toFr input)) =
          .ok ((List.range mainCS.numAdvice).map fun c => (List.range (2 ^ k)).map fun r =>
            if mainCS.advicePhase[c]? = some 0 then a0.advice c r else a1.advice c r) := by
        unfold witnessColumns
        rw [ha0, ha1]
      obtain ⟨witness, hw⟩ : ∃ w, w = (List.range mainCS.numAdvice).map fun c => (List.range (2 ^ k)).map fun r =>
            if mainCS.advicePhase[c]? = some 0 then a0.advice c r else a1.advice c r := ⟨_, rfl⟩
      rw [← hw] at hwit
      have hsat := honest_table hp hi hn hlen hr hread ha ha0 ha1 h5 h6 hwit
      obtain ⟨Bβ, Bγ, b1, b2, hall⟩ := C47_complete pk k h3 (by rw [h7]; exact hcl) (by rw [h7, c10, g6']; omega)
        [publicInputs code (toFr input) 0, publicInputs code (toFr input) 1] witness user
        (by rw [h7, c3, g4']; rfl)
        (by
          intro v hv
          rw [h7, c10, g6']
          simp only [List.mem_cons, List.not_mem_nil, or_false] at hv
          rcases hv with rfl | rfl
          · exact hl0
          · exact hl1)
        (by rw [h7, c5, hna, hw, hna]; simp)
        (by intro v hv; rw [hw] at hv; obtain ⟨i, -, rfl⟩ := List.mem_map.1 hv; simp)
        (by rw [h7, c4, g5']; exact hu) fuel' (by rw [h7, c1, h16]; exact hf') a.copies
        (by intro p hp; rw [h7, hus]; exact (Keygen.copies_rows ha p hp).1) asm
        (by rw [h7, c1]; exact h4) (by rw [h7, c1, h16]; exact h10)
        (by rw [h7, h8]; exact hsat)
      rw [h7, c6, g2'] at b1
      rw [h7, c6, c1, h16, g2'] at b2
      refine ⟨Bβ, Bγ, fun θ => (b1 θ).trans (by omega), b2, fun _ w hw' => ?_⟩
      rw [hwit] at hw'
      obtain rfl := Except.ok.inj hw'
      exact hall
    · exact ⟨fun _ => ∅, fun _ _ => ∅, by simp, by simp, fun h => absurd h hu⟩
  choose Bβ Bγ b1 b2 b3 using main
  refine ⟨Bβ, Bγ, b1, b2, ?_⟩
  intro hash repr blinds out rest hb hprove
  obtain ⟨r⟩ := exists_run hprove
  obtain ⟨t, t', t'', r1, r2, r3⟩ := r.read hl h3 hb hcommit rest
  refine ⟨_, r.ch, t, r.e, t', r.y', r.v, r.h1, r.u, r.h2, t'', r1, r2, r3, ?_⟩
  intro hβ hγ hx hu
  have hph := r.phases
  rw [hcommit.rows] at hph
  obtain ⟨hul, witness, w1, w2⟩ := circuit_columns (by rw [h7, p1]) (by rw [h7, p2]) (by rw [h7, c5]) (by rw [h7, c4]) hph
  obtain ⟨com, e, Q, q1, q2, q3, q4⟩ := b3 r.ch.user hul witness w1 r.ch.theta r.ch.beta r.ch.gamma r.ch.y r.ch.x hβ hγ hx
    blinds hb
  have hcreate := r.create witness w2
  rw [hcommit.rows] at hcreate
  have q1' : createProof pk (2 ^ k) [publicInputs code (toFr input) 0, publicInputs code (toFr input) 1] witness r.ch
      blinds = .ok (com, e) := q1
  rw [hcreate] at q1'
  obtain ⟨rfl, rfl⟩ := Prod.mk.inj (Except.ok.inj q1')
  exact r.accepted hl h3 hb hsrs homega q3 q4 hu pairing rest

/-- C52. In the same setting: the prover ends with at most 4512 bytes (which fit the 8192 bytes the
on-chain verifier reserves for a proof), or a point without affine coordinates exists and the prover
ends with one of two errors, or it panics and the hash of a transcript and the hash of a longer one are
rotations of each other. -/
theorem C52_ends (checks checks' checks'' : Bool) (src : List UInt8) (code : List Fr) (input : List Nat)
    (n : Nat) (s : Verif.Interp) (hp : GoodProgram checks src code) (hi : GoodInput 8 input)
    (hn : n ≤ 2 ^ 62) (hlen : input.length < 2 ^ 64) (hr : runOn n 8 code input = some (.ok s))
    (hread : s.input = []) (fuel fuel' k : Nat) (hk : k ≤ 24) (hk9 : 9 ≤ k) (hf : 48 ≤ fuel)
    (hf' : 16 * 2 ^ k ≤ fuel') (hroom : s.matrix.instruction.length + 7 ≤ 2 ^ k)
    (hroom' : input.length + 7 ≤ 2 ^ k) (ch : Nat → Fr)
    (g1 : G) (g2 : G₂) (secret : Fr) (srs : Srs G G₂) (hsrs : Srs.setup g1 g2 k secret = .ok srs)
    (codec : Codec G) (hl : Lawful codec) :
    ∃ pk : ProvingKey,
      keygenPk checks' fuel fuel' k s.matrix ch (publicInputs code (toFr input)) = .ok (.ok pk) ∧
      ∀ (hash : Hash) (repr : Fr) (blinds : Blinds), EnoughBlinds pk.cs blinds →
        ∃ result, prove checks'' codec hash srs pk repr
            [publicInputs code (toFr input) 0, publicInputs code (toFr input) 1]
            (circuitSynth k s.matrix (publicInputs code (toFr input))) blinds = result ∧
          ((∃ out, result = .ok out ∧ out.length ≤ 4512) ∨
          ((∃ p, codec.coords p = none) ∧
            (result = .error (.error .transcript) ∨ result = .error (.error .constraintSystemFailure))) ∨
          (result = .error (.panic .unwrap) ∧ ∃ a b : List UInt8, a.length < b.length ∧
            (squeeze hash b).1 ^ 2 ^ k = (squeeze hash a).1 ^ 2 ^ k)) := by
  classical
  have h9 : 2 ^ 9 ≤ 2 ^ k := Nat.pow_le_pow_right (by norm_num) hk9
  obtain ⟨a, ha⟩ := (honest_room hp hi hn hr (2 ^ k) ch).2 ⟨by omega, hroom, hroom'⟩
  obtain ⟨pk, asm, c, cols, as, h1, h2, h3, h4, h5, h6, h7, h8, h10⟩ :=
    keygenPk_ok checks' fuel fuel' k hk hf hf' s.matrix ch _ a ha
  have hd := h3.domain
  have hw := (keygenVk_map (f := id) (commit := pk.domain.lagrangeToCoeff) (fun _ _ h => h) h2).2
  have hdeg : pk.cs.degree = mainCS.degree := by rw [h7, C32_degree _ _ mainCS_sane _ _ _ _ h5]
  rw [← hdeg] at hw
  have hcommit := commits_setup (g1 := g1) (g2 := g2) (s := secret) hsrs hd (new_omega hw hd)
  refine ⟨pk, h1, fun hash repr blinds hb => ?_⟩
  have main := circuit_ends (checks' := checks'') (hash := hash) (repr := repr)
    (E := fun e => ((∃ p, codec.coords p = none) ∧ (e = .error .transcript ∨ e = .error .constraintSystemFailure)) ∨
      (e = .panic .unwrap ∧ ∃ a b : List UInt8, a.length < b.length ∧
        (squeeze hash b).1 ^ 2 ^ k = (squeeze hash a).1 ^ 2 ^ k))
    hp hi hn hlen hr hread hk9 hroom hroom' ha h5 h6 h3 h7 h8 hl
    (fun h => ⟨Or.inl ⟨h, Or.inl rfl⟩, Or.inl ⟨h, Or.inr rfl⟩⟩) hcommit hb
    (fun a b _ h1 h2 => Or.inr ⟨rfl, a, b, h1, h2⟩)
  refine ⟨_, rfl, ?_⟩
  generalize prove checks'' codec hash srs pk repr _ _ blinds = res at main ⊢
  cases res with
  | ok out => exact Or.inl ⟨out, rfl, main⟩
  | error e =>
    rcases main with ⟨h, rfl | rfl⟩ | ⟨rfl, h⟩
    · exact Or.inr (Or.inl ⟨h, Or.inl rfl⟩)
    · exact Or.inr (Or.inl ⟨h, Or.inr rfl⟩)
    · exact Or.inr (Or.inr ⟨rfl, h⟩)

/-- A hash function with chosen values for inputs of three lengths, and zero otherwise. -/
def chosenHash (lβ lγ lx : Nat) (β γ x : Fr) : Hash := fun l =>
  if l.length = lβ then scalarBytes β else if l.length = lγ then scalarBytes γ
  else if l.length = lx then scalarBytes x else []

theorem squeeze_scalar (hash : Hash) (a : List UInt8) (c : Fr) (h : hash (a ++ [0]) = scalarBytes c) :
    (squeeze hash a).1 = c := by
  unfold squeeze
  rw [h]
  unfold scalarBytes
  dsimp only
  rw [leNat_leBytes _ _ (scalar_lt c)]
  exact ZMod.natCast_zmod_val c

theorem squeeze_nil (hash : Hash) (a : List UInt8) (h : hash (a ++ [0]) = []) : (squeeze hash a).1 = 0 := by
  unfold squeeze
  rw [h]
  simp [leNat]

/-- The cases C51 and C52 speak of exist: there are hash functions for which the prover ends with bytes
the verifier accepts. -/
theorem exists_accepted (checks checks' checks'' : Bool) (src : List UInt8) (code : List Fr) (input : List Nat)
    (n : Nat) (s : Verif.Interp) (hp : GoodProgram checks src code) (hi : GoodInput 8 input)
    (hn : n ≤ 2 ^ 62) (hlen : input.length < 2 ^ 64) (hr : runOn n 8 code input = some (.ok s))
    (hread : s.input = []) (fuel fuel' k : Nat) (hk : k ≤ 24) (hk9 : 9 ≤ k) (hf : 48 ≤ fuel)
    (hf' : 16 * 2 ^ k ≤ fuel') (hroom : s.matrix.instruction.length + 7 ≤ 2 ^ k)
    (hroom' : input.length + 7 ≤ 2 ^ k) (ch : Nat → Fr)
    (g1 : G) (g2 : G₂) (secret : Fr) (srs : Srs G G₂) (hsrs : Srs.setup g1 g2 k secret = .ok srs)
    (pairing : G →ₗ[Fr] G₂ →ₗ[Fr] GT) (codec : Codec G) (hl : Lawful codec) (hco : ∀ p, codec.coords p ≠ none) :
    ∃ (pk : ProvingKey) (vk : Key G),
      keygenPk checks' fuel fuel' k s.matrix ch (publicInputs code (toFr input)) = .ok (.ok pk) ∧
      keygenVk srs.commitLagrange checks' fuel fuel' k s.matrix ch (publicInputs code (toFr input)) = .ok (.ok vk) ∧
      ∀ (repr : Fr) (blinds : Blinds), EnoughBlinds pk.cs blinds → ∃ hash out,
        prove checks'' codec hash srs pk repr [publicInputs code (toFr input) 0, publicInputs code (toFr input) 1]
            (circuitSynth k s.matrix (publicInputs code (toFr input))) blinds = .ok out ∧
        verifyProof codec hash pairing ⟨2 ^ k, g1, g2, secret • g2⟩ vk repr
          [publicInputs code (toFr input) 0, publicInputs code (toFr input) 1] out = .ok () := by
  classical
  obtain ⟨pk, vk, e1, e2, Bβ, Bγ, b1, b2, hacc⟩ := C51_accepted checks checks' checks'' src code input n s hp hi hn hlen hr
    hread fuel fuel' k hk hk9 hf hf' hroom hroom' ch g1 g2 secret srs hsrs pairing codec hl
  refine ⟨pk, vk, e1, e2, fun repr blinds hb => ?_⟩
  have h9 : 2 ^ 9 ≤ 2 ^ k := Nat.pow_le_pow_right (by norm_num) hk9
  have h24 : 2 ^ k ≤ 2 ^ 24 := Nat.pow_le_pow_right (by norm_num) hk
  obtain ⟨a, ha⟩ := (honest_room hp hi hn hr (2 ^ k) ch).2 ⟨by omega, hroom, hroom'⟩
  obtain ⟨pk', asm, c, cols, as, h1, h2, h3, h4, h5, h6, h7, h8, h10⟩ :=
    keygenPk_ok checks' fuel fuel' k hk hf hf' s.matrix ch _ a ha
  rw [e1] at h1
  obtain rfl := Except.ok.inj (Except.ok.inj h1)
  have hd := h3.domain
  have hw := (keygenVk_map (f := id) (commit := pk.domain.lagrangeToCoeff) (fun _ _ h => h) h2).2
  have hdeg : pk.cs.degree = mainCS.degree := by rw [h7, C32_degree _ _ mainCS_sane _ _ _ _ h5]
  rw [← hdeg] at hw
  have hcommit := commits_setup (g1 := g1) (g2 := g2) (s := secret) hsrs hd (new_omega hw hd)
  obtain ⟨g1', g2', g3', g4', g5', g6'⟩ := gates_count
  have hna : mainCS.numAdvice = 28 := by decide +kernel
  have hdg : mainCS.degree = 11 := by decide +kernel
  obtain ⟨c1, c2, c3, c4, c5, c6, c7, c8, c9, c10⟩ := compressed_permutation mainCS_sane h5
  obtain ⟨p1, p2⟩ := compressed_phases mainCS_sane h5
  obtain ⟨hnd, h16⟩ := C33_circuit
  have hsets : numSets pk.cs = 2 := by
    unfold numSets partLen
    rw [hdeg, hdg, h7, c1, h16]
  have hlk : pk.cs.lookups.length = 1 := by rw [h7, c6, g2']
  have hcard : Fintype.card Fr = P := ZMod.card P
  have hP : 18 * 2 ^ 24 < P := by decide +kernel
  obtain ⟨β, hβ⟩ : ∃ β, β ∉ Bβ (List.replicate 11 0) 0 := by
    by_contra hcon
    push Not at hcon
    have := b1 (List.replicate 11 0) 0
    rw [Finset.eq_univ_iff_forall.2 hcon, Finset.card_univ, hcard] at this
    omega
  obtain ⟨γ, hγ⟩ : ∃ γ, γ ∉ Bγ (List.replicate 11 0) 0 β := by
    by_contra hcon
    push Not at hcon
    have := b2 (List.replicate 11 0) 0 β
    rw [Finset.eq_univ_iff_forall.2 hcon, Finset.card_univ, hcard] at this
    omega
  obtain ⟨x, hx⟩ : ∃ x : Fr, x ∉ insert 0 (Polynomial.nthRootsFinset (2 ^ k) (1 : Fr)) := by
    by_contra hcon
    push Not at hcon
    have h1 := Finset.card_insert_le (0 : Fr) (Polynomial.nthRootsFinset (2 ^ k) (1 : Fr))
    have h2 : (Polynomial.nthRootsFinset (2 ^ k) (1 : Fr)).card ≤ 2 ^ k := by
      refine le_trans ?_ (Polynomial.card_nthRoots (2 ^ k) (1 : Fr))
      unfold Polynomial.nthRootsFinset
      convert Multiset.toFinset_card_le _
    rw [Finset.eq_univ_iff_forall.2 hcon, Finset.card_univ, hcard] at h1
    omega
  rw [Finset.mem_insert, not_or, Polynomial.mem_nthRootsFinset (by positivity)] at hx
  obtain ⟨B, hB⟩ : ∃ B, B = ([publicInputs code (toFr input) 0, publicInputs code (toFr input) 1].flatten.foldl
    commonScalar (commonScalar [] repr)).length := ⟨_, rfl⟩
  obtain ⟨hash, hh⟩ : ∃ hash, hash = chosenHash (B + 65 * 30 + 13) (B + 65 * 30 + 14) (B + 65 * 44 + 16) β γ x := ⟨_, rfl⟩
  have zero : ∀ a : List UInt8, a.length ≠ B + 65 * 30 + 12 → a.length ≠ B + 65 * 30 + 13 → a.length ≠ B + 65 * 44 + 15 →
      (squeeze hash a).1 = 0 := by
    intro a n1 n2 n3
    refine squeeze_nil _ _ ?_
    rw [hh]
    unfold chosenHash
    rw [List.length_append, List.length_singleton, if_neg (by omega), if_neg (by omega), if_neg (by omega)]
  have isβ : ∀ a : List UInt8, a.length = B + 65 * 30 + 12 → (squeeze hash a).1 = β := by
    intro a n1
    refine squeeze_scalar _ _ _ ?_
    rw [hh]
    unfold chosenHash
    rw [List.length_append, List.length_singleton, if_pos (by omega)]
  have isγ : ∀ a : List UInt8, a.length = B + 65 * 30 + 13 → (squeeze hash a).1 = γ := by
    intro a n1
    refine squeeze_scalar _ _ _ ?_
    rw [hh]
    unfold chosenHash
    rw [List.length_append, List.length_singleton, if_neg (by omega), if_pos (by omega)]
  have isx : ∀ a : List UInt8, a.length = B + 65 * 44 + 15 → (squeeze hash a).1 = x := by
    intro a n1
    refine squeeze_scalar _ _ _ ?_
    rw [hh]
    unfold chosenHash
    rw [List.length_append, List.length_singleton, if_neg (by omega), if_neg (by omega), if_pos (by omega)]
  have hux : ∀ a b : List UInt8, a.length = B + 65 * 44 + 15 → a.length < b.length →
      (squeeze hash b).1 ^ 2 ^ k ≠ (squeeze hash a).1 ^ 2 ^ k := by
    intro a b n1 n2 h
    rw [isx a n1, zero b (by omega) (by omega) (by omega), zero_pow (by positivity)] at h
    exact hx.1 (pow_eq_zero_iff (by positivity) |>.1 h.symm)
  have ends := circuit_ends (checks' := checks'') (hash := hash) (repr := repr) (E := fun _ => False)
    hp hi hn hlen hr hread hk9 hroom hroom' ha h5 h6 h3 h7 h8 hl
    (fun ⟨p, h⟩ => absurd h (hco p)) hcommit hb (fun a b h1 h2 h3 => hux a b (by rw [h1, hB]) h2 h3)
  cases hprove : prove checks'' codec hash srs pk repr
      [publicInputs code (toFr input) 0, publicInputs code (toFr input) 1]
      (circuitSynth k s.matrix (publicInputs code (toFr input))) blinds with
  | error e => rw [hprove] at ends; exact ends.elim
  | ok out =>
    obtain ⟨com, c', t, e, t', y', v, H1, u, H2, t'', r1, r2, r3, hfin⟩ := hacc hash repr blinds out [] hb hprove
    rw [List.append_nil] at r1 hfin
    obtain ⟨r⟩ := exists_run hprove
    obtain ⟨t2, t2', t2'', s1, s2, s3⟩ := r.read hl h3 hb hcommit []
    rw [List.append_nil] at s1
    rw [(keygenVk_map hcommit.lagrange h2).1] at e2
    obtain rfl := Except.ok.inj (Except.ok.inj e2)
    rw [r1] at s1
    obtain ⟨rfl, s1'⟩ := Prod.mk.inj (Except.ok.inj s1)
    obtain ⟨rfl, rfl⟩ := Prod.mk.inj s1'
    rw [r2] at s2
    obtain ⟨rfl, rfl⟩ := Prod.mk.inj (Except.ok.inj s2)
    rw [r3] at s3
    have hu : u = r.u := congrArg (fun t => t.2.2.2.1) (Except.ok.inj s3)
    have hph := r.phases
    rw [hcommit.rows] at hph
    have hw1 : r.w1.absorbed.length = B + 65 * 28 + 11 := by
      have := phases_ends (E := fun _ => True) (hash := hash) (cs := pk.cs) (k := k) (mx := s.matrix)
        (inst := publicInputs code (toFr input)) (commit := srs.commitLagrange) hl (fun _ => ⟨trivial, trivial⟩)
        (by rw [h7, p1]) (by rw [h7, p2]) (fun a ha => by
          obtain ⟨p, q1, -⟩ := lagrange_ok hd ha
          exact ⟨_, hcommit.lagrange a p q1⟩)
        (fun ch => (honest_room hp hi hn hr (2 ^ k) ch).2 ⟨by omega, hroom, hroom'⟩)
        (List.replicate pk.cs.numAdvice (List.replicate (2 ^ k) 0)) (List.replicate pk.cs.numChallenges 0)
        ⟨[publicInputs code (toFr input) 0, publicInputs code (toFr input) 1].flatten.foldl commonScalar
          (commonScalar [] repr), []⟩
      rw [hph] at this
      rw [hB]
      exact this.1
    obtain ⟨hul, -⟩ := circuit_columns (by rw [h7, p1]) (by rw [h7, p2]) (by rw [h7, c5]) (by rw [h7, c4]) hph
    have huser : r.ch.user = List.replicate 11 0 := by
      refine List.eq_replicate_iff.2 ⟨hul, ?_⟩
      refine (writePhases_zero hl (m := B + 65 * 28 + 11) ?_ _ _ _ _ _ hph hw1.le ?_).1
      · intro a h
        exact zero a (by omega) (by omega) (by omega)
      · intro c hc
        exact List.eq_of_mem_replicate hc
    obtain ⟨d1, ⟨aβ, d2, d2'⟩, ⟨aγ, d3, d3'⟩, ax, au, d4, d5, d6, d7⟩ := r.draws hl h3 hcommit.rows hb
    rw [hlk] at d2' d3' d7
    rw [hsets, hdeg, hdg] at d7
    rw [hw1] at d2' d3' d7
    have hθ : r.ch.theta = 0 := by
      rw [d1]
      exact zero _ (by omega) (by omega) (by omega)
    rw [isβ aβ (by omega)] at d2
    rw [isγ aγ (by omega)] at d3
    refine ⟨hash, out, hprove, hfin ?_ ?_ ?_ ?_⟩
    · rw [huser, hθ, d2]; exact hβ
    · rw [huser, hθ, d2, d3]; exact hγ
    · rw [d4, isx ax (by omega)]; exact hx.2
    · rw [hu, d5, d4]; exact hux ax au (by omega) d6

/-- Scalars in place of the points of a curve. -/
def scalarCodec : Codec Fr :=
  ⟨scalarBytes, fun l => some (leNat l : Fr), fun p => some (scalarBytes p, scalarBytes p)⟩

theorem scalarCodec_lawful : Lawful scalarCodec := by
  refine ⟨fun p => scalarBytes_length p, fun p => ?_, ?_⟩
  · unfold scalarCodec scalarBytes
    dsimp only
    rw [leNat_leBytes _ _ (scalar_lt p), ZMod.natCast_zmod_val]
  · intro p x y h
    obtain ⟨rfl, rfl⟩ := Prod.mk.inj (Option.some.inj h)
    exact ⟨scalarBytes_length p, scalarBytes_length p⟩

/-- The demo program on the input [2], with scalars in place of points: the prover ends with bytes, at
most 4512 of them, and the verifier accepts them. -/
theorem demo_proof : ∃ (s : Verif.Interp) (pk : ProvingKey) (vk : Key Fr) (srs : Srs Fr Fr) (hash : Hash) (blinds : Blinds)
    (out : List UInt8), runOn 100 8 demoCode [2] = some (.ok s) ∧ Srs.setup (1 : Fr) (1 : Fr) 9 42 = .ok srs ∧
    keygenPk false 48 8192 9 s.matrix (fun _ => 0) (publicInputs demoCode (toFr [2])) = .ok (.ok pk) ∧
    keygenVk srs.commitLagrange false 48 8192 9 s.matrix (fun _ => 0) (publicInputs demoCode (toFr [2])) = .ok (.ok vk) ∧
    EnoughBlinds pk.cs blinds ∧
    prove false scalarCodec hash srs pk 7 [publicInputs demoCode (toFr [2]) 0, publicInputs demoCode (toFr [2]) 1]
      (circuitSynth 9 s.matrix (publicInputs demoCode (toFr [2]))) blinds = .ok out ∧ out.length ≤ 4512 ∧
    verifyProof scalarCodec hash (LinearMap.mul Fr Fr) ⟨2 ^ 9, 1, 1, (42 : Fr) • (1 : Fr)⟩ vk 7
      [publicInputs demoCode (toFr [2]) 0, publicInputs demoCode (toFr [2]) 1] out = .ok () := by
  classical
  have h : ((runOn 100 8 demoCode [2]).map (fun r => r.map (fun s =>
      (s.matrix.processor.length, s.input)))) = some (.ok (21, [])) := by decide +kernel
  obtain ⟨s, hs, e⟩ := ok_of_map h
  have hp1 : s.matrix.processor.length = 21 := congrArg Prod.fst e
  have l1 := (honest_lengths demo_good demo_input (by norm_num) hs).1
  have l3 : s.matrix.instruction.length = 33 := by rw [l1, hp1]; rfl
  obtain ⟨srs, hsrs⟩ : ∃ srs, Srs.setup (1 : Fr) (1 : Fr) 9 42 = .ok srs := C43_secret _ _ 9 (by norm_num)
  obtain ⟨pk, vk, h1, h2, h3⟩ := exists_accepted true false false demo demoCode [2] 100 s demo_good demo_input (by norm_num)
    (by norm_num) hs (congrArg Prod.snd e) 48 8192 9 (by norm_num) (by norm_num) (by norm_num) (by norm_num)
    (by rw [l3]; norm_num) (by norm_num) (fun _ => 0) (1 : Fr) (1 : Fr) 42 srs hsrs (LinearMap.mul Fr Fr) scalarCodec
    scalarCodec_lawful (fun p => by simp [scalarCodec])
  obtain ⟨pk', h4, h5⟩ := C52_ends true false false demo demoCode [2] 100 s demo_good demo_input (by norm_num)
    (by norm_num) hs (congrArg Prod.snd e) 48 8192 9 (by norm_num) (by norm_num) (by norm_num) (by norm_num)
    (by rw [l3]; norm_num) (by norm_num) (fun _ => 0) (1 : Fr) (1 : Fr) 42 srs hsrs scalarCodec scalarCodec_lawful
  rw [h1] at h4
  obtain rfl := Except.ok.inj (Except.ok.inj h4)
  let b : Blinds := ⟨List.replicate pk.cs.lookups.length (List.replicate (pk.cs.blindingFactors + 1) 0,
      List.replicate (pk.cs.blindingFactors + 1) 0),
    List.replicate (chunks (pk.cs.degree - 2) pk.cs.permutation).length (List.replicate pk.cs.blindingFactors 0),
    List.replicate pk.cs.lookups.length (List.replicate pk.cs.blindingFactors 0)⟩
  have hb : EnoughBlinds pk.cs b := by
    refine ⟨by simp [b], ?_, by simp [b], ?_, by simp [b], ?_⟩ <;> intro p hp <;>
      rw [List.eq_of_mem_replicate hp] <;> simp
  obtain ⟨hash, out, q1, q2⟩ := h3 7 b hb
  refine ⟨s, pk, vk, srs, hash, b, out, hs, hsrs, h1, h2, hb, q1, ?_, q2⟩
  obtain ⟨res, q3, ⟨out', rfl, q4⟩ | ⟨-, rfl | rfl⟩ | ⟨rfl, -⟩⟩ := h5 hash 7 b hb
  · rw [q1] at q3
    obtain rfl := Except.ok.inj q3
    exact q4
  · rw [q1] at q3; cases q3
  · rw [q1] at q3; cases q3
  · rw [q1] at q3; cases q3

/-- The number of bytes of a proof for a key: 32 for each commitment and each scalar. -/
def proofSize (key : Key G) : Nat :=
  32 * (readCount key.cs (chunks (key.cs.degree - 2) key.cs.permutation).length key.domain.quotientPolyDegree
    key.sigma.length + 2)

/-- C53, what holds. The verifier looks at exactly the first `proofSize` bytes: a proof is accepted if and
only if it is at least that long and its beginning is accepted. -/
theorem C53_prefix_partial (codec : Codec G) (hash : Hash) (pairing : G →ₗ[Fr] G₂ →ₗ[Fr] GT)
    (params : VerifierParams G G₂) (key : Key G) (repr : Fr) (instances : List (List Fr)) (proof : List UInt8) :
    verifyProof codec hash pairing params key repr instances proof = .ok () ↔
      proofSize key ≤ proof.length ∧
      verifyProof codec hash pairing params key repr instances (proof.take (proofSize key)) = .ok () := by
  have key' : ∀ proof, verifyProof codec hash pairing params key repr instances proof = .ok () →
      ∃ used rest, proof = used ++ rest ∧ used.length = proofSize key ∧
        ∀ rest, verifyProof codec hash pairing params key repr instances (used ++ rest) = .ok () := by
    intro proof h
    unfold verifyProof at h
    obtain ⟨a, h1, h⟩ := Transcript.bind_ok.1 h
    obtain ⟨b, h2, h⟩ := Transcript.bind_ok.1 h
    obtain ⟨c, h3, h⟩ := Transcript.bind_ok.1 h
    obtain ⟨d, h4, h⟩ := Transcript.bind_ok.1 h
    obtain ⟨e, h5, h⟩ := Transcript.bind_ok.1 h
    obtain ⟨l1, l2, u1, a1, b1, c1⟩ := commitments_used h1
    obtain ⟨u2, a2, b2, c2⟩ := evals_used h2
    obtain ⟨u3, a3, b3, c3⟩ := opening_used h4
    refine ⟨u1 ++ (u2 ++ u3), d.2.2.2.2.2.input, ?_, ?_, fun rest => ?_⟩
    · rw [b1, b2, b3]
      simp only [List.append_assoc]
    · simp only [List.length_append, a1, a2, a3, l1, l2]
      unfold proofSize readCount
      omega
    · have e' : u1 ++ (u2 ++ u3) ++ rest = u1 ++ (u2 ++ (u3 ++ rest)) := by simp only [List.append_assoc]
      rw [e']
      unfold verifyProof
      refine Transcript.bind_ok.2 ⟨_, c1 _, Transcript.bind_ok.2 ⟨_, c2 _, Transcript.bind_ok.2 ⟨_, h3,
        Transcript.bind_ok.2 ⟨_, c3 _, Transcript.bind_ok.2 ⟨_, h5, h⟩⟩⟩⟩⟩
  constructor
  · intro h
    obtain ⟨used, rest, rfl, hl, hall⟩ := key' proof h
    rw [List.length_append, ← hl, List.take_left]
    refine ⟨by omega, ?_⟩
    have := hall []
    rwa [List.append_nil] at this
  · rintro ⟨hl, h⟩
    obtain ⟨used, rest, he, hu, hall⟩ := key' _ h
    have hlen := congrArg List.length he
    rw [List.length_append, List.length_take, hu] at hlen
    have hr : rest = [] := List.length_eq_zero_iff.1 (by omega)
    rw [hr, List.append_nil] at he
    have := hall (proof.drop (proofSize key))
    rwa [← he, List.take_append_drop] at this

/-- C53 is false of the code: an accepted proof can be changed without being rejected. Any bytes may
follow it. -/
theorem C53_false (codec : Codec G) (hash : Hash) (pairing : G →ₗ[Fr] G₂ →ₗ[Fr] GT)
    (params : VerifierParams G G₂) (key : Key G) (repr : Fr) (instances : List (List Fr)) (proof rest : List UInt8)
    (h : verifyProof codec hash pairing params key repr instances proof = .ok ()) :
    verifyProof codec hash pairing params key repr instances (proof ++ rest) = .ok () := by
  obtain ⟨h1, h2⟩ := (C53_prefix_partial ..).1 h
  refine (C53_prefix_partial ..).2 ⟨by rw [List.length_append]; omega, ?_⟩
  rwa [List.take_append_of_le_length h1]

/-- Two different proofs for the demo program, both accepted. -/
example : ∃ (key : Key Fr) (hash : Hash) (proof proof' : List UInt8), proof ≠ proof' ∧
    (∀ p ∈ [proof, proof'], verifyProof scalarCodec hash (LinearMap.mul Fr Fr) ⟨2 ^ 9, 1, 1, (42 : Fr) • (1 : Fr)⟩ key 7
      [publicInputs demoCode (toFr [2]) 0, publicInputs demoCode (toFr [2]) 1] p = .ok ()) := by
  obtain ⟨s, pk, vk, srs, hash, blinds, out, -, -, -, -, -, -, -, h⟩ := demo_proof
  refine ⟨vk, hash, out, out ++ [0], by simp, ?_⟩
  simp only [List.mem_cons, List.not_mem_nil, or_false, forall_eq_or_imp, forall_eq]
  exact ⟨h, C53_false _ _ _ _ _ _ _ _ _ h⟩

#print axioms C53_prefix_partial
#print axioms C53_false
#print axioms C51_accepted
#print axioms C52_ends

end Verif.Props

import Verif.Lemmas.OnChain
import Verif.Lemmas.PointCodec
import Verif.Props.Forge

/-! Properties C61 to C63: the prover's transaction and the on-chain program, from end to end. -/

namespace Verif.Props

open Spec Plonk Keygen PlonkProver Shplonk Transcript

variable {G G₂ GT : Type} [AddCommGroup G] [Module Fr G]
variable [AddCommGroup G₂] [Module Fr G₂] [AddCommGroup GT] [Module Fr GT] [DecidableEq GT]

/-- A program that was compiled and run on an input to its end, with all of the input read; a circuit of
`2^k` rows that has room for it; and a transaction that has room for it. -/
structure RunFits (src : List UInt8) (words : List Nat) (input : List UInt8) (s : Verif.Interp) (k : Nat) : Prop where
  compiled : compileToU16 true src = .ok words
  good : GoodProgram true src (toFr words)
  ran : ∃ n ≤ 2 ^ 62, runOn n 8 (toFr words) (input.map UInt8.toNat) = some (.ok s)
  read : s.input = []
  least : 9 ≤ k
  most : k ≤ 24
  rows : s.matrix.instruction.length + 7 ≤ 2 ^ k
  inputRows : input.length + 7 ≤ 2 ^ k
  codeBuffer : words.length ≤ 1023
  inputBuffer : input.length ≤ 1023

/-- Points can be encoded and decoded. -/
structure Encodings (o : OnChain G G₂ GT) : Prop where
  codec : Lawful o.codec
  r1 : RawLawful o.r1 G1Raw.Stored
  r2 : RawLawful o.r2 G2Raw.Stored

/-- The parameters and the key of a transaction, as points and as bytes, for some trace. -/
structure Published (o : OnChain G G₂ GT) (checks : Bool) (fuel fuel' k : Nat) (srs : Srs G G₂) (mx : Matrix)
    (inst : Nat → List Fr) (params vkBytes : List UInt8) (vk : VerifyingKey) (key : Key G) : Prop where
  shrunk : ∃ q, (srs.toRaw o.r1 o.r2).shrink SHRINK_K = .ok q ∧ params = q.write
  raw : keygenRaw o.r1 srs.commitLagrange checks fuel fuel' k mx (fun _ => 0) inst = .ok (.ok vk)
  bytes : vkBytes = vk.write
  keyed : keygenVk srs.commitLagrange checks fuel fuel' k mx (fun _ => 0) inst = .ok (.ok key)
  same : vk.toKey o.r1 = some key

theorem bytes_input (input : List UInt8) : GoodInput 8 (input.map UInt8.toNat) := by
  intro b hb
  obtain ⟨c, -, rfl⟩ := List.mem_map.1 hb
  exact c.toNat_lt

theorem easygen_eq (input : List UInt8) : easygen input = toFr (input.map UInt8.toNat) := by
  unfold easygen toFr
  rw [List.map_map]
  rfl

/-- What is published can be read back, and the exit code is that of the proof verification. -/
theorem Published.program {o : OnChain G G₂ GT} (ho : Encodings o) {src : List UInt8} {words : List Nat} {input : List UInt8}
    {s : Verif.Interp} {k : Nat} (hfit : RunFits src words input s k) {checks : Bool} {fuel fuel' : Nat} (hf : 48 ≤ fuel)
    (hf' : 16 * 2 ^ k ≤ fuel') {g1 : G} {g2 : G₂} {secret : Fr} {srs : Srs G G₂} (hsrs : Srs.setup g1 g2 k secret = .ok srs)
    {params vkBytes : List UInt8} {vk : VerifyingKey} {key : Key G}
    (hp : Published o checks fuel fuel' k srs s.matrix (publicInputs (toFr words) (easygen input)) params vkBytes vk key)
    {src' : List UInt8} {words' : List Nat} (hw : compileToU16 true src' = .ok words') (hcode : words'.length ≤ 1023)
    {input' : List UInt8} (hinput : input'.length ≤ 1023) {proof : List UInt8} (hproof : proof.length ≤ 8192) :
    o.program fuel (txWitnesses params vkBytes proof (codeBytes words') input') =
      match verifyProof o.codec o.hash o.pairing ⟨2 ^ k, g1, g2, secret • g2⟩ key (o.repr vk)
          [publicInputs (toFr words') (easygen input') 0, publicInputs (toFr words') (easygen input') 1] proof with
      | .ok () => .ok 0
      | .error (.error _) => .ok (-2)
      | .error (.panic e) => .error e := by
  obtain ⟨q, e1, e2, e3, e4⟩ := params_written ho.r1 ho.r2 (by have := hfit.least; omega) hfit.most hsrs
  obtain ⟨q', e5, rfl⟩ := hp.shrunk
  rw [e1] at e5
  obtain rfl := Except.ok.inj e5
  obtain ⟨vk', a, h1, h2, h3, h4, h5⟩ := keygenRaw_ok ho.r1 (by have := hfit.most; omega) hp.keyed
    (keygen_shape hfit.most hf hf' hp.keyed)
  rw [hp.raw] at h1
  obtain rfl := Except.ok.inj (Except.ok.inj h1)
  obtain ⟨n, hn, hr⟩ := hfit.ran
  have hfits := (C44_key_fits true src (toFr words) (input.map UInt8.toNat) n s (2 ^ k) _ _ a hfit.good (bytes_input input) hn hr
    h3 false fuel vk h4).1
  rw [hp.bytes]
  exact program_eq o hw hcode hinput (by omega) (by omega) hproof e3 (readKey_write h4) e4 hp.same

/-- C61. The prover's transaction is accepted on chain. Take a program that was compiled and run on an
input to its end, with room for both in the circuit and in the transaction, and parameters made from any
secret. Whatever the hash function and the random values, if the prover makes a transaction, then its
parameters and its key are those generated; the verifier reads from the proof the messages and draws
challenges; and the on-chain program exits with 0, unless β or γ fall in sets of at most `2^k` and
`17 · 2^k` elements fixed before they are drawn, or x is one of the `2^k` points of the domain, or u is
one of the `2^k` rotations of x. -/
theorem C61_accepted (o : OnChain G G₂ GT) (ho : Encodings o) (src : List UInt8) (words : List Nat) (input : List UInt8)
    (s : Verif.Interp) (k : Nat) (hfit : RunFits src words input s k) (checks : Bool) (fuel fuel' : Nat) (hf : 48 ≤ fuel)
    (hf' : 16 * 2 ^ k ≤ fuel') (g1 : G) (g2 : G₂) (secret : Fr) (srs : Srs G G₂) (hsrs : Srs.setup g1 g2 k secret = .ok srs) :
    ∃ pk, keygenPk checks fuel fuel' k s.matrix (fun _ => 0) (publicInputs (toFr words) (easygen input)) = .ok (.ok pk) ∧
      ∃ (Bβ : List Fr → Fr → Finset Fr) (Bγ : List Fr → Fr → Fr → Finset Fr),
        (∀ user θ, (Bβ user θ).card ≤ 2 ^ k) ∧ (∀ user θ β, (Bγ user θ β).card ≤ 17 * 2 ^ k) ∧
        ∀ (hash : Hash) (blinds : Blinds) (ws : List (List UInt8)), EnoughBlinds pk.cs blinds →
          {o with hash := hash}.witnesses checks fuel fuel' k srs s.matrix words input blinds = some ws →
          ∃ params vkBytes vk key proof com c t e t' y v h1 u h2 t'',
            ws = txWitnesses params vkBytes proof (codeBytes words) input ∧
            Published o checks fuel fuel' k srs s.matrix (publicInputs (toFr words) (easygen input)) params vkBytes vk key ∧
            Verify.readCommitments o.codec hash key (o.repr vk)
              [publicInputs (toFr words) (easygen input) 0, publicInputs (toFr words) (easygen input) 1] proof =
                .ok (com, c, t) ∧
            Verify.readEvals key com t = .ok (e, t') ∧
            Verify.readOpening o.codec hash t' = .ok (y, v, h1, u, h2, t'') ∧
            (c.beta ∉ Bβ c.user c.theta → c.gamma ∉ Bγ c.user c.theta c.beta → c.x ^ 2 ^ k ≠ 1 →
              u ^ 2 ^ k ≠ c.x ^ 2 ^ k → {o with hash := hash}.program fuel ws = .ok 0) := by
  obtain ⟨n, hn, hr⟩ := hfit.ran
  have hb := hfit.inputBuffer
  have hlen : (input.map UInt8.toNat).length < 2 ^ 64 := by rw [List.length_map]; omega
  have hrows : (input.map UInt8.toNat).length + 7 ≤ 2 ^ k := by rw [List.length_map]; exact hfit.inputRows
  obtain ⟨pk, key, e1, e2, Bβ, Bγ, b1, b2, hacc⟩ := C51_accepted true checks checks src (toFr words) (input.map UInt8.toNat) n s
    hfit.good (bytes_input input) hn hlen hr hfit.read fuel fuel' k hfit.most hfit.least hf hf' hfit.rows hrows (fun _ => 0)
    g1 g2 secret srs hsrs o.pairing o.codec ho.codec
  obtain ⟨pk', e3, hend⟩ := C52_ends true checks checks src (toFr words) (input.map UInt8.toNat) n s
    hfit.good (bytes_input input) hn hlen hr hfit.read fuel fuel' k hfit.most hfit.least hf hf' hfit.rows hrows (fun _ => 0)
    g1 g2 secret srs hsrs o.codec ho.codec
  rw [e1] at e3
  obtain rfl := Except.ok.inj (Except.ok.inj e3)
  rw [← easygen_eq] at *
  refine ⟨pk, e1, Bβ, Bγ, b1, b2, fun hash blinds ws henough hws => ?_⟩
  obtain ⟨vk, a, r1, r2, -⟩ := keygenRaw_ok ho.r1 (by have := hfit.most; omega) e2 (keygen_shape hfit.most hf hf' e2)
  obtain ⟨q, w1, -⟩ := params_written ho.r1 ho.r2 (by have := hfit.least; omega) hfit.most hsrs
  unfold OnChain.witnesses at hws
  dsimp only at hws
  have hinst : (words.map fun (w : Nat) => (w : Fr)) = toFr words := rfl
  rw [hinst, r1, e1, w1] at hws
  dsimp only at hws
  split at hws
  · rename_i proof hproof
    obtain ⟨com, c, t, e, t', y, v, h1, u, h2, t'', m1, m2, m3, m4⟩ := hacc hash (o.repr vk) blinds proof [] henough hproof
    rw [List.append_nil] at m1 m4
    have hpub : Published o checks fuel fuel' k srs s.matrix (publicInputs (toFr words) (easygen input)) q.write vk.write vk key :=
      ⟨⟨q, w1, rfl⟩, r1, rfl, e2, r2⟩
    have hsize : proof.length ≤ 8192 := by
      obtain ⟨res, q3, ⟨out', rfl, q4⟩ | ⟨-, rfl | rfl⟩ | ⟨rfl, -⟩⟩ := hend hash (o.repr vk) blinds henough
      · rw [hproof] at q3
        obtain rfl := Except.ok.inj q3
        omega
      · rw [hproof] at q3; cases q3
      · rw [hproof] at q3; cases q3
      · rw [hproof] at q3; cases q3
    refine ⟨q.write, vk.write, vk, key, proof, com, c, t, e, t', y, v, h1, u, h2, t'', (Option.some.inj hws).symm, hpub,
      m1, m2, m3, fun n1 n2 n3 n4 => ?_⟩
    have := Published.program (o := {o with hash := hash}) ⟨ho.codec, ho.r1, ho.r2⟩ hfit hf hf' hsrs
      (vk := vk) (key := key) ⟨⟨q, w1, rfl⟩, r1, rfl, e2, r2⟩ hfit.compiled hfit.codeBuffer hfit.inputBuffer hsize
    rw [← Option.some.inj hws, this]
    dsimp only
    rw [m4 n1 n2 n3 n4]
  · cases hws

/-- C61, a transaction is made. In the same setting, if every point has coordinates (C60 for G1): the
prover makes a transaction, unless the hash of one transcript and the hash of a longer one are rotations
of each other. -/
theorem C61_made (o : OnChain G G₂ GT) (ho : Encodings o) (hco : ∀ p, o.codec.coords p ≠ none) (src : List UInt8)
    (words : List Nat) (input : List UInt8)
    (s : Verif.Interp) (k : Nat) (hfit : RunFits src words input s k) (checks : Bool) (fuel fuel' : Nat) (hf : 48 ≤ fuel)
    (hf' : 16 * 2 ^ k ≤ fuel') (g1 : G) (g2 : G₂) (secret : Fr) (srs : Srs G G₂) (hsrs : Srs.setup g1 g2 k secret = .ok srs) :
    ∃ pk, keygenPk checks fuel fuel' k s.matrix (fun _ => 0) (publicInputs (toFr words) (easygen input)) = .ok (.ok pk) ∧
      ∀ blinds, EnoughBlinds pk.cs blinds →
        (∃ ws, o.witnesses checks fuel fuel' k srs s.matrix words input blinds = some ws) ∨
        ∃ a b : List UInt8, a.length < b.length ∧ (squeeze o.hash b).1 ^ 2 ^ k = (squeeze o.hash a).1 ^ 2 ^ k := by
  obtain ⟨n, hn, hr⟩ := hfit.ran
  have hb := hfit.inputBuffer
  have hlen : (input.map UInt8.toNat).length < 2 ^ 64 := by rw [List.length_map]; omega
  have hrows : (input.map UInt8.toNat).length + 7 ≤ 2 ^ k := by rw [List.length_map]; exact hfit.inputRows
  obtain ⟨pk, key, e1, e2, -⟩ := C51_accepted true checks checks src (toFr words) (input.map UInt8.toNat) n s
    hfit.good (bytes_input input) hn hlen hr hfit.read fuel fuel' k hfit.most hfit.least hf hf' hfit.rows hrows (fun _ => 0)
    g1 g2 secret srs hsrs o.pairing o.codec ho.codec
  obtain ⟨pk', e3, hend⟩ := C52_ends true checks checks src (toFr words) (input.map UInt8.toNat) n s
    hfit.good (bytes_input input) hn hlen hr hfit.read fuel fuel' k hfit.most hfit.least hf hf' hfit.rows hrows (fun _ => 0)
    g1 g2 secret srs hsrs o.codec ho.codec
  rw [e1] at e3
  obtain rfl := Except.ok.inj (Except.ok.inj e3)
  rw [← easygen_eq] at *
  refine ⟨pk, e1, fun blinds henough => ?_⟩
  obtain ⟨vk, a, r1, r2, -⟩ := keygenRaw_ok ho.r1 (by have := hfit.most; omega) e2 (keygen_shape hfit.most hf hf' e2)
  obtain ⟨q, w1, -⟩ := params_written ho.r1 ho.r2 (by have := hfit.least; omega) hfit.most hsrs
  have hinst : (words.map fun (w : Nat) => (w : Fr)) = toFr words := rfl
  obtain ⟨res, q3, ⟨out, rfl, -⟩ | ⟨⟨p, hp⟩, -⟩ | ⟨rfl, h⟩⟩ := hend o.hash (o.repr vk) blinds henough
  · refine .inl ⟨txWitnesses q.write vk.write out (codeBytes words) input, ?_⟩
    unfold OnChain.witnesses
    dsimp only
    rw [hinst, r1, e1, w1]
    dsimp only
    rw [q3]
  · exact absurd hp (hco p)
  · exact .inr h

omit [AddCommGroup G] [Module Fr G] in
/-- A forged proof fits into its buffer. -/
theorem forge_counts {commit : List Fr → Except Panic G} {checks : Bool} {fuel fuel' k : Nat} (hk : k ≤ 24)
    (hf : 48 ≤ fuel) (hf' : 16 * 2 ^ k ≤ fuel') {mx : Matrix} {ch : Nat → Fr} {inst : Nat → List Fr} {key : Key G}
    (h : keygenVk commit checks fuel fuel' k mx ch inst = .ok (.ok key)) :
    32 * (readPointCount key + readScalarCount key + 2) ≤ 4512 := by
  have hs := keygen_shape hk hf hf' h
  obtain ⟨d, a, -, ha, -⟩ := keygen_inv h
  obtain ⟨key', asm, c, cols, as, h1, h2, h3, h4, h5, h6, h7, -, -, -, -, -⟩ :=
    keygen_ok checks fuel fuel' k hk hf hf' mx ch inst a ha
  have e1 := (keygenVk_map (commit := fun _ => .ok ()) (f := fun _ => ()) (fun _ _ _ => rfl) h).1
  have e2 := (keygenVk_map (commit := fun _ => .ok ()) (f := fun _ => ()) (fun _ _ _ => rfl) h1).1
  rw [e1] at e2
  have ec : key.cs = c.cs := (congrArg Key.cs (Except.ok.inj (Except.ok.inj e2))).trans h5
  obtain ⟨g1', g2', g3', g4', g5', g6'⟩ := gates_count
  obtain ⟨c1, c2, c3, c4, c5, c6, c7, c8, c9, c10⟩ := compressed_permutation mainCS_sane h4
  obtain ⟨p1, p2⟩ := compressed_phases mainCS_sane h4
  obtain ⟨hnd, h16⟩ := C33_circuit
  have haq : mainCS.adviceQueries.length = 52 := by decide +kernel
  have hfq : mainCS.fixedQueries.length = 1 := by decide +kernel
  have hq := compressed_queries mainCS_sane h4
  have hr := assignments_inRange h4
  have hph : phasePoints c.cs c.cs.phases = 28 := by
    unfold phasePoints CS.phases
    rw [p1]
    decide +kernel
  have hch : (chunks (11 - 2) mainCS.permutation).length = 2 := by decide +kernel
  unfold readPointCount readScalarCount
  rw [ec, hph, c6, g2', C32_degree _ _ mainCS_sane _ _ _ _ h4, degree_11, c1, hch, hs.domain.quotient, hs.degree, c9, haq,
    hs.sigmaLength, ec, c1, h16]
  omega

theorem repeated_length (n : Nat) (b : List UInt8) : (repeated n b).length = n * b.length := by
  unfold repeated
  simp

omit [AddCommGroup G₂] [Module Fr G₂] in
theorem forge_length {codec : Codec G} (hl : Lawful codec) {hash : Hash} {params : VerifierParams G G₂} {key : Key G} {repr : Fr}
    {instances : List (List Fr)} {s : Fr} {proof : List UInt8} {h2 : G}
    (h : forge codec hash params key repr instances s = .ok (proof, h2)) :
    proof.length = 32 * (readPointCount key + readScalarCount key + 2) := by
  unfold forge at h
  obtain ⟨⟨com, ch, e, y, v, h1, u⟩, -, h⟩ := Transcript.bind_ok.1 h
  dsimp only at h
  obtain ⟨Q, -, h⟩ := Transcript.bind_ok.1 h
  obtain ⟨h2', -, h⟩ := Transcript.bind_ok.1 h
  obtain ⟨rfl, rfl⟩ := Prod.mk.inj (Except.ok.inj h)
  unfold forgeStart
  simp only [List.length_append, repeated_length, hl.length, scalarBytes_length]
  ring

/-- C62 is false of the code: not only those who ran the program get a transaction accepted. Take the
parameters and the key of some honest transaction, where the secret of the setup is known (it is the
constant 42), and any other program and input: the program may never end on it. There is a proof that
the on-chain program accepts for it, whatever the hash function, unless the challenges are exceptional. -/
theorem C62_false (o : OnChain G G₂ GT) (ho : Encodings o) (hco : ∀ p, o.codec.coords p ≠ none) (src : List UInt8)
    (words : List Nat) (input : List UInt8)
    (s : Verif.Interp) (k : Nat) (hfit : RunFits src words input s k) (checks : Bool) (fuel fuel' : Nat) (hf : 48 ≤ fuel)
    (hf' : 16 * 2 ^ k ≤ fuel') (g1 : G) (g2 : G₂) (srs : Srs G G₂) (hsrs : Srs.setup g1 g2 k GOD_PRIVATE_KEY = .ok srs)
    (params vkBytes : List UInt8) (vk : VerifyingKey) (key : Key G)
    (hp : Published o checks fuel fuel' k srs s.matrix (publicInputs (toFr words) (easygen input)) params vkBytes vk key)
    (src' : List UInt8) (words' : List Nat) (hw : compileToU16 true src' = .ok words') (hcode : words'.length ≤ 1023)
    (input' : List UInt8) (hinput : input'.length ≤ 1023) :
    ∃ com ch e y v h1 u, forgeMessages o.codec o.hash key (o.repr vk)
        [publicInputs (toFr words') (easygen input') 0, publicInputs (toFr words') (easygen input') 1] g1 =
          .ok (com, ch, e, y, v, h1, u) ∧
      (ch.x ^ 2 ^ k ≠ 1 → u ^ 2 ^ k ≠ ch.x ^ 2 ^ k → u ≠ 42 →
        ∃ proof, o.program fuel (txWitnesses params vkBytes proof (codeBytes words') input') = .ok 0) := by
  obtain ⟨com, ch, e, y, v, h1, u, e1, e2⟩ := C56_forgery o.codec ho.codec o.hash o.pairing k key
    (keygen_shape hfit.most hf hf' hp.keyed) g1 (hco g1) g2 42 (o.repr vk)
    [publicInputs (toFr words') (easygen input') 0, publicInputs (toFr words') (easygen input') 1] rfl
  refine ⟨com, ch, e, y, v, h1, u, e1, fun n1 n2 n3 => ?_⟩
  obtain ⟨proof, h2, e3, e4⟩ := e2 n1 n2 n3
  refine ⟨proof, ?_⟩
  have hlen := forge_length ho.codec e3
  have hcnt := forge_counts hfit.most hf hf' hp.keyed
  rw [Published.program ho hfit hf hf' hsrs hp hw hcode hinput (by omega)]
  have : (GOD_PRIVATE_KEY : Fr) = 42 := rfl
  rw [this, e4 (hco h2)]

/-- C62, what holds: with the parameters and the key of an honest transaction, the on-chain program
exits with 0 only if the messages can be read from the proof and pass the verifier's equations, with the
program and the input of the transaction as public inputs. What this means for provers that are bound to
polynomials is C54. Missing: a prover that knows the secret is not bound. -/
theorem C62_exit_partial (o : OnChain G G₂ GT) (ho : Encodings o) (src : List UInt8)
    (words : List Nat) (input : List UInt8)
    (s : Verif.Interp) (k : Nat) (hfit : RunFits src words input s k) (checks : Bool) (fuel fuel' : Nat) (hf : 48 ≤ fuel)
    (hf' : 16 * 2 ^ k ≤ fuel') (g1 : G) (g2 : G₂) (secret : Fr) (srs : Srs G G₂) (hsrs : Srs.setup g1 g2 k secret = .ok srs)
    (params vkBytes : List UInt8) (vk : VerifyingKey) (key : Key G)
    (hp : Published o checks fuel fuel' k srs s.matrix (publicInputs (toFr words) (easygen input)) params vkBytes vk key)
    (src' : List UInt8) (words' : List Nat) (hw : compileToU16 true src' = .ok words') (hcode : words'.length ≤ 1023)
    (input' : List UInt8) (hinput : input'.length ≤ 1023) (proof : List UInt8) (hproof : proof.length ≤ 8192) :
    o.program fuel (txWitnesses params vkBytes proof (codeBytes words') input') = .ok 0 ↔
      ∃ com ch t e t' y v h1 u h2 t'',
        Verify.readCommitments o.codec o.hash key (o.repr vk)
          [publicInputs (toFr words') (easygen input') 0, publicInputs (toFr words') (easygen input') 1] proof = .ok (com, ch, t) ∧
        Verify.readEvals key com t = .ok (e, t') ∧
        Verify.readOpening o.codec o.hash t' = .ok (y, v, h1, u, h2, t'') ∧
        Passes o.pairing ⟨2 ^ k, g1, g2, secret • g2⟩ key
          [publicInputs (toFr words') (easygen input') 0, publicInputs (toFr words') (easygen input') 1]
          com ch e y v h1 u h2 := by
  have hs := keygen_shape hfit.most hf hf' hp.keyed
  rw [← C54_bytes o.codec o.hash o.pairing ⟨2 ^ k, g1, g2, secret • g2⟩ key hs.fixedLength hs.sigmaLength]
  rw [Published.program ho hfit hf hf' hsrs hp hw hcode hinput hproof]
  generalize verifyProof o.codec o.hash o.pairing _ key (o.repr vk) _ proof = r
  rcases r with (_ | _) | _ <;> simp

/-- C63. With the parameters and the key of an honest transaction, and any compiled program, any input
and any bytes as proof that fit into their buffers, the on-chain program exits with 0 or -2; or it
panics, and then the evaluation point drawn for this proof is in the domain, or the opening challenge is
one of its rotations. -/
theorem C63_exits_partial (o : OnChain G G₂ GT) (ho : Encodings o) (src : List UInt8)
    (words : List Nat) (input : List UInt8)
    (s : Verif.Interp) (k : Nat) (hfit : RunFits src words input s k) (checks : Bool) (fuel fuel' : Nat) (hf : 48 ≤ fuel)
    (hf' : 16 * 2 ^ k ≤ fuel') (g1 : G) (g2 : G₂) (secret : Fr) (srs : Srs G G₂) (hsrs : Srs.setup g1 g2 k secret = .ok srs)
    (params vkBytes : List UInt8) (vk : VerifyingKey) (key : Key G)
    (hp : Published o checks fuel fuel' k srs s.matrix (publicInputs (toFr words) (easygen input)) params vkBytes vk key)
    (src' : List UInt8) (words' : List Nat) (hw : compileToU16 true src' = .ok words') (hcode : words'.length ≤ 1023)
    (input' : List UInt8) (hinput : input'.length ≤ 1023) (proof : List UInt8) (hproof : proof.length ≤ 8192) :
    o.program fuel (txWitnesses params vkBytes proof (codeBytes words') input') = .ok 0 ∨
    o.program fuel (txWitnesses params vkBytes proof (codeBytes words') input') = .ok (-2) ∨
    ∃ com ch t, Verify.readCommitments o.codec o.hash key (o.repr vk)
        [publicInputs (toFr words') (easygen input') 0, publicInputs (toFr words') (easygen input') 1] proof = .ok (com, ch, t) ∧
      (ch.x ^ 2 ^ k = 1 ∨ ∃ e t' y v h1 u h2 t'', Verify.readEvals key com t = .ok (e, t') ∧
        Verify.readOpening o.codec o.hash t' = .ok (y, v, h1, u, h2, t'') ∧ u ^ 2 ^ k = ch.x ^ 2 ^ k) := by
  rw [Published.program ho hfit hf hf' hsrs hp hw hcode hinput hproof]
  rcases C55_circuit_partial checks fuel fuel' k hfit.most hf hf' s.matrix (fun _ => 0) _ key srs.commitLagrange hp.keyed o.codec
    o.hash o.pairing ⟨2 ^ k, g1, g2, secret • g2⟩ rfl (o.repr vk)
    [publicInputs (toFr words') (easygen input') 0, publicInputs (toFr words') (easygen input') 1] proof with h | ⟨e, h⟩ | h
  · rw [h]; exact .inl rfl
  · rw [h]; exact .inr (.inl rfl)
  · exact .inr (.inr h)

/-- C63 is false of the code without the exception: for every honest transaction, and any other program
and input, there are a hash function and a proof for which the on-chain program panics. -/
theorem C63_false (o : OnChain G G₂ GT) (ho : Encodings o) (hco : ∀ p, o.codec.coords p ≠ none) (src : List UInt8)
    (words : List Nat) (input : List UInt8)
    (s : Verif.Interp) (k : Nat) (hfit : RunFits src words input s k) (checks : Bool) (fuel fuel' : Nat) (hf : 48 ≤ fuel)
    (hf' : 16 * 2 ^ k ≤ fuel') (g1 : G) (g2 : G₂) (secret : Fr) (srs : Srs G G₂) (hsrs : Srs.setup g1 g2 k secret = .ok srs)
    (params vkBytes : List UInt8) (vk : VerifyingKey) (key : Key G)
    (hp : Published o checks fuel fuel' k srs s.matrix (publicInputs (toFr words) (easygen input)) params vkBytes vk key)
    (src' : List UInt8) (words' : List Nat) (hw : compileToU16 true src' = .ok words') (hcode : words'.length ≤ 1023)
    (input' : List UInt8) (hinput : input'.length ≤ 1023) :
    ∃ (hash : Hash) (proof : List UInt8) (e : Panic), proof.length ≤ 8192 ∧
      {o with hash := hash}.program fuel (txWitnesses params vkBytes proof (codeBytes words') input') = .error e := by
  have hs := keygen_shape hfit.most hf hf' hp.keyed
  obtain ⟨⟨gx, gy⟩, hg⟩ := Option.ne_none_iff_exists'.1 (hco g1)
  obtain ⟨com, ch, t, e, ab, y, v, u, a1, a2, -, -, -, ⟨before, hx⟩, -⟩ := forgeMessages_ok o.codec ho.codec (fun _ => [1]) k key hs
    (o.repr vk) [publicInputs (toFr words') (easygen input') 0, publicInputs (toFr words') (easygen input') 1] rfl g1 hg
  have hx1 : ch.x = 1 := by
    rw [hx]
    show ((leNat [1] : Nat) : Fr) = 1
    decide
  obtain ⟨p, hpan⟩ := C55_false key o.codec (fun _ => [1]) o.pairing ⟨2 ^ k, g1, g2, secret • g2⟩ (o.repr vk) _ _ com ch _ _ e
    (a1 []) (a2 []) (by rw [hx1, one_pow])
  rw [List.append_nil] at hpan
  have hlen : (forgeStart o.codec key g1).length ≤ 8192 := by
    have := forge_counts hfit.most hf hf' hp.keyed
    unfold forgeStart
    simp only [List.length_append, repeated_length, ho.codec.length, scalarBytes_length]
    omega
  refine ⟨fun _ => [1], forgeStart o.codec key g1, p, hlen, ?_⟩
  rw [Published.program (o := {o with hash := fun _ => [1]}) ⟨ho.codec, ho.r1, ho.r2⟩ hfit hf hf' hsrs
    (vk := vk) (key := key) ⟨hp.shrunk, hp.raw, hp.bytes, hp.keyed, hp.same⟩ hw hcode hinput hlen]
  dsimp only
  rw [hpan]

/-- Scalars as coordinates. -/
noncomputable def scalarLimbs (x : Fr) : Limbs := (FqLimbs.equiv.symm (x.val : Fq)).1

theorem scalarLimbs_back (x : Fr) : ((decoded (scalarLimbs x)).val : Fr) = x := by
  have h : decoded (scalarLimbs x) = (x.val : Fq) := FqLimbs.equiv.apply_symm_apply _
  have hlt : x.val < Q := lt_trans (ZMod.val_lt x) (by decide +kernel)
  rw [h, ZMod.val_natCast, Nat.mod_eq_of_lt hlt, ZMod.natCast_zmod_val]

/-- Scalars in place of points, with their encodings. -/
noncomputable def scalarOnChain (hash : Hash) : OnChain Fr Fr Fr where
  codec := scalarCodec
  hash := hash
  pairing := LinearMap.mul Fr Fr
  r1 := ⟨fun x => ⟨scalarLimbs x, scalarLimbs x⟩, fun p => some ((decoded p.x).val : Fr)⟩
  r2 := ⟨fun x => ⟨⟨scalarLimbs x, scalarLimbs x⟩, ⟨scalarLimbs x, scalarLimbs x⟩⟩, fun p => some ((decoded p.x.c0).val : Fr)⟩
  repr := fun _ => 7
  junk := fun _ _ _ _ => .ok false

theorem scalarOnChain_encodings (hash : Hash) : Encodings (scalarOnChain hash) where
  codec := scalarCodec_lawful
  r1 := ⟨fun x => congrArg some (scalarLimbs_back x), fun _ => ⟨(FqLimbs.equiv.symm _).2, (FqLimbs.equiv.symm _).2⟩⟩
  r2 := ⟨fun x => congrArg some (scalarLimbs_back x),
    fun _ => ⟨(FqLimbs.equiv.symm _).2, (FqLimbs.equiv.symm _).2, (FqLimbs.equiv.symm _).2, (FqLimbs.equiv.symm _).2⟩⟩

theorem demo_fits : ∃ s, RunFits demo [44, 43, 91, 10, 45, 62, 43, 60, 93, 4, 62, 46] [2] s 9 := by
  have h : ((runOn 100 8 demoCode [2]).map (fun r => r.map (fun s =>
      (s.matrix.processor.length, s.input)))) = some (.ok (21, [])) := by decide +kernel
  obtain ⟨s, hs, e⟩ := ok_of_map h
  have hp1 : s.matrix.processor.length = 21 := congrArg Prod.fst e
  have l1 := (honest_lengths demo_good demo_input (by norm_num) hs).1
  have l3 : s.matrix.instruction.length = 33 := by rw [l1, hp1]; rfl
  exact ⟨s, by decide, demo_good, ⟨100, by norm_num, hs⟩, congrArg Prod.snd e, by norm_num, by norm_num, by rw [l3]; norm_num,
    by norm_num, by norm_num, by norm_num⟩

/-- The demo program on the input [2], with scalars in place of points: the prover makes a transaction
and the on-chain program exits with 0. -/
theorem demo_on_chain : ∃ (s : Verif.Interp) (srs : Srs Fr Fr) (hash : Hash) (blinds : Blinds) (ws : List (List UInt8)),
    Srs.setup (1 : Fr) (1 : Fr) 9 GOD_PRIVATE_KEY = .ok srs ∧
    RunFits demo [44, 43, 91, 10, 45, 62, 43, 60, 93, 4, 62, 46] [2] s 9 ∧
    (scalarOnChain hash).witnesses false 48 8192 9 srs s.matrix [44, 43, 91, 10, 45, 62, 43, 60, 93, 4, 62, 46] [2] blinds =
      some ws ∧ (scalarOnChain hash).program 48 ws = .ok 0 := by
  obtain ⟨s, hfit⟩ := demo_fits
  obtain ⟨srs, hsrs⟩ : ∃ srs, Srs.setup (1 : Fr) (1 : Fr) 9 GOD_PRIVATE_KEY = .ok srs := C43_secret _ _ 9 (by norm_num)
  obtain ⟨n, hn, hr⟩ := hfit.ran
  obtain ⟨pk, key, h1, h2, h3⟩ := exists_accepted true false false demo demoCode [2] n s demo_good demo_input hn
    (by norm_num) hr hfit.read 48 8192 9 (by norm_num) (by norm_num) (by norm_num) (by norm_num)
    hfit.rows (by norm_num) (fun _ => 0) (1 : Fr) (1 : Fr) GOD_PRIVATE_KEY srs hsrs (LinearMap.mul Fr Fr) scalarCodec
    scalarCodec_lawful (fun p => by simp [scalarCodec])
  let b : Blinds := ⟨List.replicate pk.cs.lookups.length (List.replicate (pk.cs.blindingFactors + 1) 0,
      List.replicate (pk.cs.blindingFactors + 1) 0),
    List.replicate (chunks (pk.cs.degree - 2) pk.cs.permutation).length (List.replicate pk.cs.blindingFactors 0),
    List.replicate pk.cs.lookups.length (List.replicate pk.cs.blindingFactors 0)⟩
  have hb : EnoughBlinds pk.cs b := by
    refine ⟨by simp [b], ?_, by simp [b], ?_, by simp [b], ?_⟩ <;> intro p hp <;>
      rw [List.eq_of_mem_replicate hp] <;> simp
  obtain ⟨hash, out, q1, q2⟩ := h3 7 b hb
  have hE := scalarOnChain_encodings hash
  obtain ⟨vk, a, r1, r2, -⟩ := keygenRaw_ok hE.r1 (by norm_num) h2 (keygen_shape (by norm_num) (by norm_num) (by norm_num) h2)
  obtain ⟨q, w1, -⟩ := params_written hE.r1 hE.r2 (by norm_num) (by norm_num) hsrs
  have hws : (scalarOnChain hash).witnesses false 48 8192 9 srs s.matrix [44, 43, 91, 10, 45, 62, 43, 60, 93, 4, 62, 46] [2] b =
      some (txWitnesses q.write vk.write out (codeBytes [44, 43, 91, 10, 45, 62, 43, 60, 93, 4, 62, 46]) [2]) := by
    unfold OnChain.witnesses
    dsimp only
    rw [show publicInputs (([44, 43, 91, 10, 45, 62, 43, 60, 93, 4, 62, 46] : List Nat).map fun (w : Nat) => (w : Fr)) (easygen [2]) =
      publicInputs demoCode (toFr [2]) from rfl, r1, h1, w1]
    dsimp only
    rw [show prove false (scalarOnChain hash).codec (scalarOnChain hash).hash srs pk ((scalarOnChain hash).repr vk)
      [publicInputs demoCode (toFr [2]) 0, publicInputs demoCode (toFr [2]) 1]
      (circuitSynth 9 s.matrix (publicInputs demoCode (toFr [2]))) b = .ok out from q1]
  refine ⟨s, srs, hash, b, _, hsrs, hfit, hws, ?_⟩
  have hsize : out.length ≤ 8192 := by
    obtain ⟨pk', e3, hend⟩ := C52_ends true false false demo demoCode [2] n s demo_good demo_input hn
      (by norm_num) hr hfit.read 48 8192 9 (by norm_num) (by norm_num) (by norm_num) (by norm_num)
      hfit.rows (by norm_num) (fun _ => 0) (1 : Fr) (1 : Fr) GOD_PRIVATE_KEY srs hsrs scalarCodec scalarCodec_lawful
    rw [h1] at e3
    obtain rfl := Except.ok.inj (Except.ok.inj e3)
    obtain ⟨res, q3, ⟨out', rfl, q4⟩ | ⟨-, rfl | rfl⟩ | ⟨rfl, -⟩⟩ := hend hash 7 b hb
    · rw [q1] at q3
      obtain rfl := Except.ok.inj q3
      omega
    · rw [q1] at q3; cases q3
    · rw [q1] at q3; cases q3
    · rw [q1] at q3; cases q3
  have := Published.program hE hfit (by norm_num) (by norm_num) hsrs (vk := vk) (key := key) ⟨⟨q, w1, rfl⟩, r1, rfl, h2, r2⟩
    hfit.compiled hfit.codeBuffer hfit.inputBuffer hsize
  rw [this]
  rw [show verifyProof (scalarOnChain hash).codec (scalarOnChain hash).hash (scalarOnChain hash).pairing
    ⟨2 ^ 9, 1, 1, GOD_PRIVATE_KEY • 1⟩ key ((scalarOnChain hash).repr vk)
    [publicInputs (toFr [44, 43, 91, 10, 45, 62, 43, 60, 93, 4, 62, 46]) (easygen [2]) 0,
      publicInputs (toFr [44, 43, 91, 10, 45, 62, 43, 60, 93, 4, 62, 46]) (easygen [2]) 1] out = .ok () from q2]

/-- C62 for the endless loop `+[]`: with the parameters and the key of the demo, the on-chain program
exits with 0. -/
example : ∃ (s : Verif.Interp) (srs : Srs Fr Fr) (params vkBytes proof : List UInt8) (vk : VerifyingKey) (key : Key Fr),
    Srs.setup (-1 : Fr) (1 : Fr) 9 GOD_PRIVATE_KEY = .ok srs ∧
    Published (scalarOnChain oneByteHash) false 48 8192 9 srs s.matrix (publicInputs demoCode (toFr [2])) params vkBytes vk key ∧
    compileToU16 true [43, 91, 93] = .ok [43, 91, 5, 93, 3] ∧
    (scalarOnChain oneByteHash).program 48 (txWitnesses params vkBytes proof (codeBytes [43, 91, 5, 93, 3]) []) = .ok 0 := by
  obtain ⟨s, hfit⟩ := demo_fits
  obtain ⟨srs, hsrs⟩ : ∃ srs, Srs.setup (-1 : Fr) (1 : Fr) 9 GOD_PRIVATE_KEY = .ok srs := C43_secret _ _ 9 (by norm_num)
  obtain ⟨n, hn, hr⟩ := hfit.ran
  obtain ⟨pk, key, h1, h2, h3⟩ := exists_accepted true false false demo demoCode [2] n s demo_good demo_input hn
    (by norm_num) hr hfit.read 48 8192 9 (by norm_num) (by norm_num) (by norm_num) (by norm_num)
    hfit.rows (by norm_num) (fun _ => 0) (-1 : Fr) (1 : Fr) GOD_PRIVATE_KEY srs hsrs (LinearMap.mul Fr Fr) scalarCodec
    scalarCodec_lawful (fun p => by simp [scalarCodec])
  have hE := scalarOnChain_encodings oneByteHash
  have hs := keygen_shape (by norm_num) (by norm_num) (by norm_num) h2
  obtain ⟨vk, a, r1, r2, -⟩ := keygenRaw_ok hE.r1 (by norm_num) h2 hs
  obtain ⟨q, w1, -⟩ := params_written hE.r1 hE.r2 (by norm_num) (by norm_num) hsrs
  have hpub : Published (scalarOnChain oneByteHash) false 48 8192 9 srs s.matrix (publicInputs demoCode (toFr [2])) q.write vk.write
    vk key := ⟨⟨q, w1, rfl⟩, r1, rfl, h2, r2⟩
  have hcomp : compileToU16 true [43, 91, 93] = .ok [43, 91, 5, 93, 3] := by decide
  have hb : scalarCodec.coords (-1) = some (scalarBytes (-1), scalarBytes (-1)) := rfl
  obtain ⟨com, ch, t, e, ab, y, v, u, -, -, -, -, hu, ⟨before, hx⟩, a3⟩ := forgeMessages_ok scalarCodec
    scalarCodec_lawful oneByteHash 9 key hs 7 [publicInputs (toFr [43, 91, 5, 93, 3]) (easygen []) 0,
      publicInputs (toFr [43, 91, 5, 93, 3]) (easygen []) 1] rfl (-1) hb
  obtain ⟨com', ch', e', y', v', h1', u', a4, hall⟩ := C62_false (scalarOnChain oneByteHash) hE
    (fun p => by simp [scalarOnChain, scalarCodec]) demo _ [2] s 9 hfit false 48 8192 (by norm_num) (by norm_num) (-1) 1 srs hsrs
    q.write vk.write vk key hpub [43, 91, 93] _ hcomp (by norm_num) [] (by norm_num)
  have a5 : forgeMessages scalarCodec oneByteHash key 7 [publicInputs (toFr [43, 91, 5, 93, 3]) (easygen []) 0,
      publicInputs (toFr [43, 91, 5, 93, 3]) (easygen []) 1] (-1) = .ok (com', ch', e', y', v', h1', u') := a4
  rw [a3] at a5
  obtain ⟨rfl, rfl, rfl, rfl, rfl, rfl, rfl⟩ := (by simpa using Except.ok.inj a5 :
    com = com' ∧ ch = ch' ∧ e = e' ∧ y = y' ∧ v = v' ∧ (-1 : Fr) = h1' ∧ u = u')
  have hx2 : ch.x = 2 := by
    rw [hx, show repeated 10 (1 :: (scalarBytes (-1) ++ scalarBytes (-1))) =
      repeated 8 (1 :: (scalarBytes (-1) ++ scalarBytes (-1))) ++ repeated 2 (1 :: (scalarBytes (-1) ++ scalarBytes (-1)))
      from by simp [repeated], ← List.append_assoc]
    unfold squeeze
    dsimp only
    rw [List.append_assoc, oneByteHash_append _ _ (by decide +kernel)]
    decide +kernel
  have hu3 : u = 3 := by
    rw [hu]
    unfold squeeze
    dsimp only
    rw [List.append_assoc (ab ++ [0]), List.append_assoc (ab ++ [0]), oneByteHash_append _ _ (by decide +kernel)]
    decide +kernel
  obtain ⟨proof, hok⟩ := hall (by rw [hx2]; decide +kernel) (by rw [hx2, hu3]; decide +kernel) (by rw [hu3]; decide +kernel)
  exact ⟨s, srs, q.write, vk.write, proof, vk, key, hsrs, hpub, hcomp, hok⟩

omit [DecidableEq GT] in
/-- The encodings of G1 in the code are as required; for the second group see C60 and DESIGN.md. -/
theorem g1_encodings (o : OnChain G1 G₂ GT) (h1 : o.codec = g1Codec) (h2 : o.r1 = g1Raw) (h3 : RawLawful o.r2 G2Raw.Stored) :
    Encodings o ∧ ∀ p, o.codec.coords p ≠ none := by
  refine ⟨⟨h1 ▸ g1Codec_lawful, h2 ▸ g1Raw_lawful, h3⟩, fun p => ?_⟩
  rw [h1]
  obtain ⟨c, hc⟩ := g1Codec_coords p
  rw [hc]
  simp

#print axioms C61_accepted
#print axioms C61_made
#print axioms C62_false
#print axioms C62_exit_partial
#print axioms C63_exits_partial
#print axioms C63_false

end Verif.Props

import Verif.Props.OnChain
import Verif.Props.Pairing

/-!
C76: the prover's transaction and the on-chain program with the groups, the encodings and the pairing of the code,
in place of any groups with any bilinear map.
-/

namespace Verif.Props

open Spec Tower Plonk Keygen PlonkProver Shplonk Transcript

variable (hash : Hash) (repr : VerifyingKey → Fr) (junk : KzgParams → VerifyingKey → List (List Fr) → List UInt8 → Except Panic Bool)

theorem bn_encodings : Encodings (bnOnChain hash repr junk) ∧ ∀ p, (bnOnChain hash repr junk).codec.coords p ≠ none :=
  g1_encodings _ rfl rfl g2Raw_lawful

/-- The generators, which the parameters are made from, pair to something other than 0: this is what C54 to C57 ask
of the pairing. -/
theorem bn_nondegenerate (A : G1) (B : G2) (hA : A = generator) (hB : B = g2Point) : bnPairing A B ≠ 0 := by
  intro h
  have h1 : E A B.1 = 1 := congrArg GT.val h
  rw [hA, hB] at h1
  exact E_generators h1

/-- C76, honest use. For a program that compiles and runs to its end within the room there is, the prover makes a
transaction, unless the hash gives powers that agree for two lengths of messages. -/
theorem C76_made (src : List UInt8) (words : List Nat) (input : List UInt8) (s : Verif.Interp) (k : Nat)
    (hfit : RunFits src words input s k) (checks : Bool) (fuel fuel' : Nat) (hf : 48 ≤ fuel) (hf' : 16 * 2 ^ k ≤ fuel')
    (srs : Srs G1 G2) (hsrs : Srs.setup generator g2Point k GOD_PRIVATE_KEY = .ok srs) :
    ∃ pk, keygenPk checks fuel fuel' k s.matrix (fun _ => 0) (publicInputs (toFr words) (easygen input)) = .ok (.ok pk) ∧
      ∀ blinds, EnoughBlinds pk.cs blinds →
        (∃ ws, (bnOnChain hash repr junk).witnesses checks fuel fuel' k srs s.matrix words input blinds = some ws) ∨
        ∃ a b : List UInt8, a.length < b.length ∧ (squeeze hash b).1 ^ 2 ^ k = (squeeze hash a).1 ^ 2 ^ k :=
  C61_made _ (bn_encodings hash repr junk).1 (bn_encodings hash repr junk).2 src words input s k hfit checks fuel fuel' hf hf'
    generator g2Point GOD_PRIVATE_KEY srs hsrs

/-- C76, acceptance. The on-chain program exits with 0 on that transaction, except for few values of the challenges. -/
theorem C76_accepted (src : List UInt8) (words : List Nat) (input : List UInt8) (s : Verif.Interp) (k : Nat)
    (hfit : RunFits src words input s k) (checks : Bool) (fuel fuel' : Nat) (hf : 48 ≤ fuel) (hf' : 16 * 2 ^ k ≤ fuel')
    (srs : Srs G1 G2) (hsrs : Srs.setup generator g2Point k GOD_PRIVATE_KEY = .ok srs) :
    ∃ pk, keygenPk checks fuel fuel' k s.matrix (fun _ => 0) (publicInputs (toFr words) (easygen input)) = .ok (.ok pk) ∧
      ∃ (Bβ : List Fr → Fr → Finset Fr) (Bγ : List Fr → Fr → Fr → Finset Fr),
        (∀ user θ, (Bβ user θ).card ≤ 2 ^ k) ∧ (∀ user θ β, (Bγ user θ β).card ≤ 17 * 2 ^ k) ∧
        ∀ (hash : Hash) (blinds : Blinds) (ws : List (List UInt8)), EnoughBlinds pk.cs blinds →
          (bnOnChain hash repr junk).witnesses checks fuel fuel' k srs s.matrix words input blinds = some ws →
          ∃ params vkBytes vk key proof com c t e t' y v h1 u h2 t'',
            ws = txWitnesses params vkBytes proof (codeBytes words) input ∧
            Published (bnOnChain hash repr junk) checks fuel fuel' k srs s.matrix (publicInputs (toFr words) (easygen input))
              params vkBytes vk key ∧
            Verify.readCommitments g1Codec hash key (repr vk)
              [publicInputs (toFr words) (easygen input) 0, publicInputs (toFr words) (easygen input) 1] proof =
                .ok (com, c, t) ∧
            Verify.readEvals key com t = .ok (e, t') ∧
            Verify.readOpening g1Codec hash t' = .ok (y, v, h1, u, h2, t'') ∧
            (c.beta ∉ Bβ c.user c.theta → c.gamma ∉ Bγ c.user c.theta c.beta → c.x ^ 2 ^ k ≠ 1 →
              u ^ 2 ^ k ≠ c.x ^ 2 ^ k → (bnOnChain hash repr junk).program fuel ws = .ok 0) := by
  obtain ⟨pk, h1, Bβ, Bγ, h2, h3, h4⟩ := C61_accepted _ (bn_encodings (fun _ => []) repr junk).1 src words input s k hfit checks
    fuel fuel' hf hf' generator g2Point GOD_PRIVATE_KEY srs hsrs
  refine ⟨pk, h1, Bβ, Bγ, h2, h3, fun hash blinds ws hb hw => ?_⟩
  obtain ⟨params, vkBytes, vk, key, proof, com, c, t, e, t', y, v, h1, u, h2, t'', a1, a2, a3, a4, a5, a6⟩ := h4 hash blinds ws hb hw
  exact ⟨params, vkBytes, vk, key, proof, com, c, t, e, t', y, v, h1, u, h2, t'', a1, ⟨a2.shrunk, a2.raw, a2.bytes, a2.keyed, a2.same⟩,
    a3, a4, a5, a6⟩

/-- C76, forgery. With the parameters and the key the prover published, for every other program, run or not, ended
or not, and every input, there is a proof with which the on-chain program exits with 0, except for few values of
three challenges: what C62 shows for any groups holds for those of the code. -/
theorem C76_forged (src : List UInt8) (words : List Nat) (input : List UInt8) (s : Verif.Interp) (k : Nat)
    (hfit : RunFits src words input s k) (checks : Bool) (fuel fuel' : Nat) (hf : 48 ≤ fuel) (hf' : 16 * 2 ^ k ≤ fuel')
    (srs : Srs G1 G2) (hsrs : Srs.setup generator g2Point k GOD_PRIVATE_KEY = .ok srs)
    (params vkBytes : List UInt8) (vk : VerifyingKey) (key : Key G1)
    (hp : Published (bnOnChain hash repr junk) checks fuel fuel' k srs s.matrix (publicInputs (toFr words) (easygen input))
      params vkBytes vk key)
    (src' : List UInt8) (words' : List Nat) (hw : compileToU16 true src' = .ok words') (hcode : words'.length ≤ 1023)
    (input' : List UInt8) (hinput : input'.length ≤ 1023) :
    ∃ com ch e y v h1 u, forgeMessages g1Codec hash key (repr vk)
        [publicInputs (toFr words') (easygen input') 0, publicInputs (toFr words') (easygen input') 1] generator =
          .ok (com, ch, e, y, v, h1, u) ∧
      (ch.x ^ 2 ^ k ≠ 1 → u ^ 2 ^ k ≠ ch.x ^ 2 ^ k → u ≠ 42 → ∃ proof,
        (bnOnChain hash repr junk).program fuel (txWitnesses params vkBytes proof (codeBytes words') input') = .ok 0) :=
  C62_false _ (bn_encodings hash repr junk).1 (bn_encodings hash repr junk).2 src words input s k hfit checks fuel fuel' hf hf'
    generator g2Point srs hsrs params vkBytes vk key hp src' words' hw hcode input' hinput

/-- The demo program on the input [2], with the groups and the pairing of the code: the prover makes a transaction
and the on-chain program exits with 0. -/
theorem demo_deployed (repr : VerifyingKey → Fr)
    (junk : KzgParams → VerifyingKey → List (List Fr) → List UInt8 → Except Panic Bool) :
    ∃ (s : Verif.Interp) (srs : Srs G1 G2) (hash : Hash) (blinds : Blinds) (ws : List (List UInt8)),
    Srs.setup generator g2Point 9 GOD_PRIVATE_KEY = .ok srs ∧
    RunFits demo [44, 43, 91, 10, 45, 62, 43, 60, 93, 4, 62, 46] [2] s 9 ∧
    (bnOnChain hash repr junk).witnesses false 48 8192 9 srs s.matrix [44, 43, 91, 10, 45, 62, 43, 60, 93, 4, 62, 46] [2] blinds =
      some ws ∧ (bnOnChain hash repr junk).program 48 ws = .ok 0 := by
  obtain ⟨s, hfit⟩ := demo_fits
  have hE0 := bn_encodings (fun _ => []) repr junk
  obtain ⟨srs, hsrs⟩ : ∃ srs, Srs.setup generator g2Point 9 GOD_PRIVATE_KEY = .ok srs := C43_secret _ _ 9 (by norm_num)
  obtain ⟨n, hn, hr⟩ := hfit.ran
  obtain ⟨pk, key, h1, h2, h3⟩ := exists_accepted true false false demo demoCode [2] n s demo_good demo_input hn
    (by norm_num) hr hfit.read 48 8192 9 (by norm_num) (by norm_num) (by norm_num) (by norm_num)
    hfit.rows (by norm_num) (fun _ => 0) generator g2Point GOD_PRIVATE_KEY srs hsrs bnPairing g1Codec
    hE0.1.codec hE0.2
  let b : Blinds := ⟨List.replicate pk.cs.lookups.length (List.replicate (pk.cs.blindingFactors + 1) 0,
      List.replicate (pk.cs.blindingFactors + 1) 0),
    List.replicate (chunks (pk.cs.degree - 2) pk.cs.permutation).length (List.replicate pk.cs.blindingFactors 0),
    List.replicate pk.cs.lookups.length (List.replicate pk.cs.blindingFactors 0)⟩
  have hb : EnoughBlinds pk.cs b := by
    refine ⟨by simp [b], ?_, by simp [b], ?_, by simp [b], ?_⟩ <;> intro p hp <;>
      rw [List.eq_of_mem_replicate hp] <;> simp
  obtain ⟨vk, a, r1, r2, -⟩ := keygenRaw_ok hE0.1.r1 (by norm_num) h2 (keygen_shape (by norm_num) (by norm_num) (by norm_num) h2)
  obtain ⟨hash, out, q1, q2⟩ := h3 (repr vk) b hb
  have hE := (bn_encodings hash repr junk).1
  obtain ⟨q, w1, -⟩ := params_written hE.r1 hE.r2 (by norm_num) (by norm_num) hsrs
  have hws : (bnOnChain hash repr junk).witnesses false 48 8192 9 srs s.matrix [44, 43, 91, 10, 45, 62, 43, 60, 93, 4, 62, 46] [2] b =
      some (txWitnesses q.write vk.write out (codeBytes [44, 43, 91, 10, 45, 62, 43, 60, 93, 4, 62, 46]) [2]) := by
    unfold OnChain.witnesses
    dsimp only
    rw [show publicInputs (([44, 43, 91, 10, 45, 62, 43, 60, 93, 4, 62, 46] : List Nat).map fun (w : Nat) => (w : Fr)) (easygen [2]) =
      publicInputs demoCode (toFr [2]) from rfl, show keygenRaw (bnOnChain hash repr junk).r1 _ _ _ _ _ _ _ _ = _ from r1, h1, w1]
    dsimp only
    rw [show prove false (bnOnChain hash repr junk).codec (bnOnChain hash repr junk).hash srs pk ((bnOnChain hash repr junk).repr vk)
      [publicInputs demoCode (toFr [2]) 0, publicInputs demoCode (toFr [2]) 1]
      (circuitSynth 9 s.matrix (publicInputs demoCode (toFr [2]))) b = .ok out from q1]
  refine ⟨s, srs, hash, b, _, hsrs, hfit, hws, ?_⟩
  have hsize : out.length ≤ 8192 := by
    obtain ⟨pk', e3, hend⟩ := C52_ends true false false demo demoCode [2] n s demo_good demo_input hn
      (by norm_num) hr hfit.read 48 8192 9 (by norm_num) (by norm_num) (by norm_num) (by norm_num)
      hfit.rows (by norm_num) (fun _ => 0) generator g2Point GOD_PRIVATE_KEY srs hsrs g1Codec hE0.1.codec
    rw [h1] at e3
    obtain rfl := Except.ok.inj (Except.ok.inj e3)
    obtain ⟨res, q3, ⟨out', rfl, q4⟩ | ⟨-, rfl | rfl⟩ | ⟨rfl, -⟩⟩ := hend hash (repr vk) b hb
    · rw [q1] at q3
      obtain rfl := Except.ok.inj q3
      omega
    · rw [q1] at q3; cases q3
    · rw [q1] at q3; cases q3
    · rw [q1] at q3; cases q3
  have := Published.program hE hfit (by norm_num) (by norm_num) hsrs (vk := vk) (key := key) ⟨⟨q, w1, rfl⟩, r1, rfl, h2, r2⟩
    hfit.compiled hfit.codeBuffer hfit.inputBuffer hsize
  rw [this]
  rw [show verifyProof (bnOnChain hash repr junk).codec (bnOnChain hash repr junk).hash (bnOnChain hash repr junk).pairing
    ⟨2 ^ 9, generator, g2Point, GOD_PRIVATE_KEY • g2Point⟩ key ((bnOnChain hash repr junk).repr vk)
    [publicInputs (toFr [44, 43, 91, 10, 45, 62, 43, 60, 93, 4, 62, 46]) (easygen [2]) 0,
      publicInputs (toFr [44, 43, 91, 10, 45, 62, 43, 60, 93, 4, 62, 46]) (easygen [2]) 1] out = .ok () from q2]


end Verif.Props

#print axioms Verif.Props.C76_made
#print axioms Verif.Props.C76_accepted
#print axioms Verif.Props.C76_forged

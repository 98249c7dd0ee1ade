import Verif.Lemmas.ProverCircuit

/-! Property C47: the honest prover convinces the verifier. -/

namespace Verif.Props

open Spec Plonk Keygen PlonkProver

/-- C47. Completeness for any constraint system: with a proving key for `2^k` rows whose permutation
polynomials are those of the copy constraints, a witness that satisfies the constraint system, and
public inputs that fit, `create_proof` ends with a proof of the right shape, and all queries of the
verifier on it are true, unless β or γ fall in small sets fixed before they are drawn, or x is one of
the `2^k` points of the domain. No other challenge and no blinding value matters. -/
theorem C47_complete (pk : ProvingKey) (k : Nat) (hpk : ProvingKeyFor pk k) (hc : Closed pk.cs)
    (hbf : pk.cs.blindingFactors + 1 < 2 ^ k) (instances witness : List (List Fr)) (user : List Fr)
    (hi : instances.length = pk.cs.numInstance)
    (hil : ∀ v ∈ instances, v.length ≤ 2 ^ k - (pk.cs.blindingFactors + 1))
    (hw : witness.length = pk.cs.numAdvice) (hwl : ∀ v ∈ witness, v.length = 2 ^ k)
    (hu : user.length = pk.cs.numChallenges)
    (fuel : Nat) (hf : pk.cs.permutation.length * 2 ^ k ≤ fuel)
    (copies : List ((Col × Nat) × (Col × Nat)))
    (hrows : ∀ p ∈ copies, p.1.2 < pk.cs.usableRows (2 ^ k) ∧ p.2.2 < pk.cs.usableRows (2 ^ k))
    (a : PermAssembly)
    (ha : PermAssembly.copyAll fuel copies (PermAssembly.new (2 ^ k) pk.cs.permutation) = .ok (.ok a))
    (hsig : SigmaOf pk.domain pk.cs.permutation.length (2 ^ k) pk.sigmaPolys a.mapping)
    (hsat : Satisfied pk.cs (2 ^ k) (tableOf (2 ^ k) pk.fixedValues witness instances user) copies) :
    ∃ (Bβ : Fr → Finset Fr) (Bγ : Fr → Fr → Finset Fr),
      (∀ θ, (Bβ θ).card ≤ pk.cs.lookups.length * 2 ^ k) ∧
      (∀ θ β, (Bγ θ β).card ≤ (pk.cs.permutation.length + pk.cs.lookups.length) * 2 ^ k) ∧
      ∀ θ β γ y x, β ∉ Bβ θ → γ ∉ Bγ θ β → x ^ 2 ^ k ≠ 1 → ∀ b, EnoughBlinds pk.cs b →
        Succeeds (verifyingKeyOf pk) (2 ^ k) instances ⟨user, θ, β, γ, y, x⟩
          (createProof pk (2 ^ k) instances witness ⟨user, θ, β, γ, y, x⟩ b) := by
  obtain ⟨Bβ, Bγ, h1, h2, h3⟩ := lucky_sets pk k (tableOf (2 ^ k) pk.fixedValues witness instances user)
    (fun c r => (pk.sigmaValues.getD c []).getD r 0)
  refine ⟨Bβ, Bγ, h1, h2, ?_⟩
  intro θ β γ y x hβ hγ hx b hb
  exact create_ok (ch := ⟨user, θ, β, γ, y, x⟩) hpk hc hbf hi hil hw hwl hu hb fuel hf copies hrows a ha hsig hsat
    (h3 θ β γ hβ hγ) hx

/-- C47 for the brainfuck prover. For a compiled program and an input that the run reads to its end,
whenever the instruction table and the input leave 7 of the `2^k` rows free (`9 ≤ k ≤ 24`): key
generation gives a proving key and the verifying key belonging to it, and whatever the user
challenges, of the `P^5` ways to draw θ, β, γ, y, x, there are at most `19 · 2^k · P^4` for which,
with some blinding values, `create_proof` does not end with a proof that makes all queries of the
verifier true. -/
theorem C47_circuit (checks checks' : Bool) (src : List UInt8) (code : List Fr) (input : List Nat)
    (n : Nat) (s : Interp) (hp : GoodProgram checks src code) (hi : GoodInput 8 input)
    (hn : n ≤ 2 ^ 62) (hlen : input.length < 2 ^ 64) (hr : runOn n 8 code input = some (.ok s))
    (hread : s.input = []) (fuel fuel' k : Nat) (hk : k ≤ 24) (hk9 : 9 ≤ k) (hf : 48 ≤ fuel)
    (hf' : 16 * 2 ^ k ≤ fuel') (hroom : s.matrix.instruction.length + 7 ≤ 2 ^ k)
    (hroom' : input.length + 7 ≤ 2 ^ k) (ch : Nat → Fr) :
    ∃ pk : ProvingKey,
      keygenPk checks' fuel fuel' k s.matrix ch (publicInputs code (toFr input)) = .ok (.ok pk) ∧
      keygenVk pk.domain.lagrangeToCoeff checks' fuel fuel' k s.matrix ch (publicInputs code (toFr input)) =
        .ok (.ok (verifyingKeyOf pk)) ∧
      ∀ user : List Fr, user.length = 11 →
        {t : Fr × Fr × Fr × Fr × Fr | ∃ b, EnoughBlinds pk.cs b ∧
          ¬ Succeeds (verifyingKeyOf pk) (2 ^ k)
            [publicInputs code (toFr input) 0, publicInputs code (toFr input) 1]
            ⟨user, t.1, t.2.1, t.2.2.1, t.2.2.2.1, t.2.2.2.2⟩
            (proveCircuit pk k s.matrix (publicInputs code (toFr input))
              ⟨user, t.1, t.2.1, t.2.2.1, t.2.2.2.1, t.2.2.2.2⟩ b)}.ncard ≤ 19 * 2 ^ k * P ^ 4 := by
  classical
  have h9 : 2 ^ 9 ≤ 2 ^ k := Nat.pow_le_pow_right (by norm_num) hk9
  have hsyn : ∀ ch, ∃ a, synthesize (2 ^ k) s.matrix ch (publicInputs code (toFr input)) = .ok a := fun ch =>
    (honest_room hp hi hn hr (2 ^ k) ch).2 ⟨by omega, hroom, hroom'⟩
  obtain ⟨a, ha⟩ := hsyn ch
  obtain ⟨pk, asm, c, cols, as, h1, h2, h3, h4, h5, h6, h7, h8, h10⟩ :=
    keygenPk_ok checks' fuel fuel' k hk hf hf' s.matrix ch _ a ha
  refine ⟨pk, h1, h2, ?_⟩
  intro user hu
  obtain ⟨a0, ha0⟩ := hsyn (fun _ => 0)
  obtain ⟨a1, ha1⟩ := hsyn (fun i => user.getD i 0)
  obtain ⟨g1, g2, g3, g4, g5, g6⟩ := gates_count
  have hna : mainCS.numAdvice = 28 := by decide +kernel
  obtain ⟨c1, c2, c3, c4, c5, c6, c7, c8, c9, c10⟩ := compressed_permutation mainCS_sane h5
  obtain ⟨hnd, h16⟩ := C33_circuit
  have hus : c.cs.usableRows (2 ^ k) = 2 ^ k - 6 := by
    unfold CS.usableRows; rw [c10, g6]
  have hcl := compressed_closed mainCS_sane mainCS_closed h5
  obtain ⟨-, hl0, hl1, -⟩ := (synthesize_ok_iff _ _ _ _ _).1 ha
  have hwit : witnessColumns k s.matrix user (publicInputs code (toFr input)) =
      .ok ((List.range mainCS.numAdvice).map fun c => (List.range (2 ^ k)).map fun r =>
        if mainCS.advicePhase[c]? = some 0 then a0.advice c r else a1.advice c r) := by
    unfold witnessColumns
    rw [ha0, ha1]
  obtain ⟨witness, hw⟩ : ∃ w, w = (List.range mainCS.numAdvice).map fun c => (List.range (2 ^ k)).map fun r =>
        if mainCS.advicePhase[c]? = some 0 then a0.advice c r else a1.advice c r := ⟨_, rfl⟩
  rw [← hw] at hwit
  have hsat := honest_table hp hi hn hlen hr hread ha ha0 ha1 h5 h6 hwit
  obtain ⟨Bβ, Bγ, b1, b2, hall⟩ := C47_complete pk k h3 (by rw [h7]; exact hcl) (by rw [h7, c10, g6]; omega)
    [publicInputs code (toFr input) 0, publicInputs code (toFr input) 1] witness user
    (by rw [h7, c3, g4]; rfl)
    (by
      intro v hv
      rw [h7, c10, g6]
      simp only [List.mem_cons, List.not_mem_nil, or_false] at hv
      rcases hv with rfl | rfl
      · exact hl0
      · exact hl1)
    (by rw [h7, c5, hna, hw, hna]; simp)
    (by intro v hv; rw [hw] at hv; obtain ⟨i, -, rfl⟩ := List.mem_map.1 hv; simp)
    (by rw [h7, c4, g5]; exact hu) fuel' (by rw [h7, c1, h16]; exact hf') a.copies
    (by intro p hp; rw [h7, hus]; exact (Keygen.copies_rows ha p hp).1) asm
    (by rw [h7, c1]; exact h4) (by rw [h7, c1, h16]; exact h10)
    (by rw [h7, h8]; exact hsat)
  rw [h7, c6, g2] at b1
  rw [h7, c6, c1, h16, g2] at b2
  let X : Finset Fr := (Polynomial.nthRoots (2 ^ k) (1 : Fr)).toFinset
  have hX : X.card ≤ 2 ^ k := le_trans (Multiset.toFinset_card_le _) (Polynomial.card_nthRoots _ _)
  have hrun : ∀ (t : Challenges) b, t.user = user →
      proveCircuit pk k s.matrix (publicInputs code (toFr input)) t b =
      createProof pk (2 ^ k) [publicInputs code (toFr input) 0, publicInputs code (toFr input) 1] witness t b := by
    intro t b ht
    unfold proveCircuit
    rw [ht, hwit]
    rfl
  rw [Set.ncard_eq_toFinset_card _ (Set.toFinite _)]
  have := count_rounds (Set.toFinite {t : Fr × Fr × Fr × Fr × Fr | ∃ b, EnoughBlinds pk.cs b ∧
          ¬ Succeeds (verifyingKeyOf pk) (2 ^ k)
            [publicInputs code (toFr input) 0, publicInputs code (toFr input) 1]
            ⟨user, t.1, t.2.1, t.2.2.1, t.2.2.2.1, t.2.2.2.2⟩
            (proveCircuit pk k s.matrix (publicInputs code (toFr input))
              ⟨user, t.1, t.2.1, t.2.2.1, t.2.2.2.1, t.2.2.2.2⟩ b)}).toFinset
    ∅ Bβ Bγ (fun _ _ _ => ∅) (fun _ _ _ _ => X) 0 _ _ 0 _ (by simp) b1 b2 (by simp) (fun _ _ _ _ => hX)
    (fun t ht => by
      rw [Set.Finite.mem_toFinset] at ht
      obtain ⟨b, hb, hno⟩ := ht
      by_contra hcon
      simp only [not_or] at hcon
      obtain ⟨-, hβ, hγ, -, hx⟩ := hcon
      apply hno
      rw [hrun _ b rfl]
      refine hall _ _ _ _ _ hβ hγ ?_ b hb
      intro hx1
      exact hx (Multiset.mem_toFinset.2 ((Polynomial.mem_nthRoots (by omega)).2 hx1)))
  have hcard : Fintype.card Fr = P := ZMod.card P
  rw [hcard] at this
  refine le_trans this (Nat.mul_le_mul_right _ ?_)
  omega

/-- The demo program `,+[->+<]>.` on input 2, in 512 rows, meets the hypotheses of C47; and there are
challenges and blinding values with which the prover succeeds (the bound of C47 is far below the number
of all ways to draw the challenges). -/
example : ∃ (s : Interp) (pk : ProvingKey), runOn 100 8 demoCode [2] = some (.ok s) ∧
    keygenPk false 48 8192 9 s.matrix (fun _ => 0) (publicInputs demoCode (toFr [2])) = .ok (.ok pk) ∧
    ∃ (ch : Challenges) (b : Blinds), EnoughBlinds pk.cs b ∧
      Succeeds (verifyingKeyOf pk) (2 ^ 9)
        [publicInputs demoCode (toFr [2]) 0, publicInputs demoCode (toFr [2]) 1] ch
        (proveCircuit pk 9 s.matrix (publicInputs demoCode (toFr [2])) ch b) := by
  classical
  have h : ((runOn 100 8 demoCode [2]).map (fun r => r.map (fun s =>
      (s.matrix.processor.length, s.input)))) = some (.ok (21, [])) := by decide +kernel
  obtain ⟨s, hs, e⟩ := ok_of_map h
  have hp1 : s.matrix.processor.length = 21 := congrArg Prod.fst e
  have l1 := (honest_lengths demo_good demo_input (by norm_num) hs).1
  have l3 : s.matrix.instruction.length = 33 := by rw [l1, hp1]; rfl
  obtain ⟨pk, h1, -, h3⟩ := C47_circuit true false demo demoCode [2] 100 s demo_good demo_input (by norm_num)
    (by norm_num) hs (congrArg Prod.snd e) 48 8192 9 (by norm_num) (by norm_num) (by norm_num) (by norm_num)
    (by rw [l3]; norm_num) (by norm_num) (fun _ => 0)
  refine ⟨s, pk, hs, h1, ?_⟩
  have h3 := h3 (List.replicate 11 0) (by simp)
  let b : Blinds := ⟨List.replicate pk.cs.lookups.length (List.replicate (pk.cs.blindingFactors + 1) 0,
      List.replicate (pk.cs.blindingFactors + 1) 0),
    List.replicate (chunks (pk.cs.degree - 2) pk.cs.permutation).length (List.replicate pk.cs.blindingFactors 0),
    List.replicate pk.cs.lookups.length (List.replicate pk.cs.blindingFactors 0)⟩
  have hb : EnoughBlinds pk.cs b := by
    refine ⟨by simp [b], ?_, by simp [b], ?_, by simp [b], ?_⟩ <;> intro p hp <;>
      rw [List.eq_of_mem_replicate hp] <;> simp
  by_contra hcon
  push Not at hcon
  have hall : ∀ t : Fr × Fr × Fr × Fr × Fr, t ∈ {t : Fr × Fr × Fr × Fr × Fr | ∃ b, EnoughBlinds pk.cs b ∧
          ¬ Succeeds (verifyingKeyOf pk) (2 ^ 9)
            [publicInputs demoCode (toFr [2]) 0, publicInputs demoCode (toFr [2]) 1]
            ⟨List.replicate 11 0, t.1, t.2.1, t.2.2.1, t.2.2.2.1, t.2.2.2.2⟩
            (proveCircuit pk 9 s.matrix (publicInputs demoCode (toFr [2]))
              ⟨List.replicate 11 0, t.1, t.2.1, t.2.2.1, t.2.2.2.1, t.2.2.2.2⟩ b)} :=
    fun t => ⟨b, hb, hcon _ b hb⟩
  rw [Set.eq_univ_of_forall hall, Set.ncard_univ, Nat.card_eq_fintype_card] at h3
  have hcard : Fintype.card Fr = P := ZMod.card P
  simp only [Fintype.card_prod, hcard] at h3
  exact absurd h3 (by decide +kernel)

#print axioms C47_complete
#print axioms C47_circuit

end Verif.Props

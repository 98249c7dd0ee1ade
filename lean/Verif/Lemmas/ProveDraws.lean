import Verif.Lemmas.ProveTotal

/-! How much has been absorbed when each challenge is drawn. -/

namespace Verif.Transcript

open Plonk Spec PlonkProver Shplonk

variable {G G₂ : Type} {codec : Codec G}

theorem writeCommitment_grown (hl : Lawful codec) {err : ProveErr} {c : Except Panic G} {w w' : Writer}
    (h : writeCommitment codec err c w = .ok w') : Grown 1 0 0 w w' := by
  unfold writeCommitment at h
  obtain ⟨g, -, h⟩ := bind_ok.1 h
  cases hw : writePoint codec w g with
  | none => rw [hw] at h; cases h
  | some w2 =>
    rw [hw] at h
    obtain rfl := Except.ok.inj h
    exact writePoint_grown hl hw

theorem writeAll_grown {α : Type} (hl : Lawful codec) {commit : α → Except Panic G} : ∀ (ps : List α) (w w' : Writer),
    writeAll codec commit ps w = .ok w' → Grown ps.length 0 0 w w' := by
  intro ps
  induction ps with
  | nil =>
    intro w w' h
    obtain rfl := Except.ok.inj h
    exact Grown.refl w
  | cons p ps ih =>
    intro w w' h
    obtain ⟨w1, h1, h2⟩ := bind_ok.1 h
    have := (writeCommitment_grown hl h1).trans (ih w1 w' h2)
    rw [Nat.add_comm] at this
    exact this

theorem draw_eq {hash : Hash} {w w' : Writer} {c : Fr} (h : PlonkProver.draw hash w = (c, w')) :
    c = (squeeze hash w.absorbed).1 := by
  unfold PlonkProver.draw at h
  exact (Prod.mk.inj h).1.symm

/-- All challenges of a phase are zero when the hash is. -/
theorem squeezePhase_zero {hash : Hash} {phase m : Nat} (hz : ∀ a : List UInt8, a.length < m → (squeeze hash a).1 = 0) :
    ∀ (l : List (Nat × Nat)) (user : List Fr) (a : List UInt8), (∀ c ∈ user, c = 0) →
      (squeezePhase hash phase l user a).2.length ≤ m → ∀ c ∈ (squeezePhase hash phase l user a).1, c = 0 := by
  intro l
  induction l with
  | nil => exact fun user a hu _ => hu
  | cons p l ih =>
    intro user a hu hm
    have hg := squeezePhase_grown (hash := hash) (phase := phase) (p :: l) user a
    obtain ⟨p, i⟩ := p
    unfold squeezePhase at hm ⊢
    by_cases h : p = phase
    · rw [if_pos h] at hm ⊢
      rw [List.filter_cons, if_pos (by simpa using h)] at hg
      unfold squeezePhase at hg
      rw [if_pos h] at hg
      simp only [List.length_cons] at hg
      dsimp only [squeeze] at hg hm ⊢
      refine ih _ _ ?_ hm
      intro c hc
      rcases List.mem_or_eq_of_mem_set hc with hc | rfl
      · exact hu c hc
      · exact hz a (by omega)
    · rw [if_neg h] at hm ⊢
      exact ih user a hu hm

theorem writeAdvice_grown (hl : Lawful codec) {commit : List Fr → Except Panic G} {phase : Nat} {cols : List (List Fr)} :
    ∀ (l : List (Nat × Nat)) (advice : List (List Fr)) (w : Writer) (r : List (List Fr) × Writer),
      writeAdvice codec commit phase cols l advice w = .ok r → w.absorbed.length ≤ r.2.absorbed.length := by
  intro l
  induction l with
  | nil =>
    intro advice w r h
    obtain rfl := Except.ok.inj h
    exact le_rfl
  | cons p l ih =>
    intro advice w r h
    obtain ⟨p, i⟩ := p
    unfold writeAdvice at h
    by_cases hp : p = phase
    · rw [if_pos hp] at h
      obtain ⟨col, -, h⟩ := bind_ok.1 h
      obtain ⟨w1, h1, h⟩ := bind_ok.1 h
      have h1 := (writeCommitment_grown hl h1).1
      have := ih _ _ _ h
      omega
    · rw [if_neg hp] at h
      exact ih _ _ _ h

theorem writePhases_zero (hl : Lawful codec) {hash : Hash} {commit : List Fr → Except Panic G} {cs : CS}
    {synth : Nat → List Fr → Except PlonkProver.Stop (List (List Fr))} {m : Nat}
    (hz : ∀ a : List UInt8, a.length < m → (squeeze hash a).1 = 0) :
    ∀ (phases : List Nat) (advice : List (List Fr)) (user : List Fr) (w : Writer)
      (r : List (List Fr) × List Fr × Writer), writePhases codec hash commit cs synth phases advice user w = .ok r →
      r.2.2.absorbed.length ≤ m → (∀ c ∈ user, c = 0) →
      (∀ c ∈ r.2.1, c = 0) ∧ w.absorbed.length ≤ r.2.2.absorbed.length := by
  intro phases
  induction phases with
  | nil =>
    intro advice user w r h hm hu
    obtain rfl := Except.ok.inj h
    exact ⟨hu, le_rfl⟩
  | cons p ps ih =>
    intro advice user w r h hm hu
    unfold writePhases at h
    obtain ⟨cols, -, h⟩ := bind_ok.1 h
    obtain ⟨⟨advice1, w1⟩, h1, h⟩ := bind_ok.1 h
    have g1 := writeAdvice_grown hl _ _ _ _ h1
    dsimp only at g1 h
    have g2 := squeezePhase_grown (hash := hash) (phase := p) cs.challengePhase.zipIdx user w1.absorbed
    have g3 := squeezePhase_zero (phase := p) hz cs.challengePhase.zipIdx user w1.absorbed hu
    generalize squeezePhase hash p cs.challengePhase.zipIdx user w1.absorbed = sq at g2 g3 h
    obtain ⟨user1, abs1⟩ := sq
    dsimp only at g2 g3 h
    -- lengths only grow, whatever the challenges
    have mono : ∀ (phases : List Nat) (advice : List (List Fr)) (user : List Fr) (w : Writer)
        (r : List (List Fr) × List Fr × Writer), writePhases codec hash commit cs synth phases advice user w = .ok r →
        w.absorbed.length ≤ r.2.2.absorbed.length := by
      intro phases
      induction phases with
      | nil =>
        intro advice user w r h
        obtain rfl := Except.ok.inj h
        exact le_rfl
      | cons p ps ih =>
        intro advice user w r h
        unfold writePhases at h
        obtain ⟨cols, -, h⟩ := bind_ok.1 h
        obtain ⟨⟨advice1, w1⟩, h1, h⟩ := bind_ok.1 h
        have g1 := writeAdvice_grown hl _ _ _ _ h1
        dsimp only at g1 h
        have g2 := squeezePhase_grown (hash := hash) (phase := p) cs.challengePhase.zipIdx user w1.absorbed
        generalize squeezePhase hash p cs.challengePhase.zipIdx user w1.absorbed = sq at g2 h
        obtain ⟨user1, abs1⟩ := sq
        dsimp only at g2 h
        have := ih _ _ _ _ h
        dsimp only at this
        omega
    have g4 := mono _ _ _ _ _ h
    dsimp only at g4
    obtain ⟨i1, -⟩ := ih _ _ _ _ h hm (g3 (by omega))
    exact ⟨i1, by omega⟩

variable [AddCommGroup G] [Module Fr G]
variable {checks : Bool} {hash : Hash} {srs : Srs G G₂} {pk : ProvingKey} {repr : Fr}
  {instances : List (List Fr)} {synth : Nat → List Fr → Except PlonkProver.Stop (List (List Fr))}
  {blinds : Blinds} {out : List UInt8} {k : Nat}

/-- How long the transcripts are from which β, γ, x and u are drawn. -/
theorem Run.draws (r : Run checks codec hash srs pk repr instances synth blinds out) (hl : Lawful codec)
    (hpk : ProvingKeyFor pk k) (hn : srs.n = 2 ^ k) (hb : EnoughBlinds pk.cs blinds) :
    r.ch.theta = (squeeze hash r.w1.absorbed).1 ∧
    (∃ a : List UInt8, r.ch.beta = (squeeze hash a).1 ∧
      a.length = r.w1.absorbed.length + 65 * (2 * pk.cs.lookups.length) + 1) ∧
    (∃ a : List UInt8, r.ch.gamma = (squeeze hash a).1 ∧
      a.length = r.w1.absorbed.length + 65 * (2 * pk.cs.lookups.length) + 2) ∧
    ∃ a b : List UInt8, r.ch.x = (squeeze hash a).1 ∧ r.u = (squeeze hash b).1 ∧ a.length < b.length ∧
      a.length = r.w1.absorbed.length + 65 * (3 * pk.cs.lookups.length + numSets pk.cs + 1 + (pk.cs.degree - 1)) + 4 := by
  have sh := r.shaped hpk hn hb
  have l1 : r.permuted.length = pk.cs.lookups.length := by
    rw [permuteAll_length r.permutedEq]
    simp [hb.permuted]
  have l2 : r.products.length = numSets pk.cs := by
    have := sh.products
    rw [mapM_length r.productPolys] at this
    rw [this, chunks_length]
    rfl
  have l3 : r.lookupProducts.length = pk.cs.lookups.length := by
    rw [mapM_length r.lookupProductsEq]
    simp [l1, hb.lookups]
  have l4 : r.com.pieces.length = pk.cs.degree - 1 := by
    rw [sh.pieces]
    exact hpk.domain.quotient
  have hflat : ∀ l : List Permuted, (l.flatMap fun p => [p.permutedInput, p.permutedTable]).length = 2 * l.length := by
    intro l
    induction l with
    | nil => rfl
    | cons p ps ih => rw [List.flatMap_cons, List.length_append, ih]; simp; omega
  have a1 := (draw_grown r.theta).1
  have a2 := (writeAll_grown hl _ _ _ r.write2).1
  rw [hflat, l1] at a2
  have a3 := (draw_grown r.beta).1
  have a4 := (draw_grown r.gamma).1
  have a5 := (writeAll_grown hl _ _ _ r.write3).1
  have a6 := (writeAll_grown hl _ _ _ r.write4).1
  have a7 := (writeCommitment_grown hl r.write5).1
  have a8 := (draw_grown r.y).1
  have a9 := (writeAll_grown hl _ _ _ r.write6).1
  have a10 := (draw_grown r.x).1
  have a11 := (writeScalars_grown (scalarsOf r.e) r.w6').1
  have a12 := (draw_grown r.y'Eq).1
  have a13 := (draw_grown r.vEq).1
  have a14 := (writePoint_grown hl r.write8).1
  rw [l2] at a5
  rw [l3] at a6
  rw [l4] at a9
  refine ⟨draw_eq r.theta, ⟨_, draw_eq r.beta, by omega⟩, ⟨_, draw_eq r.gamma, by omega⟩, _, _, draw_eq r.x, draw_eq r.uEq,
    ?_, ?_⟩ <;> omega

end Verif.Transcript

import Verif.Lemmas.ProveSync
import Verif.Lemmas.ProverCircuit

/-! The columns that the prover of the brainfuck circuit writes, and the keys. -/

namespace Verif.Transcript

open Plonk Spec PlonkProver Keygen

variable {G : Type} [AddCommGroup G] [Module Fr G]

theorem writeAdvice_columns {codec : Codec G} {commit : List Fr → Except Panic G} {phase : Nat}
    {cols : List (List Fr)} : ∀ (l : List Nat) (n : Nat) {advice advice' : List (List Fr)} {w w' : Writer},
    writeAdvice codec commit phase cols (l.zipIdx n) advice w = .ok (advice', w') →
    ∀ i < advice.length, advice'[i]? =
      if n ≤ i ∧ l[i - n]? = some phase then (cols[i]?).map adviceColumn else advice[i]? := by
  intro l
  induction l with
  | nil =>
    intro n advice advice' w w' h i hi
    obtain ⟨rfl, -⟩ := Prod.mk.inj (Except.ok.inj h)
    simp
  | cons p l ih =>
    intro n advice advice' w w' h i hi
    rw [List.zipIdx_cons] at h
    unfold writeAdvice at h
    split at h
    · next hp =>
      obtain ⟨col, hcol, h⟩ := bind_ok.1 h
      obtain ⟨w1, -, h⟩ := bind_ok.1 h
      have hcol : cols[n]? = some col := by
        rw [total_eq] at hcol
        unfold at_ at hcol
        split at hcol
        · next v hv => rw [hv, Except.ok.inj hcol]
        · exact absurd hcol (by simp)
      have h := ih (n + 1) h i (by simpa using hi)
      rw [h, List.getElem?_set]
      rcases Nat.lt_trichotomy i n with hin | rfl | hin
      · rw [if_neg (by omega), if_neg (by omega), if_neg (by omega)]
      · rw [if_neg (by omega), if_pos rfl, if_pos hi, if_pos ⟨le_rfl, by simp [hp]⟩, hcol]
        rfl
      · rw [if_neg (show ¬ n = i by omega), show i - n = i - (n + 1) + 1 by omega, List.getElem?_cons_succ]
        congr 1
        simp only [eq_iff_iff]
        constructor
        · rintro ⟨h1, h2⟩; exact ⟨by omega, h2⟩
        · rintro ⟨h1, h2⟩; exact ⟨by omega, h2⟩
    · next hp =>
      have h := ih (n + 1) h i hi
      rw [h]
      rcases Nat.lt_trichotomy i n with hin | rfl | hin
      · rw [if_neg (by omega), if_neg (by omega)]
      · rw [if_neg (by omega), if_neg (by simp [hp])]
      · rw [show i - n = i - (n + 1) + 1 by omega, List.getElem?_cons_succ]
        congr 1
        simp only [eq_iff_iff]
        constructor
        · rintro ⟨h1, h2⟩; exact ⟨by omega, h2⟩
        · rintro ⟨h1, h2⟩; exact ⟨by omega, h2⟩


theorem squeezePhase_none {hash : Hash} {phase : Nat} : ∀ (l : List (Nat × Nat)) (user : List Fr) (a : List UInt8),
    (∀ p ∈ l, p.1 ≠ phase) → squeezePhase hash phase l user a = (user, a) := by
  intro l
  induction l with
  | nil => intro user a _; rfl
  | cons p l ih =>
    intro user a h
    obtain ⟨p, i⟩ := p
    unfold squeezePhase
    rw [if_neg (h (p, i) (by simp))]
    exact ih user a (fun q hq => h q (by simp [hq]))

theorem squeezePhase_length {hash : Hash} {phase : Nat} : ∀ (l : List (Nat × Nat)) (user : List Fr) (a : List UInt8),
    (squeezePhase hash phase l user a).1.length = user.length := by
  intro l
  induction l with
  | nil => intro user a; rfl
  | cons p l ih =>
    intro user a
    obtain ⟨p, i⟩ := p
    unfold squeezePhase
    split
    · dsimp only
      rw [ih]
      simp
    · exact ih user a

/-- The columns written are those of the witness. -/
theorem circuit_columns {codec : Codec G} {hash : Hash} {commit : List Fr → Except Panic G} {cs : CS} {k : Nat}
    {mx : Matrix} {inst : Nat → List Fr} {w w' : Writer} {columns : List (List Fr)} {user : List Fr}
    (h1 : cs.advicePhase = mainCS.advicePhase) (h2 : cs.challengePhase = mainCS.challengePhase)
    (h3 : cs.numAdvice = mainCS.numAdvice) (h4 : cs.numChallenges = mainCS.numChallenges)
    (h : writePhases codec hash commit cs (circuitSynth k mx inst) cs.phases
      (List.replicate cs.numAdvice (List.replicate (2 ^ k) 0)) (List.replicate cs.numChallenges 0) w =
        .ok (columns, user, w')) :
    user.length = 11 ∧
    ∃ witness, witnessColumns k mx user inst = .ok witness ∧ witness.map adviceColumn = columns := by
  have hph : cs.phases = [0, 1] := by
    unfold CS.phases
    rw [h1]
    decide +kernel
  have hna : mainCS.numAdvice = 28 := by decide +kernel
  have hnc : mainCS.numChallenges = 11 := by decide +kernel
  have hap : ∀ i < 28, mainCS.advicePhase[i]? = some 0 ∨ mainCS.advicePhase[i]? = some 1 := by decide +kernel
  have hcp : ∀ p ∈ mainCS.challengePhase.zipIdx, p.1 ≠ 1 := by decide +kernel
  rw [hph, h3, h4, hnc] at h
  unfold writePhases at h
  obtain ⟨cols0, s0, h⟩ := bind_ok.1 h
  obtain ⟨⟨advice0, w0⟩, a0, h⟩ := bind_ok.1 h
  dsimp only at h
  generalize hsq : squeezePhase hash 0 cs.challengePhase.zipIdx (List.replicate 11 0) w0.absorbed = sq at h
  obtain ⟨user0, abs0⟩ := sq
  have hu0 : user0.length = 11 := by
    have := squeezePhase_length (hash := hash) (phase := 0) cs.challengePhase.zipIdx (List.replicate 11 0) w0.absorbed
    rw [hsq] at this
    simpa using this
  dsimp only at h
  unfold writePhases at h
  obtain ⟨cols1, s1, h⟩ := bind_ok.1 h
  obtain ⟨⟨advice1, w1⟩, a1, h⟩ := bind_ok.1 h
  dsimp only at h
  rw [h2, squeezePhase_none _ _ _ hcp] at h
  unfold writePhases at h
  replace h := Except.ok.inj h
  have hcol : advice1 = columns := congrArg Prod.fst h
  have huser : user0 = user := congrArg (fun t => t.2.1) h
  clear h
  subst hcol huser
  refine ⟨hu0, ?_⟩
  have hz : (fun i => (List.replicate 11 (0 : Fr)).getD i 0) = fun _ => 0 := by
    funext i
    rw [List.getD_eq_getElem?_getD, List.getElem?_replicate]
    split <;> rfl
  unfold circuitSynth at s0 s1
  rw [hz] at s0
  unfold witnessColumns
  split at s0
  · next g0 hg0 =>
    split at s1
    · next g1 hg1 =>
      obtain rfl := Except.ok.inj s0
      obtain rfl := Except.ok.inj s1
      rw [hg0, hg1]
      refine ⟨_, rfl, ?_⟩
      have l0 : advice0.length = mainCS.numAdvice := by
        rw [writeAdvice_length a0]; simp
      have l1 : advice1.length = mainCS.numAdvice := by
        rw [writeAdvice_length a1, l0]
      rw [h1] at a0 a1
      have e0 := writeAdvice_columns _ _ a0
      have e1 := writeAdvice_columns _ _ a1
      rw [List.length_replicate] at e0
      apply List.ext_getElem?
      intro i
      rcases Nat.lt_or_ge i mainCS.numAdvice with hi | hi
      · rw [e1 i (by omega), e0 i hi]
        have ht := hap i (by omega)
        simp only [Nat.zero_le, true_and, Nat.sub_zero, List.map_map, List.getElem?_map,
          List.getElem?_range hi, Option.map_some, Function.comp]
        rcases ht with ht | ht
        · rw [ht, if_neg (by simp), if_pos rfl]
          simp
        · rw [ht, if_pos rfl]
          simp
      · rw [List.getElem?_eq_none (by simpa using hi), List.getElem?_eq_none (by omega)]
    · exact absurd s1 (by simp)
  · exact absurd s0 (by simp)

theorem compressed_phases {cs : CS} {simple : Nat → Bool} (hs : Sane cs simple)
    {acts : List (List Bool)} {c : CS.Compressed} {cols : List (List Fr)} {as : List SelectorAssignment}
    (hc : cs.compressSelectors acts = .ok (c, cols, as)) :
    c.cs.advicePhase = cs.advicePhase ∧ c.cs.challengePhase = cs.challengePhase := by
  obtain ⟨degrees, combos, n', rs, -, -, -, -, -, e⟩ := compression_facts hs hc
  obtain ⟨qs, hq⟩ := allocMany_same cs cols.length
  rw [e, hq]
  exact ⟨rfl, rfl⟩

/-- Keys are the same but for the form of the commitments. -/
theorem keygenVk_map {C D : Type} {lag : List Fr → Except Panic C} {commit : List Fr → Except Panic D} {f : C → D}
    (hcom : ∀ col p, lag col = .ok p → commit col = .ok (f p)) {checks : Bool} {fuel fuel' k : Nat}
    {mx : Matrix} {ch : Nat → Fr} {inst : Nat → List Fr} {vk : Key C}
    (h : keygenVk lag checks fuel fuel' k mx ch inst = .ok (.ok vk)) :
    keygenVk commit checks fuel fuel' k mx ch inst = .ok (.ok (mapKey f vk)) ∧
      Domain.new checks fuel mainCS.degree k = .ok vk.domain := by
  have hm : ∀ (l : List (List Fr)) (ps : List C), l.mapM lag = .ok ps → l.mapM commit = .ok (ps.map f) := by
    intro l
    induction l with
    | nil => intro ps h; obtain rfl := Except.ok.inj h; rfl
    | cons a l ih =>
      intro ps h
      rw [List.mapM_cons] at h ⊢
      obtain ⟨p, h1, h⟩ := bind_ok.1 h
      obtain ⟨qs, h2, h⟩ := bind_ok.1 h
      obtain rfl := Except.ok.inj h
      rw [hcom a p h1, ih qs h2]
      rfl
  unfold keygenVk at h ⊢
  obtain ⟨d, hd, h⟩ := bind_ok.1 h
  rw [hd]
  split at h
  · exact absurd (Except.ok.inj h) (by simp)
  · next a ha =>
    unfold assemble at h
    obtain ⟨r, hr, h⟩ := bind_ok.1 h
    split at h
    · exact absurd (Except.ok.inj h) (by simp)
    · next p =>
      obtain ⟨⟨c, cols, as⟩, hc, h⟩ := bind_ok.1 h
      dsimp only at h
      obtain ⟨sv, hsv, h⟩ := bind_ok.1 h
      obtain ⟨sg, hsg, h⟩ := bind_ok.1 h
      obtain ⟨fx, hfx, h⟩ := bind_ok.1 h
      obtain rfl := Except.ok.inj (Except.ok.inj h)
      refine ⟨?_, rfl⟩
      show assemble commit fuel' mainCS (2 ^ k) d a = _
      rw [assemble_eq hr hc hsv (hm _ _ hsg) (hm _ _ hfx)]
      rfl

end Verif.Transcript

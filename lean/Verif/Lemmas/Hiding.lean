import Verif.Spec.Hiding
import Verif.Lemmas.ProveAccept

/-! What the first bytes of a proof show. -/

namespace Verif.Transcript

open Plonk Spec PlonkProver Shplonk

variable {G G₂ : Type} [AddCommGroup G] [Module Fr G]
variable {checks : Bool} {codec : Codec G} {hash : Hash} {srs : Srs G G₂} {pk : ProvingKey} {repr : Fr}
  {instances : List (List Fr)} {synth : Nat → List Fr → Except PlonkProver.Stop (List (List Fr))}
  {blinds : Blinds} {out : List UInt8}

theorem writePoint_output {w w' : Writer} {p : G} (h : writePoint codec w p = some w') :
    w'.output = w.output ++ codec.toBytes p := by
  unfold writePoint at h
  rcases hc : commonPoint codec w.absorbed p with - | a
  · rw [hc] at h; exact absurd h (by simp)
  · rw [hc] at h
    obtain rfl := Option.some.inj h
    rfl

theorem writeCommitment_output {err : ProveErr} {c : Except Panic G} {w w' : Writer}
    (h : writeCommitment codec err c w = .ok w') : ∃ p, c = .ok p ∧ w'.output = w.output ++ codec.toBytes p := by
  obtain ⟨p, h1, h2⟩ := write_commitment h
  exact ⟨p, h1, writePoint_output h2⟩

theorem writeAll_prefix {α : Type} {commit : α → Except Panic G} : ∀ {l : List α} {w w' : Writer},
    writeAll codec commit l w = .ok w' → w.output <+: w'.output := by
  intro l
  induction l with
  | nil => intro w w' h; obtain rfl := Except.ok.inj h; exact List.prefix_refl _
  | cons a l ih =>
    intro w w' h
    unfold writeAll at h
    obtain ⟨w1, h1, h⟩ := bind_ok.1 h
    obtain ⟨p, -, hp⟩ := writeCommitment_output h1
    exact (hp ▸ List.prefix_append _ _ : w.output <+: w1.output).trans (ih h)

theorem draw_output {w w' : Writer} {c : Fr} (h : PlonkProver.draw hash w = (c, w')) : w'.output = w.output := by
  unfold PlonkProver.draw at h
  obtain ⟨-, rfl⟩ := Prod.mk.inj h
  rfl

theorem writeScalars_prefix : ∀ (l : List Fr) (w : Writer), w.output <+: (l.foldl writeScalar w).output
  | [], _ => List.prefix_refl _
  | x :: l, w => by
    have h := writeScalars_prefix l (writeScalar w x)
    exact List.IsPrefix.trans (List.prefix_append w.output (scalarBytes x)) h

theorem writeAdvice_output {commit : List Fr → Except Panic G} {phase : Nat} {cols : List (List Fr)} :
    ∀ {l : List (Nat × Nat)} {advice advice' : List (List Fr)} {w w' : Writer},
    writeAdvice codec commit phase cols l advice w = .ok (advice', w') →
      ∃ points, List.Forall₂ (fun i p => ∃ col, cols[i]? = some col ∧ commit (withOne col) = .ok p)
          ((l.filter (·.1 = phase)).map (·.2)) points ∧
        w'.output = w.output ++ points.flatMap codec.toBytes := by
  intro l
  induction l with
  | nil =>
    intro advice advice' w w' h
    obtain ⟨rfl, rfl⟩ := Prod.mk.inj (Except.ok.inj h)
    exact ⟨[], .nil, by simp⟩
  | cons q l ih =>
    intro advice advice' w w' h
    obtain ⟨p, i⟩ := q
    unfold writeAdvice at h
    split at h
    · next hp =>
      obtain ⟨col, h1, h⟩ := bind_ok.1 h
      obtain ⟨w1, h2, h⟩ := bind_ok.1 h
      obtain ⟨pt, h3, h4⟩ := writeCommitment_output h2
      obtain ⟨points, h5, h6⟩ := ih h
      refine ⟨pt :: points, ?_, by rw [h6, h4]; simp⟩
      simp only [List.filter_cons, hp, decide_true, if_true, List.map_cons]
      refine .cons ⟨col, ?_, h3⟩ h5
      have h1 := total_eq.1 h1
      unfold at_ at h1
      split at h1
      · next hh => obtain rfl := Except.ok.inj h1; exact hh
      · exact absurd h1 (by simp)
    · next hp =>
      obtain ⟨points, h5, h6⟩ := ih h
      refine ⟨points, ?_, h6⟩
      simpa [List.filter_cons, hp] using h5

theorem writePhases_prefix {commit : List Fr → Except Panic G} {cs : CS}  :
    ∀ {phases : List Nat} {advice advice' : List (List Fr)} {user user' : List Fr} {w w' : Writer},
    writePhases codec hash commit cs synth phases advice user w = .ok (advice', user', w') →
      w.output <+: w'.output := by
  intro phases
  induction phases with
  | nil =>
    intro advice advice' user user' w w' h
    obtain ⟨rfl, h2⟩ := Prod.mk.inj (Except.ok.inj h)
    obtain ⟨rfl, rfl⟩ := Prod.mk.inj h2
    exact List.prefix_refl _
  | cons phase phases ih =>
    intro advice advice' user user' w w' h
    unfold writePhases at h
    obtain ⟨cols, h1, h⟩ := bind_ok.1 h
    obtain ⟨⟨adv1, w1⟩, h2, h⟩ := bind_ok.1 h
    dsimp only at h
    obtain ⟨points, -, h3⟩ := writeAdvice_output h2
    have h4 := ih h
    have h4 : w1.output <+: w'.output := h4
    exact (h3 ▸ List.prefix_append _ _ : w.output <+: w1.output).trans h4

/-- Everything written after the columns comes after them. -/
theorem Run.prefix (r : Run checks codec hash srs pk repr instances synth blinds out) : r.w1.output <+: out := by
  have h1 := draw_output r.theta
  have h2 := writeAll_prefix r.write2
  have h3 := draw_output r.beta
  have h4 := draw_output r.gamma
  have h5 := writeAll_prefix r.write3
  have h6 := writeAll_prefix r.write4
  obtain ⟨p, -, h7⟩ := writeCommitment_output r.write5
  have h7 : r.w4.output <+: r.w5.output := h7 ▸ List.prefix_append _ _
  have h8 := draw_output r.y
  have h9 := writeAll_prefix r.write6
  have h10 := draw_output r.x
  have h11 := writeScalars_prefix (scalarsOf r.e) r.w6'
  have h12 := draw_output r.y'Eq
  have h13 := draw_output r.vEq
  have h14 : r.w7'.output <+: r.w8.output := writePoint_output r.write8 ▸ List.prefix_append _ _
  have h15 := draw_output r.uEq
  have h16 : r.w8'.output <+: r.w9.output := writePoint_output r.write9 ▸ List.prefix_append _ _
  have h17 := r.outEq
  rw [h1] at h2
  rw [h4, h3] at h5
  rw [h8] at h9
  rw [h10, ← h12, ← h13] at h11
  rw [h15] at h16
  have h18 : r.w1.output <+: r.w9.output :=
    h2.trans (h5.trans (h6.trans (h7.trans (h9.trans (h11.trans (h14.trans h16))))))
  obtain ⟨t, ht⟩ := h18
  exact ⟨t, ht.trans h17.symm⟩

/-- The first bytes of a proof are the commitments to the columns of the first phase. -/
theorem Run.first (r : Run checks codec hash srs pk repr instances synth blinds out) {more : List Nat}
    (hph : pk.cs.phases = 0 :: more) {cols : List (List Fr)}
    (hs : synth 0 (List.replicate pk.cs.numChallenges 0) = .ok cols) :
    ∃ (points : List G) (rest : List UInt8),
      List.Forall₂ (fun i p => ∃ col, cols[i]? = some col ∧ srs.commitLagrange (withOne col) = .ok p)
        (firstColumns pk.cs) points ∧ out = points.flatMap codec.toBytes ++ rest := by
  have h := r.phases
  rw [hph] at h
  unfold writePhases at h
  obtain ⟨cols', h1, h⟩ := bind_ok.1 h
  obtain rfl := Except.ok.inj (hs.symm.trans h1)
  obtain ⟨⟨adv1, w1⟩, h2, h⟩ := bind_ok.1 h
  dsimp only at h
  obtain ⟨points, h3, h4⟩ := writeAdvice_output h2
  have h5 := (writePhases_prefix h).trans r.prefix
  obtain ⟨rest, h5⟩ := h5
  refine ⟨points, rest, h3, ?_⟩
  rw [← h5]
  show w1.output ++ rest = _
  rw [h4]; rfl

theorem flatMap_inj (hl : Lawful codec) : ∀ {a b : List G} {r r' : List UInt8}, a.length = b.length →
    a.flatMap codec.toBytes ++ r = b.flatMap codec.toBytes ++ r' → a = b := by
  intro a
  induction a with
  | nil => intro b r r' h _; exact (List.length_eq_zero_iff.1 h.symm).symm
  | cons x a ih =>
    intro b r r' h he
    cases b with
    | nil => exact absurd h (by simp)
    | cons y b =>
      rw [List.flatMap_cons, List.flatMap_cons, List.append_assoc, List.append_assoc] at he
      obtain ⟨h1, h2⟩ := List.append_inj he (by rw [hl.length, hl.length])
      have := hl.decode x
      rw [h1, hl.decode y] at this
      rw [Option.some.inj this, ih (by simpa using h) h2]

theorem forall₂_getElem {α β : Type} {R : α → β → Prop} {l : List α} {r : List β} (h : List.Forall₂ R l r) :
    ∀ (j : Nat) (a : α), l[j]? = some a → ∃ b, r[j]? = some b ∧ R a b := by
  induction h with
  | nil => intro j a h; simp at h
  | @cons a b l r hab _ ih =>
    intro j x hj
    cases j with
    | zero => obtain rfl := Option.some.inj hj; exact ⟨b, rfl, hab⟩
    | succ j => exact ih j x hj

/-- Commitments to columns that differ in one row are different. -/
theorem commit_differ {g1 : G} {g2 : G₂} [AddCommGroup G₂] [Module Fr G₂] {k : Nat} {s : Fr} {srs : Srs G G₂}
    (hsetup : Srs.setup g1 g2 k s = .ok srs) (hg : ∀ x : Fr, x • g1 = 0 → x = 0) {r : Nat} {a b : List Fr}
    (hd : DifferAt (2 ^ k) r a b) {p q : G} (hp : srs.commitLagrange (withOne a) = .ok p)
    (hq : srs.commitLagrange (withOne b) = .ok q) : p ≠ q := by
  obtain ⟨ha, hb, hr, hne, hsame⟩ := hd
  have hset := (Props.C43_setup g1 g2 k s).1 ⟨srs, hsetup⟩
  rw [setup_eq, if_neg (by omega), if_neg hset.2] at hsetup
  obtain rfl := Except.ok.inj hsetup
  have hla : (withOne a).length = 2 ^ k := by simp [withOne, ha]
  have hlb : (withOne b).length = 2 ^ k := by simp [withOne, hb]
  have hlen : (srsFor g1 g2 k s).gLagrange.length = 2 ^ k := by simp [srsFor]
  rw [commitLagrange_eq _ _ (by rw [hla, hlen]), hla] at hp
  rw [commitLagrange_eq _ _ (by rw [hlb, hlen]), hlb] at hq
  obtain rfl := Except.ok.inj hp
  obtain rfl := Except.ok.inj hq
  intro he
  rw [← sub_eq_zero, ← Finset.sum_sub_distrib] at he
  have hget : ∀ c : List Fr, c.length = 2 ^ k → ∀ j, j < 2 ^ k →
      (withOne c).getD j 0 = if j + 1 = 2 ^ k then 1 else c.getD j 0 := by
    intro c hc j hj
    unfold withOne
    rw [List.getD_eq_getElem?_getD, List.getElem?_set, hc]
    by_cases h : j + 1 = 2 ^ k
    · rw [if_pos (by omega), if_pos (by omega), if_pos h]; rfl
    · rw [if_neg (by omega), if_neg h, List.getD_eq_getElem?_getD]
  rw [Finset.sum_eq_single r] at he
  · rw [← sub_smul, hget a ha r (by omega), hget b hb r (by omega), if_neg (by omega), if_neg (by omega)] at he
    have hL : (srsFor g1 g2 k s).gLagrange.getD r 0 =
        ((s ^ 2 ^ k - 1) * ((2 ^ k : Nat) : Fr)⁻¹ * rootFor k ^ r * (s - rootFor k ^ r)⁻¹) • g1 := by
      rw [List.getD_eq_getElem?_getD]
      simp only [srsFor]
      rw [List.getElem?_map, List.getElem?_range (by omega)]
      rfl
    rw [hL, smul_smul] at he
    have h0 := hg _ he
    have hroot := rootFor_primitive (k := k) (by omega)
    have h1 : s ^ 2 ^ k - 1 ≠ 0 := sub_ne_zero.2 hset.2
    have h3 : rootFor k ^ r ≠ 0 := pow_ne_zero _ (hroot.ne_zero (by positivity))
    have h4 : s - rootFor k ^ r ≠ 0 := by
      rw [sub_ne_zero]
      rintro rfl
      apply hset.2
      rw [← pow_mul, mul_comm, pow_mul, hroot.pow_eq_one, one_pow]
    have h2 : ((2 ^ k : Nat) : Fr) ≠ 0 := by
      exact Domain.two_pow_ne k
    simp only [mul_eq_zero, inv_eq_zero, h1, h2, h3, h4, or_false] at h0
    apply hne
    rw [sub_eq_zero, List.getD_eq_getElem?_getD, List.getD_eq_getElem?_getD,
      List.getElem?_eq_getElem (by omega), List.getElem?_eq_getElem (by omega)] at h0
    rw [List.getElem?_eq_getElem (by omega), List.getElem?_eq_getElem (by omega)]
    exact congrArg some h0
  · intro j hj hjr
    have hj := Finset.mem_range.1 hj
    rw [← sub_smul, hget a ha j hj, hget b hb j hj]
    by_cases h : j + 1 = 2 ^ k
    · rw [if_pos h, if_pos h, sub_self, zero_smul]
    · rw [if_neg h, if_neg h, List.getD_eq_getElem?_getD, List.getD_eq_getElem?_getD, hsame j hjr (by omega),
        sub_self, zero_smul]
  · intro h
    exact absurd (Finset.mem_range.2 (by omega)) h

end Verif.Transcript

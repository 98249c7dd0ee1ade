import Verif.Lemmas.Filled

/-! When synthesis succeeds (helper for the property theorems). -/

namespace Verif

theorem flat_fits {α : Type} {u k : Nat} {l : List α} {f : α × Nat → List Op}
    (h : ∀ x i, i < l.length → ∀ o ∈ f (x, i), o.fits u mainCS.permutation k) :
    ∀ o ∈ l.zipIdx.flatMap f, o.fits u mainCS.permutation k := by
  intro o ho
  obtain ⟨⟨x, i⟩, hx, ho⟩ := List.mem_flatMap.1 ho
  have := List.mem_zipIdx hx
  exact h x i (by omega) o ho

theorem forall_mem_append' {p : Op → Prop} {a b : List Op} (ha : ∀ o ∈ a, p o) (hb : ∀ o ∈ b, p o) :
    ∀ o ∈ a ++ b, p o := by
  intro o ho
  rcases List.mem_append.1 ho with h | h
  · exact ha o h
  · exact hb o h

theorem procOps_fits {ch : Nat → Fr} {rows : List Register} {p : List Op} {u k : Nat}
    (h : procOps pCfg cCfg ch rows = .ok p) (hu : rows.length < u) :
    ∀ o ∈ p, o.fits u mainCS.permutation k := by
  unfold procOps at h
  rw [bind_ok] at h
  obtain ⟨as, -, h⟩ := h
  cases h
  refine forall_mem_append' ?_ (flat_fits ?_)
  · simp [Op.fits]; omega
  · intro x i hi o ho
    have : i < rows.length := by rw [List.length_zip] at hi; omega
    unfold procRow at ho
    rcases List.mem_append.1 ho with ho | ho
    · split_ifs at ho
      · simp at ho
        rcases ho with rfl | rfl <;> (simp only [Op.fits]; omega)
      · simp at ho
    · simp at ho
      rcases ho with rfl | rfl | rfl | rfl | rfl | rfl | rfl | rfl | rfl | rfl | rfl | rfl | rfl | rfl <;>
        (simp only [Op.fits]; omega)

theorem memOps_fits {ch : Nat → Fr} {rows : List MemRow} {u k : Nat} (hu : rows.length < u) :
    ∀ o ∈ memOps mCfg cCfg ch rows, o.fits u mainCS.permutation k := by
  unfold memOps
  refine forall_mem_append' ?_ (flat_fits ?_)
  · simp [Op.fits]; omega
  · intro x i hi o ho
    have : i < rows.length := by rw [List.length_zip] at hi; omega
    unfold memRow at ho
    rcases List.mem_append.1 ho with ho | ho
    · split_ifs at ho
      · simp at ho
        subst ho
        simp only [Op.fits]; omega
      · simp at ho
    · simp at ho
      rcases ho with rfl | rfl | rfl | rfl | rfl <;> (simp only [Op.fits]; omega)

theorem instOps_fits {ch : Nat → Fr} {rows : List InstrRow} {u k : Nat} (hu : rows.length < u) :
    ∀ o ∈ instOps iCfg cCfg ch rows, o.fits u mainCS.permutation k := by
  unfold instOps
  refine forall_mem_append' ?_ (flat_fits ?_)
  · simp [Op.fits]; omega
  · intro x i hi o ho
    have : i < rows.length := by rw [List.length_zip] at hi; omega
    unfold instRow at ho
    rcases List.mem_append.1 ho with ho | ho
    · split_ifs at ho
      · simp at ho
        rcases ho with rfl | rfl | rfl <;> (simp only [Op.fits]; omega)
      · simp at ho
    · simp at ho
      rcases ho with rfl | rfl | rfl | rfl | rfl <;> (simp only [Op.fits]; omega)

theorem outputOps_fits {gamma : Fr} {vals : List Fr} {u k : Nat} (hu : vals.length < u) :
    ∀ o ∈ outputOps oCfg gamma vals, o.fits u mainCS.permutation k := by
  unfold outputOps
  refine forall_mem_append' ?_ (flat_fits ?_)
  · simp [Op.fits]; omega
  · intro x i hi o ho
    have : i < vals.length := by rw [List.length_zip] at hi; omega
    simp at ho
    rcases ho with rfl | rfl | rfl <;> (simp only [Op.fits]; omega)

theorem mem_perm : (Col.instance_ 0 ∈ mainCS.permutation ∧ Col.instance_ 1 ∈ mainCS.permutation) ∧
    ∀ c ∈ [7, 8, 9, 10, 14, 18, 19, 21, 22, 24, 23, 26, 25, 27], Col.advice c ∈ mainCS.permutation := by
  rw [mainCS_permutation]; decide

theorem fromInstances_len {inst vals : List Fr} {len : Nat} (h : fromInstances inst len = .ok vals) :
    vals.length = len := by
  unfold fromInstances at h
  split_ifs at h with h1 h2
  · cases h; simp; omega
  · cases h; rw [h2]; rfl

theorem fromInstances_exists (inst : List Fr) (len : Nat) :
    (∃ v, fromInstances inst len = .ok v) ↔ len = 0 ∨ len + 1 ≤ inst.length := by
  unfold fromInstances
  by_cases h1 : len + 1 ≤ inst.length
  · rw [if_pos h1]; exact ⟨fun _ => Or.inr h1, fun _ => ⟨_, rfl⟩⟩
  · rw [if_neg h1]
    by_cases h2 : len = 0
    · rw [if_pos h2]; exact ⟨fun _ => Or.inl h2, fun _ => ⟨_, rfl⟩⟩
    · rw [if_neg h2]
      constructor
      · rintro ⟨v, hv⟩; cases hv
      · rintro (h | h)
        · exact absurd h h2
        · exact absurd h h1

theorem inputOps_fits {inst : List Fr} {gamma : Fr} {len u k : Nat} {os : List Op}
    (h : inputOps nCfg 1 inst gamma len = .ok os) (hu : len < u) :
    ∀ o ∈ os, o.fits u mainCS.permutation k := by
  unfold inputOps at h
  rw [bind_ok] at h
  obtain ⟨vals, hv, h⟩ := h
  have hlen := fromInstances_len hv
  cases h
  refine forall_mem_append' ?_ (flat_fits ?_)
  · simp [Op.fits]; omega
  · intro x i hi o ho
    have : i < vals.length := by rw [List.length_zip] at hi; omega
    simp at ho
    rcases ho with rfl | rfl | rfl
    · simp only [Op.fits]; omega
    · exact ⟨by omega, by omega, mem_perm.2 22 (by decide), mem_perm.1.2⟩
    · simp only [Op.fits]; omega

theorem programOps_fits {inst : List Fr} {gamma : Fr} {len u k : Nat} {os : List Op}
    (h : programOps gCfg 0 inst gamma len = .ok os) (hu : len < u) :
    ∀ o ∈ os, o.fits u mainCS.permutation k := by
  unfold programOps at h
  rw [bind_ok] at h
  obtain ⟨vals, hv, h⟩ := h
  have hlen := fromInstances_len hv
  cases h
  refine forall_mem_append' ?_ (flat_fits ?_)
  · simp [Op.fits]; omega
  · intro x i hi o ho
    have : i < vals.length := by rw [List.length_zip] at hi; omega
    simp at ho
    rcases ho with rfl | rfl | rfl
    · simp only [Op.fits]; omega
    · exact ⟨by omega, by omega, mem_perm.2 25 (by decide), mem_perm.1.1⟩
    · simp only [Op.fits]; omega

theorem extensionOps_fits_iff {mx : Matrix} {u : Nat} :
    (∀ o ∈ extensionOps mainConfig mx, o.fits u mainCS.permutation 7) ↔
      mx.processor.length < u ∧ mx.memory.length < u ∧ mx.instruction.length < u ∧
      mx.output.length < u ∧ mx.input.length < u ∧ mx.program.length < u := by
  unfold extensionOps
  simp only [List.mem_cons, List.not_mem_nil, or_false, forall_eq_or_imp, forall_eq, Op.fits]
  constructor
  · rintro ⟨⟨-, -, a1, a2, -⟩, ⟨-, -, b1, -⟩, ⟨-, -, c1, -⟩, ⟨-, -, -, d2, -⟩, ⟨-, -, e1, -⟩⟩
    exact ⟨a1, a2, d2, b1, c1, e1⟩
  · rintro ⟨a1, a2, d2, b1, c1, e1⟩
    rw [mc_p, mc_m, mc_i, mc_output, mc_input, mc_program]
    have hm := mem_perm.2
    refine ⟨⟨by decide, by decide, a1, a2, hm 7 (by decide), hm 14 (by decide)⟩,
      ⟨by decide, by decide, b1, a1, hm 21 (by decide), hm 9 (by decide)⟩,
      ⟨by decide, by decide, c1, a1, hm 24 (by decide), hm 10 (by decide)⟩,
      ⟨by decide, by decide, a1, d2, hm 8 (by decide), hm 18 (by decide)⟩,
      ⟨by decide, by decide, e1, d2, hm 27 (by decide), hm 19 (by decide)⟩⟩

/-- Exactly when synthesis succeeds. -/
theorem synthesize_exists_iff (n : Nat) (mx : Matrix) (ch : Nat → Fr) (inst : Nat → List Fr) :
    (∃ a, synthesize n mx ch inst = .ok a) ↔
      256 < n - 6 ∧ (inst 0).length ≤ n - 6 ∧ (inst 1).length ≤ n - 6 ∧
      (∃ as, procAccs cCfg ch procInit mx.processor = .ok as) ∧
      (mx.input.length = 0 ∨ mx.input.length + 1 ≤ (inst 1).length) ∧
      (mx.program.length = 0 ∨ mx.program.length + 1 ≤ (inst 0).length) ∧
      mx.processor.length < n - 6 ∧ mx.memory.length < n - 6 ∧ mx.instruction.length < n - 6 ∧
      mx.output.length < n - 6 ∧ mx.input.length < n - 6 ∧ mx.program.length < n - 6 := by
  constructor
  · rintro ⟨a, h⟩
    obtain ⟨-, h1, h2, h⟩ := (synthesize_ok_iff _ _ _ _ _).1 h
    obtain ⟨p, ni, gi, hp, hn, hg, h256, -, -, -, -, -, -, hfit, -⟩ := (loadTable_ok_iff _ _ _ _).1 h
    refine ⟨h256, h1, h2, ?_, ?_, ?_, extensionOps_fits_iff.1 hfit⟩
    · unfold procOps at hp
      rw [bind_ok] at hp
      obtain ⟨as, has, -⟩ := hp
      exact ⟨as, has⟩
    · unfold inputOps at hn
      rw [bind_ok] at hn
      obtain ⟨v, hv, -⟩ := hn
      exact (fromInstances_exists _ _).1 ⟨v, hv⟩
    · unfold programOps at hg
      rw [bind_ok] at hg
      obtain ⟨v, hv, -⟩ := hg
      exact (fromInstances_exists _ _).1 ⟨v, hv⟩
  · rintro ⟨h256, h1, h2, ⟨as, has⟩, h3, h4, r1, r2, r3, r4, r5, r6⟩
    obtain ⟨vi, hvi⟩ := (fromInstances_exists _ _).2 h3
    obtain ⟨vg, hvg⟩ := (fromInstances_exists _ _).2 h4
    have hp : ∃ p, procOps pCfg cCfg ch mx.processor = .ok p := by
      unfold procOps
      exact ⟨_, (bind_ok).2 ⟨as, has, rfl⟩⟩
    have hn : ∃ p, inputOps nCfg 1 (inst 1) (ch 10) mx.input.length = .ok p := by
      unfold inputOps
      exact ⟨_, (bind_ok).2 ⟨vi, hvi, rfl⟩⟩
    have hg : ∃ p, programOps gCfg 0 (inst 0) (ch 8) mx.program.length = .ok p := by
      unfold programOps
      exact ⟨_, (bind_ok).2 ⟨vg, hvg, rfl⟩⟩
    obtain ⟨p, hp⟩ := hp
    obtain ⟨ni, hn⟩ := hn
    obtain ⟨gi, hg⟩ := hg
    refine ⟨_, (synthesize_ok_iff _ _ _ _ _).2 ⟨by omega, h1, h2, (loadTable_ok_iff _ _ _ _).2
      ⟨p, ni, gi, hp, hn, hg, h256, procOps_fits hp r1, memOps_fits r2, instOps_fits r3,
        outputOps_fits r4, inputOps_fits hn r5, programOps_fits hg r6,
        extensionOps_fits_iff.2 ⟨r1, r2, r3, r4, r5, r6⟩, rfl⟩⟩⟩

end Verif

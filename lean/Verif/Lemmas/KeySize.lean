import Verif.Lemmas.KeyLemmas

/-! The size of a written verifying key (helper lemmas). -/

namespace Verif

open Spec Compress

theorem writeG1s_length (l : List G1Raw) : (l.flatMap writeG1).length = 64 * l.length := by
  induction l with
  | nil => rfl
  | cons p l ih =>
    rw [List.flatMap_cons, List.length_append, ih, List.length_cons]
    simp only [writeG1, List.length_append, writeRaw_length]
    omega

/-- Bytes of the expression of a selector in a combination of `len`. -/
theorem replacement_size (cs : CS) (c len i : Nat) (hi : i < len) :
    (WExpr.ofExpr cs (replacement (.fixed c 0) len i)).write.length ≤ 13 + 49 * (len - 1) := by
  have key : ∀ (l : List Nat) (e : Expr),
      (WExpr.ofExpr cs (l.foldl (fun e j => if root j ≠ root i then
        e * (.const (root j) - .fixed c 0) else e) e)).write.length ≤
      (WExpr.ofExpr cs e).write.length + 49 * (l.countP fun j => j ≠ i) := by
    intro l
    induction l with
    | nil => intro e; simp
    | cons j l ih =>
      intro e
      rw [List.foldl_cons, List.countP_cons]
      refine (ih _).trans ?_
      split_ifs with h1 h2
      · have e1 : (WExpr.ofExpr cs (e * (.const (root j) - .fixed c 0))).write.length =
            (WExpr.ofExpr cs e).write.length + 49 := by
          show (8 :: ((WExpr.ofExpr cs e).write ++ (7 :: ((0 :: writeFr (root j)) ++ (6 :: (2 :: (be32 _ ++ be32 c
            ++ beI32 0)))))) : List UInt8).length = _
          simp only [List.length_cons, List.length_append, writeFr_length, be32_length, beI32_length]
        rw [e1]
        omega
      · have : j = i := by simpa using h2
        exact absurd (by rw [this]) h1
      · omega
      · omega
  have h0 := key (List.range len) (.fixed c 0)
  have h1 : (WExpr.ofExpr cs (.fixed c 0)).write.length = 13 := by
    show (2 :: (be32 _ ++ be32 c ++ beI32 0) : List UInt8).length = _
    simp only [List.length_cons, List.length_append, be32_length, beI32_length]
  have h2 : (List.range len).countP (fun j => decide (j ≠ i)) ≤ len - 1 := by
    have e := List.length_eq_countP_add_countP (fun j => decide (j ≠ i)) (l := List.range len)
    rw [List.length_range] at e
    have : 0 < (List.range len).countP fun a => decide ¬decide (a ≠ i) = true :=
      List.countP_pos_iff.2 ⟨i, List.mem_range.2 hi, by simp⟩
    omega
  unfold replacement
  omega

theorem assignments_size (cs : CS) (c idx : Nat) (comb : List SelectorDescription) :
    ((assignments (.fixed c 0) idx comb).flatMap
      fun a => (WAssignment.ofAssignment cs a).write).length ≤
      comb.length * (21 + 49 * (comb.length - 1)) := by
  unfold assignments
  rw [List.flatMap_map]
  have : ∀ (l : List (SelectorDescription × Nat)), (∀ s ∈ l, s.2 < comb.length) →
      (l.flatMap fun s => (WAssignment.ofAssignment cs ⟨s.1.selector, idx,
        replacement (.fixed c 0) comb.length s.2⟩).write).length ≤
      l.length * (21 + 49 * (comb.length - 1)) := by
    intro l
    induction l with
    | nil => intro _; simp
    | cons s l ih =>
      intro hl
      have h1 := ih fun t ht => hl t (List.mem_cons_of_mem _ ht)
      have h2 := replacement_size cs c comb.length s.2 (hl s (by simp))
      rw [List.flatMap_cons, List.length_append, List.length_cons, Nat.succ_mul]
      have h3 : (WAssignment.ofAssignment cs ⟨s.1.selector, idx,
          replacement (.fixed c 0) comb.length s.2⟩).write.length =
          8 + (WExpr.ofExpr cs (replacement (.fixed c 0) comb.length s.2)).write.length := by
        simp only [WAssignment.ofAssignment, WAssignment.write, List.length_append, be32_length]
      omega
  have h := this comb.zipIdx (by
    rintro ⟨s, i⟩ hs
    rw [List.mk_mem_zipIdx_iff_getElem?] at hs
    exact (List.getElem?_eq_some_iff.1 hs).1)
  rw [List.length_zipIdx] at h
  exact h

theorem assignmentsOf_size (cs : CS) (base : Nat) (combos : List (List SelectorDescription)) :
    ∀ idx, ((assignmentsOf (fun i => .fixed (base + i) 0) idx combos).flatMap
      fun a => (WAssignment.ofAssignment cs a).write).length ≤
      (combos.map fun c => c.length * (21 + 49 * (c.length - 1))).sum := by
  induction combos with
  | nil => intro idx; simp [assignmentsOf]
  | cons c combos ih =>
    intro idx
    have h1 := ih (idx + 1)
    unfold assignmentsOf at h1 ⊢
    rw [List.zipIdx_cons, List.flatMap_cons, List.flatMap_append, List.length_append, List.map_cons,
      List.sum_cons]
    have h2 := assignments_size cs (base + idx) idx c
    exact Nat.add_le_add h2 h1

/-- At most one of the selectors of a combination is enabled in the first row. -/
theorem core_le {c : List SelectorDescription} (h : c.Pairwise fun a b => conflict a b = false) :
    c.countP (fun s => s.activations[0]? = some true) ≤ 1 := by
  induction c with
  | nil => simp
  | cons s c ih =>
    rw [List.pairwise_cons] at h
    rw [List.countP_cons]
    have := ih h.2
    split_ifs with hs
    · have : c.countP (fun s => decide (s.activations[0]? = some true)) = 0 := by
        rw [List.countP_eq_zero]
        intro t ht ht'
        have hc := h.1 t ht
        simp only [decide_eq_true_eq] at hs ht'
        unfold conflict at hc
        rcases hsa : s.activations with _ | ⟨x, xs⟩
        · rw [hsa] at hs; simp at hs
        · rcases hta : t.activations with _ | ⟨y, ys⟩
          · rw [hta] at ht'; simp at ht'
          · rw [hsa] at hs hc
            rw [hta] at ht' hc
            simp only [List.getElem?_cons_zero, Option.some.injEq] at hs ht'
            subst hs ht'
            simp at hc
      omega
    · omega

theorem sum_bound (combos : List (List SelectorDescription))
    (h : ∀ c ∈ combos, c.countP (fun s => s.activations[0]? = some true) ≤ 1) (m : Nat)
    (ht : (combos.flatten.countP fun s => s.activations[0]? ≠ some true) ≤ m) :
    (combos.map fun c => c.length * (21 + 49 * (c.length - 1))).sum ≤
      21 * combos.flatten.length + 49 * ((m + 1) *
        (combos.flatten.countP fun s => s.activations[0]? ≠ some true)) := by
  induction combos with
  | nil => simp
  | cons c combos ih =>
    rw [List.flatten_cons, List.countP_append] at ht
    have h1 := ih (fun c hc => h c (List.mem_cons_of_mem _ hc)) (by omega)
    have h2 := h c (by simp)
    rw [List.map_cons, List.sum_cons, List.flatten_cons, List.length_append, List.countP_append]
    have h3 := List.length_eq_countP_add_countP (fun s : SelectorDescription =>
      decide (s.activations[0]? = some true)) (l := c)
    have h4 : c.countP (fun s => decide ¬decide (s.activations[0]? = some true) = true) =
        c.countP (fun s => decide (s.activations[0]? ≠ some true)) := by
      apply List.countP_congr; intro s _; simp
    rw [h4] at h3
    generalize c.countP (fun s => decide (s.activations[0]? ≠ some true)) = t at *
    generalize combos.flatten.countP (fun s => decide (s.activations[0]? ≠ some true)) = u at *
    generalize (combos.map fun c => c.length * (21 + 49 * (c.length - 1))).sum = S at *
    generalize combos.flatten.length = F at *
    have h5 : c.length * (21 + 49 * (c.length - 1)) ≤ 21 * c.length + 49 * ((m + 1) * t) := by
      have h6 : c.length * (c.length - 1) ≤ (m + 1) * t :=
        Nat.mul_le_mul (by omega) (by omega)
      calc c.length * (21 + 49 * (c.length - 1)) = 21 * c.length + 49 * (c.length * (c.length - 1)) := by
            ring
        _ ≤ _ := by omega
    calc _ ≤ (21 * c.length + 49 * ((m + 1) * t)) + (21 * F + 49 * ((m + 1) * u)) := Nat.add_le_add h5 h1
      _ = _ := by ring

/-- A key of a circuit in which all selectors but three are enabled in the first row. -/
theorem key_size {vk : VerifyingKey} {activations : List (List Bool)} {cols : List (List Fr)}
    {as : List SelectorAssignment}
    (hcomp : mainCS.compressSelectors activations = .ok (vk.cs, cols, as))
    (has : vk.selectorAssignments = as.map (WAssignment.ofAssignment vk.cs.cs))
    (hf : vk.fixedCommitments.length = vk.cs.cs.numFixed)
    (hp : vk.permutation.length = mainCS.permutation.length)
    (hcore : (activations.countP fun act => act[0]? ≠ some true) ≤ 3) :
    vk.write.length ≤ 2963 := by
  have hpc : mainCS.permutation.length = 16 := by decide +kernel
  have hns : mainCS.numSelectors = 15 := by decide +kernel
  obtain ⟨h1, -, -, -⟩ := assignments_inRange hcomp
  obtain ⟨degrees, combos, n, rs, h0, hd, hn, hc, rfl, rfl, h4, h5, h6⟩ :=
    (compression_of _ _ _ _ _ hcomp).run
  have hdl : degrees.length = activations.length := by
    obtain ⟨d', e1, e2, -⟩ := degrees_of mainCS_sane h0
    rw [hd] at e1
    cases e1
    exact e2
  have hcount : ∀ (p : List Bool → Bool), (describe activations degrees).countP
      (fun s => p s.activations) = activations.countP p := by
    intro p
    have e : (describe activations degrees).map (·.activations) = activations := by
      unfold describe
      rw [List.map_map]
      have : ((fun s : SelectorDescription => s.activations) ∘
          fun s : (List Bool × Nat) × Nat => (⟨s.2, s.1.1, s.1.2⟩ : SelectorDescription)) =
          Prod.fst ∘ Prod.fst := rfl
      rw [this, ← List.map_map, List.zipIdx_map_fst]
      exact List.map_fst_zip (by omega)
    conv_rhs => rw [← e, List.countP_map]
    rfl
  have hlen : combos.flatten.length = 15 := by
    rw [hc.perm.length_eq]
    unfold describe
    simp only [List.length_map, List.length_zipIdx, List.length_zip]
    omega
  have hnc : (combos.flatten.countP fun s => decide (s.activations[0]? ≠ some true)) ≤ 3 := by
    rw [hc.perm.countP_eq, hcount (fun act => decide (act[0]? ≠ some true))]
    exact hcore
  have hb := sum_bound combos (by
    intro c hcm
    rcases (hc.each c hcm).2 with ⟨s, rfl, -⟩ | ⟨hg, -⟩
    · exact core_le (List.pairwise_singleton _ _)
    · exact core_le hg.apart) 3 hnc
  have hs := assignmentsOf_size vk.cs.cs mainCS.numFixed combos 0
  unfold VerifyingKey.write
  rw [has, List.flatMap_map]
  simp only [List.length_append, be32_length, writeG1s_length, hf, hp, hpc, List.length_map]
  have : 49 * ((3 + 1) * (combos.flatten.countP fun s => decide (s.activations[0]? ≠ some true))) ≤
      49 * 12 := by omega
  have hs' : (List.flatMap (fun a => (WAssignment.ofAssignment vk.cs.cs a).write)
      (assignmentsOf (fun i => Expr.fixed (mainCS.numFixed + i) 0) 0 combos)).length ≤ 315 + 588 := by
    omega
  omega

end Verif

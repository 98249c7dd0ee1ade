import Verif.Lemmas.ShplonkSets
import Verif.Lemmas.PolyArith
import Verif.Spec.Openings

/-! What the verifier of the openings computes. -/

namespace Verif.Shplonk

open Plonk Spec

variable {ρ : Type} [DecidableEq ρ] {G : Type} [AddCommGroup G] [Module Fr G]

/-- The low degree equivalent. -/
def low (points evals : List Fr) : List Fr :=
  match lagrangeInterpolate points evals with
  | .ok c => c
  | .error _ => []

theorem low_spec (points evals : List Fr) (hl : evals.length = points.length) (hn : points.Nodup) :
    lagrangeInterpolate points evals = .ok (low points evals) ∧ (low points evals).length = points.length ∧
      ∀ (i : Nat) (h1 : i < points.length) (h2 : i < evals.length),
        polyAt (low points evals) points[i] = evals[i] := by
  obtain ⟨c, h1, h2, h3⟩ := lagrangeInterpolate_spec points evals hl.symm hn
  have : low points evals = c := by unfold low; rw [h1]
  rw [this]
  exact ⟨h1, h2, h3⟩

/-- The sum a list of terms stands for. -/
def msmSum (m : List (Fr × G)) : G := (m.map fun t => t.1 • t.2).sum

theorem msmSum_append (a b : List (Fr × G)) : msmSum (a ++ b) = msmSum a + msmSum b := by
  unfold msmSum; rw [List.map_append, List.sum_append]

theorem msmSum_scale (m : List (Fr × G)) (c : Fr) : msmSum (scale m c) = c • msmSum m := by
  unfold msmSum scale
  induction m with
  | nil => simp
  | cons t m ih =>
    rw [List.map_cons, List.map_cons, List.sum_cons, ih, List.map_cons, List.sum_cons, smul_add, smul_smul,
      mul_comm]

theorem evalMsm_eq (m : List (Fr × G)) : evalMsm m = .ok (msmSum m) := by
  unfold evalMsm bestMultiexp
  rw [if_neg (by simp), multiexpSerial_eq]
  congr 1
  unfold msmSum
  induction m with
  | nil => rfl
  | cons t m ih =>
    simp only [List.map_cons, List.zip_cons_cons, List.sum_cons]
    rw [ih]

/-- Powers are a Horner sum. -/
theorem powers_sum {α M : Type} [AddCommGroup M] [Module Fr M] (b : Fr) (f : α → M) (l : List α) (k : Nat) :
    ((l.zipIdx k).map fun p => b ^ p.2 • f p.1).sum = b ^ k • polyAt (l.map f) b := by
  induction l generalizing k with
  | nil => simp [polyAt_nil]
  | cons a l ih =>
    rw [List.zipIdx_cons, List.map_cons, List.sum_cons, ih, List.map_cons, polyAt_cons, smul_add, smul_smul,
      pow_succ]

/-- The value of the objects of a set, less the low degree equivalents. -/
def setValue (g0 : G) (y u : Fr) (s : RotationSet (Committed G)) : G :=
  polyAt (s.objects.map fun o => valueOf o.1 - polyAt (low s.points o.2) u • g0) y

theorem innerTerm_ok (points : List Fr) (u : Fr) (c : (Committed G × List Fr) × Fr)
    (hn : points.Nodup) (hl : c.1.2.length = points.length) :
    ∃ t, innerTerm points u c = .ok t ∧ msmSum t.1 = c.2 • valueOf c.1.1 ∧
      t.2 = c.2 * polyAt (low points c.1.2) u := by
  obtain ⟨h, -, -⟩ := low_spec points c.1.2 hl hn
  unfold innerTerm
  rw [h]
  refine ⟨_, rfl, ?_, ?_⟩
  · obtain ⟨⟨o, ev⟩, p⟩ := c
    cases o with
    | point q => simp [msmSum, valueOf]
    | msm ts => exact msmSum_scale ts p
  · show _ * evalPolynomial _ _ = _
    rw [evalPolynomial_eq]

theorem inner_ok (g0 : G) (y u : Fr) (s : RotationSet (Committed G)) (hn : s.points.Nodup)
    (hl : ∀ o ∈ s.objects, o.2.length = s.points.length) (ho : s.objects ≠ []) :
    ∃ terms inner, (withPowers y s.objects).mapM (innerTerm s.points u) = .ok terms ∧
      reduce (fun (a b : List (Fr × G) × Fr) => (a.1 ++ b.1, a.2 + b.2)) terms = .ok inner ∧
      msmSum inner.1 - inner.2 • g0 = setValue g0 y u s := by
  obtain ⟨terms, h1, h2⟩ := mapM_exists (innerTerm s.points u) (withPowers y s.objects) (fun c hc => by
    unfold withPowers at hc
    obtain ⟨p, hp, rfl⟩ := List.mem_map.1 hc
    obtain ⟨t, ht, -⟩ := innerTerm_ok s.points u (p.1, y ^ p.2) hn (hl _ (by
      obtain ⟨o, i⟩ := p
      exact List.fst_mem_of_mem_zipIdx hp))
    exact ⟨t, ht⟩)
  have hsum : (terms.map fun t => msmSum t.1 - t.2 • g0).sum = setValue g0 y u s := by
    have : terms.map (fun t => msmSum t.1 - t.2 • g0) =
        (withPowers y s.objects).map fun c => c.2 • (valueOf c.1.1 - polyAt (low s.points c.1.2) u • g0) := by
      have hl' : ∀ c ∈ withPowers y s.objects, c.1.2.length = s.points.length := by
        intro c hc
        unfold withPowers at hc
        obtain ⟨p, hp, rfl⟩ := List.mem_map.1 hc
        exact hl _ (List.fst_mem_of_mem_zipIdx hp)
      clear h1
      generalize withPowers y s.objects = ws at h2 hl' ⊢
      induction h2 with
      | nil => rfl
      | @cons c t cs ts hct _ ih =>
        rw [List.map_cons, List.map_cons, ih (fun c hc => hl' c (List.mem_cons_of_mem _ hc))]
        obtain ⟨t', ht', e1, e2⟩ := innerTerm_ok s.points u c hn (hl' c (by simp))
        rw [hct] at ht'
        obtain rfl := Except.ok.inj ht'
        rw [e1, e2, smul_sub, smul_smul]
    rw [this]
    unfold withPowers setValue
    rw [List.map_map]
    have := powers_sum y (fun o : Committed G × List Fr => valueOf o.1 - polyAt (low s.points o.2) u • g0)
      s.objects 0
    rw [pow_zero, one_smul] at this
    rw [← this]
    rfl
  cases terms with
  | nil =>
    exfalso
    have := h2.length_eq
    unfold withPowers at this
    simp only [List.length_map, List.length_zipIdx, List.length_nil] at this
    exact ho (List.length_eq_zero_iff.1 this)
  | cons t ts =>
    refine ⟨t :: ts, _, h1, rfl, ?_⟩
    rw [← hsum]
    clear h1 h2 hsum
    induction ts generalizing t with
    | nil => simp
    | cons t' ts ih =>
      rw [List.foldl_cons, ih]
      simp only [List.map_cons, List.sum_cons, msmSum_append, add_smul]
      abel

/-- The state of the loop, as a point. -/
def stateValue (g0 : G) (st : Fr × Fr × List (Fr × G) × Fr) : G := msmSum st.2.2.1 - st.2.2.2 • g0

theorem step_ok (g0 : G) (sup : List Fr) (y u : Fr) (st : Fr × Fr × List (Fr × G) × Fr) (i : Nat)
    (s : RotationSet (Committed G)) (pv : Fr) (hn : s.points.Nodup)
    (hl : ∀ o ∈ s.objects, o.2.length = s.points.length) (ho : s.objects ≠ []) :
    (i ≠ 0 → ∃ st', verifierStep sup y u st i s pv = .ok st' ∧ st'.1 = st.1 ∧ st'.2.1 = st.2.1 ∧
      stateValue g0 st' = stateValue g0 st +
        (pv * (vanishing (diffs sup s.points) u * st.1)) • setValue g0 y u s) ∧
    (i = 0 → vanishing (diffs sup s.points) u = 0 → verifierStep sup y u st i s pv = .error .unwrap) ∧
    (i = 0 → vanishing (diffs sup s.points) u ≠ 0 → ∃ st', verifierStep sup y u st i s pv = .ok st' ∧
      st'.1 = (vanishing (diffs sup s.points) u)⁻¹ ∧ st'.2.1 = vanishing s.points u ∧
      stateValue g0 st' = stateValue g0 st + pv • setValue g0 y u s) := by
  obtain ⟨terms, inner, h1, h2, h3⟩ := inner_ok g0 y u s hn hl ho
  have key : ∀ (a b zd : Fr), stateValue g0 ((a, b, st.2.2.1 ++ scale inner.1 (pv * zd),
      st.2.2.2 + pv * inner.2 * zd) : Fr × Fr × List (Fr × G) × Fr) =
      stateValue g0 st + (pv * zd) • setValue g0 y u s := by
    intro a b zd
    unfold stateValue
    rw [← h3]
    simp only [msmSum_append, msmSum_scale, add_smul, smul_sub, smul_smul]
    rw [show pv * inner.2 * zd = pv * zd * inner.2 by ring]
    abel
  refine ⟨fun hi => ?_, fun hi hz => ?_, fun hi hz => ?_⟩
  · refine ⟨_, ?_, ?_, ?_, key st.1 st.2.1 _⟩
    · unfold verifierStep
      dsimp only
      rw [if_neg hi, h1]
      simp only [bind, Except.bind, h2]
      rfl
    · rfl
    · rfl
  · unfold verifierStep
    dsimp only
    rw [if_pos hi, if_pos hz]
    rfl
  · have hkey := key (vanishing (diffs sup s.points) u)⁻¹ (vanishing s.points u) 1
    simp only [mul_one] at hkey
    refine ⟨_, ?_, ?_, ?_, hkey⟩
    · unfold verifierStep
      dsimp only
      rw [if_pos hi, if_neg hz, h1]
      simp only [bind, Except.bind, h2, mul_one]
      rfl
    · rfl
    · rfl

theorem loop_ok (g0 : G) (sup : List Fr) (y v u : Fr) (sets : List (RotationSet (Committed G)))
    (hn : ∀ s ∈ sets, s.points.Nodup) (hl : ∀ s ∈ sets, ∀ o ∈ s.objects, o.2.length = s.points.length)
    (ho : ∀ s ∈ sets, s.objects ≠ []) (k : Nat) (hk : k ≠ 0) (st : Fr × Fr × List (Fr × G) × Fr) :
    ∃ st', verifierLoop sup y u (((sets.zipIdx k).map fun p => (p.1, v ^ p.2)).zipIdx k) st = .ok st' ∧
      st'.1 = st.1 ∧ st'.2.1 = st.2.1 ∧
      stateValue g0 st' = stateValue g0 st + v ^ k •
        polyAt (sets.map fun s => (vanishing (diffs sup s.points) u * st.1) • setValue g0 y u s) v := by
  induction sets generalizing k st with
  | nil => exact ⟨st, rfl, rfl, rfl, by simp [polyAt_nil]⟩
  | cons s sets ih =>
    obtain ⟨st1, h1, e1, e2, e3⟩ := (step_ok g0 sup y u st k s (v ^ k) (hn s (by simp)) (hl s (by simp))
      (ho s (by simp))).1 hk
    obtain ⟨st2, h2, f1, f2, f3⟩ := ih (fun s hs => hn s (List.mem_cons_of_mem _ hs))
      (fun s hs => hl s (List.mem_cons_of_mem _ hs)) (fun s hs => ho s (List.mem_cons_of_mem _ hs)) (k + 1)
      (by omega) st1
    refine ⟨st2, ?_, by rw [f1, e1], by rw [f2, e2], ?_⟩
    · rw [List.zipIdx_cons, List.map_cons, List.zipIdx_cons]
      unfold verifierLoop
      rw [h1]
      exact h2
    · rw [f3, e3, e1, List.map_cons, polyAt_cons, smul_add, smul_smul, smul_smul, pow_succ]
      abel

/-- The right side of the final check, less the part of the second point. -/
def rightValue (g0 : G) (sup : List Fr) (y v u : Fr) (h1 : G) (s0 : RotationSet (Committed G))
    (rest : List (RotationSet (Committed G))) : G :=
  polyAt ((s0 :: rest).map fun s => (vanishing (diffs sup s.points) u *
    (vanishing (diffs sup s0.points) u)⁻¹) • setValue g0 y u s) v - vanishing s0.points u • h1

theorem verify_ok {g0 : G} {qs : List (Claim ρ (Committed G))} {sup : List Fr}
    {s0 : RotationSet (Committed G)} {rest : List (RotationSet (Committed G))}
    (h : intermediateSets qs = .ok (s0 :: rest, sup)) (hs : SetsOk qs (s0 :: rest) sup) (y v : Fr) (h1 : G)
    (u : Fr) (h2 : G) :
    (vanishing (diffs sup s0.points) u = 0 → verify g0 qs y v h1 u h2 = .error .unwrap) ∧
    (vanishing (diffs sup s0.points) u ≠ 0 → ∃ left right, verify g0 qs y v h1 u h2 = .ok (left, right) ∧
      msmSum left = h2 ∧ msmSum right = rightValue g0 sup y v u h1 s0 rest + u • h2) := by
  have hl : ∀ s ∈ s0 :: rest, ∀ o ∈ s.objects, o.2.length = s.points.length := fun s hm o ho => by
    obtain ⟨r, hr⟩ := hs.object s hm o ho
    exact hr.length
  obtain ⟨-, a2, a3⟩ := step_ok g0 sup y u (0, 0, [], 0) 0 s0 (v ^ 0) (hs.points s0 (by simp)) (hl s0 (by simp))
    (hs.objects s0 (by simp))
  refine ⟨fun hz => ?_, fun hz => ?_⟩
  · unfold verify
    rw [h]
    simp only [bind, Except.bind]
    unfold withPowers
    rw [List.zipIdx_cons, List.map_cons, List.zipIdx_cons]
    unfold verifierLoop
    rw [a2 rfl hz]
    rfl
  · obtain ⟨st1, b1, b2, b3, b4⟩ := a3 rfl hz
    obtain ⟨st2, c1, c2, c3, c4⟩ := loop_ok g0 sup y v u rest
      (fun s hm => hs.points s (List.mem_cons_of_mem _ hm)) (fun s hm => hl s (List.mem_cons_of_mem _ hm))
      (fun s hm => hs.objects s (List.mem_cons_of_mem _ hm)) 1 (by norm_num) st1
    refine ⟨[(1, h2)], st2.2.2.1 ++ [(-st2.2.2.2, g0), (-st2.2.1, h1), (u, h2)], ?_, ?_, ?_⟩
    · unfold verify
      rw [h]
      simp only [bind, Except.bind]
      unfold withPowers
      rw [List.zipIdx_cons, List.map_cons, List.zipIdx_cons]
      unfold verifierLoop
      rw [b1]
      simp only [bind, Except.bind]
      rw [c1]
      rfl
    · simp [msmSum]
    · rw [msmSum_append]
      have : msmSum [(-st2.2.2.2, g0), (-st2.2.1, h1), (u, h2)] =
          -(st2.2.2.2 • g0) - st2.2.1 • h1 + u • h2 := by
        simp only [msmSum, List.map_cons, List.map_nil, List.sum_cons, List.sum_nil, neg_smul]
        abel
      rw [this]
      have hst : msmSum st2.2.2.1 - st2.2.2.2 • g0 = stateValue g0 st2 := rfl
      unfold rightValue
      rw [List.map_cons, polyAt_cons, mul_inv_cancel₀ hz, one_smul, ← b2, ← b3, ← c3]
      rw [pow_one] at c4
      have h0 : stateValue g0 ((0, 0, [], 0) : Fr × Fr × List (Fr × G) × Fr) = 0 := by
        simp [stateValue, msmSum]
      rw [h0, pow_zero, one_smul, zero_add] at b4
      rw [b4] at c4
      rw [← c4, ← hst]
      abel

end Verif.Shplonk

import Verif.Lemmas.IpaOpenSets
import Verif.Lemmas.Ipa
import Verif.Lemmas.ShplonkProver

/-! What the verifier of the opening without a trusted setup computes. -/

namespace Verif.IpaOpen

open Shplonk (Claim low low_spec)
open Spec Spec.IpaOpen
open Spec.Ipa (Ok Lawful Good val coeffs rest appendTerm_ok add_ok scale_ok empty_good eval_inv eval_eq)
open Ipa (Coords Msm Params Proof Guard)

variable {ρ V : Type} [DecidableEq ρ] [AddCommGroup V] [Module Fr V]

section folded

omit [DecidableEq ρ] in
theorem horner_cons (t : Fr) (a : V) (l : List V) : folded t (a :: l) = l.foldl (fun a v => t • a + v) a := by
  unfold folded
  rw [List.foldl_cons, smul_zero, zero_add]

omit [DecidableEq ρ] in
theorem horner_append (t : Fr) (l : List V) (a : V) : folded t (l ++ [a]) = t • folded t l + a := by
  unfold folded
  rw [List.foldl_append]
  rfl

omit [DecidableEq ρ] in
theorem horner_eq (t : Fr) (l : List V) : folded t l = polyAt l.reverse t := by
  induction l using List.reverseRecOn with
  | nil => simp [folded, polyAt_nil]
  | append_singleton l a ih => rw [horner_append, List.reverse_append, List.reverse_singleton, List.singleton_append, polyAt_cons, ih, add_comm]

omit [DecidableEq ρ] in
theorem horner_map {W : Type} [AddCommGroup W] [Module Fr W] (φ : V →ₗ[Fr] W) (t : Fr) (l : List V) :
    folded t (l.map φ) = φ (folded t l) := by
  induction l using List.reverseRecOn with
  | nil => simp [folded]
  | append_singleton l a ih => rw [List.map_append, List.map_singleton, horner_append, horner_append, ih, map_add, map_smul]

end folded

/-- The point of a set. -/
def setPoint (x1 : Fr) (ps : List (Claim ρ V)) (s : List Fr) : V := folded x1 ((group ps s).map Claim.object)

/-- The value of a set at a point. -/
def setValue {T : Type} (x1 : Fr) (ps : List (Claim ρ T)) (s : List Fr) (p : Fr) : Fr :=
  folded x1 ((group ps s).map fun q => valueAt (own ps q.ref) p)

/-- The polynomial through the values of a set. -/
def setLow {T : Type} (x1 : Fr) (ps : List (Claim ρ T)) (s : List Fr) : List Fr := low s (s.map (setValue x1 ps s))

/-- The value of the quotient of a set, given the value `u` of its polynomial. -/
def quotientAt {T : Type} (x1 x3 : Fr) (ps : List (Claim ρ T)) (s : List Fr) (u : Fr) : Fr :=
  (u - polyAt (setLow x1 ps s) x3) * (Shplonk.vanishing s x3)⁻¹

/-- The value of the quotient. -/
def finalEval {T : Type} (x1 x2 x3 : Fr) (ps : List (Claim ρ T)) (u : List Fr) : Fr :=
  folded x2 (((pointSets ps).zip u).map fun e => quotientAt x1 x3 ps e.1 e.2)

/-- The point that is opened. -/
def finalPoint (x1 x4 : Fr) (ps : List (Claim ρ V)) (qPrime : V) : V :=
  folded x4 (qPrime :: (pointSets ps).map (setPoint x1 ps))

/-- Its value. -/
def finalValue {T : Type} (x1 x2 x3 x4 : Fr) (ps : List (Claim ρ T)) (u : List Fr) : Fr :=
  folded x4 (finalEval x1 x2 x3 ps u :: u)

variable {M K : Type} [AddCommGroup M] [Module Fr M] [DecidableEq M] [DecidableEq K] [Neg K]

/-- The commitments stand for the points. -/
abbrev Standing (cs : Coords K M) (params : Params M) : List (Claim ρ M) → List (Claim ρ (Committed K M)) → Prop :=
  List.Forall₂ (Same fun a c => Stands cs params c a)

omit [DecidableEq ρ] in
theorem accumulate_fold {coords : Coords K M} (law : Lawful coords) {params : Params M} (ok : Ok params) (x1 : Fr) {s : List Fr}
    (f : ρ → Fr → Fr) (tail : ρ → List Fr) (idx : Nat) {ps : List (Claim ρ M)} {cs : List (Claim ρ (Committed K M))}
    (h : Standing coords params ps cs) : ∀ (m : Msm K) (g : Fr → Fr), Good coords params.n m →
    ∃ m', (cs.map fun q => (⟨q.object, idx, s.map (f q.ref) ++ tail q.ref⟩ : Data (Committed K M))).foldlM
        (accumulate coords params.n x1) (m, s.map g) =
        .ok (m', s.map fun p => (ps.map fun q => f q.ref p).foldl (fun a v => x1 • a + v) (g p)) ∧
      Good coords params.n m' ∧
      val coords params m' = (ps.map Claim.object).foldl (fun a v => x1 • a + v) (val coords params m) := by
  induction h with
  | nil => intro m g hm; exact ⟨m, rfl, hm, rfl⟩
  | @cons p c ps cs h _ ih =>
    intro m g hm
    obtain ⟨h1, h2⟩ := scale_ok params hm x1
    have h3 : ∃ m', (match c.object with
        | .point p => Msm.appendTerm coords (m.scale x1) 1 p
        | .msm o => (m.scale x1).add params.n o) = .ok m' ∧ Good coords params.n m' ∧
        val coords params m' = x1 • val coords params m + p.object := by
      have ho := h.object
      cases hc : c.object with
      | point a =>
        rw [hc] at ho
        obtain ⟨m', e1, e2, e3⟩ := appendTerm_ok law params h1 1 a
        refine ⟨m', e1, e2, ?_⟩
        rw [e3, h2, one_smul]
        congr 1
      | msm o =>
        rw [hc] at ho
        have hg := eval_inv coords params ho
        have hv := eval_eq coords params hg
        rw [ho] at hv
        rw [ok.g] at hg
        obtain ⟨m', e1, e2, e3⟩ := add_ok law params h1 hg
        refine ⟨m', e1, e2, ?_⟩
        rw [e3, h2, Except.ok.inj hv]
    obtain ⟨m', e1, e2, e3⟩ := h3
    have hz : List.zipWith (fun e s => s * x1 + e) (s.map (f c.ref) ++ tail c.ref) (s.map g) ++
        (s.map g).drop (s.map (f c.ref) ++ tail c.ref).length = s.map fun a => x1 • g a + f p.ref a := by
      rw [h.ref, List.drop_eq_nil_of_le (by simp), List.append_nil]
      refine List.ext_getElem (by simp) ?_
      intro i hi hi'
      rw [List.getElem_zipWith]
      have hs : i < s.length := by simpa using hi'
      rw [List.getElem_append_left (by simpa using hs)]
      simp [mul_comm]
    obtain ⟨m'', a1, a2, a3⟩ := ih m' (fun a => x1 • g a + f p.ref a) e2
    refine ⟨m'', ?_, a2, ?_⟩
    · rw [List.map_cons, List.foldlM_cons]
      have : accumulate coords params.n x1 (m, s.map g) ⟨c.object, idx, s.map (f c.ref) ++ tail c.ref⟩ =
          .ok (m', s.map fun a => x1 • g a + f p.ref a) := by
        unfold accumulate
        dsimp only
        rw [hz]
        cases hc : c.object with
        | point a =>
          rw [hc] at e1
          dsimp only at e1 ⊢
          rw [e1]
          rfl
        | msm o =>
          rw [hc] at e1
          dsimp only at e1 ⊢
          rw [e1]
          rfl
      rw [this]
      exact a1
    · rw [a3, e3]
      rfl

theorem collapse_ok {coords : Coords K M} (law : Lawful coords) {params : Params M} (ok : Ok params) (x1 : Fr)
    {ps : List (Claim ρ M)} {cs : List (Claim ρ (Committed K M))} (h : Standing coords params ps cs) {i : Nat}
    (hi : i < (pointSets cs).length) :
    ∃ m, collapse coords params.n x1 ((firsts cs).map (dataOf cs)) ((pointSets cs)[i], i) =
        .ok (m, (pointSets cs)[i].map (setValue x1 ps (pointSets cs)[i])) ∧ Good coords params.n m ∧
      val coords params m = setPoint x1 ps (pointSets cs)[i] := by
  obtain ⟨h1, h2⟩ := empty_good coords params params.n
  obtain ⟨m, e1, e2, e3⟩ := accumulate_fold law ok x1 (s := (pointSets cs)[i]) (fun r => valueAt (own ps r))
    (fun r => List.replicate ((own cs r).length - (pointSet cs r).length) 0) i (group_same h (pointSets cs)[i]) {} (fun _ => 0) h1
  refine ⟨m, ?_, e2, ?_⟩
  · unfold collapse
    dsimp only
    rw [members_eq cs hi, ← List.map_const' (l := (pointSets cs)[i]) (b := (0 : Fr))]
    refine Eq.trans ?_ e1
    congr 1
    refine List.map_congr_left fun q hq => ?_
    have hs := (mem_group hq).2
    unfold dataOf evalsOf
    rw [value_same h]
    congr 1
    · rw [hs]
      exact (pointSets_spec cs).1.idxOf_getElem i hi
    · rw [hs]
  · rw [e3, h2]
    rfl

/-- The sums and the values of the sets. -/
theorem sets_ok {coords : Coords K M} (law : Lawful coords) {params : Params M} (ok : Ok params) (x1 : Fr)
    {ps : List (Claim ρ M)} {cs : List (Claim ρ (Committed K M))} (h : Standing coords params ps cs) :
    ∃ out, (pointSets cs).zipIdx.mapM (collapse coords params.n x1 ((firsts cs).map (dataOf cs))) = .ok out ∧
      out.map (·.2) = (pointSets ps).map (fun s => s.map (setValue x1 ps s)) ∧
      List.Forall₂ (fun s m => Good coords params.n m ∧ val coords params m = setPoint x1 ps s) (pointSets ps) (out.map (·.1)) := by
  have key : ∀ l : List (List Fr × Nat), (∀ e ∈ l, ∃ m, collapse coords params.n x1 ((firsts cs).map (dataOf cs)) e =
        .ok (m, e.1.map (setValue x1 ps e.1)) ∧ Good coords params.n m ∧ val coords params m = setPoint x1 ps e.1) →
      ∃ out, l.mapM (collapse coords params.n x1 ((firsts cs).map (dataOf cs))) = .ok out ∧
      out.map (·.2) = (l.map (·.1)).map (fun s => s.map (setValue x1 ps s)) ∧
      List.Forall₂ (fun s m => Good coords params.n m ∧ val coords params m = setPoint x1 ps s) (l.map (·.1)) (out.map (·.1)) := by
    intro l
    induction l with
    | nil => intro _; exact ⟨[], rfl, rfl, .nil⟩
    | cons e l ih =>
      intro hl
      obtain ⟨m, e1, e2⟩ := hl e (by simp)
      obtain ⟨out, o1, o2, o3⟩ := ih fun e he => hl e (by simp [he])
      refine ⟨(m, e.1.map (setValue x1 ps e.1)) :: out, ?_, ?_, ?_⟩
      · rw [List.mapM_cons, e1, o1]
        rfl
      · rw [List.map_cons, List.map_cons, List.map_cons, o2]
      · rw [List.map_cons, List.map_cons]
        exact .cons e2 o3
  obtain ⟨out, o1, o2, o3⟩ := key (pointSets cs).zipIdx fun e he => by
    obtain ⟨s, i⟩ := e
    obtain ⟨-, hi, hs⟩ := List.mem_zipIdx he
    have hi : i < (pointSets cs).length := by simpa using hi
    have := collapse_ok law ok x1 h hi
    have hs : s = (pointSets cs)[i] := by simpa using hs
    rw [hs]
    exact this
  have e : (pointSets cs).zipIdx.map (·.1) = pointSets ps := by
    rw [← pointSets_same h]
    simp
  rw [e] at o2 o3
  exact ⟨out, o1, o2, o3⟩

omit [DecidableEq ρ] in
theorem divide_fold (x3 : Fr) : ∀ (s : List Fr) (a : Fr), x3 ∉ s →
    s.foldlM (divide x3) a = .ok (a * (Shplonk.vanishing s x3)⁻¹)
  | [], a, _ => by
    show Except.ok a = _
    simp [Shplonk.vanishing]
  | p :: s, a, h => by
    have hp : x3 - p ≠ 0 := sub_ne_zero.2 (fun e => h (by simp [e]))
    rw [List.foldlM_cons]
    have : divide x3 a p = .ok (a * (x3 - p)⁻¹) := by
      unfold divide
      rw [if_neg hp]
    rw [this]
    show s.foldlM (divide x3) (a * (x3 - p)⁻¹) = _
    rw [divide_fold x3 s _ (fun e => h (by simp [e])), Shplonk.vanishing_cons, mul_inv, mul_assoc]

omit [DecidableEq ρ] in
theorem foldlM_error {α β : Type} (f : β → α → Except Panic β) : ∀ (l : List α) (b : β),
    (∃ a ∈ l, ∀ b r, f b a ≠ .ok r) → ∀ r, l.foldlM f b ≠ .ok r
  | [], _, h => by simp at h
  | a :: l, b, h => by
    intro r
    rw [List.foldlM_cons]
    cases hf : f b a with
    | error e => intro hc; cases hc
    | ok c =>
      obtain ⟨a', ha', h'⟩ := h
      rcases List.mem_cons.1 ha' with rfl | ha'
      · exact absurd hf (h' b c)
      · exact foldlM_error f l c ⟨a', ha', h'⟩ r

omit [DecidableEq ρ] in
theorem divide_error (x3 : Fr) (s : List Fr) (a : Fr) (h : x3 ∈ s) : ∀ r, s.foldlM (divide x3) a ≠ .ok r := by
  refine foldlM_error _ s a ⟨x3, h, fun b r => ?_⟩
  unfold divide
  simp

theorem msmEval_ok {T : Type} (x1 x2 x3 : Fr) (ps : List (Claim ρ T)) (h : x3 ∉ points ps) (u : List Fr) :
    msmEval x2 x3 (((pointSets ps).zip ((pointSets ps).map fun s => s.map (setValue x1 ps s))).zip u) =
      .ok (finalEval x1 x2 x3 ps u) := by
  have key : ∀ (l : List (List Fr)) (u : List Fr) (a : Fr), (∀ s ∈ l, s ∈ pointSets ps) →
      ((l.zip (l.map fun s => s.map (setValue x1 ps s))).zip u).foldlM (evalStep x2 x3) a =
        .ok (((l.zip u).map fun e => quotientAt x1 x3 ps e.1 e.2).foldl (fun a v => x2 • a + v) a) := by
    intro l
    induction l with
    | nil => intro u a _; rfl
    | cons s l ih =>
      intro u a hl
      cases u with
      | nil => rfl
      | cons v u =>
        have hs := hl s (by simp)
        have step : evalStep x2 x3 a ((s, s.map (setValue x1 ps s)), v) = .ok (x2 • a + quotientAt x1 x3 ps s v) := by
          unfold evalStep
          dsimp only
          rw [(low_spec s (s.map (setValue x1 ps s)) (by simp) (set_nodup hs)).1]
          simp only [bind, Except.bind]
          rw [divide_fold x3 s _ (fun hc => h (set_points hs hc)), evalPolynomial_eq]
          unfold quotientAt setLow
          rw [smul_eq_mul, mul_comm x2]
          rfl
        rw [List.map_cons, List.zip_cons_cons, List.zip_cons_cons, List.foldlM_cons, step, List.zip_cons_cons, List.map_cons,
          List.foldl_cons]
        exact ih u _ fun s hs => hl s (by simp [hs])
  exact key _ _ _ fun _ h => h

theorem msmEval_error {T : Type} (x1 x2 x3 : Fr) (ps : List (Claim ρ T)) (h : x3 ∈ points ps) {u : List Fr}
    (hu : u.length = (pointSets ps).length) (r : Fr) :
    msmEval x2 x3 (((pointSets ps).zip ((pointSets ps).map fun s => s.map (setValue x1 ps s))).zip u) ≠ .ok r := by
  obtain ⟨q, hq, hp⟩ := ((points_spec ps).2 x3).1 h
  obtain ⟨s, hs, hps, -⟩ := covers ps hq
  obtain ⟨i, hi, rfl⟩ := List.mem_iff_getElem.1 hs
  refine foldlM_error _ _ _ ⟨(((pointSets ps)[i], (pointSets ps)[i].map (setValue x1 ps (pointSets ps)[i])), u[i]), ?_, ?_⟩ r
  · refine List.mem_iff_getElem.2 ⟨i, by simp [hu, hi], ?_⟩
    simp
  · intro b r hc
    unfold evalStep at hc
    dsimp only at hc
    rw [(low_spec _ ((pointSets ps)[i].map (setValue x1 ps (pointSets ps)[i])) (by simp) (set_nodup hs)).1] at hc
    simp only [bind, Except.bind] at hc
    cases hd : (pointSets ps)[i].foldlM (divide x3)
        (u[i] - evalPolynomial (low (pointSets ps)[i] ((pointSets ps)[i].map (setValue x1 ps (pointSets ps)[i]))) x3) with
    | error e => rw [hd] at hc; cases hc
    | ok a => exact divide_error x3 _ _ (by rw [← hp]; exact hps) a hd

omit [DecidableEq M] in
theorem gather_fold {coords : Coords K M} (law : Lawful coords) {params : Params M} {x1 : Fr} (x4 : Fr)
    {ps : List (Claim ρ M)} : ∀ {sets : List (List Fr)} {ms : List (Msm K)} (u : List Fr) (m : Msm K) (v : Fr),
    List.Forall₂ (fun s m => Good coords params.n m ∧ val coords params m = setPoint x1 ps s) sets ms → u.length = sets.length →
    Good coords params.n m →
    ∃ m', (ms.zip u).foldlM (gather params.n x4) (m, v) = .ok (m', u.foldl (fun a v => x4 • a + v) v) ∧
      Good coords params.n m' ∧
      val coords params m' = (sets.map (setPoint x1 ps)).foldl (fun a v => x4 • a + v) (val coords params m)
  | [], _, [], m, v, .nil, _, hm => ⟨m, rfl, hm, rfl⟩
  | [], _, _ :: _, _, _, _, hu, _ => by simp at hu
  | _ :: _, _, [], _, _, _, hu, _ => by simp at hu
  | s :: sets, m0 :: ms, u0 :: u, m, v, .cons h0 h, hu, hm => by
    obtain ⟨h1, h2⟩ := scale_ok params hm x4
    obtain ⟨m1, e1, e2, e3⟩ := add_ok law params h1 h0.1
    obtain ⟨m2, a1, a2, a3⟩ := gather_fold law x4 u m1 (x4 • v + u0) h (by simpa using hu) e2
    refine ⟨m2, ?_, a2, ?_⟩
    · rw [List.zip_cons_cons, List.foldlM_cons]
      have : gather params.n x4 (m, v) (m0, u0) = .ok (m1, x4 • v + u0) := by
        unfold gather
        dsimp only
        rw [e1, smul_eq_mul, mul_comm x4]
        rfl
      rw [this]
      exact a1
    · rw [a3, e3, h2, h0.2]
      rfl

/-- What the verifier tests. -/
def defect (params : Params V) (g0 : V) (ps : List (Claim ρ V)) (proof : OpenProof V) (x1 x2 x3 x4 xi z : Fr) (us : List Fr) : V :=
  finalPoint x1 x4 ps proof.qPrime +
    rest params g0 proof.ipa x3 (finalValue x1 x2 x3 x4 ps (proof.u.take (pointSets ps).length)) xi z us -
    proof.ipa.c • dot (coeffs us) params.g

theorem accepts_eq {coords : Coords K M} (law : Lawful coords) {params : Params M} (ok : Ok params) {g0 : M} {gs : List M}
    (hg : params.g = g0 :: gs) {ps : List (Claim ρ M)} {cs : List (Claim ρ (Committed K M))} (h : Standing coords params ps cs)
    (proof : OpenProof M) (x1 x2 x3 x4 xi z : Fr) {us : List Fr} (hus : us.length = params.k) :
    (proof.u.length < (pointSets ps).length → accepts coords params cs proof x1 x2 x3 x4 xi z us = .ok false) ∧
    (¬ proof.u.length < (pointSets ps).length → x3 ∉ points ps → accepts coords params cs proof x1 x2 x3 x4 xi z us =
      .ok (decide (defect params g0 ps proof x1 x2 x3 x4 xi z us = 0))) ∧
    (¬ proof.u.length < (pointSets ps).length → x3 ∈ points ps → ∀ b, accepts coords params cs proof x1 x2 x3 x4 xi z us ≠ .ok b) := by
  obtain ⟨out, o1, o2, o3⟩ := sets_ok law ok x1 h
  have hsets := pointSets_same h
  refine ⟨fun hl => ?_, fun hl hx => ?_, fun hl hx b => ?_⟩
  · unfold accepts verify
    rw [intermediateSets_ok]
    simp only [bind, Except.bind]
    rw [o1]
    dsimp only
    rw [hsets, if_pos hl]
    rfl
  · have hu : (proof.u.take (pointSets ps).length).length = (pointSets ps).length := by simp; omega
    obtain ⟨g1, g2⟩ := empty_good coords params params.n
    obtain ⟨m1, a1, a2, a3⟩ := appendTerm_ok law params g1 1 proof.qPrime
    obtain ⟨m2, b1, b2, b3⟩ := gather_fold law x4 (proof.u.take (pointSets ps).length) m1
      (finalEval x1 x2 x3 ps (proof.u.take (pointSets ps).length)) o3 hu a2
    have hv : verify coords params cs proof x1 x2 x3 x4 xi z us = (do
        return some (← Ipa.verify coords params m2 proof.ipa x3
          (finalValue x1 x2 x3 x4 ps (proof.u.take (pointSets ps).length)) xi z us)) := by
      unfold verify
      rw [intermediateSets_ok]
      simp only [bind, Except.bind]
      rw [o1]
      dsimp only
      rw [hsets, if_neg hl, o2, msmEval_ok x1 x2 x3 ps hx]
      dsimp only
      rw [a1]
      dsimp only
      rw [b1]
      dsimp only
      unfold finalValue
      rw [horner_cons]
    have hm2 : m2.eval coords params = .ok (finalPoint x1 x4 ps proof.qPrime) := by
      rw [eval_eq coords params (by rw [ok.g]; exact b2), b3, a3, g2, one_smul, zero_add]
      unfold finalPoint
      rw [horner_cons]
    have hacc := Spec.Ipa.accepts_eq law params ok hm2 hg proof.ipa x3
      (finalValue x1 x2 x3 x4 ps (proof.u.take (pointSets ps).length)) xi z hus
    unfold accepts
    rw [hv]
    unfold Ipa.accepts at hacc
    cases hw : Ipa.verify coords params m2 proof.ipa x3
          (finalValue x1 x2 x3 x4 ps (proof.u.take (pointSets ps).length)) xi z us with
    | error e => rw [hw] at hacc; cases hacc
    | ok guard =>
      rw [hw] at hacc
      exact hacc
  · intro hc
    have hu : (proof.u.take (pointSets ps).length).length = (pointSets ps).length := by simp; omega
    unfold accepts verify at hc
    rw [intermediateSets_ok] at hc
    simp only [bind, Except.bind] at hc
    rw [o1] at hc
    dsimp only at hc
    rw [hsets, if_neg hl, o2] at hc
    cases he : msmEval x2 x3 (((pointSets ps).zip ((pointSets ps).map fun s => s.map (setValue x1 ps s))).zip
        (proof.u.take (pointSets ps).length)) with
    | error e => rw [he] at hc; cases hc
    | ok a => exact msmEval_error x1 x2 x3 ps hx hu a he

end Verif.IpaOpen

import Verif.Props.IpaOpen
import Verif.Props.Gwc
import Verif.Props.Openings

/-! Property C99: contradictory claims about a commitment. -/

namespace Verif.Props

open Spec Spec.IpaOpen Plonk
open Shplonk (Claim)

variable {ρ T : Type} [DecidableEq ρ]

/-- The claim with another value. -/
def withValue (q : Claim ρ T) (v : Fr) : Claim ρ T := { q with value := v }

section shplonk

theorem addRotation_withValue (q : Claim ρ T) (v : Fr) (l : List (ρ × T × List Fr)) :
    Shplonk.addRotation (withValue q v) l = Shplonk.addRotation q l := by
  induction l with
  | nil => rfl
  | cons e es ih =>
    unfold Shplonk.addRotation
    rw [ih]
    rfl

theorem getEval_withValue (l₁ l₂ : List (Claim ρ T)) (q : Claim ρ T) (v : Fr) (h : ∃ q' ∈ l₁, q'.ref = q.ref ∧ q'.point = q.point)
    (r : ρ) (p : Fr) : Shplonk.getEval (l₁ ++ withValue q v :: l₂) r p = Shplonk.getEval (l₁ ++ q :: l₂) r p := by
  unfold Shplonk.getEval
  rw [List.find?_append, List.find?_append]
  cases hf : l₁.find? fun q => decide (q.ref = r ∧ q.point = p) with
  | some a => rfl
  | none =>
    have hq : ¬ (q.ref = r ∧ q.point = p) := by
      rintro ⟨rfl, rfl⟩
      obtain ⟨q', h1, h2⟩ := h
      have := List.find?_eq_none.1 hf q' h1
      exact this (decide_eq_true h2)
    have hq' : ¬ ((withValue q v).ref = r ∧ (withValue q v).point = p) := hq
    rw [List.find?_cons_of_neg (by simpa using hq'), List.find?_cons_of_neg (by simpa using hq)]

theorem sets_withValue (l₁ l₂ : List (Claim ρ T)) (q : Claim ρ T) (v : Fr) (h : ∃ q' ∈ l₁, q'.ref = q.ref ∧ q'.point = q.point) :
    Shplonk.intermediateSets (l₁ ++ withValue q v :: l₂) = Shplonk.intermediateSets (l₁ ++ q :: l₂) := by
  unfold Shplonk.intermediateSets
  have e : Shplonk.getEval (l₁ ++ withValue q v :: l₂) = Shplonk.getEval (l₁ ++ q :: l₂) := by
    funext r p
    exact getEval_withValue l₁ l₂ q v h r p
  rw [e]
  simp only [List.foldl_append, List.foldl_cons, addRotation_withValue]
  rfl

end shplonk

section ipa

open Verif.IpaOpen

omit [DecidableEq ρ] in
theorem points_withValue (l₁ l₂ : List (Claim ρ T)) (q : Claim ρ T) (v : Fr) : points (l₁ ++ withValue q v :: l₂) = points (l₁ ++ q :: l₂) := by
  unfold points
  rw [List.map_append, List.map_append, List.map_cons, List.map_cons]
  rfl

theorem pointSet_withValue (l₁ l₂ : List (Claim ρ T)) (q : Claim ρ T) (v : Fr) (r : ρ) :
    pointSet (l₁ ++ withValue q v :: l₂) r = pointSet (l₁ ++ q :: l₂) r := by
  unfold pointSet
  rw [points_withValue]
  simp only [List.any_append, List.any_cons]
  rfl

/-- The claim without its value. -/
def strip (q : Claim ρ T) : ρ × T := (q.ref, q.object)

theorem firsts_strip (l : List (Claim ρ T)) : ∀ a b : List (Claim ρ T), a.map strip = b.map strip → ∀ l' : List (Claim ρ T), l.map strip = l'.map strip →
    (l.foldl (fun l q => if l.any (fun q' => decide (q'.ref = q.ref)) then l else l ++ [q]) a).map strip =
      (l'.foldl (fun l q => if l.any (fun q' => decide (q'.ref = q.ref)) then l else l ++ [q]) b).map strip := by
  induction l with
  | nil =>
    intro a b hab l' hl
    cases l' with
    | nil => exact hab
    | cons => simp at hl
  | cons q l ih =>
    intro a b hab l' hl
    cases l' with
    | nil => simp at hl
    | cons q' l' =>
      rw [List.map_cons, List.map_cons, List.cons.injEq] at hl
      rw [List.foldl_cons, List.foldl_cons]
      refine ih _ _ ?_ _ hl.2
      have hr : q.ref = q'.ref := congrArg Prod.fst hl.1
      have hany : (a.any fun x => decide (x.ref = q.ref)) = b.any fun x => decide (x.ref = q'.ref) := by
        rw [hr]
        have e1 : ∀ c : List (Claim ρ T), (c.any fun x => decide (x.ref = q'.ref)) = (c.map strip).any fun x => decide (x.1 = q'.ref) := by
          intro c
          rw [List.any_map]
          rfl
        rw [e1, e1, hab]
      rw [hany]
      split
      · exact hab
      · rw [List.map_append, List.map_append, hab, List.map_singleton, List.map_singleton, hl.1]

theorem firsts_withValue (l₁ l₂ : List (Claim ρ T)) (q : Claim ρ T) (v : Fr) :
    (firsts (l₁ ++ withValue q v :: l₂)).map strip = (firsts (l₁ ++ q :: l₂)).map strip :=
  firsts_strip _ [] [] rfl _ (by
    rw [List.map_append, List.map_append, List.map_cons, List.map_cons]
    rfl)

theorem pointSets_withValue (l₁ l₂ : List (Claim ρ T)) (q : Claim ρ T) (v : Fr) :
    pointSets (l₁ ++ withValue q v :: l₂) = pointSets (l₁ ++ q :: l₂) := by
  unfold pointSets
  have e : ∀ c : List (Claim ρ T), (c.map fun a => pointSet (l₁ ++ q :: l₂) a.ref) = (c.map strip).map fun a => pointSet (l₁ ++ q :: l₂) a.1 := by
    intro c
    rw [List.map_map]
    rfl
  have e' : (fun a : Claim ρ T => pointSet (l₁ ++ withValue q v :: l₂) a.ref) = fun a => pointSet (l₁ ++ q :: l₂) a.ref := by
    funext a
    exact pointSet_withValue l₁ l₂ q v a.ref
  rw [e', e, e, firsts_withValue]

omit [DecidableEq ρ] in
theorem update_fold (l : List (Claim ρ T)) (p : Fr) : ∀ f g : Fr → Fr, (∀ x, x ≠ p → f x = g x) → (∃ q ∈ l, q.point = p) →
    l.foldl (fun f q => Function.update f q.point q.value) f = l.foldl (fun f q => Function.update f q.point q.value) g := by
  induction l with
  | nil => intro f g _ h; simp at h
  | cons q l ih =>
    intro f g hfg h
    rw [List.foldl_cons, List.foldl_cons]
    by_cases hq : q.point = p
    · congr 1
      funext x
      by_cases hx : x = q.point
      · rw [hx, Function.update_self, Function.update_self]
      · rw [Function.update_of_ne hx, Function.update_of_ne hx, hfg x (by rw [← hq]; exact hx)]
    · refine ih _ _ (fun x hx => ?_) ?_
      · by_cases hx' : x = q.point
        · rw [hx', Function.update_self, Function.update_self]
        · rw [Function.update_of_ne hx', Function.update_of_ne hx', hfg x hx]
      · obtain ⟨a, ha, h⟩ := h
        rcases List.mem_cons.1 ha with rfl | ha
        · exact absurd h hq
        · exact ⟨a, ha, h⟩

theorem value_withValue (l₁ l₂ : List (Claim ρ T)) (q : Claim ρ T) (v : Fr) (h : ∃ q' ∈ l₂, q'.ref = q.ref ∧ q'.point = q.point) (r : ρ) :
    valueAt (own (l₁ ++ withValue q v :: l₂) r) = valueAt (own (l₁ ++ q :: l₂) r) := by
  unfold own
  rw [List.filter_append, List.filter_append, List.filter_cons, List.filter_cons]
  have hr : (withValue q v).ref = q.ref := rfl
  rw [hr]
  by_cases hq : q.ref = r
  · rw [if_pos (decide_eq_true hq), if_pos (decide_eq_true hq)]
    unfold valueAt
    rw [List.foldl_append, List.foldl_append, List.foldl_cons, List.foldl_cons]
    refine update_fold _ q.point _ _ (fun x hx => ?_) ?_
    · rw [Function.update_of_ne hx]
      exact Function.update_of_ne hx _ _
    · obtain ⟨q', h1, h2, h3⟩ := h
      exact ⟨q', List.mem_filter.2 ⟨h1, decide_eq_true (h2.trans hq)⟩, h3⟩
  · rw [if_neg (by simpa using hq), if_neg (by simpa using hq)]

theorem ipa_sets_withValue (l₁ l₂ : List (Claim ρ T)) (q : Claim ρ T) (v : Fr) (h : ∃ q' ∈ l₂, q'.ref = q.ref ∧ q'.point = q.point) :
    IpaOpen.intermediateSets (l₁ ++ withValue q v :: l₂) = IpaOpen.intermediateSets (l₁ ++ q :: l₂) := by
  rw [intermediateSets_ok, intermediateSets_ok, pointSets_withValue]
  have hlen : ∀ r, (own (l₁ ++ withValue q v :: l₂) r).length = (own (l₁ ++ q :: l₂) r).length := by
    intro r
    unfold own
    rw [List.filter_append, List.filter_append, List.filter_cons, List.filter_cons]
    have hr : (withValue q v).ref = q.ref := rfl
    rw [hr]
    split <;> simp
  have e : dataOf (l₁ ++ withValue q v :: l₂) = dataOf (l₁ ++ q :: l₂) := by
    funext a
    unfold dataOf evalsOf
    rw [pointSets_withValue, pointSet_withValue, value_withValue l₁ l₂ q v h, hlen]
  have e' : ∀ c : List (Claim ρ T), c.map (dataOf (l₁ ++ q :: l₂)) = (c.map strip).map fun a =>
      ⟨a.2, (pointSets (l₁ ++ q :: l₂)).idxOf (pointSet (l₁ ++ q :: l₂) a.1), evalsOf (l₁ ++ q :: l₂) a.1⟩ := by
    intro c
    rw [List.map_map]
    rfl
  rw [e, e', e', firsts_withValue]

end ipa

/-- C99 is false for SHPLONK: if there is a claim about the same commitment and the same point before it, then the value of a claim is not
looked at. -/
theorem C99_shplonk {G G₂ GT : Type} [AddCommGroup G] [Module Fr G] [AddCommGroup G₂] [Module Fr G₂] [AddCommGroup GT] [Module Fr GT]
    [DecidableEq GT] (pairing : G →ₗ[Fr] G₂ →ₗ[Fr] GT) (g0 : G) (g2 sG2 : G₂) (l₁ l₂ : List (Claim ρ (Committed G)))
    (q : Claim ρ (Committed G)) (h : ∃ q' ∈ l₁, q'.ref = q.ref ∧ q'.point = q.point) (v' : Fr) (y v : Fr) (h1 : G) (u : Fr) (h2 : G) :
    Shplonk.accepts pairing g0 g2 sG2 (l₁ ++ { q with value := v' } :: l₂) y v h1 u h2 =
      Shplonk.accepts pairing g0 g2 sG2 (l₁ ++ q :: l₂) y v h1 u h2 := by
  unfold Shplonk.accepts Shplonk.verify
  rw [show ({ q with value := v' } : Claim ρ (Committed G)) = withValue q v' from rfl, sets_withValue l₁ l₂ q v' h]

/-- C99 is false for the opening without a trusted setup: if there is a claim about the same commitment and the same point after it, then
the value of a claim is not looked at. -/
theorem C99_ipa {M K : Type} [AddCommGroup M] [Module Fr M] [DecidableEq M] [DecidableEq K] [Neg K] (coords : Ipa.Coords K M)
    (params : Ipa.Params M) (l₁ l₂ : List (Claim ρ (IpaOpen.Committed K M))) (q : Claim ρ (IpaOpen.Committed K M))
    (h : ∃ q' ∈ l₂, q'.ref = q.ref ∧ q'.point = q.point) (v : Fr) (proof : IpaOpen.OpenProof M) (x1 x2 x3 x4 xi z : Fr) (us : List Fr) :
    IpaOpen.accepts coords params (l₁ ++ { q with value := v } :: l₂) proof x1 x2 x3 x4 xi z us =
      IpaOpen.accepts coords params (l₁ ++ q :: l₂) proof x1 x2 x3 x4 xi z us := by
  unfold IpaOpen.accepts IpaOpen.verify
  rw [show ({ q with value := v } : Claim ρ (IpaOpen.Committed K M)) = withValue q v from rfl, ipa_sets_withValue l₁ l₂ q v h]

/-- C99 is false for SHPLONK, for everything that can be proved: take true claims and say of one of them, at the end once more, anything.
The proof of the true claims is accepted. -/
theorem C99_shplonk_accepts {G G₂ GT : Type} [AddCommGroup G] [Module Fr G] [AddCommGroup G₂] [Module Fr G₂] [AddCommGroup GT]
    [Module Fr GT] [DecidableEq GT] (pairing : G →ₗ[Fr] G₂ →ₗ[Fr] GT) (g1 : G) (g2 : G₂) (k : Nat) (s : Fr)
    (p : Srs G G₂) (hp : Srs.setup g1 g2 k s = .ok p) (ps : List (Claim ρ (List Fr))) (cs : List (Claim ρ (Committed G)))
    (hsame : List.Forall₂ (SameClaim s g1) ps cs) (ht : ∀ q ∈ ps, ClaimTrue q) (hc : Consistent ps)
    (hl : ∀ q ∈ ps, q.object.length = 2 ^ k) (points : List Fr) (hpts : ∀ q ∈ ps, q.point ∈ points) (hfew : points.length ≤ 2 ^ k)
    (c : Claim ρ (Committed G)) (hcm : c ∈ cs) (lie : Fr) (y v u : Fr) (hu : ∀ q ∈ ps, q.point ≠ u) :
    ∃ h1 h2 g0, p.g[0]? = some g0 ∧
      Shplonk.accepts pairing g0 p.g2 p.sG2 (cs ++ [{ c with value := lie }]) y v h1 u h2 = .ok true := by
  obtain ⟨q, hq, hqc⟩ := Shplonk.forall₂_right hsame hcm
  have hmem : ∀ a ∈ ps ++ [q], a ∈ ps := by
    intro a ha
    rcases List.mem_append.1 ha with h | h
    · exact h
    · rw [List.mem_singleton.1 h]
      exact hq
  obtain ⟨hx, sets, sup, h1, lx, h2, g0, -, -, -, -, a5, a6⟩ := C48_complete true pairing g1 g2 k s p hp (ps ++ [q]) (cs ++ [c]) (by simp)
    (List.rel_append hsame (.cons hqc .nil)) (fun a ha => ht a (hmem a ha))
    (fun a ha b hb => hc a (hmem a ha) b (hmem b hb)) (fun a ha => hl a (hmem a ha)) points (fun a ha => hpts a (hmem a ha)) hfew
    y v u (fun a ha => hu a (hmem a ha))
  refine ⟨h1, h2, g0, a5, ?_⟩
  rw [C99_shplonk pairing g0 p.g2 p.sG2 cs [] c ⟨c, hcm, rfl, rfl⟩ lie]
  exact a6

/-- C99 is false for the opening without a trusted setup: take true claims and say of one of them, at the beginning, anything. The proof of
the true claims is accepted. -/
theorem C99_ipa_accepts {M K : Type} [AddCommGroup M] [Module Fr M] [DecidableEq M] [DecidableEq K] [Neg K] {coords : Ipa.Coords K M}
    (law : Ipa.Lawful coords) (params : Ipa.Params M) (ok : Ipa.Ok params)
    (qs : List (Claim ρ (List Fr × Fr))) (hc : Consistent qs) (ht : ∀ q ∈ qs, q.value = polyAt q.object.1 q.point)
    (hl : ∀ q ∈ qs, q.object.1.length = params.n) (hn : (qs.map Claim.point).toFinset.card ≤ params.n)
    (cs : List (Claim ρ (IpaOpen.Committed K M)))
    (hcs : List.Forall₂ (Same fun o c => Stands coords params c (commitment params o)) qs cs)
    (c : Claim ρ (IpaOpen.Committed K M)) (hcm : c ∈ cs) (lie : Fr)
    (draws : Ipa.Draws) (hs : draws.s.length = params.n) (hr : draws.rounds.length = params.k) (x1 x2 x3 x4 xi z : Fr)
    (hx : ∀ q ∈ qs, q.point ≠ x3) (us : List Fr) (hu : us.length = params.k) (h0 : ∀ u ∈ us, u ≠ 0) :
    ∃ proof, IpaOpen.accepts coords params ({ c with value := lie } :: cs) proof x1 x2 x3 x4 xi z us = .ok true := by
  obtain ⟨q, hq, hqc⟩ := Shplonk.forall₂_right hcs hcm
  have hmem : ∀ a ∈ q :: qs, a ∈ qs := by
    intro a ha
    rcases List.mem_cons.1 ha with h | h
    · rw [h]
      exact hq
    · exact h
  obtain ⟨proof, -, h⟩ := C98_complete law params ok (q :: qs) (by simp) (fun a ha b hb => hc a (hmem a ha) b (hmem b hb))
    (fun a ha => ht a (hmem a ha)) (fun a ha => hl a (hmem a ha)) (by
      have : ((q :: qs).map Claim.point).toFinset = (qs.map Claim.point).toFinset := by
        ext a
        simp only [List.mem_toFinset, List.mem_map]
        exact ⟨fun ⟨b, hb, h⟩ => ⟨b, hmem b hb, h⟩, fun ⟨b, hb, h⟩ => ⟨b, List.mem_cons_of_mem _ hb, h⟩⟩
      rw [this]
      exact hn) (c :: cs) (.cons hqc hcs) draws hs hr x1 x2 0 x3 x4 xi z (fun a ha => hx a (hmem a ha)) us hu h0
  refine ⟨proof, ?_⟩
  have := C99_ipa coords params [] cs c ⟨c, hcm, rfl, rfl⟩ lie proof x1 x2 x3 x4 xi z us
  rw [List.nil_append, List.nil_append] at this
  rw [this]
  exact h

omit [DecidableEq ρ] in
/-- C99, as far as it holds: the opening with one quotient per point rejects claims that contradict each other, but for few challenges. -/
theorem C99_gwc_partial {G G₂ GT : Type} [AddCommGroup G] [Module Fr G] [AddCommGroup G₂] [Module Fr G₂] [AddCommGroup GT]
    [Module Fr GT] [DecidableEq GT] (ps : List (Claim ρ (List Fr))) (hc : Consistent ps) (hf : ¬ Functional ps) (N : Nat)
    (hl : ∀ q ∈ ps, q.object.length ≤ N) (ws : Fr → List (List Fr)) (hw : ∀ v, (ws v).length = pointCount ps)
    (hlw : ∀ v, ∀ w ∈ ws v, w.length ≤ N) :
    ∃ (Bv : Finset Fr) (Bu : Fr → Finset Fr) (Bs : Fr → Fr → Finset Fr),
      Bv.card < ps.length ∧ (∀ v, (Bu v).card < pointCount ps) ∧ (∀ v u, (Bs v u).card ≤ N) ∧
      ∀ v u s, ∀ (pairing : G →ₗ[Fr] G₂ →ₗ[Fr] GT) (g : G) (g2 : G₂), pairing g g2 ≠ 0 →
        ∀ cs : List (Claim ρ (Committed G)), List.Forall₂ (SameClaim s g) ps cs →
        Gwc.accepts pairing g g2 (s • g2) cs v ((ws v).map fun w => polyAt w s • g) u = .ok true →
        v ∈ Bv ∨ u ∈ Bu v ∨ s ∈ Bs v u := by
  refine C93_sound ps ?_ N hl ws hw hlw
  by_contra hall
  push Not at hall
  refine hf fun q hq q' hq' h1 h2 => ?_
  have e1 : q.value = polyAt q.object q.point := hall q hq
  have e2 : q'.value = polyAt q'.object q'.point := hall q' hq'
  rw [e1, e2, hc q hq q' hq' h1, h2]

/-! ### Examples -/

/-- The polynomial `1 + 2 X + 3 X² + 4 X³` has the value 10 at 1; the claim that it has also the value 11 there is accepted. -/
example (y v : Fr) : ∃ (p : Srs Fr Fr) (h1 h2 g0 : Fr), Srs.setup (1 : Fr) (1 : Fr) 2 42 = .ok p ∧ p.g[0]? = some g0 ∧
    Shplonk.accepts (ρ := Nat) (LinearMap.mul Fr Fr) g0 p.g2 p.sG2 [⟨0, .point (polyAt [1, 2, 3, 4] 42), 1, 10⟩,
      ⟨0, .point (polyAt [1, 2, 3, 4] 42), 1, 11⟩] y v h1 7 h2 = .ok true := by
  obtain ⟨p, hp⟩ := C43_secret (1 : Fr) (1 : Fr) 2 (by norm_num)
  obtain ⟨h1, h2, g0, a1, a2⟩ := C99_shplonk_accepts (ρ := Nat) (LinearMap.mul Fr Fr) 1 1 2 42 p hp [⟨0, [1, 2, 3, 4], 1, 10⟩]
    [⟨0, .point (polyAt [1, 2, 3, 4] 42), 1, 10⟩] (.cons ⟨rfl, rfl, rfl, by simp [valueOf]⟩ .nil)
    (by
      simp only [List.mem_singleton, forall_eq, ClaimTrue, polyAt_cons, polyAt_nil, smul_eq_mul]
      norm_num)
    (by simp [Consistent]) (by simp) [1] (by simp) (by norm_num) ⟨0, .point (polyAt [1, 2, 3, 4] 42), 1, 10⟩ (by simp) 11 y v 7
    (by
      simp only [List.mem_singleton, forall_eq]
      decide +kernel)
  exact ⟨p, h1, h2, g0, hp, a1, a2⟩

/-- These claims contradict each other. -/
example : Consistent (ρ := Nat) [⟨0, [1, 2, 3, 4], 1, 10⟩, ⟨0, [1, 2, 3, 4], 1, 11⟩] ∧
    ¬ Functional (ρ := Nat) (T := List Fr) [⟨0, [1, 2, 3, 4], 1, 10⟩, ⟨0, [1, 2, 3, 4], 1, 11⟩] := by
  refine ⟨by simp [Consistent], fun h => ?_⟩
  have := h ⟨0, [1, 2, 3, 4], 1, 10⟩ (by simp) ⟨0, [1, 2, 3, 4], 1, 11⟩ (by simp) rfl rfl
  exact absurd this (by decide +kernel)

/-- The same without a trusted setup: `3 + 5 X` has the value 8 at 1. -/
example : ∃ (cs : List (Claim Nat (IpaOpen.Committed (Ipa.Rep 2) (Ipa.Rep 2)))) (c : Claim Nat (IpaOpen.Committed (Ipa.Rep 2) (Ipa.Rep 2)))
    (proof : IpaOpen.OpenProof (Ipa.Rep 2)), c ∈ cs ∧ c.value = 8 ∧
      IpaOpen.accepts (plainCoords (Ipa.Rep 2)) (Ipa.Rep.params 1 2) ({ c with value := 9 } :: cs) proof 4 5 7 8 10 11 [7] = .ok true := by
  have ok : Ipa.Ok (Ipa.Rep.params 1 2) := ⟨by decide, rfl, by simp [Ipa.Rep.params]⟩
  have law := plainCoords_lawful (Ipa.Rep 2)
  obtain ⟨proof, h⟩ := C99_ipa_accepts law (Ipa.Rep.params 1 2) ok twoClaims (by simp [Consistent, twoClaims])
    (by simp [twoClaims, polyAt]; decide +kernel) (by simp [twoClaims, Ipa.Rep.params]) (by simp only [twoClaims, Ipa.Rep.params]; decide +kernel)
    (twoClaims.map fun q => ⟨q.ref, .point (commitment (Ipa.Rep.params 1 2) q.object), q.point, q.value⟩)
    (by
      rw [List.forall₂_map_right_iff, List.forall₂_same]
      exact fun _ _ => ⟨rfl, rfl, rfl, rfl⟩)
    ⟨0, .point (commitment (Ipa.Rep.params 1 2) ([3, 5], 6)), 1, 8⟩ (by simp [twoClaims]) 9
    ⟨[8, 9], 4, [(1, 2)]⟩ rfl rfl 4 5 7 8 10 11 (by simp [twoClaims]; decide +kernel) [7] rfl (by simp; decide +kernel)
  exact ⟨_, _, proof, by simp [twoClaims], rfl, h⟩

#print axioms C99_shplonk
#print axioms C99_ipa
#print axioms C99_shplonk_accepts
#print axioms C99_ipa_accepts
#print axioms C99_gwc_partial

end Verif.Props

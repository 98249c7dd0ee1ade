import Verif.Lemmas.ShplonkProver

/-! The opening made by the prover passes the final check. -/

namespace Verif.Shplonk

open Plonk Spec Finset

variable {ρ : Type} [DecidableEq ρ] {n : Nat}

theorem polyAt_smul {α G : Type} [AddCommGroup G] [Module Fr G] (l : List α) (f : α → Fr) (g : G) (y : Fr) :
    polyAt (l.map fun a => f a • g) y = polyAt (l.map f) y • g := by
  induction l with
  | nil => simp [polyAt_nil]
  | cons a l ih =>
    rw [List.map_cons, List.map_cons, polyAt_cons, polyAt_cons, ih, add_smul, smul_smul, smul_eq_mul]

theorem polyAt_mul (l : List Fr) (c y : Fr) : polyAt (l.map fun a => c * a) y = c * polyAt l y := by
  induction l with
  | nil => simp [polyAt_nil]
  | cons a l ih =>
    rw [List.map_cons, polyAt_cons, polyAt_cons, ih]
    simp only [smul_eq_mul]
    ring

theorem openFirst_ok {qs : List (Claim ρ (List Fr))} {sets : List (RotationSet (List Fr))} {sup : List Fr}
    (h : intermediateSets qs = .ok (sets, sup)) (hg : ∀ s ∈ sets, GoodSet n s) (hne : sets ≠ []) (y v : Fr) :
    ∃ hx qsx, openFirst n qs y v = .ok (hx, sets.map extended, sup) ∧ hx.length = n ∧
      (∀ x, polyAt hx x = polyAt (qsx.map fun q => polyAt q x) v) ∧
      List.Forall₂ (fun s q => ∀ x, vanishing s.points x * polyAt q x = numer y s x x) sets qsx := by
  have h1 : sets.mapM extend = .ok (sets.map extended) := by
    have hg' := hg
    clear h hne
    induction sets with
    | nil => rfl
    | cons s sets ih =>
      rw [List.mapM_cons, extend_ok (hg' s (by simp)),
        ih (fun s hs => hg s (List.mem_cons_of_mem _ hs)) (fun s hs => hg s (List.mem_cons_of_mem _ hs))]
      rfl
  have h2 : ∃ qsx, (sets.map extended).mapM (ExtendedSet.quotient n y) = .ok qsx ∧ (∀ q ∈ qsx, q.length = n) ∧
      List.Forall₂ (fun s q => ∀ x, vanishing s.points x * polyAt q x = numer y s x x) sets qsx := by
    clear h hne h1
    induction sets with
    | nil => exact ⟨[], rfl, by simp, .nil⟩
    | cons s sets ih =>
      obtain ⟨qsx, i1, i2, i3⟩ := ih (fun s hs => hg s (List.mem_cons_of_mem _ hs))
      obtain ⟨q, j1, j2, j3⟩ := quotient_ok (hg s (by simp)) y
      refine ⟨q :: qsx, ?_, ?_, .cons j3 i3⟩
      · rw [List.map_cons, List.mapM_cons, j1, i1]
        rfl
      · intro q' hq'
        rcases List.mem_cons.1 hq' with rfl | hq'
        · exact j2
        · exact i2 q' hq'
  obtain ⟨qsx, h2, h3, h4⟩ := h2
  have hqne : qsx ≠ [] := by
    rintro rfl
    exact hne (List.forall₂_nil_right_iff.1 h4)
  obtain ⟨hx, c1, c2, c3⟩ := combine_ok v qsx hqne h3
  refine ⟨hx, qsx, ?_, c2, c3, h4⟩
  unfold openFirst
  rw [h]
  simp only [bind, Except.bind]
  rw [h1]
  simp only [h2, c1]
  rfl

/-- The sum of the linearised sets. -/
def linear (sup : List Fr) (y v : Fr) (sets : List (RotationSet (List Fr))) (x u : Fr) : Fr :=
  polyAt (sets.map fun s => vanishing (diffs sup s.points) u * numer y s x u) v

theorem linear_root {sets : List (RotationSet (List Fr))} {sup : List Fr} (hn : sup.Nodup)
    (hp : ∀ s ∈ sets, s.points.Nodup) (hin : ∀ s ∈ sets, ∀ p ∈ s.points, p ∈ sup) {qsx : List (List Fr)} (y v u : Fr)
    (hf : List.Forall₂ (fun s q => ∀ x, vanishing s.points x * polyAt q x = numer y s x x) sets qsx) :
    linear sup y v sets u u = vanishing sup u * polyAt (qsx.map fun q => polyAt q u) v := by
  unfold linear
  induction hf with
  | nil => simp [polyAt_nil]
  | @cons s q sets qsx h _ ih =>
    rw [List.map_cons, List.map_cons, polyAt_cons, polyAt_cons,
      ih (fun s hs => hp s (List.mem_cons_of_mem _ hs)) (fun s hs => hin s (List.mem_cons_of_mem _ hs)), ← h u,
      ← vanishing_split sup s.points hn (hp s (by simp)) (hin s (by simp)) u]
    simp only [smul_eq_mul]
    ring

theorem openSecond_ok (checks : Bool) {s0 : RotationSet (List Fr)} {rest : List (RotationSet (List Fr))}
    {sup hx : List Fr} {qsx : List (List Fr)} (hg : ∀ s ∈ s0 :: rest, GoodSet n s) (hn : 0 < n)
    (hnd : sup.Nodup) (hin : ∀ s ∈ s0 :: rest, ∀ p ∈ s.points, p ∈ sup) (y v u : Fr) (hxl : hx.length = n)
    (hxq : ∀ x, polyAt hx x = polyAt (qsx.map fun q => polyAt q x) v)
    (hf : List.Forall₂ (fun s q => ∀ x, vanishing s.points x * polyAt q x = numer y s x x) (s0 :: rest) qsx) :
    (vanishing (diffs sup s0.points) u = 0 →
      openSecond checks ((s0 :: rest).map extended) sup hx y v u = .error .unwrap) ∧
    (vanishing (diffs sup s0.points) u ≠ 0 →
    ∃ h, openSecond checks ((s0 :: rest).map extended) sup hx y v u = .ok h ∧ h.length ≤ n ∧
      ∀ x, (x - u) * polyAt h x = (vanishing (diffs sup s0.points) u)⁻¹ *
        (linear sup y v (s0 :: rest) x u - vanishing sup u * polyAt hx x)) := by
  have h1 : ∀ sets : List (RotationSet (List Fr)), (∀ s ∈ sets, GoodSet n s) →
      ∃ cs, (sets.map extended).mapM (ExtendedSet.linearisation sup y u) = .ok cs ∧
      (∀ c ∈ cs, c.1.length = n) ∧ cs.map (·.2) = sets.map (fun s => vanishing (diffs sup s.points) u) ∧
      ∀ x, (cs.map (·.1)).map (fun p => polyAt p x) =
        sets.map fun s => vanishing (diffs sup s.points) u * numer y s x u := by
    intro sets hg
    induction sets with
    | nil => exact ⟨[], rfl, by simp, rfl, fun x => rfl⟩
    | cons s sets ih =>
      obtain ⟨cs, i1, i2, i3, i4⟩ := ih (fun s hs => hg s (List.mem_cons_of_mem _ hs))
      obtain ⟨l, j1, j2, j3⟩ := linearisation_ok (hg s (by simp)) hn sup y u
      refine ⟨(l, vanishing (diffs sup s.points) u) :: cs, ?_, ?_, ?_, fun x => ?_⟩
      · rw [List.map_cons, List.mapM_cons, j1, i1]
        rfl
      · intro c hc
        rcases List.mem_cons.1 hc with rfl | hc
        · exact j2
        · exact i2 c hc
      · rw [List.map_cons, List.map_cons, i3]
      · rw [List.map_cons, List.map_cons, List.map_cons, i4 x, j3 x]
  obtain ⟨cs, c1, c2, c3, c4⟩ := h1 _ hg
  have hne : cs.map (·.1) ≠ [] := by
    intro h0
    have := c4 0
    rw [h0] at this
    simp at this
  obtain ⟨lx, d1, d2, d3⟩ := combine_ok (n := n) v (cs.map (·.1)) hne (fun p hp => by
    obtain ⟨c, hc, rfl⟩ := List.mem_map.1 hp
    exact c2 c hc)
  obtain ⟨l, e1, e2, e3⟩ := subPoly_ok (a := lx) (b := mulPoly hx (vanishing sup u)) (by
    rw [mulPoly_length, hxl, d2])
  have hl : ∀ x, polyAt l x = linear sup y v (s0 :: rest) x u - vanishing sup u * polyAt hx x := by
    intro x
    rw [e3, d3, c4, mulPoly_at]
    rfl
  have hroot : polyAt l u = 0 := by
    rw [hl, linear_root hnd (fun s hs => (hg s hs).points) hin y v u hf, hxq, sub_self]
  obtain ⟨q, q1, q2, q3⟩ := divByVanishing_ok [u] l (by simp) (by simp only [List.length_singleton]; omega)
    (fun r hr => by rw [List.mem_singleton.1 hr]; exact hroot)
  have hz : at_ (cs.map (·.2)) 0 = .ok (vanishing (diffs sup s0.points) u) := by
    rw [c3]; rfl
  have hrun : openSecond checks ((s0 :: rest).map extended) sup hx y v u =
      if vanishing (diffs sup s0.points) u = 0 then .error .unwrap
      else .ok (mulPoly q (vanishing (diffs sup s0.points) u)⁻¹) := by
    unfold openSecond
    rw [c1]
    simp only [bind, Except.bind]
    rw [d1]
    simp only [e1]
    rw [if_neg (by rw [evalPolynomial_eq, hroot]; simp)]
    simp only [q1, hz]
    rfl
  refine ⟨fun h0 => by rw [hrun, if_pos h0], fun h0 => ⟨_, by rw [hrun, if_neg h0], ?_, fun x => ?_⟩⟩
  · rw [mulPoly_length]
    simp only [List.length_singleton] at q2
    omega
  · rw [mulPoly_at, ← hl, q3 x]
    have : vanishing [u] x = x - u := by simp [vanishing]
    rw [this]
    ring

variable {G : Type} [AddCommGroup G] [Module Fr G]

theorem setValue_eq (s : Fr) (g : G) (y u : Fr) (st : RotationSet (List Fr × Committed G))
    (h : ∀ o ∈ st.objects, valueOf o.1.2 = polyAt o.1.1 s • g) :
    setValue g y u (st.map Prod.snd) = numer y (st.map Prod.fst) s u • g := by
  unfold setValue numer
  rw [← polyAt_smul]
  congr 1
  unfold RotationSet.map
  rw [List.map_map, List.map_map]
  apply List.map_congr_left
  intro o ho
  show valueOf o.1.2 - _ • g = (polyAt o.1.1 s - _) • g
  rw [h o ho, sub_smul]

theorem rightValue_eq (s : Fr) (g : G) (sup hx : List Fr) (y v u : Fr) (s0 : RotationSet (List Fr × Committed G))
    (rest : List (RotationSet (List Fr × Committed G)))
    (h : ∀ st ∈ s0 :: rest, ∀ o ∈ st.objects, valueOf o.1.2 = polyAt o.1.1 s • g) :
    rightValue g sup y v u (polyAt hx s • g) (s0.map Prod.snd) (rest.map (RotationSet.map Prod.snd)) =
      ((vanishing (diffs sup s0.points) u)⁻¹ * linear sup y v ((s0 :: rest).map (RotationSet.map Prod.fst)) s u -
        vanishing s0.points u * polyAt hx s) • g := by
  unfold rightValue
  rw [sub_smul, smul_smul]
  congr 1
  unfold linear
  rw [← polyAt_mul, ← polyAt_smul, ← List.map_cons (f := RotationSet.map Prod.snd), List.map_map, List.map_map,
    List.map_map]
  congr 1
  apply List.map_congr_left
  intro st hst
  simp only [Function.comp]
  rw [setValue_eq s g y u st (h st hst), smul_smul]
  congr 1
  show vanishing (diffs sup st.points) u * (vanishing (diffs sup s0.points) u)⁻¹ * _ =
    (vanishing (diffs sup s0.points) u)⁻¹ * (vanishing (diffs sup st.points) u * _)
  ring

/-- Queries of both sides, in one list. -/
def joint (ps : List (Claim ρ (List Fr))) (cs : List (Claim ρ (Committed G))) :
    List (Claim ρ (List Fr × Committed G)) :=
  (ps.zip cs).map fun p => ⟨p.1.ref, (p.1.object, p.2.object), p.1.point, p.1.value⟩

omit [DecidableEq ρ] in
theorem joint_maps {s : Fr} {g : G} {ps : List (Claim ρ (List Fr))} {cs : List (Claim ρ (Committed G))}
    (h : List.Forall₂ (SameClaim s g) ps cs) :
    (joint ps cs).map (Claim.map Prod.fst) = ps ∧ (joint ps cs).map (Claim.map Prod.snd) = cs ∧
      ∀ q ∈ joint ps cs, valueOf q.object.2 = polyAt q.object.1 s • g := by
  unfold joint
  induction h with
  | nil => simp
  | @cons p c ps cs h _ ih =>
    obtain ⟨i1, i2, i3⟩ := ih
    rw [List.zip_cons_cons, List.map_cons, List.map_cons, List.map_cons, i1, i2]
    refine ⟨rfl, ?_, ?_⟩
    · congr 1
      unfold Claim.map
      rw [← h.ref, ← h.point, ← h.value]
    · intro q hq
      rcases List.mem_cons.1 hq with rfl | hq
      · exact h.commitment
      · exact i3 q hq

variable {G₂ GT : Type} [AddCommGroup G₂] [Module Fr G₂] [AddCommGroup GT] [Module Fr GT] [DecidableEq GT]

omit [DecidableEq ρ] in
theorem check_eq (pairing : G →ₗ[Fr] G₂ →ₗ[Fr] GT) (g2 : G₂) (s : Fr) (left right : List (Fr × G)) :
    check pairing g2 (s • g2) left right = .ok (decide (pairing (s • msmSum left - msmSum right) g2 = 0)) := by
  unfold check
  rw [evalMsm_eq, evalMsm_eq]
  simp only [bind, Except.bind]
  show Except.ok _ = _
  congr 2
  rw [map_smul, map_neg, map_sub, LinearMap.sub_apply, map_smul, LinearMap.smul_apply, ← sub_eq_add_neg]

/-- The whole opening. -/
theorem open_verify (checks : Bool) (pairing : G →ₗ[Fr] G₂ →ₗ[Fr] GT) (g : G) (g2 : G₂) (s : Fr)
    {ps : List (Claim ρ (List Fr))} {cs : List (Claim ρ (Committed G))} (hn : 0 < n) (hne : ps ≠ [])
    (hsame : List.Forall₂ (SameClaim s g) ps cs) (ht : ∀ q ∈ ps, ClaimTrue q) (hc : Consistent ps)
    (hl : ∀ q ∈ ps, q.object.length = n) (pts : List Fr) (hpts : ∀ q ∈ ps, q.point ∈ pts)
    (hfew : pts.length ≤ n) (y v : Fr) :
    ∃ hx sets sup, openFirst n ps y v = .ok (hx, sets, sup) ∧ hx.length = n ∧
      ∀ u, (∀ q ∈ ps, q.point ≠ u) →
        ∃ h, openSecond checks sets sup hx y v u = .ok h ∧ h.length ≤ n ∧
          accepts pairing g g2 (s • g2) cs y v (polyAt hx s • g) u (polyAt h s • g) = .ok true := by
  obtain ⟨e1, e2, e3⟩ := joint_maps hsame
  obtain ⟨jsets, sup, j1, j2⟩ := intermediateSets_ok (joint ps cs)
  have p1 := intermediateSets_map Prod.fst _ _ _ j1
  have v1 := intermediateSets_map Prod.snd _ _ _ j1
  rw [e1] at p1
  rw [e2] at v1
  obtain ⟨sets', sup', p1', p2⟩ := intermediateSets_ok ps
  rw [p1] at p1'
  obtain ⟨rfl, rfl⟩ := Prod.mk.inj (Except.ok.inj p1')
  obtain ⟨sets', sup', v1', v2⟩ := intermediateSets_ok cs
  rw [v1] at v1'
  obtain ⟨rfl, rfl⟩ := Prod.mk.inj (Except.ok.inj v1')
  have hsup : sup.length ≤ n := by
    refine le_trans ?_ hfew
    refine (p2.nodup.subperm (fun p hp => ?_)).length_le
    obtain ⟨q, hq, rfl⟩ := (p2.mem p).1 hp
    exact hpts q hq
  have hg := good_sets p2 ht hc hl hsup
  have hobj : ∀ st ∈ jsets, ∀ o ∈ st.objects, valueOf o.1.2 = polyAt o.1.1 s • g := by
    intro st hst o ho
    obtain ⟨r, hr⟩ := j2.object st hst o ho
    obtain ⟨q, hq, -, hqo⟩ := hr.object
    rw [← hqo]
    exact e3 q hq
  have hsne := sets_ne p2 hne
  obtain ⟨hx, qsx, o1, o2, o3, o4⟩ := openFirst_ok p1 hg hsne y v
  refine ⟨hx, _, sup, o1, o2, fun u hu => ?_⟩
  cases jsets with
  | nil => exact absurd rfl hsne
  | cons s0 rest =>
    rw [List.map_cons] at hg o1 o4 p2 v1 v2 ⊢
    have hz : vanishing (diffs sup s0.points) u ≠ 0 := by
      rw [Ne, vanishing_zero]
      intro hmem
      have := (List.mem_filter.1 hmem).1
      obtain ⟨q, hq, hqu⟩ := (p2.mem u).1 this
      exact hu q hq hqu
    obtain ⟨h, h1, h2, h3⟩ := (openSecond_ok checks hg hn p2.nodup p2.inside y v u o2 o3 o4).2 hz
    refine ⟨h, h1, h2, ?_⟩
    obtain ⟨left, right, w1, w2, w3⟩ := (verify_ok (g0 := g) v1 v2 y v (polyAt hx s • g) u (polyAt h s • g)).2 hz
    unfold accepts
    rw [w1]
    simp only [bind, Except.bind]
    rw [check_eq, w2, w3, rightValue_eq s g sup hx y v u s0 rest hobj]
    have hfin : s • polyAt h s • g - (((vanishing (diffs sup s0.points) u)⁻¹ *
        linear sup y v ((s0 :: rest).map (RotationSet.map Prod.fst)) s u -
        vanishing s0.points u * polyAt hx s) • g + u • polyAt h s • g) = 0 := by
      rw [smul_smul, smul_smul, ← add_smul, ← sub_smul]
      have h3' := h3 s
      rw [← List.map_cons (f := RotationSet.map Prod.fst)] at h3'
      have hsplit := vanishing_split sup s0.points p2.nodup (p2.points _ (List.mem_cons_self ..))
        (p2.inside _ (List.mem_cons_self ..)) u
      have : s * polyAt h s - ((vanishing (diffs sup s0.points) u)⁻¹ *
        linear sup y v ((s0 :: rest).map (RotationSet.map Prod.fst)) s u -
        vanishing s0.points u * polyAt hx s + u * polyAt h s) = 0 := by
        have e : s * polyAt h s = (s - u) * polyAt h s + u * polyAt h s := by ring
        rw [e, h3']
        have hd : (RotationSet.map Prod.fst s0).points = s0.points := rfl
        rw [hd] at *
        rw [← hsplit]
        field_simp
        ring
      rw [this, zero_smul]
    rw [hfin]
    simp

end Verif.Shplonk

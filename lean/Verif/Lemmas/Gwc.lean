import Verif.Model.Gwc
import Verif.Lemmas.ShplonkSound

/-! The multi-opening argument with one quotient per point. -/

namespace Verif.Gwc

open Plonk Shplonk Spec

section groups

variable {ρ T T' : Type}

/-- What the groups are: the queries of each point. -/
structure GroupsOk (qs : List (Claim ρ T)) (gs : List (Fr × List (Claim ρ T))) : Prop where
  nonempty : ∀ e ∈ gs, e.2 ≠ []
  point : ∀ e ∈ gs, ∀ q ∈ e.2, q.point = e.1
  mem : ∀ q, q ∈ qs ↔ ∃ e ∈ gs, q ∈ e.2
  nodup : (gs.map (·.1)).Nodup
  count : (gs.map fun e => e.2.length).sum = qs.length

theorem addQuery_mem (q : Claim ρ T) (gs : List (Fr × List (Claim ρ T))) :
    (∀ x, (∃ e ∈ addQuery q gs, x ∈ e.2) ↔ (∃ e ∈ gs, x ∈ e.2) ∨ x = q) ∧
    ((∀ e ∈ gs, e.2 ≠ []) → ∀ e ∈ addQuery q gs, e.2 ≠ []) ∧
    ((∀ e ∈ gs, ∀ x ∈ e.2, x.point = e.1) → ∀ e ∈ addQuery q gs, ∀ x ∈ e.2, x.point = e.1) ∧
    (∀ z, z ∈ (addQuery q gs).map (·.1) ↔ z ∈ gs.map (·.1) ∨ z = q.point) ∧
    ((gs.map (·.1)).Nodup → ((addQuery q gs).map (·.1)).Nodup) ∧
    ((addQuery q gs).map fun e => e.2.length).sum = (gs.map fun e => e.2.length).sum + 1 := by
  induction gs with
  | nil => simp [addQuery]
  | cons e es ih =>
    obtain ⟨h1, h2, h3, h4, h5, h6⟩ := ih
    unfold addQuery
    split
    · rename_i he
      refine ⟨fun x => ?_, fun h => ?_, fun h => ?_, fun z => ?_, fun h => ?_, ?_⟩
      · simp only [List.mem_cons, exists_eq_or_imp, List.mem_append, List.not_mem_nil, or_false]
        exact or_right_comm
      · intro e' he'
        rcases List.mem_cons.1 he' with rfl | he'
        · simp
        · exact h e' (by simp [he'])
      · intro e' he' x hx
        rcases List.mem_cons.1 he' with rfl | he'
        · dsimp only at hx ⊢
          rcases List.mem_append.1 hx with hx | hx
          · exact h e (by simp) x hx
          · rw [List.mem_singleton.1 hx, he]
        · exact h e' (by simp [he']) x hx
      · simp only [List.map_cons, List.mem_cons]
        rw [← he]
        tauto
      · simpa using h
      · simp
        omega
    · rename_i he
      refine ⟨fun x => ?_, fun h => ?_, fun h => ?_, fun z => ?_, fun h => ?_, ?_⟩
      · have := h1 x
        simp only [List.mem_cons, exists_eq_or_imp] at this ⊢
        rw [this]
        exact or_assoc.symm
      · intro e' he'
        rcases List.mem_cons.1 he' with rfl | he'
        · exact h _ (by simp)
        · exact h2 (fun e he => h e (by simp [he])) e' he'
      · intro e' he'
        rcases List.mem_cons.1 he' with rfl | he'
        · exact h _ (by simp)
        · exact h3 (fun e he => h e (by simp [he])) e' he'
      · rw [List.map_cons, List.mem_cons, h4, List.map_cons, List.mem_cons, or_assoc]
      · rw [List.map_cons, List.nodup_cons] at h ⊢
        refine ⟨?_, h5 h.2⟩
        rw [h4]
        rintro (h' | h')
        · exact h.1 h'
        · exact he h'
      · simp only [List.map_cons, List.sum_cons, h6]
        omega

theorem groups_ok (qs : List (Claim ρ T)) : GroupsOk qs (groups qs) := by
  have : ∀ (qs done : List (Claim ρ T)) (gs : List (Fr × List (Claim ρ T))), GroupsOk done gs →
      GroupsOk (done ++ qs) (qs.foldl (fun m q => addQuery q m) gs) := by
    intro qs
    induction qs with
    | nil => intro done gs h; simpa using h
    | cons q qs ih =>
      intro done gs h
      obtain ⟨h1, h2, h3, -, h5, h6⟩ := addQuery_mem q gs
      have := ih (done ++ [q]) (addQuery q gs) ⟨h2 h.nonempty, h3 h.point, fun x => by
        rw [h1, ← h.mem, List.mem_append, List.mem_singleton], h5 h.nodup, by rw [h6, h.count]; simp⟩
      rwa [List.append_assoc] at this
  exact this qs [] [] ⟨by simp, by simp, by simp, by simp, by simp⟩

/-- There are as many groups as points. -/
theorem groups_length (qs : List (Claim ρ T)) : (groups qs).length = (qs.map (·.point)).dedup.length := by
  have hg := groups_ok qs
  have : ((groups qs).map (·.1)).Perm (qs.map (·.point)).dedup := by
    rw [List.perm_ext_iff_of_nodup hg.nodup (List.nodup_dedup _)]
    intro z
    rw [List.mem_dedup, List.mem_map, List.mem_map]
    constructor
    · rintro ⟨e, he, rfl⟩
      obtain ⟨q, hq⟩ := List.exists_mem_of_ne_nil _ (hg.nonempty e he)
      exact ⟨q, (hg.mem q).2 ⟨e, he, hq⟩, hg.point e he q hq⟩
    · rintro ⟨q, hq, rfl⟩
      obtain ⟨e, he, hqe⟩ := (hg.mem q).1 hq
      exact ⟨e, he, (hg.point e he q hqe).symm⟩
  rw [← this.length_eq, List.length_map]

/-- Claims about the same things are grouped alike. -/
theorem groups_same {R : Claim ρ T → Claim ρ T' → Prop} (hR : ∀ a b, R a b → b.point = a.point)
    {ps : List (Claim ρ T)} {cs : List (Claim ρ T')} (h : List.Forall₂ R ps cs) :
    List.Forall₂ (fun a b => b.1 = a.1 ∧ List.Forall₂ R a.2 b.2) (groups ps) (groups cs) := by
  have add : ∀ (p : Claim ρ T) (c : Claim ρ T'), R p c → ∀ a b,
      List.Forall₂ (fun (a : Fr × List (Claim ρ T)) (b : Fr × List (Claim ρ T')) => b.1 = a.1 ∧ List.Forall₂ R a.2 b.2) a b →
      List.Forall₂ (fun a b => b.1 = a.1 ∧ List.Forall₂ R a.2 b.2) (addQuery p a) (addQuery c b) := by
    intro p c hpc a b hab
    induction hab with
    | nil => exact .cons ⟨hR p c hpc, .cons hpc .nil⟩ .nil
    | cons h1 h2 ih =>
      unfold addQuery
      rw [h1.1, hR p c hpc]
      split
      · exact .cons ⟨rfl, List.rel_append h1.2 (.cons hpc .nil)⟩ h2
      · exact .cons h1 ih
  have : ∀ a b, List.Forall₂ (fun (a : Fr × List (Claim ρ T)) (b : Fr × List (Claim ρ T')) =>
      b.1 = a.1 ∧ List.Forall₂ R a.2 b.2) a b →
      List.Forall₂ (fun a b => b.1 = a.1 ∧ List.Forall₂ R a.2 b.2) (ps.foldl (fun m q => addQuery q m) a)
        (cs.foldl (fun m q => addQuery q m) b) := by
    induction h with
    | nil => intro a b hab; exact hab
    | cons h1 h2 ih => intro a b hab; exact ih _ _ (add _ _ h1 _ _ hab)
  exact this [] [] .nil

end groups

section verifier

variable {ρ G : Type} [AddCommGroup G] [Module Fr G]

theorem mapM_map {α β : Type} {f : α → Except Panic β} {g : α → β} {l : List α} (h : ∀ a ∈ l, f a = .ok (g a)) :
    l.mapM f = .ok (l.map g) := by
  induction l with
  | nil => rfl
  | cons a l ih =>
    rw [List.mapM_cons, h a (by simp), ih fun b hb => h b (by simp [hb])]
    rfl

/-- The sum for one point. -/
theorem batch_value (g0 : G) (v z : Fr) (qs : List (Claim ρ (Committed G))) (hne : qs ≠ []) (hz : ∀ q ∈ qs, q.point = z) :
    ∃ terms batch, (withPowers v qs).mapM (term z) = .ok terms ∧
      reduce (fun (a b : List (Fr × G) × Fr) => (a.1 ++ b.1, a.2 + b.2)) terms = .ok batch ∧
      msmSum batch.1 - batch.2 • g0 = polyAt (qs.map fun q => valueOf q.object - q.value • g0) v := by
  let f : Claim ρ (Committed G) × Fr → List (Fr × G) × Fr := fun c =>
    (match c.1.object with
      | .point p => [(c.2, p)]
      | .msm ts => scale ts c.2, c.2 * c.1.value)
  have hf : ∀ c, msmSum (f c).1 - (f c).2 • g0 = c.2 • (valueOf c.1.object - c.1.value • g0) := by
    intro c
    have : msmSum (f c).1 = c.2 • valueOf c.1.object := by
      obtain ⟨⟨r, o, p, w⟩, d⟩ := c
      cases o with
      | point p => simp [f, msmSum, valueOf]
      | msm ts => exact msmSum_scale ts d
    rw [this, smul_sub, smul_smul]
  have hred : ∀ (l : List (List (Fr × G) × Fr)) (a : List (Fr × G) × Fr),
      msmSum (l.foldl (fun (a b : List (Fr × G) × Fr) => (a.1 ++ b.1, a.2 + b.2)) a).1 -
        (l.foldl (fun (a b : List (Fr × G) × Fr) => (a.1 ++ b.1, a.2 + b.2)) a).2 • g0 =
      (msmSum a.1 - a.2 • g0) + (l.map fun t => msmSum t.1 - t.2 • g0).sum := by
    intro l
    induction l with
    | nil => intro a; simp
    | cons t l ih =>
      intro a
      rw [List.foldl_cons, ih, List.map_cons, List.sum_cons, msmSum_append, add_smul]
      abel
  have hsum : ((withPowers v qs).map fun c => msmSum (f c).1 - (f c).2 • g0).sum =
      polyAt (qs.map fun q => valueOf q.object - q.value • g0) v := by
    have := powers_sum v (fun q : Claim ρ (Committed G) => valueOf q.object - q.value • g0) qs 0
    rw [pow_zero, one_smul] at this
    rw [← this]
    unfold withPowers
    rw [List.map_map]
    congr 1
    apply List.map_congr_left
    intro p _
    exact hf _
  have hm : (withPowers v qs).mapM (term z) = .ok ((withPowers v qs).map f) := by
    refine mapM_map fun c hc => ?_
    unfold withPowers at hc
    obtain ⟨p, hp, rfl⟩ := List.mem_map.1 hc
    unfold term
    rw [if_neg (not_not.2 (hz _ (List.fst_mem_of_mem_zipIdx hp)))]
    rfl
  refine ⟨(withPowers v qs).map f, ?_⟩
  cases hw : (withPowers v qs).map f with
  | nil =>
    exfalso
    apply hne
    simpa [withPowers] using hw
  | cons t ts =>
    refine ⟨_, by rw [hm, hw], rfl, ?_⟩
    rw [hred, ← hsum, ← List.sum_cons]
    rw [show (fun c => msmSum (f c).1 - (f c).2 • g0) = (fun t : List (Fr × G) × Fr => msmSum t.1 - t.2 • g0) ∘ f from rfl,
      ← List.map_map, hw, List.map_cons]

/-- What the verifier computes. -/
theorem verify_value (g0 : G) (cs : List (Claim ρ (Committed G))) (v : Fr) (ws : List G) (u : Fr) :
    ∃ left right, verify g0 cs v ws u = .ok (left, right) ∧
      msmSum left = polyAt (((groups cs).zip ws).map fun p => p.2) u ∧
      msmSum right = polyAt (((groups cs).zip ws).map fun p =>
        p.1.1 • p.2 + polyAt (p.1.2.map fun q => valueOf q.object - q.value • g0) v) u := by
  have hg := groups_ok cs
  have loop : ∀ (l : List ((Fr × List (Claim ρ (Committed G))) × G)) (k : Nat) (s : Sums G),
      (∀ p ∈ l, p.1.2 ≠ [] ∧ ∀ q ∈ p.1.2, q.point = p.1.1) →
      ∃ s', ((l.zipIdx k).map fun (p : ((Fr × List (Claim ρ (Committed G))) × G) × Nat) => (p.1, u ^ p.2)).foldlM (step v) s = .ok s' ∧
        msmSum s'.witness = msmSum s.witness + u ^ k • polyAt (l.map fun p => p.2) u ∧
        msmSum s'.aux + msmSum s'.commitment - s'.eval • g0 = msmSum s.aux + msmSum s.commitment - s.eval • g0 +
          u ^ k • polyAt (l.map fun p => p.1.1 • p.2 + polyAt (p.1.2.map fun q => valueOf q.object - q.value • g0) v) u := by
    intro l
    induction l with
    | nil => intro k s _; exact ⟨s, rfl, by simp [polyAt_nil], by simp [polyAt_nil]⟩
    | cons p l ih =>
      intro k s h
      obtain ⟨hne, hz⟩ := h p (by simp)
      obtain ⟨terms, batch, b1, b2, b3⟩ := batch_value g0 v p.1.1 p.1.2 hne hz
      obtain ⟨s', h1, h2, h3⟩ := ih (k + 1) ⟨s.commitment ++ scale batch.1 (u ^ k), s.eval + u ^ k * batch.2,
        s.aux ++ [(u ^ k * p.1.1, p.2)], s.witness ++ [(u ^ k, p.2)]⟩ fun p hp => h p (by simp [hp])
      refine ⟨s', ?_, ?_, ?_⟩
      · rw [List.zipIdx_cons, List.map_cons, List.foldlM_cons]
        have : step v s (p, u ^ k) = .ok ⟨s.commitment ++ scale batch.1 (u ^ k), s.eval + u ^ k * batch.2,
            s.aux ++ [(u ^ k * p.1.1, p.2)], s.witness ++ [(u ^ k, p.2)]⟩ := by
          unfold step
          dsimp only
          rw [if_neg hne, b1]
          show (reduce _ terms >>= _) = _
          rw [b2]
          rfl
        rw [this]
        exact h1
      · rw [h2, msmSum_append, List.map_cons, polyAt_cons, smul_add, smul_smul, pow_succ]
        simp [msmSum]
        abel
      · rw [h3, msmSum_append, msmSum_append, msmSum_scale, List.map_cons, polyAt_cons, ← b3, smul_add, smul_smul, pow_succ,
          add_smul]
        simp only [msmSum, List.map_cons, List.map_nil, List.sum_cons, List.sum_nil, add_zero, smul_add, smul_sub, smul_smul]
        abel
  obtain ⟨s', h1, h2, h3⟩ := loop ((groups cs).zip ws) 0 {} fun p hp => by
    have := (List.of_mem_zip hp).1
    exact ⟨hg.nonempty _ this, hg.point _ this⟩
  refine ⟨s'.witness, s'.aux ++ s'.commitment ++ [(s'.eval, -g0)], ?_, ?_, ?_⟩
  · unfold verify withPowers
    rw [h1]
    rfl
  · rw [h2]
    simp [msmSum]
  · rw [msmSum_append, msmSum_append]
    have e : msmSum [(s'.eval, -g0)] = -(s'.eval • g0) := by simp [msmSum]
    rw [e, ← sub_eq_add_neg, h3]
    simp [msmSum]

end verifier

section scheme

variable {ρ G G₂ GT : Type} [AddCommGroup G] [Module Fr G]
variable [AddCommGroup G₂] [Module Fr G₂] [AddCommGroup GT] [Module Fr GT] [DecidableEq GT]

/-- What must vanish, for a point of the secret. -/
def defect (v : Fr) (s : Fr) (p : (Fr × List (Claim ρ (List Fr))) × List Fr) : Fr :=
  (s - p.1.1) * polyAt p.2 s - polyAt (p.1.2.map fun q => polyAt q.object s - q.value) v

theorem polyAt_smul (l : List Fr) (g : G) (x : Fr) : polyAt (l.map fun a => a • g) x = polyAt l x • g := by
  induction l with
  | nil => simp [polyAt_nil]
  | cons a l ih => rw [List.map_cons, polyAt_cons, polyAt_cons, ih, add_smul, smul_smul, smul_eq_mul]

theorem polyAt_sub {M : Type} [AddCommGroup M] [Module Fr M] {α : Type} (l : List α) (a b : α → M) (x : Fr) :
    polyAt (l.map fun i => a i - b i) x = polyAt (l.map a) x - polyAt (l.map b) x := by
  induction l with
  | nil => simp [polyAt_nil]
  | cons i l ih => rw [List.map_cons, List.map_cons, List.map_cons, polyAt_cons, polyAt_cons, polyAt_cons, ih, smul_sub]; abel

theorem polyAt_smul_left {M : Type} [AddCommGroup M] [Module Fr M] {α : Type} (l : List α) (a : α → M) (s x : Fr) :
    polyAt (l.map fun i => s • a i) x = s • polyAt (l.map a) x := by
  induction l with
  | nil => simp [polyAt_nil]
  | cons i l ih => rw [List.map_cons, List.map_cons, polyAt_cons, polyAt_cons, ih, smul_add, smul_comm]

/-- What acceptance says about the polynomials. -/
theorem accepts_value (pairing : G →ₗ[Fr] G₂ →ₗ[Fr] GT) (g : G) (g2 : G₂) (s : Fr)
    {ps : List (Claim ρ (List Fr))} {cs : List (Claim ρ (Committed G))} (hsame : List.Forall₂ (SameClaim s g) ps cs)
    (v : Fr) (ws : List (List Fr)) (u : Fr) :
    accepts pairing g g2 (s • g2) cs v (ws.map fun w => polyAt w s • g) u =
      .ok (decide (pairing (polyAt (((groups ps).zip ws).map (defect v s)) u • g) g2 = 0)) := by
  obtain ⟨left, right, h1, h2, h3⟩ := verify_value g cs v (ws.map fun w => polyAt w s • g) u
  unfold accepts
  rw [h1]
  show check pairing g2 (s • g2) left right = _
  rw [check_eq, h2, h3, ← polyAt_smul_left, ← polyAt_sub, ← polyAt_smul]
  congr 6
  have hg := groups_same (R := SameClaim s g) (fun a b h => h.point) hsame
  generalize groups ps = gs at hg
  generalize groups cs = gs' at hg
  clear h1 h2 h3
  induction hg generalizing ws with
  | nil => simp
  | cons a b ih =>
    cases ws with
    | nil => simp
    | cons w ws =>
      rename_i p c gs gs'
      rw [List.map_cons, List.zip_cons_cons, List.zip_cons_cons, List.map_cons, List.map_cons, List.map_cons, ih]
      congr 1
      unfold defect
      dsimp only
      have : polyAt (c.2.map fun q => valueOf q.object - q.value • g) v =
          polyAt (p.2.map fun q => polyAt q.object s - q.value) v • g := by
        rw [← polyAt_smul, List.map_map]
        congr 1
        have := a.2
        generalize p.2 = x at this
        generalize c.2 = y at this
        induction this with
        | nil => rfl
        | cons d e ih =>
          rw [List.map_cons, List.map_cons, ih, d.commitment, d.value]
          simp only [Function.comp, sub_smul]
      rw [this, a.1, smul_smul, smul_smul, sub_smul, sub_mul, sub_smul]
      abel

/-- The polynomial for a point. -/
theorem openAt_ok {n : Nat} (hn : 0 < n) (v : Fr) (e : Fr × List (Claim ρ (List Fr))) (hne : e.2 ≠ [])
    (hz : ∀ q ∈ e.2, q.point = e.1) (hl : ∀ q ∈ e.2, q.object.length = n) (ht : ∀ q ∈ e.2, ClaimTrue q) :
    ∃ w, openAt v e = .ok w ∧ w.length + 1 = n ∧ ∀ s, defect v s (e, w) = 0 := by
  let f : Claim ρ (List Fr) × Fr → List Fr × Fr := fun q => (mulPoly q.1.object q.2, polyAt q.1.object q.1.point * q.2)
  have hmem : ∀ q ∈ withPowers v e.2, q.1 ∈ e.2 := by
    intro q hq
    unfold withPowers at hq
    obtain ⟨p, hp, rfl⟩ := List.mem_map.1 hq
    exact List.fst_mem_of_mem_zipIdx hp
  have hm : ((withPowers v e.2).mapM fun (q : Claim ρ (List Fr) × Fr) =>
      if q.1.point ≠ e.1 then Except.error Panic.assert
      else .ok (mulPoly q.1.object q.2, evalPolynomial q.1.object q.1.point * q.2)) = .ok ((withPowers v e.2).map f) := by
    refine mapM_map fun q hq => ?_
    rw [if_neg (not_not.2 (hz _ (hmem q hq))), evalPolynomial_eq]
  have hred : ∀ (l : List (List Fr × Fr)) (a : List Fr × Fr), a.1.length = n → (∀ t ∈ l, t.1.length = n) →
      ∃ r, l.foldlM (fun (a b : List Fr × Fr) => do return (← addPoly a.1 b.1, a.2 + b.2)) a = Except.ok r ∧
        r.1.length = n ∧ ∀ s, polyAt r.1 s - r.2 = (polyAt a.1 s - a.2) + (l.map fun t => polyAt t.1 s - t.2).sum := by
    intro l
    induction l with
    | nil => intro a h _; exact ⟨a, rfl, h, by simp⟩
    | cons t l ih =>
      intro a h h'
      obtain ⟨c, c1, c2, c3⟩ := addPoly_ok (a := a.1) (b := t.1) (by rw [h, h' t (by simp)])
      obtain ⟨r, r1, r2, r3⟩ := ih (c, a.2 + t.2) (by rw [c2, h]) fun t ht => h' t (by simp [ht])
      refine ⟨r, ?_, r2, fun s => ?_⟩
      · rw [List.foldlM_cons, c1]
        exact r1
      · rw [r3, List.map_cons, List.sum_cons, c3]
        ring
  have hsum : ∀ s, (((withPowers v e.2).map f).map fun t => polyAt t.1 s - t.2).sum =
      polyAt (e.2.map fun q => polyAt q.object s - polyAt q.object q.point) v := by
    intro s
    have := powers_sum v (fun q : Claim ρ (List Fr) => polyAt q.object s - polyAt q.object q.point) e.2 0
    rw [pow_zero, one_smul] at this
    rw [← this]
    unfold withPowers
    rw [List.map_map, List.map_map]
    congr 1
    apply List.map_congr_left
    intro p _
    simp only [Function.comp, f, mulPoly_at, smul_eq_mul]
    ring
  cases hw : (withPowers v e.2).map f with
  | nil =>
    exfalso
    apply hne
    simpa [withPowers] using hw
  | cons t ts =>
    have hlen : ∀ x ∈ t :: ts, x.1.length = n := by
      rw [← hw]
      intro x hx
      obtain ⟨q, hq, rfl⟩ := List.mem_map.1 hx
      rw [mulPoly_length]
      exact hl _ (hmem q hq)
    obtain ⟨r, r1, r2, r3⟩ := hred ts t (hlen t (by simp)) fun x hx => hlen x (by simp [hx])
    obtain ⟨c, c1, c2, c3⟩ := subConst_ok (a := r.1) r.2 (by rintro h; rw [h] at r2; simp at r2; omega)
    obtain ⟨w, w1, w2, w3⟩ := kateDivision_spec c e.1 (by rintro h; rw [h, r2] at c2; simp at c2; omega)
    refine ⟨w, ?_, by omega, fun s => ?_⟩
    · unfold openAt
      rw [hm, hw]
      show ((ts.foldlM (fun (a b : List Fr × Fr) => do return (← addPoly a.1 b.1, a.2 + b.2)) t : Except Panic _) >>= _) = _
      rw [r1]
      show (subConst r.1 r.2 >>= _) = _
      rw [c1]
      exact w1
    · have hc : ∀ x, polyAt c x = polyAt (e.2.map fun q => polyAt q.object x - polyAt q.object q.point) v := by
        intro x
        rw [c3, r3, ← hsum, hw, List.map_cons, List.sum_cons]
      have h0 : polyAt c e.1 = 0 := by
        rw [hc]
        have : (e.2.map fun q => polyAt q.object e.1 - polyAt q.object q.point) = e.2.map fun _ => (0 : Fr) := by
          apply List.map_congr_left
          intro q hq
          rw [hz q hq, sub_self]
        rw [this, polyAt_map_zero _ _ _ fun _ _ => rfl]
      have := w3 s
      rw [h0, add_zero, hc] at this
      unfold defect
      dsimp only
      rw [← this, sub_eq_zero]
      congr 1
      apply List.map_congr_left
      intro q hq
      rw [ht q hq]

open Polynomial in
/-- The same as a polynomial. -/
noncomputable def defectPoly (v : Fr) (p : (Fr × List (Claim ρ (List Fr))) × List Fr) : Fr[X] :=
  (X - C p.1.1) * toPoly p.2 - polyAt (p.1.2.map fun q => toPoly q.object - C q.value) v

open Polynomial in
theorem defectPoly_eval (v s : Fr) (p : (Fr × List (Claim ρ (List Fr))) × List Fr) :
    (defectPoly v p).eval s = defect v s p := by
  unfold defectPoly defect
  rw [eval_sub, eval_mul, polyAt_eval, toPoly_eval]
  simp [toPoly_eval]

open Polynomial in
theorem defectPoly_degree (v : Fr) (p : (Fr × List (Claim ρ (List Fr))) × List Fr) {N : Nat} (hw : p.2.length ≤ N)
    (hl : ∀ q ∈ p.1.2, q.object.length ≤ N) : (defectPoly v p).natDegree ≤ N := by
  unfold defectPoly
  refine sub_degree ?_ (polyAt_natDegree _ _ _ fun q hq => sub_degree (toPoly_degree _ (by have := hl q hq; omega)) ?_)
  · by_cases h0 : p.2 = []
    · rw [h0]
      simp [toPoly]
    · have hpos : 0 < p.2.length := List.length_pos_iff.2 h0
      refine le_trans natDegree_mul_le ?_
      rw [natDegree_X_sub_C]
      have := toPoly_degree p.2 (D := N - 1) (by omega)
      omega
  · rw [natDegree_C]
    omega

open Polynomial in
/-- The coefficients of a combination. -/
theorem polyAt_coeff {α : Type} (l : List α) (f : α → Fr[X]) (u : Fr) (k : Nat) :
    (polyAt (l.map f) u).coeff k = polyAt (l.map fun a => (f a).coeff k) u := by
  induction l with
  | nil => simp [polyAt_nil]
  | cons a l ih => rw [List.map_cons, List.map_cons, polyAt_cons, polyAt_cons, coeff_add, coeff_smul, ih]

theorem sum_le {α : Type} (l : List α) (f : α → Nat) (h : ∀ a ∈ l, 0 < f a) : l.length ≤ (l.map f).sum := by
  induction l with
  | nil => simp
  | cons a l ih =>
    have h1 := ih fun b hb => h b (by simp [hb])
    have h2 := h a (by simp)
    rw [List.length_cons, List.map_cons, List.sum_cons]
    omega

open Polynomial in
/-- The whole argument. -/
theorem sound {ps : List (Claim ρ (List Fr))} (hfalse : ∃ q ∈ ps, ¬ ClaimTrue q) {N : Nat}
    (hl : ∀ q ∈ ps, q.object.length ≤ N) (ws : Fr → List (List Fr)) (hw : ∀ v, (ws v).length = (groups ps).length)
    (hlw : ∀ v, ∀ w ∈ ws v, w.length ≤ N) :
    ∃ (Bv : Finset Fr) (Bu : Fr → Finset Fr) (Bs : Fr → Fr → Finset Fr),
      Bv.card < ps.length ∧ (∀ v, (Bu v).card < (groups ps).length) ∧ (∀ v u, (Bs v u).card ≤ N) ∧
      ∀ v u s, ∀ (pairing : G →ₗ[Fr] G₂ →ₗ[Fr] GT) (g : G) (g2 : G₂), pairing g g2 ≠ 0 →
        ∀ cs : List (Claim ρ (Committed G)), List.Forall₂ (SameClaim s g) ps cs →
        accepts pairing g g2 (s • g2) cs v ((ws v).map fun w => polyAt w s • g) u = .ok true →
        v ∈ Bv ∨ u ∈ Bu v ∨ s ∈ Bs v u := by
  classical
  obtain ⟨q, hq, hqf⟩ := hfalse
  have hg := groups_ok ps
  obtain ⟨e, he, hqe⟩ := (hg.mem q).1 hq
  have hpos : 0 < (groups ps).length := List.length_pos_of_mem he
  have hepos : 0 < e.2.length := List.length_pos_of_mem hqe
  have hele : e.2.length ≤ ps.length := by
    rw [← hg.count]
    exact List.single_le_sum (by simp) _ (List.mem_map_of_mem (f := fun e => e.2.length) he)
  obtain ⟨i, hi, hie⟩ := List.mem_iff_getElem.1 he
  let D : Fr → List Fr[X] := fun v => ((groups ps).zip (ws v)).map (defectPoly v)
  have hDlen : ∀ v, (D v).length = (groups ps).length := by
    intro v
    simp only [D, List.length_map, List.length_zip, hw v, min_self]
  -- a coefficient that is not zero
  let c : Fr → Nat := fun v => ((D v).getD i 0).natDegree
  refine ⟨rootsOf (toPoly (e.2.map fun q => polyAt q.object e.1 - q.value)),
    fun v => rootsOf (toPoly ((D v).map fun d => d.coeff (c v))), fun v u => rootsOf (polyAt (D v) u), ?_, ?_, ?_, ?_⟩
  · have := rootsOf_card (toPoly (e.2.map fun q => polyAt q.object e.1 - q.value))
      (toPoly_degree _ (D := e.2.length - 1) (by rw [List.length_map]; omega))
    omega
  · intro v
    have := rootsOf_card (toPoly ((D v).map fun d => d.coeff (c v)))
      (toPoly_degree _ (D := (groups ps).length - 1) (by rw [List.length_map, hDlen]; omega))
    dsimp only
    omega
  · intro v u
    refine rootsOf_card _ (polyAt_natDegree _ _ _ fun p hp => ?_)
    obtain ⟨h1, h2⟩ := List.of_mem_zip hp
    exact defectPoly_degree v p (hlw v _ h2) fun q hq => hl q ((hg.mem q).2 ⟨_, h1, hq⟩)
  · intro v u s pairing g g2 hpair cs hsame ha
    rw [accepts_value pairing g g2 s hsame] at ha
    have ha := of_decide_eq_true (Except.ok.inj ha)
    rw [map_smul, LinearMap.smul_apply] at ha
    have hzero := (smul_eq_zero.1 ha).resolve_right hpair
    have heval : (polyAt (D v) u).eval s = 0 := by
      rw [← hzero]
      simp only [D]
      rw [polyAt_eval]
      congr 1
      apply List.map_congr_left
      intro p _
      exact defectPoly_eval v s p
    by_cases hv : v ∈ rootsOf (toPoly (e.2.map fun q => polyAt q.object e.1 - q.value))
    · exact .inl hv
    right
    have hne : (D v).getD i 0 ≠ 0 := by
      intro h0
      apply hv
      refine mem_rootsOf' (toPoly_ne_zero (a := polyAt q.object e.1 - q.value) (List.mem_map.2 ⟨q, hqe, rfl⟩) ?_) ?_
      · rw [sub_ne_zero, ← hg.point e he q hqe]
        intro h
        exact hqf h.symm
      · have hi' : i < (D v).length := by rw [hDlen]; exact hi
        rw [List.getD_eq_getElem?_getD, List.getElem?_eq_getElem hi', Option.getD_some] at h0
        simp only [D, List.getElem_map, List.getElem_zip] at h0
        have := congrArg (Polynomial.eval e.1) h0
        rw [defectPoly_eval, eval_zero] at this
        unfold defect at this
        rw [hie, sub_self, zero_mul, zero_sub, neg_eq_zero] at this
        rw [toPoly_eval]
        exact this
    by_cases hu : u ∈ rootsOf (toPoly ((D v).map fun d => d.coeff (c v)))
    · exact .inl hu
    right
    refine mem_rootsOf' (fun h0 => hu ?_) heval
    have hi' : i < (D v).length := by rw [hDlen]; exact hi
    refine mem_rootsOf' (toPoly_ne_zero (a := ((D v).getD i 0).coeff (c v)) ?_ ?_) ?_
    · refine List.mem_map.2 ⟨_, ?_, rfl⟩
      rw [List.getD_eq_getElem?_getD, List.getElem?_eq_getElem hi', Option.getD_some]
      exact List.getElem_mem hi'
    · exact leadingCoeff_ne_zero.2 hne
    · have := polyAt_coeff (D v) (fun d => d) u (c v)
      rw [List.map_id', h0, coeff_zero] at this
      rw [toPoly_eval]
      exact this.symm

end scheme

end Verif.Gwc

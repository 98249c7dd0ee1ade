import Verif.Model.Shplonk
import Verif.Lemmas.KzgLemmas
import Verif.Lemmas.CompressCS

/-! The sets of queries. -/

namespace Verif.Shplonk

open Plonk

theorem mem_insertPoint (x y : Fr) : ∀ l : List Fr, y ∈ insertPoint x l ↔ y = x ∨ y ∈ l
  | [] => by simp [insertPoint]
  | p :: ps => by
    unfold insertPoint
    split
    · next h => subst h; simp
    · split
      · simp
      · rw [List.mem_cons, mem_insertPoint x y ps, List.mem_cons]
        tauto

theorem nodup_insertPoint (x : Fr) : ∀ l : List Fr, l.Pairwise (fun a b => a.val < b.val) →
    (insertPoint x l).Pairwise (fun a b => a.val < b.val)
  | [], _ => by simp [insertPoint]
  | p :: ps, h => by
    have hc := List.pairwise_cons.1 h
    unfold insertPoint
    split
    · exact h
    · next hne =>
      split
      · next hlt =>
        refine List.pairwise_cons.2 ⟨?_, h⟩
        intro a ha
        rcases List.mem_cons.1 ha with rfl | ha
        · exact hlt
        · exact lt_trans hlt (hc.1 a ha)
      · next hge =>
        refine List.pairwise_cons.2 ⟨?_, nodup_insertPoint x ps hc.2⟩
        intro a ha
        rcases (mem_insertPoint x a ps).1 ha with rfl | ha
        · refine lt_of_le_of_ne (not_lt.1 hge) (fun he => hne ?_)
          exact (ZMod.val_injective P he).symm
        · exact hc.1 a ha

theorem sorted_nodup {l : List Fr} (h : l.Pairwise (fun a b => a.val < b.val)) : l.Nodup :=
  h.imp (fun hab he => by rw [he] at hab; exact absurd hab (lt_irrefl _))

theorem insertPoint_ne_nil (x : Fr) (l : List Fr) : insertPoint x l ≠ [] := by
  intro h
  have := (mem_insertPoint x x l).2 (Or.inl rfl)
  rw [h] at this
  simp at this

variable {ρ T : Type} [DecidableEq ρ]

omit [DecidableEq ρ] in
theorem super_spec (qs : List (Claim ρ T)) (l : List Fr) (hl : l.Pairwise (fun a b => a.val < b.val)) :
    (qs.foldl (fun s q => insertPoint q.point s) l).Pairwise (fun a b => a.val < b.val) ∧
    ∀ p, p ∈ qs.foldl (fun s q => insertPoint q.point s) l ↔ p ∈ l ∨ ∃ q ∈ qs, q.point = p := by
  induction qs generalizing l with
  | nil => simp [hl]
  | cons q qs ih =>
    obtain ⟨h1, h2⟩ := ih (insertPoint q.point l) (nodup_insertPoint _ _ hl)
    refine ⟨h1, fun p => ?_⟩
    rw [List.foldl_cons, h2, mem_insertPoint]
    simp only [List.mem_cons, exists_eq_or_imp]
    constructor
    · rintro ((h | h) | h)
      · exact Or.inr (Or.inl h.symm)
      · exact Or.inl h
      · exact Or.inr (Or.inr h)
    · rintro (h | h | h)
      · exact Or.inl (Or.inr h)
      · exact Or.inl (Or.inl h.symm)
      · exact Or.inr h

/-- An entry of the map from objects to points, once the queries are handled. -/
structure EntryOk (qs : List (Claim ρ T)) (e : ρ × T × List Fr) : Prop where
  sorted : e.2.2.Pairwise (fun a b => a.val < b.val)
  ne : e.2.2 ≠ []
  object : ∃ q ∈ qs, q.ref = e.1 ∧ q.object = e.2.1
  points : ∀ p ∈ e.2.2, ∃ q ∈ qs, q.ref = e.1 ∧ q.point = p

omit [DecidableEq ρ] in
theorem EntryOk.mono {qs qs' : List (Claim ρ T)} {e : ρ × T × List Fr} (h : EntryOk qs e)
    (hs : qs ⊆ qs') : EntryOk qs' e := by
  refine ⟨h.sorted, h.ne, ?_, fun p hp => ?_⟩
  · obtain ⟨q, hq, h⟩ := h.object
    exact ⟨q, hs hq, h⟩
  · obtain ⟨q, hq, h⟩ := h.points p hp
    exact ⟨q, hs hq, h⟩

theorem addRotation_length (q : Claim ρ T) : ∀ m : List (ρ × T × List Fr),
    (addRotation q m).length ≤ m.length + 1
  | [] => by simp [addRotation]
  | e :: es => by
    unfold addRotation
    split
    · simp
    · have := addRotation_length q es
      simp only [List.length_cons]; omega

theorem addRotation_entries (done : List (Claim ρ T)) (q : Claim ρ T) (hq : q ∈ done) :
    ∀ m : List (ρ × T × List Fr), (∀ e ∈ m, EntryOk done e) → ∀ e ∈ addRotation q m, EntryOk done e
  | [], _ => by
    intro e he
    simp only [addRotation, List.mem_singleton] at he
    subst he
    exact ⟨by simp, by simp, ⟨q, hq, rfl, rfl⟩, fun p hp => ⟨q, hq, rfl, (List.mem_singleton.1 hp).symm⟩⟩
  | e0 :: es, h => by
    intro e he
    unfold addRotation at he
    split at he
    · next heq =>
      rcases List.mem_cons.1 he with rfl | he
      · have h0 := h e0 (by simp)
        refine ⟨nodup_insertPoint _ _ h0.sorted, insertPoint_ne_nil _ _, h0.object, fun p hp => ?_⟩
        rcases (mem_insertPoint _ _ _).1 hp with rfl | hp
        · exact ⟨q, hq, heq.symm, rfl⟩
        · exact h0.points p hp
      · exact h e (List.mem_cons_of_mem _ he)
    · rcases List.mem_cons.1 he with rfl | he
      · exact h e (by simp)
      · exact addRotation_entries done q hq es (fun e he => h e (List.mem_cons_of_mem _ he)) e he

theorem addRotation_covers (q : Claim ρ T) : ∀ m : List (ρ × T × List Fr),
    (∃ e ∈ addRotation q m, e.1 = q.ref ∧ q.point ∈ e.2.2) ∧
    ∀ (r : ρ) (p : Fr), (∃ e ∈ m, e.1 = r ∧ p ∈ e.2.2) → ∃ e ∈ addRotation q m, e.1 = r ∧ p ∈ e.2.2
  | [] => by simp [addRotation]
  | e0 :: es => by
    obtain ⟨h1, h2⟩ := addRotation_covers q es
    unfold addRotation
    split
    · next heq =>
      refine ⟨⟨_, List.mem_cons_self, heq, (mem_insertPoint _ _ _).2 (Or.inl rfl)⟩, ?_⟩
      rintro r p ⟨e, he, hr, hp⟩
      rcases List.mem_cons.1 he with rfl | he
      · exact ⟨_, List.mem_cons_self, hr, (mem_insertPoint _ _ _).2 (Or.inr hp)⟩
      · exact ⟨e, List.mem_cons_of_mem _ he, hr, hp⟩
    · refine ⟨?_, ?_⟩
      · obtain ⟨e, he, h⟩ := h1
        exact ⟨e, List.mem_cons_of_mem _ he, h⟩
      · rintro r p ⟨e, he, hr, hp⟩
        rcases List.mem_cons.1 he with rfl | he
        · exact ⟨e, by simp, hr, hp⟩
        · obtain ⟨e', he', h⟩ := h2 r p ⟨e, he, hr, hp⟩
          exact ⟨e', List.mem_cons_of_mem _ he', h⟩

theorem perObject_spec (done qs : List (Claim ρ T)) (m : List (ρ × T × List Fr))
    (hm : ∀ e ∈ m, EntryOk done e) (hc : ∀ q ∈ done, ∃ e ∈ m, e.1 = q.ref ∧ q.point ∈ e.2.2) :
    (∀ e ∈ qs.foldl (fun m q => addRotation q m) m, EntryOk (done ++ qs) e) ∧
    (∀ q ∈ done ++ qs, ∃ e ∈ qs.foldl (fun m q => addRotation q m) m, e.1 = q.ref ∧ q.point ∈ e.2.2) ∧
    (qs.foldl (fun m q => addRotation q m) m).length ≤ m.length + qs.length := by
  induction qs generalizing done m with
  | nil =>
    refine ⟨fun e he => (hm e he).mono (by simp), fun q hq => hc q (by simpa using hq), by simp⟩
  | cons q qs ih =>
    have h1 := addRotation_entries (done ++ [q]) q (by simp) m (fun e he => (hm e he).mono (by simp))
    obtain ⟨h2, h3⟩ := addRotation_covers q m
    have := ih (done ++ [q]) (addRotation q m) h1 (fun q' hq' => by
      rcases List.mem_append.1 hq' with h | h
      · exact h3 _ _ (hc q' h)
      · obtain rfl := List.mem_singleton.1 h
        exact h2)
    rw [List.append_assoc, List.singleton_append] at this
    refine ⟨this.1, this.2.1, ?_⟩
    have hl := addRotation_length q m
    have := this.2.2
    simp only [List.foldl_cons, List.length_cons]
    omega

omit [DecidableEq ρ] in
theorem addObject_spec (e : ρ × T × List Fr) : ∀ m : List (List Fr × List (ρ × T)),
    (∀ s, ∀ o, (s, o) ∈ addObject e m → ∀ x ∈ o, (x = (e.1, e.2.1) ∧ s = e.2.2) ∨ ∃ o', (s, o') ∈ m ∧ x ∈ o') ∧
    (∀ s o, (s, o) ∈ addObject e m → (o ≠ []) ∨ (s, o) ∈ m) ∧
    (∃ o, (e.2.2, o) ∈ addObject e m ∧ (e.1, e.2.1) ∈ o) ∧
    (∀ s o, (s, o) ∈ m → ∃ o', (s, o') ∈ addObject e m ∧ ∀ x ∈ o, x ∈ o') ∧
    ((addObject e m).map fun s => s.2.length).sum = (m.map fun s => s.2.length).sum + 1
  | [] => by simp [addObject]
  | (s0, o0) :: ss => by
    obtain ⟨h1, h2, h3, h4, h5⟩ := addObject_spec e ss
    unfold addObject
    split
    · next heq =>
      simp only at heq
      refine ⟨?_, ?_, ?_, ?_, ?_⟩
      · intro s o hs x hx
        rcases List.mem_cons.1 hs with h | h
        · obtain ⟨rfl, rfl⟩ := Prod.mk.inj h
          rcases List.mem_append.1 hx with hx | hx
          · exact Or.inr ⟨o0, by simp, hx⟩
          · exact Or.inl ⟨List.mem_singleton.1 hx, heq⟩
        · exact Or.inr ⟨o, List.mem_cons_of_mem _ h, hx⟩
      · intro s o hs
        rcases List.mem_cons.1 hs with h | h
        · obtain ⟨rfl, rfl⟩ := Prod.mk.inj h
          exact Or.inl (by simp)
        · exact Or.inr (List.mem_cons_of_mem _ h)
      · exact ⟨_, by rw [heq]; exact List.mem_cons_self, by simp⟩
      · intro s o hs
        rcases List.mem_cons.1 hs with h | h
        · obtain ⟨rfl, rfl⟩ := Prod.mk.inj h
          exact ⟨_, List.mem_cons_self, fun x hx => by simp [hx]⟩
        · exact ⟨o, List.mem_cons_of_mem _ h, fun x hx => hx⟩
      · simp only [List.map_cons, List.sum_cons, List.length_append, List.length_singleton]; omega
    · refine ⟨?_, ?_, ?_, ?_, ?_⟩
      · intro s o hs x hx
        rcases List.mem_cons.1 hs with h | h
        · obtain ⟨rfl, rfl⟩ := Prod.mk.inj h
          exact Or.inr ⟨o, by simp, hx⟩
        · rcases h1 s o h x hx with h | ⟨o', h, h'⟩
          · exact Or.inl h
          · exact Or.inr ⟨o', List.mem_cons_of_mem _ h, h'⟩
      · intro s o hs
        rcases List.mem_cons.1 hs with h | h
        · exact Or.inr (by rw [h]; simp)
        · rcases h2 s o h with h | h
          · exact Or.inl h
          · exact Or.inr (List.mem_cons_of_mem _ h)
      · obtain ⟨o, h, h'⟩ := h3
        exact ⟨o, List.mem_cons_of_mem _ h, h'⟩
      · intro s o hs
        rcases List.mem_cons.1 hs with h | h
        · exact ⟨o, by rw [h]; simp, fun x hx => hx⟩
        · obtain ⟨o', h, h'⟩ := h4 s o h
          exact ⟨o', List.mem_cons_of_mem _ h, h'⟩
      · simp only [List.map_cons, List.sum_cons, h5]; omega

omit [DecidableEq ρ] in
theorem perSet_spec (es : List (ρ × T × List Fr)) (m : List (List Fr × List (ρ × T)))
    (hne : ∀ s ∈ m, s.2 ≠ []) :
    (∀ s o, (s, o) ∈ es.foldl (fun m e => addObject e m) m → o ≠ [] ∧ ∀ x ∈ o,
      (∃ e ∈ es, x = (e.1, e.2.1) ∧ s = e.2.2) ∨ ∃ o', (s, o') ∈ m ∧ x ∈ o') ∧
    (∀ e ∈ es, ∃ o, (e.2.2, o) ∈ es.foldl (fun m e => addObject e m) m ∧ (e.1, e.2.1) ∈ o) ∧
    (∀ s o, (s, o) ∈ m → ∃ o', (s, o') ∈ es.foldl (fun m e => addObject e m) m ∧ ∀ x ∈ o, x ∈ o') ∧
    ((es.foldl (fun m e => addObject e m) m).map fun s => s.2.length).sum =
      (m.map fun s => s.2.length).sum + es.length := by
  induction es generalizing m with
  | nil =>
    refine ⟨fun s o h => ⟨hne _ h, fun x hx => Or.inr ⟨o, h, hx⟩⟩, by simp, fun s o h => ⟨o, h, fun x hx => hx⟩, by simp⟩
  | cons e es ih =>
    obtain ⟨a1, a2, a3, a4, a5⟩ := addObject_spec e m
    obtain ⟨h1, h2, h3, h4⟩ := ih (addObject e m) (fun s hs => by
      rcases a2 s.1 s.2 hs with h | h
      · exact h
      · exact hne _ h)
    refine ⟨?_, ?_, ?_, ?_⟩
    · intro s o hs
      refine ⟨(h1 s o hs).1, fun x hx => ?_⟩
      rcases (h1 s o hs).2 x hx with ⟨e', he', h⟩ | ⟨o', ho', hx'⟩
      · exact Or.inl ⟨e', List.mem_cons_of_mem _ he', h⟩
      · rcases a1 s o' ho' x hx' with h | h
        · exact Or.inl ⟨e, by simp, h⟩
        · exact Or.inr h
    · intro e' he'
      rcases List.mem_cons.1 he' with rfl | he'
      · obtain ⟨o, ho, hm⟩ := a3
        obtain ⟨o', ho', hs⟩ := h3 _ _ ho
        exact ⟨o', ho', hs _ hm⟩
      · exact h2 e' he'
    · intro s o hs
      obtain ⟨o', ho', h⟩ := a4 s o hs
      obtain ⟨o'', ho'', h'⟩ := h3 _ _ ho'
      exact ⟨o'', ho'', fun x hx => h' _ (h _ hx)⟩
    · rw [List.foldl_cons, h4, a5, List.length_cons]; omega

theorem getEval_ok (qs : List (Claim ρ T)) (r : ρ) (p : Fr) (h : ∃ q ∈ qs, q.ref = r ∧ q.point = p) :
    ∃ q ∈ qs, q.ref = r ∧ q.point = p ∧ getEval qs r p = .ok q.value := by
  unfold getEval
  cases hf : qs.find? fun q => decide (q.ref = r ∧ q.point = p) with
  | none =>
    obtain ⟨q, hq, h⟩ := h
    have := List.find?_eq_none.1 hf q hq
    simp only [decide_eq_true_eq] at this
    exact absurd h this
  | some q =>
    have h1 := List.find?_some hf
    simp only [decide_eq_true_eq] at h1
    exact ⟨q, List.mem_of_find?_eq_some hf, h1.1, h1.2, rfl⟩

/-- An object of a set belongs to the reference `r`: it comes from a query of `r`, and its values are
those found for `r` in the queries. -/
structure ObjectOf (qs : List (Claim ρ T)) (points : List Fr) (r : ρ) (o : T × List Fr) : Prop where
  object : ∃ q ∈ qs, q.ref = r ∧ q.object = o.1
  length : o.2.length = points.length
  evals : ∀ (k : Nat) (h : k < points.length) (h' : k < o.2.length),
    ∃ q ∈ qs, q.ref = r ∧ q.point = points[k] ∧ getEval qs r points[k] = .ok q.value ∧ q.value = o.2[k]

/-- What is known of the sets. -/
structure SetsOk (qs : List (Claim ρ T)) (sets : List (RotationSet T)) (sup : List Fr) : Prop where
  nodup : sup.Nodup
  mem : ∀ p, p ∈ sup ↔ ∃ q ∈ qs, q.point = p
  points : ∀ s ∈ sets, s.points.Nodup
  pointsNe : ∀ s ∈ sets, s.points ≠ []
  inside : ∀ s ∈ sets, ∀ p ∈ s.points, p ∈ sup
  objects : ∀ s ∈ sets, s.objects ≠ []
  object : ∀ s ∈ sets, ∀ o ∈ s.objects, ∃ r, ObjectOf qs s.points r o
  covers : ∀ q ∈ qs, ∃ s ∈ sets, ∃ o ∈ s.objects, q.point ∈ s.points ∧ ObjectOf qs s.points q.ref o
  count : (sets.map fun s => s.objects.length).sum ≤ qs.length

theorem mapM_exists {α β ε : Type} (f : α → Except ε β) : ∀ l : List α, (∀ a ∈ l, ∃ b, f a = .ok b) →
    ∃ l', l.mapM f = .ok l' ∧ List.Forall₂ (fun a b => f a = .ok b) l l'
  | [], _ => ⟨[], rfl, .nil⟩
  | a :: l, h => by
    obtain ⟨b, hb⟩ := h a (by simp)
    obtain ⟨l', hl', h2⟩ := mapM_exists f l (fun a ha => h a (List.mem_cons_of_mem _ ha))
    refine ⟨b :: l', ?_, .cons hb h2⟩
    rw [List.mapM_cons, hb, hl']
    rfl

theorem forall₂_left {α β : Type} {R : α → β → Prop} {l : List α} {l' : List β} (h : List.Forall₂ R l l')
    {a : α} (ha : a ∈ l) : ∃ b ∈ l', R a b := by
  induction h with
  | nil => simp at ha
  | cons hab _ ih =>
    rcases List.mem_cons.1 ha with rfl | ha
    · exact ⟨_, by simp, hab⟩
    · obtain ⟨b, hb, h⟩ := ih ha
      exact ⟨b, List.mem_cons_of_mem _ hb, h⟩

theorem forall₂_right {α β : Type} {R : α → β → Prop} {l : List α} {l' : List β} (h : List.Forall₂ R l l')
    {b : β} (hb : b ∈ l') : ∃ a ∈ l, R a b := by
  induction h with
  | nil => simp at hb
  | cons hab _ ih =>
    rcases List.mem_cons.1 hb with rfl | hb
    · exact ⟨_, by simp, hab⟩
    · obtain ⟨a, ha, h⟩ := ih hb
      exact ⟨a, List.mem_cons_of_mem _ ha, h⟩

theorem forall₂_sum {α β : Type} {R : α → β → Prop} {l : List α} {l' : List β} (h : List.Forall₂ R l l')
    (f : α → Nat) (g : β → Nat) (hfg : ∀ a b, R a b → f a = g b) : (l.map f).sum = (l'.map g).sum := by
  induction h with
  | nil => rfl
  | cons hab _ ih => simp only [List.map_cons, List.sum_cons, ih, hfg _ _ hab]

theorem object_evals {qs : List (Claim ρ T)} {e : ρ × T × List Fr} (he : EntryOk qs e) :
    ∃ evals, e.2.2.mapM (getEval qs e.1) = .ok evals ∧ ObjectOf qs e.2.2 e.1 (e.2.1, evals) := by
  obtain ⟨evals, h1, h2⟩ := mapM_exists (getEval qs e.1) e.2.2 (fun p hp => by
    obtain ⟨q, -, -, -, h⟩ := getEval_ok qs e.1 p (he.points p hp)
    exact ⟨_, h⟩)
  refine ⟨evals, h1, he.object, h2.length_eq.symm, fun k h h' => ?_⟩
  obtain ⟨q, hq, hr, hp, hv⟩ := getEval_ok qs e.1 e.2.2[k] (he.points _ (List.getElem_mem h))
  refine ⟨q, hq, hr, hp, hv, ?_⟩
  have := List.Forall₂.get h2 h h'
  simp only [List.get_eq_getElem] at this
  rw [hv] at this
  exact Except.ok.inj this

theorem intermediateSets_ok (qs : List (Claim ρ T)) :
    ∃ sets sup, intermediateSets qs = .ok (sets, sup) ∧ SetsOk qs sets sup := by
  obtain ⟨s1, s2⟩ := super_spec qs [] (by simp)
  obtain ⟨o1, o2, o3⟩ := perObject_spec [] qs [] (by simp) (by simp)
  rw [List.nil_append] at o1 o2
  obtain ⟨p1, p2, -, p4⟩ := perSet_spec (qs.foldl (fun m q => addRotation q m) []) [] (by simp)
  have hentry : ∀ s o, (s, o) ∈ (qs.foldl (fun m q => addRotation q m) []).foldl
      (fun m e => addObject e m) [] → ∀ x ∈ o, EntryOk qs (x.1, x.2, s) := by
    intro s o hs x hx
    rcases (p1 s o hs).2 x hx with ⟨e, he, h1, h2⟩ | ⟨o', h, -⟩
    · obtain rfl := h2
      rw [h1]
      exact o1 e he
    · simp at h
  obtain ⟨sets, h1, h2⟩ := mapM_exists (fun (s : List Fr × List (ρ × T)) => (do
      let objects ← s.2.mapM fun (o : ρ × T) => do
        let evals ← s.1.mapM (getEval qs o.1)
        return (o.2, evals)
      return (⟨objects, s.1⟩ : RotationSet T) : Except Panic (RotationSet T)))
    ((qs.foldl (fun m q => addRotation q m) []).foldl (fun m e => addObject e m) []) (by
      rintro ⟨s, o⟩ hs
      obtain ⟨l', hl', -⟩ := mapM_exists (fun (o : ρ × T) => (do
        let evals ← s.mapM (getEval qs o.1)
        return (o.2, evals) : Except Panic (T × List Fr))) o (by
          rintro ⟨r, t⟩ hx
          obtain ⟨evals, h, -⟩ := object_evals (hentry s o hs _ hx)
          refine ⟨(t, evals), ?_⟩
          simp only at h
          simp only [h]
          rfl)
      exact ⟨_, by simp only [hl']; rfl⟩)
  have hset : ∀ s o (st : RotationSet T), (s, o) ∈ (qs.foldl (fun m q => addRotation q m) []).foldl
      (fun m e => addObject e m) [] → ((do
      let objects ← o.mapM fun (o : ρ × T) => do
        let evals ← s.mapM (getEval qs o.1)
        return (o.2, evals)
      return (⟨objects, s⟩ : RotationSet T) : Except Panic (RotationSet T))) = .ok st →
      st.points = s ∧ List.Forall₂ (fun x ob => ObjectOf qs s x.1 ob) o st.objects := by
    intro s o st hs hst
    obtain ⟨objs, ho, hst'⟩ := except_bind.1 hst
    obtain rfl := Except.ok.inj hst'
    clear hst hst'
    refine ⟨rfl, ?_⟩
    have hx : ∀ x ∈ o, EntryOk qs (x.1, x.2, s) := hentry s o hs
    clear hs
    obtain ⟨l', hl', hf⟩ := mapM_exists (fun (o : ρ × T) => (do
        let evals ← s.mapM (getEval qs o.1)
        return (o.2, evals) : Except Panic (T × List Fr))) o (by
          rintro ⟨r, t⟩ hm
          obtain ⟨evals, h, -⟩ := object_evals (hx _ hm)
          refine ⟨(t, evals), ?_⟩
          simp only at h
          simp only [h]
          rfl)
    rw [hl'] at ho
    obtain rfl := Except.ok.inj ho
    clear hl' ho
    induction hf with
    | nil => exact .nil
    | @cons a b la lb hab hrest ih =>
      refine .cons ?_ (ih (fun x hxx => hx x (List.mem_cons_of_mem _ hxx)))
      obtain ⟨evals, h, hobj⟩ := object_evals (hx a (by simp))
      simp only at h
      simp only [h] at hab
      obtain rfl := Except.ok.inj hab
      exact hobj
  refine ⟨sets, _, ?_, ⟨sorted_nodup s1, fun p => by rw [s2]; simp, ?_, ?_, ?_, ?_, ?_, ?_, ?_⟩⟩
  · unfold intermediateSets
    dsimp only
    rw [h1]
    rfl
  · intro st hst
    obtain ⟨⟨s, o⟩, hs, h⟩ := forall₂_right h2 hst
    obtain ⟨hp, hf⟩ := hset s o st hs h
    obtain ⟨x, hx⟩ := List.exists_mem_of_ne_nil _ (p1 s o hs).1
    rw [hp]
    exact sorted_nodup (hentry s o hs x hx).sorted
  · intro st hst
    obtain ⟨⟨s, o⟩, hs, h⟩ := forall₂_right h2 hst
    obtain ⟨hp, hf⟩ := hset s o st hs h
    obtain ⟨x, hx⟩ := List.exists_mem_of_ne_nil _ (p1 s o hs).1
    rw [hp]
    exact (hentry s o hs x hx).ne
  · intro st hst p hp'
    obtain ⟨⟨s, o⟩, hs, h⟩ := forall₂_right h2 hst
    obtain ⟨hp, hf⟩ := hset s o st hs h
    obtain ⟨x, hx⟩ := List.exists_mem_of_ne_nil _ (p1 s o hs).1
    rw [hp] at hp'
    obtain ⟨q, hq, -, hqp⟩ := (hentry s o hs x hx).points p hp'
    exact (s2 p).2 (Or.inr ⟨q, hq, hqp⟩)
  · intro st hst
    obtain ⟨⟨s, o⟩, hs, h⟩ := forall₂_right h2 hst
    obtain ⟨hp, hf⟩ := hset s o st hs h
    intro hnil
    rw [hnil] at hf
    exact (p1 s o hs).1 (List.forall₂_nil_right_iff.1 hf)
  · intro st hst ob hob
    obtain ⟨⟨s, o⟩, hs, h⟩ := forall₂_right h2 hst
    obtain ⟨hp, hf⟩ := hset s o st hs h
    obtain ⟨x, hx, hxo⟩ := forall₂_right hf hob
    exact ⟨x.1, by rw [hp]; exact hxo⟩
  · intro q hq
    obtain ⟨e, he, hr, hp⟩ := o2 q hq
    obtain ⟨o, ho, hx⟩ := p2 e he
    obtain ⟨st, hst, h⟩ := forall₂_left h2 ho
    obtain ⟨hpt, hf⟩ := hset _ _ st ho h
    obtain ⟨ob, hob, hobj⟩ := forall₂_left hf hx
    exact ⟨st, hst, ob, hob, by rw [hpt]; exact hp, by rw [hpt, ← hr]; exact hobj⟩
  · have hsum : ((qs.foldl (fun m q => addRotation q m) []).foldl
        (fun m e => addObject e m) []).map (fun s => s.2.length) = sets.map fun s => s.objects.length := by
      have hall : ∀ p ∈ (qs.foldl (fun m q => addRotation q m) []).foldl
        (fun m e => addObject e m) [], ∀ st, ((do
      let objects ← p.2.mapM fun (o : ρ × T) => do
        let evals ← p.1.mapM (getEval qs o.1)
        return (o.2, evals)
      return (⟨objects, p.1⟩ : RotationSet T) : Except Panic (RotationSet T))) = .ok st →
          p.2.length = st.objects.length := by
        rintro ⟨s, o⟩ hs st hst
        exact (hset s o st hs hst).2.length_eq
      clear p1 p2 p4 hentry hset h1
      generalize (qs.foldl (fun m q => addRotation q m) []).foldl (fun m e => addObject e m) [] = ms at h2 hall ⊢
      induction h2 with
      | nil => rfl
      | cons hab hrest ih =>
        rw [List.map_cons, List.map_cons, hall _ (by simp) _ hab,
          ih (fun p hp => hall p (List.mem_cons_of_mem _ hp))]
    rw [← hsum, p4]
    simp only [List.map_nil, List.sum_nil, List.length_nil] at o3 ⊢
    omega

theorem sets_ne {qs : List (Claim ρ T)} {sets : List (RotationSet T)} {sup : List Fr}
    (hs : SetsOk qs sets sup) (hq : qs ≠ []) : sets ≠ [] := by
  obtain ⟨q, hq⟩ := List.exists_mem_of_ne_nil _ hq
  obtain ⟨s, hm, -⟩ := hs.covers q hq
  exact List.ne_nil_of_mem hm

/-! ### Replacing the objects -/

variable {T' : Type}

/-- The query with another object. -/
def Claim.map (f : T → T') (q : Claim ρ T) : Claim ρ T' := ⟨q.ref, f q.object, q.point, q.value⟩

/-- The set with other objects. -/
def RotationSet.map (f : T → T') (s : RotationSet T) : RotationSet T' :=
  ⟨s.objects.map fun o => (f o.1, o.2), s.points⟩

theorem addRotation_map (f : T → T') (q : Claim ρ T) : ∀ m : List (ρ × T × List Fr),
    addRotation (q.map f) (m.map fun e => (e.1, f e.2.1, e.2.2)) =
      (addRotation q m).map fun e => (e.1, f e.2.1, e.2.2)
  | [] => rfl
  | e :: es => by
    simp only [List.map_cons, addRotation, Claim.map]
    split
    · rfl
    · rw [List.map_cons, ← addRotation_map f q es]
      rfl

omit [DecidableEq ρ] in
theorem addObject_map (f : T → T') (e : ρ × T × List Fr) : ∀ m : List (List Fr × List (ρ × T)),
    addObject (e.1, f e.2.1, e.2.2) (m.map fun s => (s.1, s.2.map fun o => (o.1, f o.2))) =
      (addObject e m).map fun s => (s.1, s.2.map fun o => (o.1, f o.2))
  | [] => rfl
  | s :: ss => by
    simp only [List.map_cons, addObject]
    split
    · simp
    · rw [List.map_cons, ← addObject_map f e ss]

theorem getEval_map (f : T → T') (qs : List (Claim ρ T)) (r : ρ) (p : Fr) :
    getEval (qs.map (Claim.map f)) r p = getEval qs r p := by
  unfold getEval
  rw [List.find?_map]
  have : ((fun q : Claim ρ T' => decide (q.ref = r ∧ q.point = p)) ∘ Claim.map f) =
      fun q : Claim ρ T => decide (q.ref = r ∧ q.point = p) := rfl
  rw [this]
  cases qs.find? fun q => decide (q.ref = r ∧ q.point = p) <;> rfl

theorem intermediateSets_map (f : T → T') (qs : List (Claim ρ T)) (sets : List (RotationSet T))
    (sup : List Fr) (h : intermediateSets qs = .ok (sets, sup)) :
    intermediateSets (qs.map (Claim.map f)) = .ok (sets.map (RotationSet.map f), sup) := by
  unfold intermediateSets at h ⊢
  dsimp only at h ⊢
  obtain ⟨sets', h1, h2⟩ := except_bind.1 h
  obtain ⟨rfl, rfl⟩ := Prod.mk.inj (Except.ok.inj h2)
  have e1 : (qs.map (Claim.map f)).foldl (fun s q => insertPoint q.point s) [] =
      qs.foldl (fun s q => insertPoint q.point s) [] := by
    rw [List.foldl_map]; rfl
  have e2 : ∀ m, (qs.map (Claim.map f)).foldl (fun m q => addRotation q m)
      (m.map fun e : ρ × T × List Fr => (e.1, f e.2.1, e.2.2)) =
      (qs.foldl (fun m q => addRotation q m) m).map fun e => (e.1, f e.2.1, e.2.2) := by
    clear h h1 h2 e1
    induction qs with
    | nil => intro m; rfl
    | cons q qs ih =>
      intro m
      rw [List.map_cons, List.foldl_cons, List.foldl_cons, addRotation_map, ih]
  have e3 : ∀ (es : List (ρ × T × List Fr)) m, (es.map fun e => (e.1, f e.2.1, e.2.2)).foldl
      (fun m e => addObject e m) (m.map fun s : List Fr × List (ρ × T) => (s.1, s.2.map fun o => (o.1, f o.2))) =
      (es.foldl (fun m e => addObject e m) m).map fun s => (s.1, s.2.map fun o => (o.1, f o.2)) := by
    intro es
    induction es with
    | nil => intro m; rfl
    | cons e es ih =>
      intro m
      rw [List.map_cons, List.foldl_cons, List.foldl_cons, addObject_map, ih]
  have e2' := e2 []
  rw [List.map_nil] at e2'
  have e3' := e3 (qs.foldl (fun m q => addRotation q m) []) []
  rw [List.map_nil] at e3'
  rw [e1, e2', e3']
  have hm : ∀ (l : List (List Fr × List (ρ × T))) (l' : List (RotationSet T)),
      (l.mapM fun (s : List Fr × List (ρ × T)) => (do
        let objects ← s.2.mapM fun (o : ρ × T) => do
          let evals ← s.1.mapM (getEval qs o.1)
          return (o.2, evals)
        return (⟨objects, s.1⟩ : RotationSet T) : Except Panic (RotationSet T))) = .ok l' →
      ((l.map fun s => (s.1, s.2.map fun o => (o.1, f o.2))).mapM fun (s : List Fr × List (ρ × T')) => (do
        let objects ← s.2.mapM fun (o : ρ × T') => do
          let evals ← s.1.mapM (getEval (qs.map (Claim.map f)) o.1)
          return (o.2, evals)
        return (⟨objects, s.1⟩ : RotationSet T') : Except Panic (RotationSet T'))) =
        .ok (l'.map (RotationSet.map f)) := by
    intro l
    induction l with
    | nil =>
      intro l' hl'
      obtain rfl := Except.ok.inj hl'
      rfl
    | cons s l ih =>
      intro l' hl'
      rw [List.mapM_cons] at hl'
      obtain ⟨st, hst, hl'⟩ := except_bind.1 hl'
      obtain ⟨lr, hlr, hl'⟩ := except_bind.1 hl'
      obtain rfl := Except.ok.inj hl'
      obtain ⟨obs, hobs, hst⟩ := except_bind.1 hst
      obtain rfl := Except.ok.inj hst
      have ho : ∀ (os : List (ρ × T)) (os' : List (T × List Fr)),
          (os.mapM fun (o : ρ × T) => (do
            let evals ← s.1.mapM (getEval qs o.1)
            return (o.2, evals) : Except Panic (T × List Fr))) = .ok os' →
          ((os.map fun o => (o.1, f o.2)).mapM fun (o : ρ × T') => (do
            let evals ← s.1.mapM (getEval (qs.map (Claim.map f)) o.1)
            return (o.2, evals) : Except Panic (T' × List Fr))) = .ok (os'.map fun o => (f o.1, o.2)) := by
        intro os
        induction os with
        | nil =>
          intro os' h
          obtain rfl := Except.ok.inj h
          rfl
        | cons o os iho =>
          intro os' h
          rw [List.mapM_cons] at h
          obtain ⟨a, ha, h⟩ := except_bind.1 h
          obtain ⟨b, hb, h⟩ := except_bind.1 h
          obtain rfl := Except.ok.inj h
          obtain ⟨ev, hev, ha⟩ := except_bind.1 ha
          obtain rfl := Except.ok.inj ha
          have hg : getEval (qs.map (Claim.map f)) o.1 = getEval qs o.1 := by
            funext p; exact getEval_map f qs o.1 p
          rw [List.map_cons, List.mapM_cons, iho _ hb]
          simp only [hg, hev]
          rfl
      rw [List.map_cons, List.mapM_cons, ih _ hlr]
      simp only [ho _ _ hobs]
      rfl
  have := hm _ _ h1
  rw [this]
  rfl

end Verif.Shplonk

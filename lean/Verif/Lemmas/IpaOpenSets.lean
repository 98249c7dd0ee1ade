import Verif.Spec.IpaOpen
import Verif.Lemmas.ShplonkSets

/-! The sets of queries of the opening without a trusted setup. -/

namespace Verif.IpaOpen

open Shplonk (Claim)
open Spec.IpaOpen

section addNew

variable {α : Type} [DecidableEq α]

theorem addNew_spec (l acc : List α) (h : acc.Nodup) :
    (l.foldl addNew acc).Nodup ∧ (∀ a, a ∈ l.foldl addNew acc ↔ a ∈ acc ∨ a ∈ l) ∧
      (l.foldl addNew acc).length ≤ acc.length + l.length := by
  induction l generalizing acc with
  | nil => simp [h]
  | cons x l ih =>
    rw [List.foldl_cons]
    by_cases hx : x ∈ acc
    · have e : addNew acc x = acc := by simp [addNew, hx]
      rw [e]
      obtain ⟨h1, h2, h3⟩ := ih acc h
      refine ⟨h1, fun a => ?_, by simp; omega⟩
      rw [h2, List.mem_cons]
      constructor
      · rintro (h | h)
        · exact .inl h
        · exact .inr (.inr h)
      · rintro (h | rfl | h)
        · exact .inl h
        · exact .inl hx
        · exact .inr h
    · have e : addNew acc x = acc ++ [x] := by simp [addNew, hx]
      rw [e]
      obtain ⟨h1, h2, h3⟩ := ih (acc ++ [x]) (by
        rw [List.nodup_append]
        refine ⟨h, by simp, ?_⟩
        intro a ha b hb
        rw [List.mem_singleton] at hb
        subst hb
        rintro rfl
        exact hx ha)
      refine ⟨h1, fun a => ?_, by simp at h3 ⊢; omega⟩
      rw [h2, List.mem_append, List.mem_singleton, List.mem_cons, or_assoc]

end addNew

variable {ρ T T' : Type} [DecidableEq ρ]

omit [DecidableEq ρ] in
theorem points_spec (qs : List (Claim ρ T)) : (points qs).Nodup ∧ (∀ p, p ∈ points qs ↔ ∃ q ∈ qs, q.point = p) := by
  obtain ⟨h1, h2, -⟩ := addNew_spec (qs.map Claim.point) [] (by simp)
  refine ⟨h1, fun p => ?_⟩
  unfold points
  rw [h2]
  simp

theorem firsts_aux (qs : List (Claim ρ T)) : ∀ acc : List (Claim ρ T),
    let r := qs.foldl (fun l q => if l.any (fun q' => decide (q'.ref = q.ref)) then l else l ++ [q]) acc
    (∀ q ∈ r, q ∈ acc ∨ q ∈ qs) ∧ (∀ q ∈ acc, q ∈ r) ∧ (∀ q ∈ qs, ∃ q' ∈ r, q'.ref = q.ref) ∧ r.length ≤ acc.length + qs.length := by
  induction qs with
  | nil => intro acc; simp
  | cons q qs ih =>
    intro acc
    rw [List.foldl_cons]
    by_cases h : acc.any (fun q' => decide (q'.ref = q.ref))
    · rw [if_pos h]
      obtain ⟨h1, h2, h3, h4⟩ := ih acc
      refine ⟨fun a ha => ?_, h2, fun a ha => ?_, by simp only [List.length_cons]; omega⟩
      · rcases h1 a ha with h | h
        · exact .inl h
        · exact .inr (List.mem_cons_of_mem _ h)
      · rcases List.mem_cons.1 ha with rfl | ha
        · obtain ⟨q', hq', e⟩ := List.any_eq_true.1 h
          exact ⟨q', h2 q' hq', of_decide_eq_true e⟩
        · exact h3 a ha
    · rw [if_neg h]
      obtain ⟨h1, h2, h3, h4⟩ := ih (acc ++ [q])
      refine ⟨fun a ha => ?_, fun a ha => h2 a (by simp [ha]), fun a ha => ?_, by
        simp only [List.length_cons, List.length_append, List.length_nil] at h4 ⊢; omega⟩
      · rcases h1 a ha with h | h
        · rcases List.mem_append.1 h with h | h
          · exact .inl h
          · exact .inr (by rw [List.mem_singleton.1 h]; simp)
        · exact .inr (List.mem_cons_of_mem _ h)
      · rcases List.mem_cons.1 ha with rfl | ha
        · exact ⟨a, h2 a (by simp), rfl⟩
        · exact h3 a ha

theorem firsts_spec (qs : List (Claim ρ T)) : (∀ q ∈ firsts qs, q ∈ qs) ∧ (∀ q ∈ qs, ∃ q' ∈ firsts qs, q'.ref = q.ref) ∧
    (firsts qs).length ≤ qs.length := by
  obtain ⟨h1, -, h3, h4⟩ := firsts_aux qs []
  refine ⟨fun q hq => ?_, h3, by simpa [firsts] using h4⟩
  rcases h1 q hq with h | h
  · simp at h
  · exact h

theorem pointSet_spec (qs : List (Claim ρ T)) (r : ρ) : (pointSet qs r).Nodup ∧
    ∀ p, p ∈ pointSet qs r ↔ ∃ q ∈ qs, q.ref = r ∧ q.point = p := by
  obtain ⟨h1, h2⟩ := points_spec qs
  refine ⟨h1.filter _, fun p => ?_⟩
  unfold pointSet
  rw [List.mem_filter, h2, List.any_eq_true]
  simp only [decide_eq_true_eq]
  exact ⟨fun h => h.2, fun ⟨q, hq, h, h'⟩ => ⟨⟨q, hq, h'⟩, q, hq, h, h'⟩⟩

theorem pointSets_spec (qs : List (Claim ρ T)) : (pointSets qs).Nodup ∧
    (∀ s, s ∈ pointSets qs ↔ ∃ q ∈ firsts qs, pointSet qs q.ref = s) ∧ (pointSets qs).length ≤ qs.length := by
  obtain ⟨h1, h2, h3⟩ := addNew_spec ((firsts qs).map fun q => pointSet qs q.ref) [] (by simp)
  refine ⟨h1, fun s => ?_, ?_⟩
  · unfold pointSets
    rw [h2]
    simp
  · have := (firsts_spec qs).2.2
    unfold pointSets
    simp at h3
    omega

/-- The queries of an object. -/
def own (qs : List (Claim ρ T)) (r : ρ) : List (Claim ρ T) := qs.filter fun q => decide (q.ref = r)

/-- The value of the last query at the point. -/
def valueAt (l : List (Claim ρ T)) : Fr → Fr := l.foldl (fun f q => Function.update f q.point q.value) fun _ => 0

theorem set_idxOf (set : List Fr) (hn : set.Nodup) (f : Fr → Fr) (p v : Fr) (tail : List Fr) (hp : p ∈ set) :
    (set.map f ++ tail).set (set.idxOf p) v = set.map (Function.update f p v) ++ tail := by
  induction set with
  | nil => simp at hp
  | cons a set ih =>
    have hc := List.nodup_cons.1 hn
    by_cases h : a = p
    · subst h
      rw [List.idxOf_cons_self, List.map_cons, List.cons_append, List.set_cons_zero, List.map_cons, Function.update_self,
        List.cons_append]
      congr 2
      refine List.map_congr_left fun b hb => ?_
      rw [Function.update_of_ne]
      rintro rfl
      exact hc.1 hb
    · rw [List.idxOf_cons_ne _ h, List.map_cons, List.cons_append, List.set_cons_succ,
        ih hc.2 ((List.mem_cons.1 hp).resolve_left (Ne.symm h)), List.map_cons, Function.update_of_ne h, List.cons_append]

theorem idxOf?_eq {α : Type} [BEq α] [LawfulBEq α] {a : α} {l : List α} (h : a ∈ l) : l.idxOf? a = some (l.idxOf a) := by
  induction l with
  | nil => simp at h
  | cons b l ih =>
    by_cases e : b = a
    · subst e; simp [List.idxOf?_cons]
    · rw [List.idxOf?_cons, List.idxOf_cons_ne _ e, ih ((List.mem_cons.1 h).resolve_left (Ne.symm e))]
      simp [e]

omit [DecidableEq ρ] in
theorem store_fold (set : List Fr) (hn : set.Nodup) (tail : List Fr) (l : List (Claim ρ T)) (hl : ∀ q ∈ l, q.point ∈ set) :
    ∀ f : Fr → Fr, l.foldlM (store set) (set.map f ++ tail) =
      .ok (set.map (l.foldl (fun f q => Function.update f q.point q.value) f) ++ tail) := by
  induction l with
  | nil => intro f; rfl
  | cons q l ih =>
    intro f
    have hq := hl q (by simp)
    rw [List.foldlM_cons]
    have : store set (set.map f ++ tail) q = .ok (set.map (Function.update f q.point q.value) ++ tail) := by
      unfold store
      rw [idxOf?_eq hq]
      dsimp only
      rw [if_pos (by
        have := List.idxOf_lt_length_iff.2 hq
        simp only [List.length_append, List.length_map]
        omega), set_idxOf _ hn _ _ _ _ hq]
    rw [this]
    exact ih (fun q hq => hl q (by simp [hq])) _

/-- The values of an object. -/
def evalsOf (qs : List (Claim ρ T)) (r : ρ) : List Fr :=
  (pointSet qs r).map (valueAt (own qs r)) ++ List.replicate ((own qs r).length - (pointSet qs r).length) 0

theorem pointSet_length (qs : List (Claim ρ T)) (r : ρ) : (pointSet qs r).length ≤ (own qs r).length := by
  have : (pointSet qs r).Subperm ((own qs r).map Claim.point) := by
    refine (pointSet_spec qs r).1.subperm fun p hp => ?_
    obtain ⟨q, hq, h1, h2⟩ := ((pointSet_spec qs r).2 p).1 hp
    exact List.mem_map.2 ⟨q, List.mem_filter.2 ⟨hq, decide_eq_true h1⟩, h2⟩
  simpa using this.length_le

theorem evals_ok (qs : List (Claim ρ T)) (r : ρ) : evals qs r = .ok (evalsOf qs r) := by
  have h := store_fold (pointSet qs r) (pointSet_spec qs r).1
    (List.replicate ((own qs r).length - (pointSet qs r).length) 0) (own qs r) (fun q hq => by
      obtain ⟨h1, h2⟩ := List.mem_filter.1 hq
      exact ((pointSet_spec qs r).2 _).2 ⟨q, h1, of_decide_eq_true h2, rfl⟩) fun _ => 0
  have e : (pointSet qs r).map (fun _ => (0 : Fr)) ++ List.replicate ((own qs r).length - (pointSet qs r).length) 0 =
      List.replicate (own qs r).length 0 := by
    rw [List.map_const', List.replicate_append_replicate]
    congr 1
    have := pointSet_length qs r
    omega
  rw [e] at h
  exact h

/-- The entry of an object. -/
def dataOf (qs : List (Claim ρ T)) (q : Claim ρ T) : Data T :=
  ⟨q.object, (pointSets qs).idxOf (pointSet qs q.ref), evalsOf qs q.ref⟩

theorem intermediateSets_ok (qs : List (Claim ρ T)) :
    intermediateSets qs = .ok ((firsts qs).map (dataOf qs), pointSets qs) := by
  have : ∀ l : List (Claim ρ T), (∀ q ∈ l, q ∈ firsts qs) → l.mapM (entry qs) = .ok (l.map (dataOf qs)) := by
    intro l
    induction l with
    | nil => intro _; rfl
    | cons q l ih =>
      intro h
      have e : entry qs q = .ok (dataOf qs q) := by
        unfold entry
        rw [evals_ok]
        simp only [bind, Except.bind]
        rw [idxOf?_eq (((pointSets_spec qs).2.1 _).2 ⟨q, h q (by simp), rfl⟩)]
        rfl
      rw [List.mapM_cons, e, ih (fun q hq => h q (by simp [hq]))]
      rfl
  unfold intermediateSets
  rw [this _ fun _ h => h]
  rfl

/-- The first queries of the objects with these points. -/
def group (qs : List (Claim ρ T)) (set : List Fr) : List (Claim ρ T) :=
  (firsts qs).filter fun q => decide (pointSet qs q.ref = set)

theorem members_eq (qs : List (Claim ρ T)) {i : Nat} (hi : i < (pointSets qs).length) :
    members ((firsts qs).map (dataOf qs)) i = (group qs (pointSets qs)[i]).map (dataOf qs) := by
  unfold members group
  rw [List.filter_map]
  congr 1
  refine List.filter_congr fun q hq => ?_
  have hm : pointSet qs q.ref ∈ pointSets qs := ((pointSets_spec qs).2.1 _).2 ⟨q, hq, rfl⟩
  refine decide_eq_decide.2 ?_
  show (pointSets qs).idxOf (pointSet qs q.ref) = i ↔ _
  constructor
  · intro h
    subst h
    exact (List.getElem_idxOf _).symm
  · intro h
    rw [h]
    exact (pointSets_spec qs).1.idxOf_getElem i hi

theorem group_ne (qs : List (Claim ρ T)) {s : List Fr} (h : s ∈ pointSets qs) : group qs s ≠ [] := by
  obtain ⟨q, hq, e⟩ := ((pointSets_spec qs).2.1 s).1 h
  exact List.ne_nil_of_mem (List.mem_filter.2 ⟨hq, decide_eq_true e⟩)

theorem mem_group {qs : List (Claim ρ T)} {s : List Fr} {q : Claim ρ T} (h : q ∈ group qs s) :
    q ∈ qs ∧ pointSet qs q.ref = s := by
  obtain ⟨h1, h2⟩ := List.mem_filter.1 h
  exact ⟨(firsts_spec qs).1 q h1, of_decide_eq_true h2⟩

theorem group_length (qs : List (Claim ρ T)) (s : List Fr) : (group qs s).length ≤ qs.length :=
  (List.length_filter_le _ _).trans (firsts_spec qs).2.2

theorem covers (qs : List (Claim ρ T)) {q : Claim ρ T} (hq : q ∈ qs) :
    ∃ s ∈ pointSets qs, q.point ∈ s ∧ ∃ q' ∈ group qs s, q'.ref = q.ref := by
  obtain ⟨q', hq', e⟩ := (firsts_spec qs).2.1 q hq
  refine ⟨pointSet qs q'.ref, ((pointSets_spec qs).2.1 _).2 ⟨q', hq', rfl⟩, ?_, q', List.mem_filter.2 ⟨hq', by simp⟩, e⟩
  exact ((pointSet_spec qs _).2 _).2 ⟨q, hq, e.symm, rfl⟩

theorem set_nodup {qs : List (Claim ρ T)} {s : List Fr} (h : s ∈ pointSets qs) : s.Nodup := by
  obtain ⟨q, -, rfl⟩ := ((pointSets_spec qs).2.1 s).1 h
  exact (pointSet_spec qs _).1

theorem set_points {qs : List (Claim ρ T)} {s : List Fr} (h : s ∈ pointSets qs) {p : Fr} (hp : p ∈ s) : p ∈ points qs := by
  obtain ⟨q, -, rfl⟩ := ((pointSets_spec qs).2.1 s).1 h
  exact (List.mem_filter.1 hp).1

omit [DecidableEq ρ] in
theorem valueAt_mem (l : List (Claim ρ T)) (p : Fr) (h : ∃ q ∈ l, q.point = p) :
    ∃ q ∈ l, q.point = p ∧ valueAt l p = q.value := by
  induction l using List.reverseRecOn with
  | nil => simp at h
  | append_singleton l a ih =>
    have e : valueAt (l ++ [a]) p = Function.update (valueAt l) a.point a.value p := by
      unfold valueAt
      rw [List.foldl_append]
      rfl
    by_cases hp : a.point = p
    · refine ⟨a, by simp, hp, ?_⟩
      rw [e, hp, Function.update_self]
    · obtain ⟨q, hq, hqp⟩ := h
      rcases List.mem_append.1 hq with hq | hq
      · obtain ⟨q', h1, h2, h3⟩ := ih ⟨q, hq, hqp⟩
        refine ⟨q', by simp [h1], h2, ?_⟩
        rw [e, Function.update_of_ne (Ne.symm hp), h3]
      · rw [List.mem_singleton] at hq
        subst hq
        exact absurd hqp hp

/-- The value used for an object at a point is that of a query. -/
theorem value_mem (qs : List (Claim ρ T)) {r : ρ} {p : Fr} (hp : p ∈ pointSet qs r) :
    ∃ q ∈ qs, q.ref = r ∧ q.point = p ∧ valueAt (own qs r) p = q.value := by
  obtain ⟨q, hq, h1, h2⟩ := ((pointSet_spec qs r).2 p).1 hp
  obtain ⟨q', h3, h4, h5⟩ := valueAt_mem (own qs r) p ⟨q, List.mem_filter.2 ⟨hq, decide_eq_true h1⟩, h2⟩
  obtain ⟨h6, h7⟩ := List.mem_filter.1 h3
  exact ⟨q', h6, of_decide_eq_true h7, h4, h5⟩

/-! ### The same claims about something else -/

section same

variable {R : T → T' → Prop} {ps : List (Claim ρ T)} {cs : List (Claim ρ T')}

omit [DecidableEq ρ] in
theorem points_same (h : List.Forall₂ (Same R) ps cs) : points cs = points ps := by
  unfold points
  congr 1
  induction h with
  | nil => rfl
  | cons h _ ih => rw [List.map_cons, List.map_cons, ih, h.point]

omit [DecidableEq ρ] in
theorem any_same (h : List.Forall₂ (Same R) ps cs) (f : ρ → Fr → Bool) :
    (cs.any fun q => f q.ref q.point) = ps.any fun q => f q.ref q.point := by
  induction h with
  | nil => rfl
  | cons h _ ih => rw [List.any_cons, List.any_cons, ih, h.ref, h.point]

omit [DecidableEq ρ] in
theorem filter_same (h : List.Forall₂ (Same R) ps cs) (f : ρ → Bool) :
    List.Forall₂ (Same R) (ps.filter fun q => f q.ref) (cs.filter fun q => f q.ref) := by
  induction h with
  | nil => exact .nil
  | cons h _ ih =>
    rw [List.filter_cons, List.filter_cons, h.ref]
    split
    · exact .cons h ih
    · exact ih

theorem firsts_same (h : List.Forall₂ (Same R) ps cs) : List.Forall₂ (Same R) (firsts ps) (firsts cs) := by
  have : ∀ {a : List (Claim ρ T)} {b : List (Claim ρ T')}, List.Forall₂ (Same R) a b →
      List.Forall₂ (Same R) (ps.foldl (fun l q => if l.any (fun q' => decide (q'.ref = q.ref)) then l else l ++ [q]) a)
        (cs.foldl (fun l q => if l.any (fun q' => decide (q'.ref = q.ref)) then l else l ++ [q]) b) := by
    induction h with
    | nil => intro a b hab; exact hab
    | @cons p c ps cs h _ ih =>
      intro a b hab
      rw [List.foldl_cons, List.foldl_cons]
      refine ih ?_
      rw [h.ref, any_same hab fun r _ => decide (r = p.ref)]
      split
      · exact hab
      · exact List.rel_append hab (.cons h .nil)
  exact this .nil

theorem pointSet_same (h : List.Forall₂ (Same R) ps cs) (r : ρ) : pointSet cs r = pointSet ps r := by
  unfold pointSet
  rw [points_same h]
  refine List.filter_congr fun p _ => ?_
  exact any_same h fun r' p' => decide (r' = r ∧ p' = p)

theorem pointSets_same (h : List.Forall₂ (Same R) ps cs) : pointSets cs = pointSets ps := by
  unfold pointSets
  congr 1
  have : ∀ {a : List (Claim ρ T)} {b : List (Claim ρ T')}, List.Forall₂ (Same R) a b →
      (b.map fun q => pointSet cs q.ref) = a.map fun q => pointSet ps q.ref := by
    intro a b hab
    induction hab with
    | nil => rfl
    | cons h' _ ih => rw [List.map_cons, List.map_cons, ih, h'.ref, pointSet_same h]
  exact this (firsts_same h)

theorem group_same (h : List.Forall₂ (Same R) ps cs) (s : List Fr) : List.Forall₂ (Same R) (group ps s) (group cs s) := by
  unfold group
  have := filter_same (firsts_same h) fun r => decide (pointSet ps r = s)
  have e : (fun q : Claim ρ T' => decide (pointSet cs q.ref = s)) = fun q => decide (pointSet ps q.ref = s) := by
    funext q
    rw [pointSet_same h]
  rw [e]
  exact this

theorem own_same (h : List.Forall₂ (Same R) ps cs) (r : ρ) : List.Forall₂ (Same R) (own ps r) (own cs r) :=
  filter_same h fun r' => decide (r' = r)

theorem value_same (h : List.Forall₂ (Same R) ps cs) (r : ρ) : valueAt (own cs r) = valueAt (own ps r) := by
  have : ∀ {a : List (Claim ρ T)} {b : List (Claim ρ T')}, List.Forall₂ (Same R) a b → ∀ f : Fr → Fr,
      b.foldl (fun f q => Function.update f q.point q.value) f = a.foldl (fun f q => Function.update f q.point q.value) f := by
    intro a b hab
    induction hab with
    | nil => intro f; rfl
    | cons h' _ ih => intro f; rw [List.foldl_cons, List.foldl_cons, ih, h'.point, h'.value]
  exact this (own_same h r) _

end same

end Verif.IpaOpen

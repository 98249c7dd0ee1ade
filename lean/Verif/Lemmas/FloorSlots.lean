import Verif.Lemmas.FloorFit
import Mathlib.Data.List.Perm.Basic
import Mathlib.Data.List.Sort
import Mathlib.Data.List.Dedup

/-! Where the regions are put. -/

namespace Verif.FloorPlanner

open Spec

variable {V : Type}

/-- A shape as it is measured: no column twice, and rows if there are columns. -/
structure Shape.Ok (s : Shape) : Prop where
  nodup : s.columns.Nodup
  rows : s.columns ≠ [] → 0 < s.rows

/-- The allocations are those of the regions that are laid out. -/
structure Holds (l : List (Nat × Shape)) (cols : Columns) : Prop where
  good : ∀ c, Good (cols c)
  mem : ∀ c a, a ∈ cols c ↔ ∃ p ∈ l, c ∈ p.2.columns ∧ a = ⟨p.1, p.2.rows⟩

/-- The rows at which a shape is clear of regions that share a column with it. -/
def ClearOf (l : List (Nat × Shape)) (s : Shape) (r : Nat) : Prop :=
  ∀ p ∈ l, (∃ c, c ∈ s.columns ∧ c ∈ p.2.columns) → Clear r s.rows p.1 p.2.rows

theorem fits_iff {l : List (Nat × Shape)} {cols : Columns} (h : Holds l cols) (s : Shape) {cs : List RegionColumn}
    (hp : cs.Perm s.columns) (r : Nat) : Fits cols cs r s.rows ↔ ClearOf l s r := by
  constructor
  · rintro hf p hp' ⟨c, h1, h2⟩
    exact hf c (hp.mem_iff.2 h1) ⟨p.1, p.2.rows⟩ ((h.mem c _).2 ⟨p, hp', h2, rfl⟩)
  · intro hc c hcs a ha
    obtain ⟨p, p1, p2, rfl⟩ := (h.mem c a).1 ha
    exact hc p p1 ⟨c, hp.mem_iff.1 hcs, p2⟩

/-- Far enough down everything is clear. -/
theorem exists_clear (l : List (Nat × Shape)) (s : Shape) : ∃ r, ClearOf l s r := by
  induction l with
  | nil => exact ⟨0, fun p hp => by cases hp⟩
  | cons q l ih =>
    have : ∃ b, ∀ p ∈ q :: l, p.1 + p.2.rows ≤ b := by
      clear ih
      generalize q :: l = m
      induction m with
      | nil => exact ⟨0, fun p hp => by cases hp⟩
      | cons q m ih =>
        obtain ⟨b, hb⟩ := ih
        refine ⟨max b (q.1 + q.2.rows), fun p hp => ?_⟩
        rcases List.mem_cons.1 hp with rfl | hp
        · exact le_max_right _ _
        · exact le_trans (hb p hp) (le_max_left _ _)
    obtain ⟨b, hb⟩ := this
    exact ⟨b, fun p hp _ => Or.inr (hb p hp)⟩

theorem Holds.add {l : List (Nat × Shape)} {cols : Columns} (h : Holds l cols) {s : Shape} (hs : s.Ok)
    {cs : List RegionColumn} (hp : cs.Perm s.columns) {r : Nat} (hf : Fits cols cs r s.rows) :
    Holds (l ++ [(r, s)]) (added cols cs r s.rows) := by
  have key : ∀ c ∈ cs, 0 < s.rows := fun c hc => hs.rows (List.ne_nil_of_mem (hp.mem_iff.1 hc))
  refine ⟨fun c => ?_, fun c a => ?_⟩
  · unfold added
    split
    · rename_i hc
      exact good_insert (a := ⟨r, s.rows⟩) (key c hc) (h.good c) (hf c hc)
    · exact h.good c
  · unfold added
    split
    · rename_i hc
      rw [mem_insert (a := ⟨r, s.rows⟩) (key c hc) (h.good c) (hf c hc), h.mem c a]
      constructor
      · rintro (rfl | ⟨p, p1, p2⟩)
        · exact ⟨(r, s), by simp, hp.mem_iff.1 hc, rfl⟩
        · exact ⟨p, List.mem_append_left _ p1, p2⟩
      · rintro ⟨p, p1, p2, rfl⟩
        rcases List.mem_append.1 p1 with p1 | p1
        · exact Or.inr ⟨p, p1, p2, rfl⟩
        · obtain rfl := List.mem_singleton.1 p1
          exact Or.inl rfl
    · rename_i hc
      rw [h.mem c a]
      constructor
      · rintro ⟨p, p1, p2⟩
        exact ⟨p, List.mem_append_left _ p1, p2⟩
      · rintro ⟨p, p1, p2, rfl⟩
        rcases List.mem_append.1 p1 with p1 | p1
        · exact ⟨p, p1, p2, rfl⟩
        · obtain rfl := List.mem_singleton.1 p1
          exact absurd (hp.mem_iff.2 p2) hc

/-- One region. -/
theorem firstFit_clear {l : List (Nat × Shape)} {cols : Columns} (h : Holds l cols) {s : Shape} (hs : s.Ok)
    {cs : List RegionColumn} (hp : cs.Perm s.columns) : ∃ r cols', firstFit s.rows cs cols 0 none = .ok (some (r, cols')) ∧
    IsLeast {r | ClearOf l s r} r ∧ Holds (l ++ [(r, s)]) cols' := by
  by_cases hcs : s.columns = []
  · rw [hcs] at hp
    obtain rfl := hp.eq_nil
    have hc : ∀ r, ClearOf l s r := fun r p _ hx => by
      obtain ⟨c, h1, -⟩ := hx
      rw [hcs] at h1
      cases h1
    have := h.add (r := 0) hs (cs := []) (by rw [hcs]) (fun c hc => absurd hc (by simp))
    refine ⟨0, cols, rfl, ⟨hc 0, fun r _ => Nat.zero_le r⟩, ?_⟩
    rwa [show added cols [] 0 s.rows = cols from by funext d; simp [added]] at this
  · obtain ⟨res, h1, h2⟩ := firstFit_spec h.good (hs.rows hcs) (hp.nodup_iff.2 hs.nodup) 0 none
    cases res with
    | none =>
      obtain ⟨r, hr⟩ := exists_clear l s
      exact absurd ((fits_iff h s hp r).2 hr) (h2 r (Nat.zero_le _) fun e he => by cases he)
    | some x =>
      obtain ⟨r, cols'⟩ := x
      obtain ⟨-, -, f3, f4, f5⟩ := h2
      subst f5
      refine ⟨r, _, h1, ⟨(fits_iff h s hp r).1 f3, fun r' hr' => ?_⟩, h.add hs hp f3⟩
      by_contra hlt
      exact f4 r' (Nat.zero_le _) (not_le.1 hlt) ((fits_iff h s hp r').2 hr')

/-- The orders are reorderings. -/
structure Orders.Fair (o : Orders) : Prop where
  columns : ∀ l, (o.columns l).Perm l
  shapes : ∀ l, (o.shapes l).Perm l

/-- All the regions. -/
theorem slotIn_spec {o : Orders} (ho : o.Fair) : ∀ {shapes : List Shape} {l : List (Nat × Shape)} {cols : Columns},
    (∀ s ∈ shapes, s.Ok) → Holds l cols → ∃ m cols', slotIn o shapes cols = .ok (m, cols') ∧ m.map (·.2) = shapes ∧
      Holds (l ++ m) cols' ∧ ∀ before after s, m = before ++ s :: after → IsLeast {r | ClearOf (l ++ before) s.2 r} s.1 := by
  intro shapes
  induction shapes with
  | nil =>
    intro l cols _ h
    refine ⟨[], cols, rfl, rfl, by rwa [List.append_nil], fun before after s hm => ?_⟩
    simp at hm
  | cons s shapes ih =>
    intro l cols hs h
    obtain ⟨r, cols1, h1, h2, h3⟩ := firstFit_clear h (hs s List.mem_cons_self) (ho.columns s.columns)
    obtain ⟨m, cols2, h4, h5, h6, h7⟩ := ih (fun t ht => hs t (List.mem_cons_of_mem _ ht)) h3
    refine ⟨(r, s) :: m, cols2, ?_, by simp [h5], ?_, ?_⟩
    · unfold slotIn
      simp only [bind, Except.bind, pure, Except.pure, h1, h4]
    · rwa [List.append_assoc] at h6
    · intro before after t hm
      cases before with
      | nil =>
        simp only [List.nil_append, List.cons.injEq] at hm
        obtain ⟨rfl, -⟩ := hm
        rwa [List.append_nil]
      | cons b before =>
        simp only [List.cons_append, List.cons.injEq] at hm
        obtain ⟨rfl, hm⟩ := hm
        have := h7 before after t hm
        rwa [List.append_assoc] at this

/-- The starts are those of the first fit, in the order of the regions. -/
theorem slotInBiggestFirst_spec {o : Orders} (ho : o.Fair) {shapes : List Shape} (hs : ∀ s ∈ shapes, s.Ok)
    (hi : ∀ (i : Nat) (s : Shape), shapes[i]? = some s → s.index = i) : ∃ m starts cols,
    slotInBiggestFirst o shapes = .ok (starts, cols) ∧ m.map (·.2) = (o.shapes shapes).reverse ∧ Holds m cols ∧
    (∀ before after s, m = before ++ s :: after → IsLeast {r | ClearOf before s.2 r} s.1) ∧
    m.Perm (starts.zip shapes) ∧ starts.length = shapes.length := by
  obtain ⟨m, cols, h1, h2, h3, h4⟩ := slotIn_spec ho (shapes := (o.shapes shapes).reverse) (l := []) (cols := fun _ => [])
    (fun s h => hs s ((ho.shapes shapes).mem_iff.1 (List.mem_reverse.1 h)))
    ⟨fun _ => ⟨List.Pairwise.nil, fun a ha => by cases ha⟩, fun c a => by simp⟩
  have hperm : (m.map (·.2)).Perm shapes := by
    rw [h2]; exact (List.reverse_perm _).trans (ho.shapes shapes)
  set srt := m.insertionSort fun a b => a.2.index ≤ b.2.index with hsrt
  have hsp : srt.Perm m := List.perm_insertionSort _ _
  have hpair : shapes.Pairwise fun a b => a.index < b.index := by
    rw [List.pairwise_iff_getElem]
    intro i j hi' hj hij
    rw [hi i _ (List.getElem?_eq_getElem hi'), hi j _ (List.getElem?_eq_getElem hj)]
    exact hij
  have heq : srt.map (·.2) = shapes := by
    have hp1 : (srt.map (·.2)).Perm shapes := (hsp.map _).trans hperm
    have hsorted : (srt.map (·.2)).Pairwise fun a b => a.index ≤ b.index := by
      rw [List.pairwise_map]
      exact List.pairwise_insertionSort (r := fun a b : Nat × Shape => a.2.index ≤ b.2.index) m
    refine List.Perm.eq_of_pairwise ?_ hsorted (hpair.imp fun h => le_of_lt h) hp1
    intro a b ha hb hab hba
    obtain ⟨i, hi1⟩ := List.getElem?_of_mem (hp1.mem_iff.1 ha)
    obtain ⟨j, hj1⟩ := List.getElem?_of_mem hb
    have e : i = j := by rw [← hi i a hi1, ← hi j b hj1]; exact le_antisymm hab hba
    subst e
    exact Option.some.inj (hi1.symm.trans hj1)
  have hzip : (srt.map (·.1)).zip shapes = srt := by
    rw [← heq, List.zip_map', List.map_id']
  refine ⟨m, srt.map (·.1), cols, ?_, h2, by simpa using h3, by simpa using h4, ?_, ?_⟩
  · unfold slotInBiggestFirst
    simp only [bind, Except.bind, pure, Except.pure, h1]
    rfl
  · rw [hzip]; exact hsp.symm
  · rw [List.length_map, ← heq, List.length_map]

theorem firstFit_order {l : List (Nat × Shape)} {cols : Columns} (h : Holds l cols) {s : Shape} (hs : s.Ok)
    {cs cs' : List RegionColumn} (hp : cs.Perm s.columns) (hp' : cs'.Perm s.columns) :
    firstFit s.rows cs cols 0 none = firstFit s.rows cs' cols 0 none := by
  by_cases hcs : s.columns = []
  · rw [hcs] at hp hp'
    rw [hp.eq_nil, hp'.eq_nil]
  · obtain ⟨res, h1, h2⟩ := firstFit_spec h.good (hs.rows hcs) (hp.nodup_iff.2 hs.nodup) 0 none
    obtain ⟨res', h1', h2'⟩ := firstFit_spec h.good (hs.rows hcs) (hp'.nodup_iff.2 hs.nodup) 0 none
    rw [h1, h1']
    have hmem : ∀ d, d ∈ cs ↔ d ∈ cs' := fun d => (hp.trans hp'.symm).mem_iff
    have hfits : ∀ r, Fits cols cs r s.rows ↔ Fits cols cs' r s.rows := fun r =>
      (fits_iff h s hp r).trans (fits_iff h s hp' r).symm
    have hno : ∀ e, (none : Option Nat).map (0 + ·) = some e → ∀ r : Nat, r ≤ e := fun e he => by cases he
    cases res with
    | none =>
      cases res' with
      | none => rfl
      | some x =>
        obtain ⟨r, c⟩ := x
        exact absurd ((hfits r).2 h2'.2.2.1) (h2 r (Nat.zero_le _) fun e he => hno e he r)
    | some x =>
      obtain ⟨r, c⟩ := x
      obtain ⟨-, -, f3, f4, f5⟩ := h2
      cases res' with
      | none => exact absurd ((hfits r).1 f3) (h2' r (Nat.zero_le _) fun e he => hno e he r)
      | some x =>
        obtain ⟨r', c'⟩ := x
        obtain ⟨-, -, f3', f4', f5'⟩ := h2'
        have e : r = r' := by
          rcases lt_trichotomy r r' with hlt | e | hlt
          · exact absurd ((hfits r).1 f3) (f4' r (Nat.zero_le _) hlt)
          · exact e
          · exact absurd ((hfits r').2 f3') (f4 r' (Nat.zero_le _) hlt)
        subst e
        rw [f5, f5']
        have : added cols cs r s.rows = added cols cs' r s.rows := by
          funext d
          unfold added
          simp only [hmem d]
        rw [this]

theorem slotIn_order {o o' : Orders} (ho : o.Fair) (ho' : o'.Fair) : ∀ {shapes : List Shape} {l : List (Nat × Shape)}
    {cols : Columns}, (∀ s ∈ shapes, s.Ok) → Holds l cols → slotIn o shapes cols = slotIn o' shapes cols := by
  intro shapes
  induction shapes with
  | nil => intro l cols _ _; rfl
  | cons s shapes ih =>
    intro l cols hs h
    obtain ⟨r, cols1, h1, h2, h3⟩ := firstFit_clear h (hs s List.mem_cons_self) (ho.columns s.columns)
    have h1' := h1
    rw [firstFit_order h (hs s List.mem_cons_self) (ho.columns s.columns) (ho'.columns s.columns)] at h1'
    unfold slotIn
    simp only [bind, Except.bind, pure, Except.pure, h1, h1']
    rw [ih (fun t ht => hs t (List.mem_cons_of_mem _ ht)) h3]

end Verif.FloorPlanner

import Verif.Spec.FloorPlanner
import Mathlib.Tactic.Linarith
import Mathlib.Order.Bounds.Basic
import Mathlib.Data.List.Nodup

/-! First fit: the intervals that are free, and what the search returns. -/

namespace Verif.FloorPlanner

open Spec

/-- Nothing is allocated in the rows from `r` on, `n` of them. -/
def Vacant (l : Allocations) (r n : Nat) : Prop := ∀ a ∈ l, Clear r n a.start a.length

/-- Allocations in order, apart and not empty. -/
def Good (l : Allocations) : Prop :=
  l.Pairwise (fun a b => a.start + a.length ≤ b.start) ∧ ∀ a ∈ l, 0 < a.length

theorem Good.tail {a : Allocated} {l : Allocations} (h : Good (a :: l)) : Good l :=
  ⟨(List.pairwise_cons.1 h.1).2, fun b hb => h.2 b (List.mem_cons_of_mem _ hb)⟩

/-- An end that may be missing. -/
def Within (r : Nat) (stop : Option Nat) : Prop := ∀ e, stop = some e → r ≤ e

theorem free_bounds {l : Allocations} {stop : Option Nat} : ∀ {row : Nat}, ∀ g ∈ l.free row stop,
    row ≤ g.start ∧ (∀ e, g.stop = some e → g.start < e ∧ Within e stop) ∧ (g.stop = none → stop = none) := by
  induction l with
  | nil =>
    intro row g hg
    unfold Allocations.free at hg
    split at hg
    · rename_i hc
      obtain rfl := List.mem_singleton.1 hg
      refine ⟨le_rfl, ?_, fun h => h⟩
      intro e (he : stop = some e)
      subst he
      exact ⟨by simpa using hc, fun e' h => by cases h; exact le_rfl⟩
    · cases hg
  | cons a l ih =>
    intro row g hg
    unfold Allocations.free at hg
    split at hg
    · exact ih g hg
    · rename_i hc
      have tail : g ∈ Allocations.free l (max row (a.start + a.length)) stop → _ := fun h => by
        obtain ⟨h1, h2, h3⟩ := ih g h
        exact (⟨le_trans (le_max_left _ _) h1, h2, h3⟩ : row ≤ g.start ∧ (∀ e, g.stop = some e → g.start < e ∧ Within e stop) ∧
          (g.stop = none → stop = none))
      split at hg
      · rename_i hlt
        rcases List.mem_cons.1 hg with rfl | hg
        · refine ⟨le_rfl, ?_, fun h => by cases h⟩
          intro e he
          cases he
          refine ⟨hlt, fun e' h => ?_⟩
          subst h
          have hc' : ¬ e' ≤ a.start := by simpa using hc
          exact le_of_lt (not_le.1 hc')
        · exact tail hg
      · exact tail hg

theorem free_ordered {l : Allocations} {stop : Option Nat} : ∀ {row : Nat},
    (l.free row stop).Pairwise fun g g' => ∃ e, g.stop = some e ∧ e ≤ g'.start := by
  induction l with
  | nil =>
    intro row
    unfold Allocations.free
    split <;> simp
  | cons a l ih =>
    intro row
    unfold Allocations.free
    split
    · exact ih
    · split
      · refine List.pairwise_cons.2 ⟨fun g hg => ⟨_, rfl, ?_⟩, ih⟩
        have := (free_bounds g hg).1
        have := le_max_right row (a.start + a.length)
        omega
      · exact ih

/-- The free intervals are all the room there is. -/
theorem free_iff {l : Allocations} {stop : Option Nat} {n : Nat} (hn : 0 < n) (hg : Good l) : ∀ {row r : Nat},
    row ≤ r → Within (r + n) stop →
    (Vacant l r n ↔ ∃ g ∈ l.free row stop, g.start ≤ r ∧ Within (r + n) g.stop) := by
  induction l with
  | nil =>
    intro row r h1 h2
    refine iff_of_true (fun a ha => by cases ha) ⟨⟨row, stop⟩, ?_, h1, h2⟩
    unfold Allocations.free
    rw [if_pos]
    · exact List.mem_singleton.2 rfl
    · cases stop with
      | none => rfl
      | some e => have := h2 e rfl; simpa using (by omega : row < e)
  | cons a l ih =>
    intro row r h1 h2
    have ha : 0 < a.length := hg.2 a List.mem_cons_self
    have hall := (List.pairwise_cons.1 hg.1).1
    have ih := @ih hg.tail
    have hsplit : Vacant (a :: l) r n ↔ Clear r n a.start a.length ∧ Vacant l r n := by
      constructor
      · exact fun h => ⟨h a List.mem_cons_self, fun b hb => h b (List.mem_cons_of_mem _ hb)⟩
      · rintro ⟨h, h'⟩ b hb
        rcases List.mem_cons.1 hb with rfl | hb
        · exact h
        · exact h' b hb
    have before : r + n ≤ a.start → Vacant l r n := fun h b hb => Or.inl (by have := hall b hb; omega)
    rw [hsplit]
    unfold Allocations.free
    split
    · rename_i hc
      cases stop with
      | none => simp at hc
      | some e =>
        have hc : e ≤ a.start := by simpa using hc
        have h3 := h2 e rfl
        rw [← ih h1 h2]
        exact ⟨fun h => h.2, fun h => ⟨Or.inl (by omega), h⟩⟩
    · split
      · rename_i hlt
        constructor
        · rintro ⟨h | h, h'⟩
          · exact ⟨_, List.mem_cons_self, h1, fun e he => by cases he; exact h⟩
          · obtain ⟨g, g1, g2⟩ := (ih (max_le h1 h) h2).1 h'
            exact ⟨g, List.mem_cons_of_mem _ g1, g2⟩
        · rintro ⟨g, g1, g2, g3⟩
          rcases List.mem_cons.1 g1 with rfl | g1
          · have := g3 _ rfl
            exact ⟨Or.inl this, before this⟩
          · have hle := le_trans (free_bounds g g1).1 g2
            exact ⟨Or.inr (le_trans (le_max_right _ _) hle), (ih hle h2).2 ⟨g, g1, g2, g3⟩⟩
      · rename_i hlt
        constructor
        · rintro ⟨h | h, h'⟩
          · omega
          · exact (ih (max_le h1 h) h2).1 h'
        · rintro ⟨g, g1, g2, g3⟩
          have hle := le_trans (free_bounds g g1).1 g2
          exact ⟨Or.inr (le_trans (le_max_right _ _) hle), (ih hle h2).2 ⟨g, g1, g2, g3⟩⟩

theorem mem_insert {a : Allocated} (ha : 0 < a.length) : ∀ {l : Allocations}, Good l → Vacant l a.start a.length →
    ∀ b, b ∈ l.insert a ↔ b = a ∨ b ∈ l := by
  intro l
  induction l with
  | nil => intro _ _ b; simp [Allocations.insert]
  | cons c l ih =>
    intro hg hv b
    unfold Allocations.insert
    split
    · simp
    · split
      · rename_i h1 h2
        have h3 := hg.2 c List.mem_cons_self
        rcases hv c List.mem_cons_self with h | h <;> omega
      · rw [List.mem_cons, ih hg.tail (fun d hd => hv d (List.mem_cons_of_mem _ hd)), List.mem_cons]
        tauto

theorem good_insert {a : Allocated} (ha : 0 < a.length) : ∀ {l : Allocations}, Good l → Vacant l a.start a.length →
    Good (l.insert a) := by
  intro l
  induction l with
  | nil => intro _ _; exact ⟨by simp [Allocations.insert], by simpa [Allocations.insert] using ha⟩
  | cons c l ih =>
    intro hg hv
    have hc := hg.2 c List.mem_cons_self
    have hall := (List.pairwise_cons.1 hg.1).1
    have hcv := hv c List.mem_cons_self
    refine ⟨?_, fun b hb => ?_⟩
    · unfold Allocations.insert
      split
      · refine List.pairwise_cons.2 ⟨fun b hb => ?_, hg.1⟩
        have h1 : a.start + a.length ≤ c.start := by
          rcases hcv with h | h
          · exact h
          · omega
        rcases List.mem_cons.1 hb with rfl | hb
        · exact h1
        · have := hall b hb; omega
      · split
        · exact hg.1
        · have hv' : Vacant l a.start a.length := fun d hd => hv d (List.mem_cons_of_mem _ hd)
          refine List.pairwise_cons.2 ⟨fun b hb => ?_, (ih hg.tail hv').1⟩
          rcases (mem_insert ha hg.tail hv' b).1 hb with rfl | hb
          · rcases hcv with h | h
            · omega
            · exact h
          · exact hall b hb
    · rcases (mem_insert ha hg hv b).1 hb with rfl | hb
      · exact ha
      · exact hg.2 b hb

theorem firstSome_eq {A B : Type} {f : A → Except Stop (Option B)} {h : A → Option B} : ∀ {l : List A},
    (∀ a ∈ l, f a = .ok (h a)) → firstSome f l = .ok (l.findSome? h) := by
  intro l
  induction l with
  | nil => intro _; rfl
  | cons a l ih =>
    intro hf
    unfold firstSome
    rw [hf a List.mem_cons_self]
    cases hh : h a with
    | some b => simp only [bind, Except.bind, List.findSome?_cons, hh]; rfl
    | none =>
      simp only [bind, Except.bind, List.findSome?_cons, hh]
      exact ih fun b hb => hf b (List.mem_cons_of_mem _ hb)

/-- A row that is free in all the columns. -/
def Fits (cols : Columns) (cs : List RegionColumn) (r n : Nat) : Prop := ∀ c ∈ cs, Vacant (cols c) r n

/-- The allocations with a region added. -/
def added (cols : Columns) (cs : List RegionColumn) (r n : Nat) : Columns :=
  fun d => if d ∈ cs then (cols d).insert ⟨r, n⟩ else cols d

/-- The first row that fits between `start` and `start + slack`. -/
def IsFirst (cols : Columns) (cs : List RegionColumn) (n start : Nat) (slack : Option Nat) :
    Option (Nat × Columns) → Prop
  | some (row, cols') => start ≤ row ∧ Within row (slack.map (start + ·)) ∧ Fits cols cs row n ∧
      (∀ r, start ≤ r → r < row → ¬ Fits cols cs r n) ∧ cols' = added cols cs row n
  | none => ∀ r, start ≤ r → Within r (slack.map (start + ·)) → ¬ Fits cols cs r n

theorem firstFit_spec {cols : Columns} (hgood : ∀ c, Good (cols c)) {n : Nat} (hn : 0 < n) :
    ∀ {cs : List RegionColumn}, cs.Nodup → ∀ (start : Nat) (slack : Option Nat),
    ∃ res, firstFit n cs cols start slack = .ok res ∧ IsFirst cols cs n start slack res := by
  intro cs
  induction cs with
  | nil =>
    intro _ start slack
    refine ⟨_, rfl, le_rfl, ?_, fun c hc => absurd hc (by simp), fun r h1 h2 => by omega, ?_⟩
    · intro e he
      cases slack with
      | none => cases he
      | some s => cases he; show start ≤ start + s; omega
    · funext d; simp [added]
  | cons c cs ih =>
    intro hnd start slack
    obtain ⟨hc, hnd⟩ := List.nodup_cons.1 hnd
    have ih := @ih hnd
    choose inner hin1 hin2 using ih
    set stop : Option Nat := slack.map fun s => start + n + s with hstop
    -- the room of a space
    let room : Space → Option Int := fun g => g.room n
    let h : Space → Option (Nat × Columns) := fun g =>
      if 0 ≤ (room g).getD 0 then
        (inner g.start ((room g).map Int.toNat)).map fun x =>
          (x.1, fun d => if d = c then (x.2 c).insert ⟨x.1, n⟩ else x.2 d)
      else none
    -- what the search in a space returns
    have hfirst : ∀ g ∈ (cols c).free start stop, ∀ res, inner g.start ((room g).map Int.toNat) = res →
        0 ≤ (room g).getD 0 → ∀ x, res = some x → Within (x.1 + n) g.stop ∧ Within (x.1 + n) stop ∧ g.start ≤ x.1 := by
      intro g hg res hres hroom x hx
      obtain ⟨row, cols'⟩ := x
      have := hin2 g.start ((room g).map Int.toNat)
      rw [hres, hx] at this
      obtain ⟨f1, f2, -⟩ := this
      have hw : Within (row + n) g.stop := by
        intro e he
        have hr : room g = some ((e : Int) - g.start - n) := by simp only [room, Space.room, he, Option.map_some]
        rw [hr] at hroom f2
        have := f2 (g.start + ((e : Int) - g.start - n).toNat) rfl
        simp only [Option.getD_some] at hroom
        omega
      refine ⟨hw, ?_, f1⟩
      intro E hE
      obtain ⟨-, b2, b3⟩ := free_bounds g hg
      cases hs : g.stop with
      | none => rw [b3 hs] at hE; cases hE
      | some e => exact le_trans (hw e hs) ((b2 e hs).2 E hE)
    have hbody : ∀ g ∈ (cols c).free start stop, tryIn n c stop slack (firstFit n cs cols) g = .ok (h g) := by
      intro g hg
      have e1 : ensure (roomOk slack (g.room n)) = .ok () := by
        unfold ensure
        rw [if_pos]
        cases slack with
        | none => rfl
        | some s =>
          cases hgs : g.stop with
          | none => simp [roomOk, Space.room, hgs]
          | some e =>
            obtain ⟨b1, b2, -⟩ := free_bounds g hg
            have := (b2 e hgs).2 (start + n + s) rfl
            simp only [roomOk, Space.room, hgs, Option.map_some, decide_eq_true_eq]
            omega
      unfold tryIn
      rw [e1]
      simp only [bind, Except.bind, pure, Except.pure]
      by_cases hroom : 0 ≤ (g.room n).getD 0
      · rw [if_pos hroom, hin1]
        have hh : h g = (inner g.start ((room g).map Int.toNat)).map fun x =>
          (x.1, fun d => if d = c then (x.2 c).insert ⟨x.1, n⟩ else x.2 d) := if_pos hroom
        rw [hh]
        cases hres : inner g.start ((room g).map Int.toNat) with
        | none => rfl
        | some x =>
          obtain ⟨row, cols'⟩ := x
          obtain ⟨-, h2, -⟩ := hfirst g hg _ rfl hroom _ hres
          have e2 : ensure (endOk n row stop) = .ok () := by
            unfold ensure
            rw [if_pos]
            cases hst : stop with
            | none => rfl
            | some e => simpa [endOk] using h2 e hst
          dsimp only
          rw [e2]
          rfl
      · rw [if_neg hroom]
        exact congrArg Except.ok (if_neg hroom).symm
    have heq : firstFit n (c :: cs) cols start slack = .ok (((cols c).free start stop).findSome? h) := by
      rw [firstFit]
      exact firstSome_eq hbody
    -- a row that fits lies in one of the spaces
    have hin : ∀ r, start ≤ r → Within r (slack.map (start + ·)) → Fits cols (c :: cs) r n →
        ∃ g ∈ (cols c).free start stop, g.start ≤ r ∧ Within (r + n) g.stop := by
      intro r h1 h2 hf
      refine (free_iff hn (hgood c) h1 ?_).1 (hf c List.mem_cons_self)
      intro e he
      rw [hstop] at he
      cases slack with
      | none => cases he
      | some s => cases he; have := h2 (start + s) rfl; show r + n ≤ start + n + s; omega
    -- and the search there succeeds, not after it
    have hspace : ∀ g ∈ (cols c).free start stop, ∀ r, g.start ≤ r → Within (r + n) g.stop → Fits cols cs r n →
        ∃ x, h g = some x ∧ x.1 ≤ r := by
      intro g hg r h1 h2 hf
      have hroom : 0 ≤ (room g).getD 0 := by
        cases hs : g.stop with
        | none => simp [room, Space.room, hs]
        | some e => have := h2 e hs; simp only [room, Space.room, hs, Option.map_some, Option.getD_some]; omega
      have hw : Within r (((room g).map Int.toNat).map (g.start + ·)) := by
        cases hs : g.stop with
        | none => intro e he; simp [room, Space.room, hs] at he
        | some e =>
          intro e' he
          have := h2 e hs
          simp only [room, Space.room, hs, Option.map_some, Option.some.injEq] at he
          omega
      have hh : h g = (inner g.start ((room g).map Int.toNat)).map fun x =>
        (x.1, fun d => if d = c then (x.2 c).insert ⟨x.1, n⟩ else x.2 d) := if_pos hroom
      have hspec := hin2 g.start ((room g).map Int.toNat)
      rw [hh]
      cases hres : inner g.start ((room g).map Int.toNat) with
      | none => rw [hres] at hspec; exact absurd hf (hspec r h1 hw)
      | some x =>
        obtain ⟨row, cols'⟩ := x
        rw [hres] at hspec
        refine ⟨_, rfl, ?_⟩
        by_contra hlt
        exact hspec.2.2.2.1 r h1 (not_le.1 hlt) hf
    refine ⟨_, heq, ?_⟩
    cases hfind : ((cols c).free start stop).findSome? h with
    | none =>
      intro r h1 h2 hf
      obtain ⟨g, g1, g2, g3⟩ := hin r h1 h2 hf
      obtain ⟨x, hx, -⟩ := hspace g g1 r g2 g3 fun d hd => hf d (List.mem_cons_of_mem _ hd)
      rw [List.findSome?_eq_none_iff.1 hfind g g1] at hx
      cases hx
    | some x =>
      obtain ⟨row, cols'⟩ := x
      obtain ⟨l1, g, l2, hl, hg, hnone⟩ := List.findSome?_eq_some_iff.1 hfind
      have hgm : g ∈ (cols c).free start stop := by rw [hl]; simp
      have hroom : 0 ≤ (room g).getD 0 := by
        by_contra hr
        rw [show h g = none from if_neg hr] at hg
        cases hg
      rw [show h g = (inner g.start ((room g).map Int.toNat)).map fun x =>
        (x.1, fun d => if d = c then (x.2 c).insert ⟨x.1, n⟩ else x.2 d) from if_pos hroom] at hg
      cases hres : inner g.start ((room g).map Int.toNat) with
      | none => rw [hres] at hg; cases hg
      | some y =>
        obtain ⟨row', cols''⟩ := y
        rw [hres] at hg
        simp only [Option.map_some, Option.some.injEq, Prod.mk.injEq] at hg
        obtain ⟨rfl, rfl⟩ := hg
        have hspec := hin2 g.start ((room g).map Int.toNat)
        rw [hres] at hspec
        obtain ⟨s1, s2, s3, s4, s5⟩ := hspec
        obtain ⟨w1, w2, w3⟩ := hfirst g hgm _ rfl hroom _ hres
        have hstart : start ≤ row' := le_trans (free_bounds g hgm).1 s1
        refine ⟨hstart, ?_, ?_, ?_, ?_⟩
        · intro e he
          cases slack with
          | none => cases he
          | some s => cases he; have := w2 (start + n + s) rfl; dsimp only at this; show row' ≤ start + s; omega
        · intro d hd
          rcases List.mem_cons.1 hd with rfl | hd
          · exact (free_iff hn (hgood d) hstart w2).2 ⟨g, hgm, s1, w1⟩
          · exact s3 d hd
        · intro r h1 h2 hf
          have hwr : Within (r + n) stop := fun e he => by have := w2 e he; dsimp only at this; omega
          obtain ⟨g', g1, g2, g3⟩ := (free_iff hn (hgood c) h1 hwr).1 (hf c List.mem_cons_self)
          have hf' : Fits cols cs r n := fun d hd => hf d (List.mem_cons_of_mem _ hd)
          obtain ⟨x, hx, hxr⟩ := hspace g' g1 r g2 g3 hf'
          have hord := free_ordered (l := cols c) (stop := stop) (row := start)
          rw [hl] at g1 hord
          rcases List.mem_append.1 g1 with g1 | g1
          · rw [hnone g' g1] at hx; cases hx
          · rcases List.mem_cons.1 g1 with rfl | g1
            · exact s4 r g2 h2 hf'
            · obtain ⟨e, e1, e2⟩ := (List.pairwise_cons.1 (List.pairwise_append.1 hord).2.1).1 g' g1
              have := w1 e e1
              dsimp only at this
              omega
        · rw [s5]
          funext d
          unfold added
          by_cases hd : d = c
          · subst hd
            simp [hc]
          · simp [hd]

end Verif.FloorPlanner

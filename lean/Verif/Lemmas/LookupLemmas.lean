import Mathlib.Algebra.Order.Group.Multiset
import Mathlib.Data.Multiset.AddSub
import Mathlib.Tactic.Abel
import Verif.Model.Lookup
import Verif.Spec.Lookup

/-! Lemmas on the permuted columns of a lookup. -/

namespace Verif.Lookup

open Spec

/-- The entries of a map from values to counts. -/
def bag (m : List (Fr × Nat)) : Multiset Fr := (m.map fun p => Multiset.replicate p.2 p.1).sum

theorem bag_cons (k : Fr) (c : Nat) (m : List (Fr × Nat)) :
    bag ((k, c) :: m) = Multiset.replicate c k + bag m := by unfold bag; simp

theorem bag_bump (a : Fr) (m : List (Fr × Nat)) : bag (bump a m) = {a} + bag m := by
  induction m with
  | nil => simp [bump, bag]
  | cons p m ih =>
    obtain ⟨k, c⟩ := p
    rw [bump]
    split
    · rename_i h
      subst h
      rw [bag_cons, bag_cons, Multiset.replicate_succ, ← Multiset.singleton_add, add_assoc]
    · split
      · rw [bag_cons]; simp
      · rw [bag_cons, bag_cons, ih]
        rw [add_left_comm]

theorem bag_countTable (t : List Fr) : bag (countTable t) = (t : Multiset Fr) := by
  have : ∀ (t : List Fr) (m : List (Fr × Nat)),
      bag (t.foldl (fun m a => bump a m) m) = bag m + (t : Multiset Fr) := by
    intro t
    induction t with
    | nil => intro m; simp
    | cons a t ih =>
      intro m
      rw [List.foldl_cons, ih, bag_bump, ← Multiset.cons_coe, ← Multiset.singleton_add]
      abel
  unfold countTable
  rw [this]
  simp [bag]

/-- Keys are distinct and counts positive. -/
theorem keys_bump (a : Fr) (m : List (Fr × Nat)) (x : Fr) :
    x ∈ (bump a m).map Prod.fst ↔ x = a ∨ x ∈ m.map Prod.fst := by
  induction m with
  | nil => simp [bump]
  | cons p m ih =>
    obtain ⟨k, c⟩ := p
    rw [bump]
    split
    · rename_i h; subst h; simp
    · split
      · simp
      · simp only [List.map_cons, List.mem_cons, ih]; tauto

theorem nodup_bump (a : Fr) (m : List (Fr × Nat)) (hm : (m.map Prod.fst).Pairwise (·.val < ·.val)) :
    ((bump a m).map Prod.fst).Pairwise (·.val < ·.val) := by
  induction m with
  | nil => simp [bump]
  | cons p m ih =>
    obtain ⟨k, c⟩ := p
    rw [List.map_cons, List.pairwise_cons] at hm
    rw [bump]
    split
    · rw [List.map_cons, List.pairwise_cons]; exact hm
    · rename_i hk
      split
      · rename_i hlt
        rw [List.map_cons, List.map_cons, List.pairwise_cons, List.pairwise_cons]
        refine ⟨?_, hm⟩
        intro x hx
        rcases List.mem_cons.1 hx with rfl | hx
        · exact hlt
        · exact lt_trans hlt (hm.1 x hx)
      · rename_i hlt
        rw [List.map_cons, List.pairwise_cons]
        refine ⟨?_, ih hm.2⟩
        intro x hx
        rcases (keys_bump a m x).1 hx with rfl | hx
        · refine lt_of_le_of_ne (not_lt.1 hlt) ?_
          intro e
          exact hk (ZMod.val_injective _ e)
        · exact hm.1 x hx

theorem pos_bump (a : Fr) (m : List (Fr × Nat)) (hm : ∀ p ∈ m, 0 < p.2) :
    ∀ p ∈ bump a m, 0 < p.2 := by
  induction m with
  | nil => simp [bump]
  | cons p m ih =>
    obtain ⟨k, c⟩ := p
    have h1 := hm _ (List.mem_cons_self ..)
    have h2 : ∀ p ∈ m, 0 < p.2 := fun p hp => hm p (List.mem_cons_of_mem _ hp)
    rw [bump]
    intro p hp
    split at hp
    · rcases List.mem_cons.1 hp with rfl | hp
      · exact Nat.succ_pos _
      · exact h2 p hp
    · split at hp
      · rcases List.mem_cons.1 hp with rfl | hp
        · exact Nat.one_pos
        · exact hm p hp
      · rcases List.mem_cons.1 hp with rfl | hp
        · exact h1
        · exact ih h2 p hp

theorem countTable_sane (t : List Fr) :
    ((countTable t).map Prod.fst).Pairwise (·.val < ·.val) ∧ (∀ p ∈ countTable t, 0 < p.2) ∧
      ∀ x, x ∈ (countTable t).map Prod.fst ↔ x ∈ t := by
  have : ∀ (t : List Fr) (m : List (Fr × Nat)),
      (m.map Prod.fst).Pairwise (·.val < ·.val) → (∀ p ∈ m, 0 < p.2) →
      ((t.foldl (fun m a => bump a m) m).map Prod.fst).Pairwise (·.val < ·.val) ∧
      (∀ p ∈ t.foldl (fun m a => bump a m) m, 0 < p.2) ∧
      ∀ x, x ∈ (t.foldl (fun m a => bump a m) m).map Prod.fst ↔ x ∈ m.map Prod.fst ∨ x ∈ t := by
    intro t
    induction t with
    | nil => intro m h1 h2; exact ⟨h1, h2, fun x => by simp⟩
    | cons a t ih =>
      intro m h1 h2
      obtain ⟨i1, i2, i3⟩ := ih (bump a m) (nodup_bump a m h1) (pos_bump a m h2)
      refine ⟨i1, i2, fun x => ?_⟩
      rw [List.foldl_cons, i3, keys_bump, List.mem_cons]
      tauto
  obtain ⟨h1, h2, h3⟩ := this t [] (by simp) (by simp)
  exact ⟨h1, h2, fun x => by rw [countTable, h3]; simp⟩

/-- Taking one of a key with positive count. -/
theorem takeOne_some {a : Fr} {m : List (Fr × Nat)} (hk : a ∈ m.map Prod.fst)
    (hn : (m.map Prod.fst).Nodup) (hp : ∀ p ∈ m, p.1 = a → 0 < p.2) :
    ∃ m', takeOne a m = .ok (some m') ∧ bag m = {a} + bag m' ∧ m'.map Prod.fst = m.map Prod.fst ∧
      ∀ p ∈ m', p.1 ≠ a → p ∈ m := by
  induction m with
  | nil => simp at hk
  | cons p m ih =>
    obtain ⟨k, c⟩ := p
    rw [takeOne]
    by_cases h : k = a
    · subst h
      have hc : 0 < c := hp _ (List.mem_cons_self ..) rfl
      refine ⟨(k, c - 1) :: m, by rw [if_pos rfl, if_pos hc], ?_, rfl, ?_⟩
      · rw [bag_cons, bag_cons, ← add_assoc]
        congr 1
        obtain ⟨c, rfl⟩ : ∃ d, c = d + 1 := ⟨c - 1, by omega⟩
        rw [Multiset.replicate_succ, Multiset.singleton_add]
        simp
      · intro p hp' hne
        rcases List.mem_cons.1 hp' with rfl | hp'
        · exact absurd rfl hne
        · exact List.mem_cons_of_mem _ hp'
    · rw [List.map_cons, List.mem_cons] at hk
      obtain ⟨m', e, h1, h2, h3⟩ := ih (hk.resolve_left (fun e => h e.symm))
        (by rw [List.map_cons, List.nodup_cons] at hn; exact hn.2)
        (fun p hp' => hp p (List.mem_cons_of_mem _ hp'))
      refine ⟨(k, c) :: m', by rw [if_neg h, e], ?_, by rw [List.map_cons, List.map_cons, h2], ?_⟩
      · rw [bag_cons, bag_cons, h1, add_left_comm]
      · intro p hp' hne
        rcases List.mem_cons.1 hp' with rfl | hp'
        · exact List.mem_cons_self ..
        · exact List.mem_cons_of_mem _ (h3 p hp' hne)

theorem takeOne_none {a : Fr} {m : List (Fr × Nat)} (hk : a ∉ m.map Prod.fst) :
    takeOne a m = .ok none := by
  induction m with
  | nil => rfl
  | cons p m ih =>
    obtain ⟨k, c⟩ := p
    rw [List.map_cons, List.mem_cons, not_or] at hk
    rw [takeOne, if_neg (fun e => hk.1 e.symm), ih hk.2]

/-- Setting an entry that is 0. -/
theorem set_bag (l : List Fr) (r : Nat) (v : Fr) (hr : l[r]? = some 0) :
    ((l.set r v : List Fr) : Multiset Fr) + {0} = (l : Multiset Fr) + {v} := by
  induction l generalizing r with
  | nil => simp at hr
  | cons x l ih =>
    cases r with
    | zero =>
      have : x = 0 := by simpa using hr
      subst this
      rw [List.set_cons_zero, ← Multiset.cons_coe, ← Multiset.cons_coe, ← Multiset.singleton_add,
        ← Multiset.singleton_add]
      abel
    | succ r =>
      rw [List.getElem?_cons_succ] at hr
      rw [List.set_cons_succ, ← Multiset.cons_coe, ← Multiset.cons_coe, Multiset.cons_add,
        Multiset.cons_add, ih r hr]

/-- What the pass over the sorted inputs leaves. -/
structure Scanned (u : Nat) (sorted : List Fr) (table : Multiset Fr) (coeffs : List Fr)
    (map : List (Fr × Nat)) (repeated : List Nat) : Prop where
  len : coeffs.length = u
  count : repeated.length + table.card = u + (bag map).card
  bag : (coeffs : Multiset Fr) + bag map + Multiset.replicate (u - repeated.length) 0 =
    table + Multiset.replicate u 0
  zero : ∀ r ∈ repeated, coeffs[r]? = some 0
  nodup : repeated.Nodup
  row : ∀ (r : Nat) a, sorted[r]? = some a → r ∉ repeated → coeffs[r]? = some a
  rep : ∀ r ∈ repeated, 0 < r ∧ sorted[r]? = sorted[r - 1]?

theorem scanRows_ok (u : Nat) (sorted : List Fr) (hs : sorted.Pairwise (·.val ≤ ·.val))
    (hl : sorted.length = u) (table : Multiset Fr) :
    ∀ (rest : List Fr) (row : Nat) (prev : Option Fr) (coeffs : List Fr) (map : List (Fr × Nat))
      (repeated : List Nat),
      sorted.drop row = rest → prev = (if row = 0 then none else sorted[row - 1]?) → row ≤ u →
      coeffs.length = u →
      (map.map Prod.fst).Nodup →
      (∀ p ∈ map, 0 < p.2 ∨ ∃ i, i < row ∧ sorted[i]? = some p.1) →
      (∀ r, row ≤ r → r < u → coeffs[r]? = some 0) →
      repeated.length ≤ row →
      (coeffs : Multiset Fr) + bag map + Multiset.replicate (row - repeated.length) 0 =
        table + Multiset.replicate u 0 →
      (∀ r ∈ repeated, coeffs[r]? = some 0 ∧ 0 < r ∧ r < row ∧ sorted[r]? = sorted[r - 1]?) →
      repeated.Nodup →
      (∀ (r : Nat) a, r < row → sorted[r]? = some a → r ∉ repeated → coeffs[r]? = some a) →
      ((∀ a ∈ rest, a ∈ map.map Prod.fst) →
        ∃ coeffs' map' repeated', scanRows prev row rest coeffs map repeated =
          .ok (some (coeffs', map', repeated')) ∧
          Scanned u sorted table coeffs' map' repeated') ∧
      ((∃ a ∈ rest, a ∉ map.map Prod.fst ∧ prev ≠ some a) →
        scanRows prev row rest coeffs map repeated = .ok none) := by
  intro rest
  induction rest with
  | nil =>
    intro row prev coeffs map repeated hd hprev hrow hlen hn hpos hz hrl hb hr hnd hset
    have hge : u ≤ row := by
      have := congrArg List.length hd
      simp at this; omega
    have hru : row = u := by omega
    subst hru
    constructor
    · intro _
      refine ⟨coeffs, map, repeated, rfl, hlen, ?_, hb, fun r h => (hr r h).1, hnd, ?_, ?_⟩
      · have := congrArg Multiset.card hb
        simp only [Multiset.card_add, Multiset.coe_card, Multiset.card_replicate] at this
        omega
      · intro r a h1 h2
        refine hset r a ?_ h1 h2
        have := (List.getElem?_eq_some_iff.1 h1).1
        omega
      · intro r h; exact ⟨(hr r h).2.1, (hr r h).2.2.2⟩
    · rintro ⟨a, ha, -⟩; cases ha
  | cons a rest ih =>
    intro row prev coeffs map repeated hd hprev hrow hlen hn hpos hz hrl hb hr hnd hset
    have hlt : row < u := by
      have := congrArg List.length hd
      simp at this; omega
    have hat : sorted[row]? = some a := by
      have := congrArg (fun l => l[0]?) hd
      simpa using this
    have hd' : sorted.drop (row + 1) = rest := by
      rw [← List.drop_drop, hd]; rfl
    have hnotseen : prev ≠ some a → ∀ i, i < row → sorted[i]? ≠ some a := by
      intro hne i hi hia
      have h0 : row ≠ 0 := by omega
      rw [if_neg h0] at hprev
      have hr1 : row - 1 < sorted.length := by omega
      have hpv : prev = some sorted[row - 1] := by rw [hprev, List.getElem?_eq_getElem hr1]
      have hle : ∀ i j (hj : j < sorted.length) (hij : i ≤ j),
          (sorted[i]'(by omega)).val ≤ sorted[j].val := by
        intro i j hj hij
        rcases Nat.eq_or_lt_of_le hij with rfl | h
        · exact le_rfl
        · exact List.pairwise_iff_getElem.1 hs i j (by omega) hj h
      have e1 : sorted[i]'(by omega) = a := by
        rw [List.getElem?_eq_getElem (by omega)] at hia; exact Option.some.inj hia
      have e2 : sorted[row]'(by omega) = a := by
        rw [List.getElem?_eq_getElem (by omega)] at hat; exact Option.some.inj hat
      have l1 := hle i (row - 1) hr1 (by omega)
      have l2 := hle (row - 1) row (by omega) (by omega)
      rw [e1] at l1
      rw [e2] at l2
      apply hne
      rw [hpv, ZMod.val_injective _ (le_antisymm l2 l1)]
    rw [scanRows]
    by_cases hne : prev ≠ some a
    · rw [if_pos hne]
      by_cases hk : a ∈ map.map Prod.fst
      · obtain ⟨m', e, h1, h2, h3⟩ := takeOne_some hk hn (by
          intro p hp hpa
          rcases hpos p hp with h | ⟨i, hi, h⟩
          · exact h
          · exact absurd (by rw [h, hpa]) (hnotseen hne i hi))
        rw [e]
        simp only
        have hzr := hz row le_rfl hlt
        have hrn : ∀ r ∈ repeated, r ≠ row := fun r h => by have := (hr r h).2.2.1; omega
        obtain ⟨i1, i2⟩ := ih (row + 1) (some a) (coeffs.set row a) m' repeated hd'
          (by rw [if_neg (by omega)]; exact hat.symm) hlt (by rw [List.length_set]; exact hlen)
          (by rw [h2]; exact hn)
          (by
            intro p hp
            by_cases hpa : p.1 = a
            · exact .inr ⟨row, by omega, by rw [hat, hpa]⟩
            · rcases hpos p (h3 p hp hpa) with h | ⟨i, hi, h⟩
              · exact .inl h
              · exact .inr ⟨i, by omega, h⟩)
          (by
            intro r hr1 hr2
            rw [List.getElem?_set_ne (by omega)]
            exact hz r (by omega) hr2)
          (by omega)
          (by
            rw [h1] at hb
            rw [← hb, show row + 1 - repeated.length = (row - repeated.length) + 1 by omega,
              Multiset.replicate_succ, ← Multiset.singleton_add]
            have := set_bag coeffs row a hzr
            calc _ = ((coeffs.set row a : List Fr) : Multiset Fr) + {0} + bag m' +
                  Multiset.replicate (row - repeated.length) 0 := by abel
              _ = _ := by rw [this]; abel)
          (by
            intro r h
            obtain ⟨g1, g2, g3, g4⟩ := hr r h
            refine ⟨?_, g2, by omega, g4⟩
            rw [List.getElem?_set_ne (hrn r h).symm]
            exact g1)
          hnd
          (by
            intro r b hr1 hr2 hr3
            by_cases e : r = row
            · subst e
              rw [hat] at hr2
              rw [List.getElem?_set_self (by omega), hr2]
            · rw [List.getElem?_set_ne (fun h => e h.symm)]
              exact hset r b (by omega) hr2 hr3)
        refine ⟨fun h => i1 (fun b hb' => by rw [h2]; exact h b (List.mem_cons_of_mem _ hb')), ?_⟩
        rintro ⟨b, hb', hb1, hb2⟩
        apply i2
        rcases List.mem_cons.1 hb' with rfl | hb'
        · exact absurd hk hb1
        · refine ⟨b, hb', by rw [h2]; exact hb1, ?_⟩
          rintro ⟨⟩
          exact hb1 hk
      · rw [takeOne_none hk]
        refine ⟨fun h => absurd (h a (List.mem_cons_self ..)) hk, fun _ => rfl⟩
    · rw [if_neg hne]
      push Not at hne
      have h0 : row ≠ 0 := by
        intro h0
        rw [if_pos h0] at hprev
        rw [hprev] at hne; cases hne
      rw [if_neg h0] at hprev
      obtain ⟨i1, i2⟩ := ih (row + 1) (some a) coeffs map (row :: repeated) hd'
        (by rw [if_neg (by omega)]; exact hat.symm) hlt hlen hn
        (by
          intro p hp
          rcases hpos p hp with h | ⟨i, hi, h⟩
          · exact .inl h
          · exact .inr ⟨i, by omega, h⟩)
        (fun r h1 h2 => hz r (by omega) h2)
        (by rw [List.length_cons]; omega)
        (by rw [List.length_cons, Nat.add_sub_add_right]; exact hb)
        (by
          intro r h
          rcases List.mem_cons.1 h with rfl | h
          · exact ⟨hz r le_rfl hlt, by omega, by omega, by rw [hat, ← hprev, hne]⟩
          · obtain ⟨g1, g2, g3, g4⟩ := hr r h
            exact ⟨g1, g2, by omega, g4⟩)
        (by
          rw [List.nodup_cons]
          exact ⟨fun h => by have := (hr _ h).2.2.1; omega, hnd⟩)
        (by
          intro r b hr1 hr2 hr3
          rw [List.mem_cons, not_or] at hr3
          exact hset r b (by omega) hr2 hr3.2)
      refine ⟨fun h => i1 (fun b hb' => h b (List.mem_cons_of_mem _ hb')), ?_⟩
      rintro ⟨b, hb', hb1, hb2⟩
      rw [hne] at hb2
      apply i2
      rcases List.mem_cons.1 hb' with rfl | hb'
      · exact absurd rfl hb2
      · exact ⟨b, hb', hb1, hb2⟩


theorem fillOne_ok (v : Fr) : ∀ (c : Nat) (coeffs : List Fr) (repeated : List Nat),
    c ≤ repeated.length → (∀ r ∈ repeated, coeffs[r]? = some 0) → repeated.Nodup →
    ∃ coeffs', fillOne v c coeffs repeated = .ok (coeffs', repeated.drop c) ∧
      coeffs'.length = coeffs.length ∧
      (coeffs' : Multiset Fr) + Multiset.replicate c 0 = (coeffs : Multiset Fr) + Multiset.replicate c v ∧
      (∀ r, r ∉ repeated → coeffs'[r]? = coeffs[r]?) ∧
      (∀ r ∈ repeated.drop c, coeffs'[r]? = some 0) := by
  intro c
  induction c with
  | zero =>
    intro coeffs repeated _ hz _
    exact ⟨coeffs, rfl, rfl, rfl, fun _ _ => rfl, hz⟩
  | succ c ih =>
    intro coeffs repeated hc hz hn
    cases repeated with
    | nil => simp at hc
    | cons r repeated =>
      rw [List.nodup_cons] at hn
      have h0 := hz r (List.mem_cons_self ..)
      obtain ⟨coeffs', e, hl, hb, h1, h2⟩ := ih (coeffs.set r v) repeated
        (by rw [List.length_cons] at hc; omega)
        (by
          intro x hx
          rw [List.getElem?_set_ne (by rintro rfl; exact hn.1 hx)]
          exact hz x (List.mem_cons_of_mem _ hx)) hn.2
      refine ⟨coeffs', ?_, by rw [hl, List.length_set], ?_, ?_, ?_⟩
      · rw [fillOne, if_pos (List.getElem?_eq_some_iff.1 h0).1, e]; rfl
      · have := set_bag coeffs r v h0
        rw [Multiset.replicate_succ, Multiset.replicate_succ, ← Multiset.singleton_add,
          ← Multiset.singleton_add]
        calc (coeffs' : Multiset Fr) + ({0} + Multiset.replicate c 0)
            = (coeffs' : Multiset Fr) + Multiset.replicate c 0 + {0} := by abel
          _ = ((coeffs.set r v : List Fr) : Multiset Fr) + {0} + Multiset.replicate c v := by
              rw [hb]; abel
          _ = _ := by rw [this]; abel
      · intro x hx
        rw [List.mem_cons, not_or] at hx
        rw [h1 x hx.2, List.getElem?_set_ne (fun e => hx.1 e.symm)]
      · intro x hx
        exact h2 x hx

theorem fillRows_ok : ∀ (map : List (Fr × Nat)) (coeffs : List Fr) (repeated : List Nat),
    (bag map).card = repeated.length → (∀ r ∈ repeated, coeffs[r]? = some 0) → repeated.Nodup →
    ∃ coeffs', fillRows map coeffs repeated = .ok coeffs' ∧ coeffs'.length = coeffs.length ∧
      (coeffs' : Multiset Fr) + Multiset.replicate repeated.length 0 = (coeffs : Multiset Fr) + bag map ∧
      (∀ r, r ∉ repeated → coeffs'[r]? = coeffs[r]?) := by
  intro map
  induction map with
  | nil =>
    intro coeffs repeated hc _ _
    have : repeated = [] := List.length_eq_zero_iff.1 (by rw [← hc]; rfl)
    subst this
    exact ⟨coeffs, rfl, rfl, by simp [bag], fun _ _ => rfl⟩
  | cons p map ih =>
    obtain ⟨v, c⟩ := p
    intro coeffs repeated hc hz hn
    rw [bag_cons, Multiset.card_add, Multiset.card_replicate] at hc
    obtain ⟨c1, e1, l1, b1, h1, h2⟩ := fillOne_ok v c coeffs repeated (by omega) hz hn
    obtain ⟨c2, e2, l2, b2, h3⟩ := ih c1 (repeated.drop c) (by rw [List.length_drop]; omega) h2
      (hn.sublist (List.drop_sublist _ _))
    refine ⟨c2, by rw [fillRows, e1]; exact e2, by rw [l2, l1], ?_, ?_⟩
    · rw [bag_cons]
      have : repeated.length = (repeated.drop c).length + c := by rw [List.length_drop]; omega
      rw [this, Multiset.replicate_add]
      calc (c2 : Multiset Fr) + (Multiset.replicate (repeated.drop c).length 0 +
            Multiset.replicate c 0)
          = (c2 : Multiset Fr) + Multiset.replicate (repeated.drop c).length 0 +
            Multiset.replicate c 0 := by abel
        _ = (c1 : Multiset Fr) + Multiset.replicate c 0 + bag map := by rw [b2]; abel
        _ = _ := by rw [b1]; abel
    · intro r hr
      rw [h3 r (fun h => hr (List.mem_of_mem_drop h)), h1 r hr]

/-- Columns that show a lookup show it. -/
theorem shows_mem {input table a s : List Fr} (h : ShowsLookup input table a s) :
    ∀ x ∈ input, x ∈ table := by
  have hlen : ∀ (i : Nat) x, a[i]? = some x → x ∈ s := by
    intro i
    induction i with
    | zero => intro x hx; rw [h.first] at hx; exact List.mem_of_getElem? hx
    | succ i ih =>
      intro x hx
      rcases h.rows i (List.getElem?_eq_some_iff.1 hx).1 with e | e
      · rw [e] at hx; exact List.mem_of_getElem? hx
      · rw [e] at hx; exact ih x hx
  intro x hx
  obtain ⟨i, hi⟩ := List.mem_iff_getElem?.1 (h.input.mem_iff.2 hx)
  exact h.table.mem_iff.1 (hlen i x hi)

theorem permutePair_ok {n u : Nat} (hu : u ≤ n) {input table blindA blindS : List Fr}
    (hi : input.length = n) (ht : table.length = n) (hA : blindA.length = n - u)
    (hS : blindS.length = n - u) :
    ((∀ x ∈ input.take u, x ∈ table.take u) →
      ∃ a s, permutePair n u input table blindA blindS = .ok (some (a ++ blindA, s ++ blindS)) ∧
        ShowsLookup (input.take u) (table.take u) a s) ∧
    ((∃ x ∈ input.take u, x ∉ table.take u) →
      permutePair n u input table blindA blindS = .ok none) := by
  obtain ⟨k1, k2, k3⟩ := countTable_sane (table.take u)
  generalize hsrt : (input.take u).mergeSort (fun a b => decide (a.val ≤ b.val)) = sorted
  have hperm : sorted.Perm (input.take u) := by rw [← hsrt]; exact List.mergeSort_perm _ _
  have hs : sorted.Pairwise (·.val ≤ ·.val) := by
    have := List.pairwise_mergeSort (le := fun (a b : Fr) => decide (a.val ≤ b.val))
      (fun a b c h1 h2 => by simp only [decide_eq_true_eq] at *; omega)
      (fun a b => by simp only [Bool.or_eq_true, decide_eq_true_eq]; omega) (input.take u)
    rw [hsrt] at this
    exact this.imp (fun h => by simpa using h)
  have hl : sorted.length = u := by rw [hperm.length_eq, List.length_take]; omega
  have htl : (table.take u).length = u := by rw [List.length_take]; omega
  have hnd : ((countTable (table.take u)).map Prod.fst).Nodup :=
    k1.imp (fun h e => by rw [e] at h; exact lt_irrefl _ h)
  obtain ⟨h1, h2⟩ := scanRows_ok u sorted hs hl ((table.take u : List Fr) : Multiset Fr) sorted 0 none
    (List.replicate u 0) (countTable (table.take u)) [] rfl rfl (Nat.zero_le _)
    List.length_replicate hnd (fun p hp => .inl (k2 p hp))
    (fun r _ hr => by rw [List.getElem?_replicate, if_pos hr]) le_rfl
    (by
      rw [bag_countTable, List.length_nil]
      simp only [Nat.sub_self, Multiset.replicate_zero, add_zero, Multiset.coe_replicate]
      rw [add_comm])
    (fun r h => by cases h) List.nodup_nil (fun r a h => by omega)
  unfold permutePair
  simp only [hsrt]
  constructor
  · intro hmem
    obtain ⟨c1, m1, r1, e1, sc⟩ := h1 (fun a ha => (k3 a).2 (hmem a (hperm.mem_iff.1 ha)))
    have hcount := sc.count
    rw [Multiset.coe_card, htl] at hcount
    have hru : r1.length ≤ u := by
      have : r1.length ≤ (List.range u).length := by
        apply List.Subperm.length_le
        apply (List.subperm_of_subset sc.nodup)
        intro r hr
        have := (List.getElem?_eq_some_iff.1 (sc.zero r hr)).1
        rw [List.mem_range, ← sc.len]; exact this
      simpa using this
    obtain ⟨c2, e2, l2, b2, g2⟩ := fillRows_ok m1 c1 r1 (by omega) sc.zero sc.nodup
    have hbag : (c2 : Multiset Fr) = ((table.take u : List Fr) : Multiset Fr) := by
      have hb := sc.bag
      rw [← b2] at hb
      have : (c2 : Multiset Fr) + Multiset.replicate u 0 =
          ((table.take u : List Fr) : Multiset Fr) + Multiset.replicate u 0 := by
        rw [← hb, add_assoc, ← Multiset.replicate_add]
        congr 3
        omega
      exact add_right_cancel this
    refine ⟨sorted, c2, ?_, ⟨hperm, Multiset.coe_eq_coe.1 hbag, ?_, ?_⟩⟩
    · rw [e1]
      simp only [e2]
      rw [if_pos (by
        rw [List.length_append, List.length_append, l2, sc.len, hl, hA, hS]
        omega)]
    · have h0 : (0 : Nat) ∉ r1 := fun h => by have := (sc.rep 0 h).1; omega
      cases hx : sorted[0]? with
      | none =>
        have : sorted.length = 0 := by
          by_contra hne
          rw [List.getElem?_eq_getElem (by omega)] at hx
          cases hx
        symm
        rw [List.getElem?_eq_none_iff, l2, sc.len, ← hl, this]
      | some x => rw [g2 0 h0, sc.row 0 x hx h0]
    · intro i hi
      by_cases hr : i + 1 ∈ r1
      · right; exact (sc.rep _ hr).2
      · left
        rw [g2 _ hr, sc.row (i + 1) sorted[i + 1] (List.getElem?_eq_getElem hi) hr]
        exact List.getElem?_eq_getElem hi
  · rintro ⟨x, hx, hnx⟩
    rw [h2 ⟨x, hperm.mem_iff.2 hx, fun h => hnx ((k3 x).1 h), by simp⟩]

/-- Sorting, for evaluating examples. -/
theorem sort_eq {l l' : List Fr} (h : l.Perm l') (hs : l'.Pairwise (·.val ≤ ·.val)) :
    l.mergeSort (fun a b => decide (a.val ≤ b.val)) = l' := by
  refine List.Perm.eq_of_pairwise (le := fun a b : Fr => a.val ≤ b.val) ?_ ?_ hs
    ((List.mergeSort_perm _ _).trans h)
  · intro a b _ _ h1 h2
    exact ZMod.val_injective _ (le_antisymm h1 h2)
  · have := List.pairwise_mergeSort (le := fun (a b : Fr) => decide (a.val ≤ b.val))
      (fun a b c h1 h2 => by simp only [decide_eq_true_eq] at *; omega)
      (fun a b => by simp only [Bool.or_eq_true, decide_eq_true_eq]; omega) l
    exact this.imp (fun h => by simpa using h)

end Verif.Lookup

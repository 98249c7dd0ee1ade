import Mathlib.GroupTheory.Perm.Cycle.Basic
import Mathlib.Dynamics.PeriodicPts.Lemmas
import Verif.Spec.Copies

/-! Lemmas on the permutation assembly. -/

namespace Verif.PermAssembly

open Spec Equiv Equiv.Perm

/-- A cell as a pair of numbers. -/
def emb {m n : Nat} (c : Fin m × Fin n) : Nat × Nat := (c.1, c.2)

theorem emb_inj {m n : Nat} {c d : Fin m × Fin n} : emb c = emb d ↔ c = d := by
  unfold emb
  constructor
  · intro h
    have h1 := congrArg Prod.fst h
    have h2 := congrArg Prod.snd h
    exact Prod.ext (Fin.ext h1) (Fin.ext h2)
  · rintro rfl; rfl

/-- A vector of vectors from a function on cells. -/
def tab {m n : Nat} {α : Type} (f : Fin m × Fin n → α) : List (List α) :=
  List.ofFn fun i : Fin m => List.ofFn fun j : Fin n => f (i, j)

section
variable {m n : Nat} {α : Type}

theorem tab_getElem? (f : Fin m × Fin n → α) (i : Fin m) :
    (tab f)[(i : Nat)]? = some (List.ofFn fun j : Fin n => f (i, j)) := by
  unfold tab; simp

theorem at_tab (f : Fin m × Fin n → α) (c : Fin m × Fin n) :
    Table.at_ (tab f) (emb c) = .ok (f c) := by
  unfold Table.at_ emb
  simp [tab_getElem?]

theorem put_tab (f : Fin m × Fin n → α) (c : Fin m × Fin n) (v : α) :
    Table.put (tab f) (emb c) v = .ok (tab (Function.update f c v)) := by
  unfold Table.put
  show (match (tab f)[((c.1 : Fin m) : Nat)]? with
    | none => Except.error Panic.index
    | some col => _) = _
  rw [tab_getElem?]
  simp only [List.length_ofFn]
  rw [if_pos (show (emb c).2 < n from c.2.2)]
  congr 1
  apply List.ext_getElem
  · simp [tab]
  · intro i h1 h2
    apply List.ext_getElem
    · rw [List.getElem_set]; split <;> simp [tab]
    · intro j h3 h4
      have hi : i < m := by simpa [tab] using h2
      have hj : j < n := by simpa [tab] using h4
      simp only [tab, List.getElem_ofFn, emb]
      rw [Function.update_apply]
      by_cases e : i = c.1
      · subst e
        by_cases e' : j = c.2
        · subst e'
          simp
        · have : ¬ ((⟨(c.1 : Nat), hi⟩, ⟨j, hj⟩) : Fin m × Fin n) = c := by
            intro h; apply e'; rw [← h]
          rw [if_neg this]
          simp [Ne.symm e']
      · have : ¬ ((⟨i, hi⟩, ⟨j, hj⟩) : Fin m × Fin n) = c := by
          intro h; apply e; rw [← h]
        rw [if_neg this]
        simp [Ne.symm e]

theorem entry_tab (f : Fin m × Fin n → α) (c : Fin m × Fin n) :
    entry (tab f) (emb c) = some (f c) := by
  unfold entry emb
  simp [tab_getElem?]

theorem entry_tab_some {f : Fin m × Fin n → α} {c : Nat × Nat} {v : α}
    (h : entry (tab f) c = some v) : ∃ d, c = emb d ∧ f d = v := by
  unfold entry at h
  obtain ⟨i, j⟩ := c
  by_cases hi : i < m
  · have := tab_getElem? f ⟨i, hi⟩
    simp only at this h
    rw [this] at h
    by_cases hj : j < n
    · refine ⟨(⟨i, hi⟩, ⟨j, hj⟩), rfl, ?_⟩
      simpa [hj] using h
    · simp [hj] at h
  · have : (tab f)[i]? = none := by rw [List.getElem?_eq_none]; simp [tab]; omega
    simp only at h
    rw [this] at h
    cases h

end

variable {m n : Nat}

open Classical in
theorem relabel_aux (σ : Perm (Fin m × Fin n)) (l s : Fin m × Fin n) :
    ∀ (d k fuel : Nat) (rep : Fin m × Fin n → Fin m × Fin n), 0 < d → d ≤ fuel →
      d + k = Function.minimalPeriod σ s →
      ∃ rep' : Fin m × Fin n → Fin m × Fin n,
        relabel (tab (emb ∘ σ)) (emb l) (emb s) fuel (emb ((σ ^ k) s)) (tab (emb ∘ rep)) =
          .ok (tab (emb ∘ rep')) ∧
        ∀ x, rep' x = if ∃ j, k ≤ j ∧ j < d + k ∧ x = (σ ^ j) s then l else rep x := by
  intro d
  induction d with
  | zero => intro k fuel rep h; omega
  | succ d ih =>
    intro k fuel rep _ hf hd
    obtain ⟨fuel, rfl⟩ : ∃ f, fuel = f + 1 := ⟨fuel - 1, by omega⟩
    have hput : Table.put (tab (emb ∘ rep)) (emb ((σ ^ k) s)) (emb l) =
        .ok (tab (emb ∘ Function.update rep ((σ ^ k) s) l)) := by
      rw [put_tab, Function.comp_update]
    have hat : Table.at_ (tab (emb ∘ σ)) (emb ((σ ^ k) s)) = .ok (emb ((σ ^ (k + 1)) s)) := by
      rw [at_tab, pow_succ']; rfl
    rw [relabel, hput]
    simp only [hat]
    by_cases h0 : d = 0
    · subst h0
      have hs : (σ ^ (k + 1)) s = s := by
        have := Function.iterate_minimalPeriod (f := σ) (x := s)
        rw [← hd, Equiv.Perm.iterate_eq_pow] at this
        rw [add_comm k 1]; simpa using this
      refine ⟨_, by rw [if_pos (by rw [hs])], ?_⟩
      intro x
      rw [Function.update_apply]
      congr 1
      apply propext
      constructor
      · intro h; exact ⟨k, le_rfl, by omega, h⟩
      · rintro ⟨j, h1, h2, h3⟩
        have : j = k := by omega
        rw [h3, this]
    · have hne : ¬ emb ((σ ^ (k + 1)) s) = emb s := by
        rw [emb_inj]
        intro h
        have : Function.IsPeriodicPt σ (k + 1) s := by
          unfold Function.IsPeriodicPt Function.IsFixedPt
          rw [Equiv.Perm.iterate_eq_pow]; exact h
        have := this.minimalPeriod_le (by omega)
        omega
      rw [if_neg hne]
      obtain ⟨rep', h1, h2⟩ := ih (k + 1) fuel (Function.update rep ((σ ^ k) s) l) (by omega)
        (by omega) (by omega)
      refine ⟨rep', h1, ?_⟩
      intro x
      rw [h2, Function.update_apply]
      by_cases hx : ∃ j, k + 1 ≤ j ∧ j < d + (k + 1) ∧ x = (σ ^ j) s
      · rw [if_pos hx, if_pos]
        obtain ⟨j, h3, h4, h5⟩ := hx
        exact ⟨j, by omega, by omega, h5⟩
      · rw [if_neg hx]
        congr 1
        apply propext
        constructor
        · intro h; exact ⟨k, le_rfl, by omega, h⟩
        · rintro ⟨j, h3, h4, h5⟩
          rcases Nat.eq_or_lt_of_le h3 with rfl | h6
          · exact h5
          · exact absurd ⟨j, h6, by omega, h5⟩ hx

theorem sameCycle_iff_lt (σ : Perm (Fin m × Fin n)) (s x : Fin m × Fin n) :
    σ.SameCycle s x ↔ ∃ j, 0 ≤ j ∧ j < Function.minimalPeriod σ s + 0 ∧ x = (σ ^ j) s := by
  constructor
  · intro h
    obtain ⟨i, hi⟩ := h.exists_nat_pow_eq
    have hp : s ∈ Function.periodicPts σ := by
      refine ⟨orderOf σ, orderOf_pos σ, ?_⟩
      unfold Function.IsPeriodicPt Function.IsFixedPt
      rw [Equiv.Perm.iterate_eq_pow, pow_orderOf_eq_one]; rfl
    have hpos := Function.minimalPeriod_pos_of_mem_periodicPts hp
    refine ⟨i % Function.minimalPeriod σ s, Nat.zero_le _, Nat.mod_lt _ hpos, ?_⟩
    rw [← Equiv.Perm.iterate_eq_pow, Function.iterate_mod_minimalPeriod_eq,
      Equiv.Perm.iterate_eq_pow, hi]
  · rintro ⟨j, -, -, rfl⟩
    exact ⟨j, by simp⟩

theorem relabel_eq (σ : Perm (Fin m × Fin n)) (l s : Fin m × Fin n) (fuel : Nat)
    (hf : m * n ≤ fuel) (rep : Fin m × Fin n → Fin m × Fin n) :
    ∃ rep' : Fin m × Fin n → Fin m × Fin n,
      relabel (tab (emb ∘ σ)) (emb l) (emb s) fuel (emb s) (tab (emb ∘ rep)) =
        .ok (tab (emb ∘ rep')) ∧
      (∀ x, σ.SameCycle s x → rep' x = l) ∧ ∀ x, ¬ σ.SameCycle s x → rep' x = rep x := by
  have hle : Function.minimalPeriod σ s ≤ m * n := by
    have := Function.minimalPeriod_le_card (f := σ) (x := s)
    simpa using this
  have hp : s ∈ Function.periodicPts σ := by
    refine ⟨orderOf σ, orderOf_pos σ, ?_⟩
    unfold Function.IsPeriodicPt Function.IsFixedPt
    rw [Equiv.Perm.iterate_eq_pow, pow_orderOf_eq_one]; rfl
  have hpos := Function.minimalPeriod_pos_of_mem_periodicPts hp
  obtain ⟨rep', h1, h2⟩ := relabel_aux σ l s (Function.minimalPeriod σ s) 0 fuel rep hpos
    (by omega) rfl
  refine ⟨rep', by simpa using h1, ?_, ?_⟩
  · intro x hx
    rw [h2, if_pos ((sameCycle_iff_lt σ s x).1 hx)]
  · intro x hx
    rw [h2, if_neg (fun h => hx ((sameCycle_iff_lt σ s x).2 h))]

/-- `rep` gives each cycle of `σ` one of its cells. -/
structure Reps (σ : Perm (Fin m × Fin n)) (rep : Fin m × Fin n → Fin m × Fin n) : Prop where
  step : ∀ x, rep (σ x) = rep x
  cycle : ∀ x y, rep x = rep y → σ.SameCycle x y
  idem : ∀ x, rep (rep x) = rep x

theorem Reps.of_same {σ : Perm (Fin m × Fin n)} {rep : Fin m × Fin n → Fin m × Fin n}
    (h : Reps σ rep) {x y : Fin m × Fin n} (hs : σ.SameCycle x y) : rep x = rep y := by
  obtain ⟨i, rfl⟩ := hs.exists_nat_pow_eq
  induction i with
  | zero => rfl
  | succ i ih =>
    rw [pow_succ', Equiv.Perm.mul_apply, h.step]
    exact ih ⟨i, by simp⟩

theorem Reps.iff {σ : Perm (Fin m × Fin n)} {rep : Fin m × Fin n → Fin m × Fin n}
    (h : Reps σ rep) {x y : Fin m × Fin n} : σ.SameCycle x y ↔ rep x = rep y :=
  ⟨h.of_same, h.cycle x y⟩

/-- The path to `a` is not affected by exchanging the images of `a` and of a cell `b` of another
cycle. -/
theorem reach {σ : Perm (Fin m × Fin n)} {rep : Fin m × Fin n → Fin m × Fin n} (h : Reps σ rep)
    {a b : Fin m × Fin n} (hab : rep a ≠ rep b) :
    ∀ (k : Nat) (x : Fin m × Fin n), (σ ^ k) x = a → (σ * swap a b).SameCycle x a := by
  intro k
  induction k with
  | zero => intro x hx; rw [show x = a from hx]
  | succ k ih =>
    intro x hx
    by_cases hxa : x = a
    · rw [hxa]
    · have hxr : rep x = rep a := h.of_same ⟨(k + 1 : Nat), by rw [zpow_natCast]; exact hx⟩
      have hxb : x ≠ b := fun e => hab (by rw [← hxr, e])
      have h1 : (σ * swap a b) x = σ x := by
        rw [Equiv.Perm.mul_apply, swap_apply_of_ne_of_ne hxa hxb]
      have h2 := ih (σ x) (by rw [← hx, pow_succ, Equiv.Perm.mul_apply])
      rw [← h1] at h2
      exact (sameCycle_apply_left.1 h2)

theorem Reps.merge {σ : Perm (Fin m × Fin n)} {rep rep' : Fin m × Fin n → Fin m × Fin n}
    (h : Reps σ rep) {a b l r : Fin m × Fin n} (hab : rep a ≠ rep b)
    (hlr : (l = rep a ∧ r = rep b) ∨ (l = rep b ∧ r = rep a))
    (h1 : ∀ x, rep x = r → rep' x = l) (h2 : ∀ x, rep x ≠ r → rep' x = rep x) :
    Reps (σ * swap a b) rep' ∧
      (∀ x y, rep x = rep y → rep' x = rep' y) ∧ rep' a = rep' b ∧
      (∀ x y, rep' x = rep' y → rep x = rep y ∨
        (rep x = rep a ∨ rep x = rep b) ∧ (rep y = rep a ∨ rep y = rep b)) := by
  have hmono : ∀ x y, rep x = rep y → rep' x = rep' y := by
    intro x y e
    by_cases hx : rep x = r
    · rw [h1 x hx, h1 y (by rw [← e, hx])]
    · rw [h2 x hx, h2 y (by rw [← e]; exact hx), e]
  have hl : rep l = l := by rcases hlr with ⟨rfl, -⟩ | ⟨rfl, -⟩ <;> exact h.idem _
  have hne : l ≠ r := by rcases hlr with ⟨rfl, rfl⟩ | ⟨rfl, rfl⟩ <;> [exact hab; exact hab.symm]
  have hA : rep' a = l := by
    rcases hlr with ⟨e1, e2⟩ | ⟨e1, e2⟩
    · rw [h2 a (by rw [e2]; exact hab), e1]
    · exact h1 a e2.symm
  have hB : rep' b = l := by
    rcases hlr with ⟨e1, e2⟩ | ⟨e1, e2⟩
    · exact h1 b e2.symm
    · rw [h2 b (by rw [e2]; exact hab.symm), e1]
  have hsplit : ∀ x y, rep' x = rep' y → rep x = rep y ∨
        (rep x = rep a ∨ rep x = rep b) ∧ (rep y = rep a ∨ rep y = rep b) := by
    intro x y e
    have hlr' : ∀ z, z = l ∨ z = r → z = rep a ∨ z = rep b := by
      intro z hz
      rcases hlr with ⟨e1, e2⟩ | ⟨e1, e2⟩ <;> rcases hz with rfl | rfl <;> tauto
    by_cases hx : rep x = r <;> by_cases hy : rep y = r
    · left; rw [hx, hy]
    · right
      rw [h1 x hx, h2 y hy] at e
      exact ⟨hlr' _ (.inr hx), hlr' _ (.inl e.symm)⟩
    · right
      rw [h2 x hx, h1 y hy] at e
      exact ⟨hlr' _ (.inl e), hlr' _ (.inr hy)⟩
    · left; rw [h2 x hx, h2 y hy] at e; exact e
  refine ⟨⟨?_, ?_, ?_⟩, hmono, by rw [hA, hB], hsplit⟩
  · intro x
    by_cases hxa : x = a
    · subst hxa
      rw [Equiv.Perm.mul_apply, swap_apply_left, hmono _ b (h.step b), hA, hB]
    · by_cases hxb : x = b
      · subst hxb
        rw [Equiv.Perm.mul_apply, swap_apply_right, hmono _ a (h.step a), hA, hB]
      · rw [Equiv.Perm.mul_apply, swap_apply_of_ne_of_ne hxa hxb]
        exact hmono _ _ (h.step x)
  · have ra : ∀ x, rep x = rep a → (σ * swap a b).SameCycle x a := by
      intro x hx
      obtain ⟨k, hk⟩ := (h.cycle x a hx).exists_nat_pow_eq
      exact reach h hab k x hk
    have rb : ∀ x, rep x = rep b → (σ * swap a b).SameCycle x b := by
      intro x hx
      obtain ⟨k, hk⟩ := (h.cycle x b hx).exists_nat_pow_eq
      rw [swap_comm]
      exact reach h hab.symm k x hk
    have rab : (σ * swap a b).SameCycle a b := by
      have := rb (σ b) (h.step b)
      have e : (σ * swap a b) a = σ b := by rw [Equiv.Perm.mul_apply, swap_apply_left]
      rw [← e] at this
      exact sameCycle_apply_left.1 this
    -- cells of an untouched cycle
    have rc : ∀ (k : Nat) (x y : Fin m × Fin n), rep x ≠ rep a → rep x ≠ rep b → (σ ^ k) x = y →
        (σ * swap a b).SameCycle x y := by
      intro k
      induction k with
      | zero => intro x y _ _ hk; rw [show x = y from hk]
      | succ k ih =>
        intro x y hxa hxb hk
        have h1 : (σ * swap a b) x = σ x := by
          rw [Equiv.Perm.mul_apply, swap_apply_of_ne_of_ne (fun e => hxa (by rw [e]))
            (fun e => hxb (by rw [e]))]
        have h2 := ih (σ x) y (by rw [h.step]; exact hxa) (by rw [h.step]; exact hxb)
          (by rw [← hk, pow_succ, Equiv.Perm.mul_apply])
        rw [← h1] at h2
        exact sameCycle_apply_left.1 h2
    have toA : ∀ x, (rep x = rep a ∨ rep x = rep b) → (σ * swap a b).SameCycle x a := by
      intro x hx
      rcases hx with hx | hx
      · exact ra x hx
      · exact (rb x hx).trans rab.symm
    intro x y e
    rcases hsplit x y e with e' | ⟨hx, hy⟩
    · by_cases hx : rep x = rep a ∨ rep x = rep b
      · exact (toA x hx).trans (toA y (by rw [← e']; exact hx)).symm
      · obtain ⟨k, hk⟩ := (h.cycle x y e').exists_nat_pow_eq
        exact rc k x y (fun e => hx (.inl e)) (fun e => hx (.inr e)) hk
    · exact (toA x hx).trans (toA y hy).symm
  · intro x
    by_cases hx : rep x = r
    · rw [h1 x hx, h2 l (by rw [hl]; exact hne), hl]
    · rw [h2 x hx, h2 (rep x) (by rw [h.idem]; exact hx), h.idem]

theorem merge_eq {σ : Perm (Fin m × Fin n)} {rep : Fin m × Fin n → Fin m × Fin n}
    (h : Reps σ rep) (sz : Fin m × Fin n → Nat) (cols : List Col) (fuel : Nat) (hf : m * n ≤ fuel)
    (a b : Fin m × Fin n) :
    ∃ (σ' : Perm (Fin m × Fin n)) (rep' : Fin m × Fin n → Fin m × Fin n) (sz' : Fin m × Fin n → Nat),
      merge fuel ⟨cols, tab (emb ∘ σ), tab (emb ∘ rep), tab sz⟩ (emb a) (emb b) =
        .ok ⟨cols, tab (emb ∘ σ'), tab (emb ∘ rep'), tab sz'⟩ ∧ Reps σ' rep' ∧
      (∀ x y, rep x = rep y → rep' x = rep' y) ∧ rep' a = rep' b ∧
      (∀ x y, rep' x = rep' y → rep x = rep y ∨
        (rep x = rep a ∨ rep x = rep b) ∧ (rep y = rep a ∨ rep y = rep b)) := by
  by_cases hab : rep a = rep b
  · refine ⟨σ, rep, sz, ?_, h, fun _ _ e => e, hab, fun _ _ e => .inl e⟩
    unfold merge
    simp only [at_tab, Function.comp, bind, Except.bind]
    rw [if_pos (by rw [hab])]
    rfl
  · have hne : ¬ emb (rep a) = emb (rep b) := by rw [emb_inj]; exact hab
    obtain ⟨l, r, hlr, hsw⟩ : ∃ l r, ((l = rep a ∧ r = rep b) ∨ (l = rep b ∧ r = rep a)) ∧
        (if sz (rep a) < sz (rep b) then (emb (rep b), emb (rep a))
          else (emb (rep a), emb (rep b))) = (emb l, emb r) := by
      by_cases hlt : sz (rep a) < sz (rep b)
      · exact ⟨rep b, rep a, .inr ⟨rfl, rfl⟩, by rw [if_pos hlt]⟩
      · exact ⟨rep a, rep b, .inl ⟨rfl, rfl⟩, by rw [if_neg hlt]⟩
    obtain ⟨rep', e1, e2, e3⟩ := relabel_eq σ l r fuel hf rep
    have hr : rep r = r := by rcases hlr with ⟨-, rfl⟩ | ⟨-, rfl⟩ <;> exact h.idem _
    obtain ⟨g1, g2, g3, g4⟩ := h.merge (rep' := rep') hab hlr
      (fun x hx => e2 x (h.iff.2 (by rw [hr, hx])))
      (fun x hx => e3 x (fun hs => hx (by rw [← h.iff.1 hs, hr])))
    refine ⟨σ * swap a b, rep', Function.update sz l (sz l + sz r), ?_, g1, g2, g3, g4⟩
    have hmap : Function.update (Function.update (emb ∘ σ) a (emb (σ b))) b (emb (σ a)) =
        emb ∘ (σ * swap a b) := by
      funext x
      simp only [Function.update_apply, Function.comp, Equiv.Perm.mul_apply]
      by_cases hxb : x = b
      · rw [if_pos hxb, hxb, swap_apply_right]
      · rw [if_neg hxb]
        by_cases hxa : x = a
        · rw [if_pos hxa, hxa, swap_apply_left]
        · rw [if_neg hxa, swap_apply_of_ne_of_ne hxa hxb]
    unfold merge
    simp only [at_tab, Function.comp, bind, Except.bind]
    rw [if_neg hne]
    simp only [hsw, at_tab, put_tab]
    have e1' := e1
    simp only [Function.comp_def] at e1' hmap ⊢
    rw [e1']
    simp only [hmap]
    rfl


/-- The cell with the given column number and row. -/
def cellOf (cols : List Col) (hc : cols.length = m) (u : Fin m × Fin n) : Col × Nat :=
  (cols[(u.1 : Nat)]'(by rw [hc]; exact u.1.2), u.2)

theorem cellOf_inj {cols : List Col} (hn : cols.Nodup) (hc : cols.length = m) {u v : Fin m × Fin n}
    (h : cellOf cols hc u = cellOf cols hc v) : u = v := by
  unfold cellOf at h
  have h1 := congrArg Prod.fst h
  have h2 := congrArg Prod.snd h
  exact Prod.ext (Fin.ext ((List.Nodup.getElem_inj_iff hn).1 h1)) (Fin.ext h2)

theorem position_eq {cols : List Col} (hn : cols.Nodup) (hc : cols.length = m) (u : Fin m × Fin n) :
    position cols (cellOf cols hc u).1 = some (u.1 : Nat) := by
  unfold position cellOf
  have hlt : (u.1 : Nat) < cols.length := by rw [hc]; exact u.1.2
  rw [List.findIdx?_eq_some_iff_getElem]
  refine ⟨hlt, by simp, ?_⟩
  intro j hj
  simp only [beq_iff_eq]
  intro e
  have := (List.Nodup.getElem_inj_iff hn).1 e
  omega

theorem position_none {cols : List Col} {c : Col} (h : c ∉ cols) : position cols c = none := by
  unfold position
  rw [List.findIdx?_eq_none_iff]
  intro x hx
  simp only [beq_eq_false_iff_ne]
  rintro rfl
  exact h hx

/-- The state after the copies `done`. -/
structure Inv (cols : List Col) (hc : cols.length = m) (done : List ((Col × Nat) × (Col × Nat)))
    (σ : Perm (Fin m × Fin n)) (rep : Fin m × Fin n → Fin m × Fin n) : Prop where
  reps : Reps σ rep
  tied : ∀ u v, rep u = rep v ↔
    Relation.EqvGen (fun x y => (cellOf cols hc x, cellOf cols hc y) ∈ done) u v

theorem inv_nil (cols : List Col) (hc : cols.length = m) :
    Inv (n := n) cols hc [] 1 id := by
  refine ⟨⟨fun _ => rfl, fun x y h => ?_, fun _ => rfl⟩, fun u v => ⟨?_, ?_⟩⟩
  · rw [show x = y from h]
  · rintro h; rw [show u = v from h]; exact .refl _
  · intro h
    induction h with
    | rel _ _ h => cases h
    | refl => rfl
    | symm _ _ _ ih => exact ih.symm
    | trans _ _ _ _ _ ih1 ih2 => exact ih1.trans ih2

theorem new_eq (cols : List Col) (hc : cols.length = m) :
    new n cols = ⟨cols, tab (emb ∘ (1 : Perm (Fin m × Fin n))),
      tab (emb ∘ (id : Fin m × Fin n → Fin m × Fin n)), tab fun _ : Fin m × Fin n => 1⟩ := by
  have h1 : ((List.range cols.length).map fun i => (List.range n).map fun j => (i, j)) =
      tab (emb : Fin m × Fin n → _) := by
    apply List.ext_getElem
    · simp [tab, hc]
    · intro i h1 h2
      apply List.ext_getElem
      · simp [tab]
      · intro j h3 h4
        simp [tab, emb]
  have h2 : List.replicate cols.length (List.replicate n 1) = tab fun _ : Fin m × Fin n => 1 := by
    apply List.ext_getElem
    · simp [tab, hc]
    · intro i h1 h2
      apply List.ext_getElem
      · simp [tab]
      · intro j h3 h4
        simp [tab]
  unfold new
  rw [h1, h2]
  rfl

theorem copy_eq {cols : List Col} (hn : cols.Nodup) (hc : cols.length = m)
    {done : List ((Col × Nat) × (Col × Nat))} {σ : Perm (Fin m × Fin n)}
    {rep : Fin m × Fin n → Fin m × Fin n} (h : Inv cols hc done σ rep) (sz : Fin m × Fin n → Nat)
    (fuel : Nat) (hf : m * n ≤ fuel) (a b : Fin m × Fin n) :
    ∃ (σ' : Perm (Fin m × Fin n)) (rep' : Fin m × Fin n → Fin m × Fin n)
      (sz' : Fin m × Fin n → Nat),
      copy fuel ⟨cols, tab (emb ∘ σ), tab (emb ∘ rep), tab sz⟩ (cellOf cols hc a)
        (cellOf cols hc b) = .ok (.ok ⟨cols, tab (emb ∘ σ'), tab (emb ∘ rep'), tab sz'⟩) ∧
      Inv cols hc (done ++ [(cellOf cols hc a, cellOf cols hc b)]) σ' rep' := by
  obtain ⟨σ', rep', sz', e, h1, h2, h3, h4⟩ := merge_eq h.reps sz cols fuel hf a b
  refine ⟨σ', rep', sz', ?_, h1, ?_⟩
  · unfold copy
    simp only [position_eq hn hc, tab_getElem?, List.length_ofFn, bind, Except.bind]
    rw [if_neg (by
      have ha : (cellOf cols hc a).2 < n := a.2.2
      have hb : (cellOf cols hc b).2 < n := b.2.2
      omega)]
    have e' : merge fuel ⟨cols, tab (emb ∘ σ), tab (emb ∘ rep), tab sz⟩
        ((a.1 : Nat), (cellOf cols hc a).2) ((b.1 : Nat), (cellOf cols hc b).2) = _ := e
    rw [e']
    rfl
  · have hmono : ∀ u v : Fin m × Fin n, Relation.EqvGen (fun x y => (cellOf cols hc x, cellOf cols hc y) ∈ done) u v →
        Relation.EqvGen (fun x y => (cellOf cols hc x, cellOf cols hc y) ∈
          done ++ [(cellOf cols hc a, cellOf cols hc b)]) u v := by
      intro u v
      apply Relation.EqvGen.mono
      intro x y hxy
      exact List.mem_append_left _ hxy
    have hab : Relation.EqvGen (fun x y => (cellOf cols hc x, cellOf cols hc y) ∈
          done ++ [(cellOf cols hc a, cellOf cols hc b)]) a b :=
      .rel _ _ (List.mem_append_right _ (by simp))
    intro u v
    constructor
    · intro e
      rcases h4 u v e with e' | ⟨hu, hv⟩
      · exact hmono _ _ ((h.tied u v).1 e')
      · have hua : ∀ w, (rep w = rep a ∨ rep w = rep b) → Relation.EqvGen (fun x y =>
            (cellOf cols hc x, cellOf cols hc y) ∈
            done ++ [(cellOf cols hc a, cellOf cols hc b)]) w a := by
          rintro w (hw | hw)
          · exact hmono _ _ ((h.tied w a).1 hw)
          · exact (hmono _ _ ((h.tied w b).1 hw)).trans _ _ _ (.symm _ _ hab)
        exact .trans _ _ _ (hua u hu) (.symm _ _ (hua v hv))
    · intro e
      induction e with
      | rel x y hxy =>
        rcases List.mem_append.1 hxy with hd | hd
        · exact h2 x y ((h.tied x y).2 (.rel _ _ hd))
        · rw [List.mem_singleton] at hd
          have e1 := cellOf_inj hn hc (congrArg Prod.fst hd)
          have e2 := cellOf_inj hn hc (congrArg Prod.snd hd)
          rw [e1, e2]; exact h3
      | refl => rfl
      | symm _ _ _ ih => exact ih.symm
      | trans _ _ _ _ _ ih1 ih2 => exact ih1.trans ih2

/-- A cell of the permutation. -/
def Good (cols : List Col) (n : Nat) (x : Col × Nat) : Prop := x.1 ∈ cols ∧ x.2 < n

theorem good_iff {cols : List Col} (hc : cols.length = m) {x : Col × Nat} :
    Good cols n x ↔ ∃ u : Fin m × Fin n, cellOf cols hc u = x := by
  constructor
  · rintro ⟨h1, h2⟩
    obtain ⟨i, hi, e⟩ := List.mem_iff_getElem.1 h1
    exact ⟨(⟨i, by omega⟩, ⟨x.2, h2⟩), Prod.ext e rfl⟩
  · rintro ⟨u, rfl⟩
    exact ⟨List.getElem_mem _, u.2.2⟩

theorem copyAll_eq {cols : List Col} (hn : cols.Nodup) (hc : cols.length = m) (fuel : Nat)
    (hf : m * n ≤ fuel) :
    ∀ (cs done : List ((Col × Nat) × (Col × Nat))) (σ : Perm (Fin m × Fin n))
      (rep : Fin m × Fin n → Fin m × Fin n) (sz : Fin m × Fin n → Nat),
      (∀ p ∈ cs, Good cols n p.1 ∧ Good cols n p.2) → Inv cols hc done σ rep →
      ∃ (σ' : Perm (Fin m × Fin n)) (rep' : Fin m × Fin n → Fin m × Fin n)
        (sz' : Fin m × Fin n → Nat),
        copyAll fuel cs ⟨cols, tab (emb ∘ σ), tab (emb ∘ rep), tab sz⟩ =
          .ok (.ok ⟨cols, tab (emb ∘ σ'), tab (emb ∘ rep'), tab sz'⟩) ∧
        Inv cols hc (done ++ cs) σ' rep' := by
  intro cs
  induction cs with
  | nil => intro done σ rep sz _ h; exact ⟨σ, rep, sz, rfl, by rw [List.append_nil]; exact h⟩
  | cons p cs ih =>
    intro done σ rep sz hg h
    obtain ⟨l, r⟩ := p
    obtain ⟨g1, g2⟩ := hg _ (List.mem_cons_self ..)
    obtain ⟨a, rfl⟩ := (good_iff hc).1 g1
    obtain ⟨b, rfl⟩ := (good_iff hc).1 g2
    obtain ⟨σ1, rep1, sz1, e1, h1⟩ := copy_eq hn hc h sz fuel hf a b
    obtain ⟨σ2, rep2, sz2, e2, h2⟩ := ih _ σ1 rep1 sz1
      (fun q hq => hg q (List.mem_cons_of_mem _ hq)) h1
    refine ⟨σ2, rep2, sz2, ?_, by rw [List.append_assoc] at h2; exact h2⟩
    rw [copyAll, e1]
    exact e2

/-- The first bad pair stops the sequence. -/
theorem copyAll_err {cols : List Col} (hn : cols.Nodup) (hc : cols.length = m) (fuel : Nat)
    (hf : m * n ≤ fuel) :
    ∀ (cs done : List ((Col × Nat) × (Col × Nat))) (σ : Perm (Fin m × Fin n))
      (rep : Fin m × Fin n → Fin m × Fin n) (sz : Fin m × Fin n → Nat),
      ¬ (∀ p ∈ cs, Good cols n p.1 ∧ Good cols n p.2) → Inv cols hc done σ rep →
      ∃ e, copyAll fuel cs ⟨cols, tab (emb ∘ σ), tab (emb ∘ rep), tab sz⟩ = .ok (.error e) ∧
        (e = .columnNotInPermutation ∨ e = .boundsFailure) := by
  intro cs
  induction cs with
  | nil => intro done σ rep sz h; exact absurd (by simp) h
  | cons p cs ih =>
    intro done σ rep sz hg h
    obtain ⟨l, r⟩ := p
    by_cases hp : Good cols n l ∧ Good cols n r
    · obtain ⟨g1, g2⟩ := hp
      obtain ⟨a, rfl⟩ := (good_iff hc).1 g1
      obtain ⟨b, rfl⟩ := (good_iff hc).1 g2
      obtain ⟨σ1, rep1, sz1, e1, h1⟩ := copy_eq hn hc h sz fuel hf a b
      obtain ⟨e, e2, h2⟩ := ih _ σ1 rep1 sz1 (fun hcs => hg (by
        intro q hq
        rcases List.mem_cons.1 hq with rfl | hq
        · exact ⟨g1, g2⟩
        · exact hcs q hq)) h1
      exact ⟨e, by rw [copyAll, e1]; exact e2, h2⟩
    · have : ∃ e, copy fuel ⟨cols, tab (emb ∘ σ), tab (emb ∘ rep), tab sz⟩ l r = .ok (.error e) ∧
          (e = .columnNotInPermutation ∨ e = .boundsFailure) := by
        by_cases hl : l.1 ∈ cols
        · by_cases hr : r.1 ∈ cols
          · refine ⟨.boundsFailure, ?_, .inr rfl⟩
            obtain ⟨i, hi, ei⟩ := List.mem_iff_getElem.1 hl
            obtain ⟨j, hj, ej⟩ := List.mem_iff_getElem.1 hr
            have pi : position cols l.1 = some i := by
              unfold position
              rw [List.findIdx?_eq_some_iff_getElem]
              refine ⟨hi, by simp [ei], ?_⟩
              intro k hk
              simp only [Bool.not_eq_true, beq_eq_false_iff_ne]
              intro e
              have := (List.Nodup.getElem_inj_iff hn).1 (e.trans ei.symm)
              omega
            have pj : position cols r.1 = some j := by
              unfold position
              rw [List.findIdx?_eq_some_iff_getElem]
              refine ⟨hj, by simp [ej], ?_⟩
              intro k hk
              simp only [Bool.not_eq_true, beq_eq_false_iff_ne]
              intro e
              have := (List.Nodup.getElem_inj_iff hn).1 (e.trans ej.symm)
              omega
            unfold copy
            have ti := tab_getElem? (n := n) (emb ∘ σ) ⟨i, by omega⟩
            have tj := tab_getElem? (n := n) (emb ∘ σ) ⟨j, by omega⟩
            simp only at ti tj
            simp only [pi, pj, ti, tj, List.length_ofFn]
            rw [if_pos (by
              by_contra hh
              exact hp ⟨⟨hl, by omega⟩, ⟨hr, by omega⟩⟩)]
            rfl
          · refine ⟨.columnNotInPermutation, ?_, .inl rfl⟩
            unfold copy
            simp only [position_none hr]
            split <;> rfl
        · refine ⟨.columnNotInPermutation, ?_, .inl rfl⟩
          unfold copy
          simp only [position_none hl]
          rfl
      obtain ⟨e, he, h2⟩ := this
      exact ⟨e, by rw [copyAll, he], h2⟩

theorem isPermutation_tab (σ : Perm (Fin m × Fin n)) :
    IsPermutation m n (tab (emb ∘ σ)) := by
  refine ⟨?_, ?_, ?_, ?_⟩
  · intro c
    constructor
    · intro h
      obtain ⟨v, hv⟩ := Option.isSome_iff_exists.1 h
      obtain ⟨d, rfl, -⟩ := entry_tab_some hv
      exact ⟨d.1.2, d.2.2⟩
    · rintro ⟨h1, h2⟩
      have := entry_tab (emb ∘ σ) (⟨c.1, h1⟩, ⟨c.2, h2⟩)
      show (entry _ (emb (⟨c.1, h1⟩, ⟨c.2, h2⟩))).isSome = true
      rw [this]; rfl
  · intro c d h
    obtain ⟨u, rfl, rfl⟩ := entry_tab_some h
    exact ⟨(σ u).1.2, (σ u).2.2⟩
  · intro c c' d h h'
    obtain ⟨u, rfl, rfl⟩ := entry_tab_some h
    obtain ⟨u', rfl, e⟩ := entry_tab_some h'
    rw [σ.injective (emb_inj.1 e)]
  · rintro ⟨i, j⟩ ⟨h1, h2⟩
    refine ⟨emb (σ⁻¹ (⟨i, h1⟩, ⟨j, h2⟩)), ?_⟩
    rw [entry_tab]
    simp [emb]

theorem sameLoop_tab (σ : Perm (Fin m × Fin n)) (u v : Fin m × Fin n) :
    SameLoop (tab (emb ∘ σ)) (emb u) (emb v) ↔ σ.SameCycle u v := by
  constructor
  · intro h
    unfold SameLoop at h
    generalize hc : emb v = c at h
    induction h generalizing v with
    | refl => rw [emb_inj.1 hc]
    | tail _ hcd ih =>
      obtain ⟨w, rfl, e⟩ := entry_tab_some hcd
      have := ih w rfl
      rw [← hc] at e
      rw [← emb_inj.1 e]
      exact sameCycle_apply_right.2 this
  · intro h
    obtain ⟨k, rfl⟩ := h.exists_nat_pow_eq
    clear h
    induction k with
    | zero => exact .refl
    | succ k ih =>
      refine .tail ih ?_
      rw [entry_tab, pow_succ']
      rfl

/-- Cells tied by the copies are inside, or the same. -/
theorem tied_iff {cols : List Col} (hn : cols.Nodup) (hc : cols.length = m)
    {cs : List ((Col × Nat) × (Col × Nat))}
    (hg : ∀ p ∈ cs, Good cols n p.1 ∧ Good cols n p.2) {σ : Perm (Fin m × Fin n)}
    {rep : Fin m × Fin n → Fin m × Fin n} (h : Inv cols hc cs σ rep) (u v : Fin m × Fin n) :
    rep u = rep v ↔ Tied cs (cellOf cols hc u) (cellOf cols hc v) := by
  rw [h.tied]
  constructor
  · intro e
    induction e with
    | rel x y hxy => exact .rel _ _ hxy
    | refl => exact .refl _
    | symm _ _ _ ih => exact ih.symm
    | trans _ _ _ _ _ ih1 ih2 => exact ih1.trans _ _ _ ih2
  · classical
    intro e
    rw [← h.tied]
    have key : ∀ x y, Tied cs x y →
        ∀ f : Col × Nat → Option (Fin m × Fin n),
          (∀ w, f (cellOf cols hc w) = some (rep w)) → f x = f y := by
      intro x y hxy f hf
      induction hxy with
      | rel x y hxy =>
        obtain ⟨g1, g2⟩ := hg _ hxy
        obtain ⟨a, rfl⟩ := (good_iff hc).1 g1
        obtain ⟨b, rfl⟩ := (good_iff hc).1 g2
        rw [hf, hf, (h.tied a b).2 (.rel _ _ hxy)]
      | refl => rfl
      | symm _ _ _ ih => exact ih.symm
      | trans _ _ _ _ _ ih1 ih2 => exact ih1.trans ih2
    have := key _ _ e (fun x => if hx : ∃ w, cellOf cols hc w = x then some (rep hx.choose) else none)
      (by
        intro w
        have hx : ∃ w', cellOf cols hc w' = cellOf cols hc w := ⟨w, rfl⟩
        rw [dif_pos hx, cellOf_inj hn hc hx.choose_spec])
    have hu : ∃ w', cellOf cols hc w' = cellOf cols hc u := ⟨u, rfl⟩
    have hv : ∃ w', cellOf cols hc w' = cellOf cols hc v := ⟨v, rfl⟩
    rw [dif_pos hu, dif_pos hv, cellOf_inj hn hc hu.choose_spec,
      cellOf_inj hn hc hv.choose_spec] at this
    exact Option.some.inj this

end Verif.PermAssembly

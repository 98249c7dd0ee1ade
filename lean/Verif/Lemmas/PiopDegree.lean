import Verif.Lemmas.PiopModel
import Mathlib.Algebra.Polynomial.BigOperators
import Mathlib.Algebra.Polynomial.AlgebraMap

/-! The degree of the verifier's expressions as polynomials. -/

namespace Verif.Plonk

open Finset Polynomial

/-- Everything is of degree at most `D`; challenges are constants. -/
structure Small (D : Nat) (o : Opened Fr[X]) : Prop where
  pos : 1 ≤ D
  advice : ∀ c r, (o.advice c r).natDegree ≤ D
  fixed : ∀ c r, (o.fixed c r).natDegree ≤ D
  inst : ∀ c r, (o.inst c r).natDegree ≤ D
  user : ∀ i, (o.user i).natDegree = 0
  sigma : ∀ i, (o.sigma i).natDegree ≤ D
  z : ∀ i, (o.z i).natDegree ≤ D
  zNext : ∀ i, (o.zNext i).natDegree ≤ D
  zLast : ∀ i, (o.zLast i).natDegree ≤ D
  lz : ∀ i, (o.lz i).natDegree ≤ D
  lzNext : ∀ i, (o.lzNext i).natDegree ≤ D
  la : ∀ i, (o.la i).natDegree ≤ D
  laInv : ∀ i, (o.laInv i).natDegree ≤ D
  ls : ∀ i, (o.ls i).natDegree ≤ D
  l0 : o.l0.natDegree ≤ D
  lLast : o.lLast.natDegree ≤ D
  lBlind : o.lBlind.natDegree ≤ D
  theta : o.theta.natDegree = 0
  beta : o.beta.natDegree = 0
  gamma : o.gamma.natDegree = 0
  x : o.x.natDegree ≤ 1

theorem mul_le_of {p q : Fr[X]} {a b : Nat} (hp : p.natDegree ≤ a) (hq : q.natDegree ≤ b) :
    (p * q).natDegree ≤ a + b := le_trans natDegree_mul_le (Nat.add_le_add hp hq)

theorem add_le_of {p q : Fr[X]} {a : Nat} (hp : p.natDegree ≤ a) (hq : q.natDegree ≤ a) :
    (p + q).natDegree ≤ a := le_trans (natDegree_add_le p q) (max_le hp hq)

theorem sub_le_of {p q : Fr[X]} {a : Nat} (hp : p.natDegree ≤ a) (hq : q.natDegree ≤ a) :
    (p - q).natDegree ≤ a := le_trans (natDegree_sub_le p q) (max_le hp hq)

theorem one_le_of (a : Nat) : (1 : Fr[X]).natDegree ≤ a := by rw [natDegree_one]; exact Nat.zero_le _

variable {D : Nat} {o : Opened Fr[X]}

theorem expr_degree (h : Small D o) (e : Expr) : (o.expr e).natDegree ≤ e.degree * D := by
  induction e with
  | const c => simp [Opened.expr, algebraMap_eq]
  | selector s => simp [Opened.expr]
  | fixed c r => simpa [Opened.expr, Expr.degree] using h.fixed c r
  | advice c r => simpa [Opened.expr, Expr.degree] using h.advice c r
  | instance_ c r => simpa [Opened.expr, Expr.degree] using h.inst c r
  | challenge i => simp [Opened.expr, h.user i]
  | neg a ih => simpa [Opened.expr, Expr.degree] using ih
  | sum a b iha ihb =>
    refine add_le_of (le_trans iha (Nat.mul_le_mul_right _ ?_)) (le_trans ihb (Nat.mul_le_mul_right _ ?_))
    · exact le_max_left _ _
    · exact le_max_right _ _
  | product a b iha ihb =>
    show (o.expr a * o.expr b).natDegree ≤ (a.degree + b.degree) * D
    rw [Nat.add_mul]
    exact mul_le_of iha ihb
  | scaled a f ih =>
    show (o.expr a * algebraMap Fr Fr[X] f).natDegree ≤ a.degree * D
    have := mul_le_of ih (show (algebraMap Fr Fr[X] f).natDegree ≤ 0 by simp [algebraMap_eq])
    simpa using this

theorem perm_degree (h : Small D o) (cs : CS) (i : Nat) : (o.perm cs i).natDegree ≤ D := by
  unfold Opened.perm
  split
  · next c _ =>
    cases c
    · exact h.advice _ _
    · exact h.fixed _ _
    · exact h.inst _ _
  · simp

theorem left_degree (h : Small D o) (cs : CS) (i : Nat) : (leftOf cs o i).natDegree ≤ D := by
  unfold leftOf
  refine add_le_of (add_le_of (perm_degree h cs i) ?_) (by rw [h.gamma]; exact Nat.zero_le _)
  have := mul_le_of h.beta.le (h.sigma i)
  simpa using this

theorem right_degree (h : Small D o) (cs : CS) (i : Nat) : (rightOf cs o i).natDegree ≤ D := by
  unfold rightOf
  refine add_le_of (add_le_of (perm_degree h cs i) ?_) (by rw [h.gamma]; exact Nat.zero_le _)
  have h1 := mul_le_of h.beta.le h.x
  have h2 : (algebraMap Fr Fr[X] deltaFr ^ i).natDegree ≤ 0 := by
    rw [algebraMap_eq, ← C_pow]; simp
  have := mul_le_of h1 h2
  have := h.pos
  omega

theorem prod_degree (s : Finset Nat) (f : Nat → Fr[X]) (hf : ∀ i, (f i).natDegree ≤ D) :
    (∏ i ∈ s, f i).natDegree ≤ s.card * D := by
  refine le_trans (natDegree_prod_le _ _) ?_
  have := Finset.sum_le_card_nsmul s (fun i => (f i).natDegree) D fun i _ => hf i
  simpa using this

theorem active_degree (h : Small D o) : o.active.natDegree ≤ D :=
  sub_le_of (one_le_of _) (add_le_of h.lLast h.lBlind)

theorem part_card (cs : CS) (t : Nat) : (part cs t).card ≤ partLen cs := by
  unfold part
  rw [Nat.card_Ico]
  omega

theorem comp_degree (h : Small D o) (es : List Expr) :
    (o.comp es).natDegree ≤ (es.map Expr.degree).foldl max 1 * D := by
  have key : ∀ (es : List Expr) (a : Fr[X]) (m : Nat), a.natDegree ≤ m * D →
      ((es.map o.expr).foldl (fun acc v => acc * o.theta + v) a).natDegree
        ≤ (es.map Expr.degree).foldl max m * D := by
    intro es
    induction es with
    | nil => intro a m ha; exact ha
    | cons e es ih =>
      intro a m ha
      simp only [List.map_cons, List.foldl_cons]
      apply ih
      refine add_le_of ?_ ?_
      · have h1 := mul_le_of ha h.theta.le
        refine le_trans h1 ?_
        rw [Nat.add_zero]
        exact Nat.mul_le_mul_right _ (le_max_left _ _)
      · exact le_trans (expr_degree h e) (Nat.mul_le_mul_right _ (le_max_right _ _))
  exact key es 0 1 (by simp)

theorem max_getD_le {l : List Nat} {a d : Nat} (h : a ∈ l) : a ≤ l.max?.getD d := by
  rcases hm : l.max? with _ | m
  · rw [List.max?_eq_none_iff] at hm
    subst hm
    cases h
  · have := (List.max?_eq_some_iff.1 hm).2 a h
    simpa using this

theorem gate_le_degree (cs : CS) (e : Expr) (h : e ∈ cs.gates.flatten) : e.degree ≤ cs.degree := by
  have := max_getD_le (d := 0) (List.mem_map_of_mem (f := Expr.degree) h)
  unfold CS.degree
  omega

theorem lookup_le_degree (cs : CS) (l : Lookup) (h : l ∈ cs.lookups) :
    CS.lookupDegree l ≤ cs.degree := by
  have := max_getD_le (d := 1) (List.mem_map_of_mem (f := CS.lookupDegree) h)
  unfold CS.degree
  omega

/-- Every expression is of degree at most the degree of the constraint system times `D`. -/
theorem exprs_degree (h : Small D o) (cs : CS) : ∀ p ∈ exprsOf cs o, p.natDegree ≤ cs.degree * D := by
  have hd := degree_ge cs
  have mono : ∀ {p : Fr[X]} {m : Nat}, p.natDegree ≤ m * D → m ≤ cs.degree →
      p.natDegree ≤ cs.degree * D := fun hp hm => le_trans hp (Nat.mul_le_mul_right _ hm)
  have hz : ∀ p ∈ permOf cs o, p.natDegree ≤ cs.degree * D := by
    intro p hp
    unfold permOf at hp
    rw [List.mem_append, List.mem_append] at hp
    rcases hp with (hp | hp) | hp
    · split at hp
      · cases hp
      · rw [List.mem_cons, List.mem_singleton] at hp
        rcases hp with rfl | rfl
        · refine mono (m := 2) ?_ (by omega)
          rw [two_mul]
          exact mul_le_of h.l0 (sub_le_of (one_le_of _) (h.z 0))
        · refine mono (m := 3) ?_ (by omega)
          rw [show 3 * D = (D + D) + D by ring, sq]
          exact mul_le_of (sub_le_of (mul_le_of (h.z _) (h.z _)) (le_trans (h.z _) (by omega))) h.lLast
    · obtain ⟨t, -, rfl⟩ := List.mem_map.1 hp
      refine mono (m := 2) ?_ (by omega)
      rw [two_mul]
      exact mul_le_of (sub_le_of (h.z _) (h.zLast _)) h.l0
    · obtain ⟨t, -, rfl⟩ := List.mem_map.1 hp
      refine mono (m := partLen cs + 2) ?_ (by unfold partLen; omega)
      rw [show (partLen cs + 2) * D = (D + partLen cs * D) + D by ring]
      refine mul_le_of (sub_le_of (mul_le_of (h.zNext _) ?_) (mul_le_of (h.z _) ?_)) (active_degree h)
      · exact le_trans (prod_degree _ _ (left_degree h cs)) (Nat.mul_le_mul_right _ (part_card cs t))
      · exact le_trans (prod_degree _ _ (right_degree h cs)) (Nat.mul_le_mul_right _ (part_card cs t))
  intro p hp
  unfold exprsOf at hp
  rw [List.mem_append, List.mem_append] at hp
  rcases hp with (hp | hp) | hp
  · obtain ⟨e, he, rfl⟩ := List.mem_map.1 hp
    exact mono (expr_degree h e) (gate_le_degree cs e he)
  · exact hz p hp
  · obtain ⟨ps, hps, hp⟩ := List.mem_flatten.1 hp
    obtain ⟨⟨l, t⟩, hlt, rfl⟩ := List.mem_map.1 hps
    have hl : l ∈ cs.lookups := by
      have := List.mem_map_of_mem (f := Prod.fst) hlt
      rwa [List.zipIdx_map_fst] at this
    have hdeg := lookup_le_degree cs l hl
    unfold CS.lookupDegree at hdeg
    have hb : o.beta.natDegree ≤ D := by rw [h.beta]; exact Nat.zero_le _
    have hg : o.gamma.natDegree ≤ D := by rw [h.gamma]; exact Nat.zero_le _
    unfold lookupOf at hp
    simp only [List.mem_cons, List.not_mem_nil, or_false] at hp
    rcases hp with rfl | rfl | rfl | rfl | rfl
    · refine mono (m := 2) ?_ (by omega)
      rw [two_mul]
      exact mul_le_of h.l0 (sub_le_of (one_le_of _) (h.lz t))
    · refine mono (m := 3) ?_ (by omega)
      rw [show 3 * D = D + (D + D) by ring, sq]
      exact mul_le_of h.lLast (sub_le_of (mul_le_of (h.lz _) (h.lz _)) (le_trans (h.lz _) (by omega)))
    · generalize hi : (l.input.map Expr.degree).foldl max 1 = di at hdeg
      generalize ht : (l.table.map Expr.degree).foldl max 1 = dt at hdeg
      refine mono (m := max 4 (2 + di + dt)) ?_ hdeg
      have hin := comp_degree h l.input
      have htab := comp_degree h l.table
      rw [hi] at hin
      rw [ht] at htab
      have h1 : 1 ≤ di := by
        rw [← hi]
        have : ∀ (l : List Nat) (a : Nat), a ≤ l.foldl max a := by
          intro l
          induction l with
          | nil => intro a; exact le_rfl
          | cons b l ih => intro a; exact le_trans (le_max_left _ _) (ih _)
        exact this _ _
      have h2 : 1 ≤ dt := by
        rw [← ht]
        have : ∀ (l : List Nat) (a : Nat), a ≤ l.foldl max a := by
          intro l
          induction l with
          | nil => intro a; exact le_rfl
          | cons b l ih => intro a; exact le_trans (le_max_left _ _) (ih _)
        exact this _ _
      have hD1 : D ≤ di * D := Nat.le_mul_of_pos_left _ h1
      have hD2 : D ≤ dt * D := Nat.le_mul_of_pos_left _ h2
      have hle1 : 4 * D ≤ max 4 (2 + di + dt) * D := Nat.mul_le_mul_right _ (le_max_left _ _)
      have hle2 : (2 + di + dt) * D ≤ max 4 (2 + di + dt) * D :=
        Nat.mul_le_mul_right _ (le_max_right _ _)
      have e2 : (2 + di + dt) * D = ((D + di * D) + dt * D) + D := by ring
      refine le_trans (mul_le_of (a := ((D + di * D) + dt * D)) (sub_le_of ?_ ?_) (active_degree h)) (by omega)
      · refine le_trans (mul_le_of (mul_le_of (h.lzNext t) (add_le_of (h.la t) hb))
          (add_le_of (h.ls t) hg)) (by omega)
      · exact mul_le_of (mul_le_of (h.lz t) (add_le_of hin (le_trans hb hD1)))
          (add_le_of htab (le_trans hg hD2))
    · refine mono (m := 2) ?_ (by omega)
      rw [two_mul]
      exact mul_le_of h.l0 (sub_le_of (h.la t) (h.ls t))
    · refine mono (m := 3) ?_ (by omega)
      rw [show 3 * D = (D + D) + D by ring]
      exact mul_le_of (mul_le_of (sub_le_of (h.la t) (h.ls t)) (sub_le_of (h.la t) (h.laInv t)))
        (active_degree h)

theorem fold_degree (y : Fr) (m : Nat) : ∀ (l : List Fr[X]) (a : Fr[X]), a.natDegree ≤ m →
    (∀ p ∈ l, p.natDegree ≤ m) → (l.foldl (fun acc v => acc * C y + v) a).natDegree ≤ m := by
  intro l
  induction l with
  | nil => intro a ha _; exact ha
  | cons p l ih =>
    intro a ha hl
    rw [List.foldl_cons]
    apply ih
    · refine add_le_of ?_ (hl p (by simp))
      have := mul_le_of ha (show (C y : Fr[X]).natDegree ≤ 0 by simp)
      simpa using this
    · exact fun q hq => hl q (by simp [hq])

end Verif.Plonk

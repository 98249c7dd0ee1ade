import Verif.Lemmas.PiopExprs
import Verif.Lemmas.PolyLemmas
import Verif.Spec.Piop

/-! The verifier's expressions are the formulas of `PiopExprs`. -/

namespace Verif.Plonk

open Finset Spec

/-- The values read are those of `o`. -/
structure Matches (cs : CS) (inst user : List Fr) (e : Evals) (o : Opened Fr) : Prop where
  advice : e.advice = cs.adviceQueries.map fun q => o.advice q.1 q.2
  fixed : e.fixed = cs.fixedQueries.map fun q => o.fixed q.1 q.2
  inst : inst = cs.instanceQueries.map fun q => o.inst q.1 q.2
  user : user = (List.range cs.numChallenges).map o.user
  sigma : e.sigma = (List.range cs.permutation.length).map o.sigma
  sets : e.sets = (List.range (numSets cs)).map fun t =>
    ⟨o.z t, o.zNext t, if t + 1 < numSets cs then some (o.zLast t) else none⟩
  lookups : e.lookups = (List.range cs.lookups.length).map fun t =>
    ⟨o.lz t, o.lzNext t, o.la t, o.laInv t, o.ls t⟩

theorem degree_ge (cs : CS) : 3 ≤ cs.degree := by
  unfold CS.degree
  omega

theorem partLen_pos (cs : CS) : 0 < partLen cs := by
  have := degree_ge cs
  unfold partLen
  omega

theorem at_idxOf {α β : Type} [BEq α] [LawfulBEq α] (qs : List α) (f : α → β) (q : α) (h : q ∈ qs) :
    at_ (qs.map f) (qs.idxOf q) = .ok (f q) := by
  unfold at_
  have hi := List.idxOf_lt_length_of_mem h
  rw [List.getElem?_map, List.getElem?_eq_getElem hi]
  simp

theorem at_range {β : Type} (n : Nat) (f : Nat → β) (i : Nat) (h : i < n) :
    at_ ((List.range n).map f) i = .ok (f i) := by
  unfold at_
  rw [List.getElem?_map, List.getElem?_range h]
  rfl

variable {cs : CS} {inst user : List Fr} {e : Evals} {o : Opened Fr}

theorem evalExpr_ok (h : Matches cs inst user e o) : ∀ x : Expr, Queried cs x →
    evalExpr cs inst e user x = .ok (o.expr x) := by
  intro x
  induction x with
  | const c => intro _; rfl
  | selector s => intro hq; exact hq.elim
  | fixed c r => intro hq; unfold evalExpr; rw [h.fixed, at_idxOf _ _ _ hq]; rfl
  | advice c r => intro hq; unfold evalExpr; rw [h.advice, at_idxOf _ _ _ hq]; rfl
  | instance_ c r => intro hq; unfold evalExpr; rw [h.inst, at_idxOf _ _ _ hq]; rfl
  | challenge i => intro hq; unfold evalExpr; rw [h.user, at_range _ _ _ hq]; rfl
  | neg a ih => intro hq; unfold evalExpr; rw [ih hq]; rfl
  | sum a b iha ihb => intro hq; unfold evalExpr; rw [iha hq.1, ihb hq.2]; rfl
  | product a b iha ihb => intro hq; unfold evalExpr; rw [iha hq.1, ihb hq.2]; rfl
  | scaled a f ih => intro hq; unfold evalExpr; rw [ih hq]; rfl

theorem columnEval_ok (h : Matches cs inst user e o) : ∀ c : Col, ColQueried cs c →
    columnEval cs inst e c = .ok (o.col c) := by
  intro c hq
  cases c with
  | advice c =>
    have hq : (c, (0 : Int)) ∈ cs.adviceQueries := hq
    unfold columnEval queryIndex; dsimp only; rw [if_pos hq, h.advice]; exact at_idxOf _ _ _ hq
  | fixed c =>
    have hq : (c, (0 : Int)) ∈ cs.fixedQueries := hq
    unfold columnEval queryIndex; dsimp only; rw [if_pos hq, h.fixed]; exact at_idxOf _ _ _ hq
  | instance_ c =>
    have hq : (c, (0 : Int)) ∈ cs.instanceQueries := hq
    unfold columnEval queryIndex; dsimp only; rw [if_pos hq, h.inst]; exact at_idxOf _ _ _ hq

theorem mapM_congr_ok {α β : Type} (f : α → Except Panic β) (g : α → β) (l : List α)
    (h : ∀ x ∈ l, f x = .ok (g x)) : l.mapM f = .ok (l.map g) := by
  induction l with
  | nil => rfl
  | cons a l ih =>
    rw [List.mapM_cons, h a (by simp), ih (fun x hx => h x (by simp [hx]))]
    rfl

theorem mapM_map_ok {α β γ : Type} (k : γ → α) (f : α → Except Panic β) (g : γ → β) (l : List γ)
    (h : ∀ x ∈ l, f (k x) = .ok (g x)) : (l.map k).mapM f = .ok (l.map g) := by
  rw [List.mapM_map]
  exact mapM_congr_ok _ _ _ h

/-- A product by a fold over a slice is a product over an interval. -/
theorem foldl_prod {α : Type} (g : α → Fr) (f : Nat → Fr) : ∀ (l : List α) (s : Nat) (a : Fr),
    (∀ i (hi : i < l.length), g l[i] = f (s + i)) →
    l.foldl (fun acc p => acc * g p) a = a * ∏ i ∈ Ico s (s + l.length), f i := by
  intro l
  induction l with
  | nil => intro s a _; simp
  | cons b l ih =>
    intro s a h
    rw [List.foldl_cons, ih (s + 1) (a * g b) (fun i hi => by
      have := h (i + 1) (by simpa using hi)
      rw [List.getElem_cons_succ] at this
      rw [this]; congr 1; omega)]
    have h0 := h 0 (by simp)
    simp only [List.getElem_cons_zero, Nat.add_zero] at h0
    rw [h0, List.length_cons, mul_assoc]
    congr 1
    rw [show s + (l.length + 1) = s + 1 + l.length by omega]
    rw [Finset.prod_eq_prod_Ico_succ_bot (show s < s + 1 + l.length by omega)]

theorem foldl_right (gamma d0 : Fr) (v : Nat → Fr) : ∀ (l : List Fr) (s : Nat) (a : Fr),
    (∀ i (hi : i < l.length), l[i] = v (s + i)) →
    (l.foldl (fun (acc : Fr × Fr) v => (acc.1 * (v + acc.2 + gamma), acc.2 * deltaFr))
      (a, d0 * deltaFr ^ s)).1 = a * ∏ i ∈ Ico s (s + l.length), (v i + d0 * deltaFr ^ i + gamma) := by
  intro l
  induction l with
  | nil => intro s a _; simp
  | cons b l ih =>
    intro s a h
    rw [List.foldl_cons]
    dsimp only
    rw [mul_assoc d0, ← pow_succ, ih (s + 1) _ (fun i hi => by
      have := h (i + 1) (by simpa using hi)
      rw [List.getElem_cons_succ] at this
      rw [this]; congr 1; omega)]
    have h0 := h 0 (by simp)
    simp only [List.getElem_cons_zero, Nat.add_zero] at h0
    rw [h0, List.length_cons, mul_assoc]
    congr 1
    rw [show s + (l.length + 1) = s + 1 + l.length by omega]
    rw [Finset.prod_eq_prod_Ico_succ_bot (show s < s + 1 + l.length by omega)]

theorem numSets_chunks (cs : CS) {α : Type} (l : List α) (hl : l.length = cs.permutation.length) :
    chunks (partLen cs) l = (List.range (numSets cs)).map fun t =>
      (l.drop (t * partLen cs)).take (partLen cs) := by
  unfold chunks numSets
  rw [hl]

theorem part_lt {cs : CS} {t : Nat} (ht : t < numSets cs) :
    t * partLen cs < cs.permutation.length := by
  have hp := partLen_pos cs
  unfold numSets at ht
  have h1 := Nat.div_mul_le_self (cs.permutation.length + partLen cs - 1) (partLen cs)
  have h2 : (t + 1) * partLen cs ≤ (cs.permutation.length + partLen cs - 1) / partLen cs * partLen cs :=
    Nat.mul_le_mul_right _ ht
  rw [Nat.add_mul, one_mul] at h2
  omega

theorem productExpr_ok (h : Matches cs inst user e o) (hc : Closed cs) (t : Nat)
    (ht : t < numSets cs) (l : Option Fr) :
    (((cs.permutation.drop (t * partLen cs)).take (partLen cs)).mapM (columnEval cs inst e) >>=
      fun vals => (.ok (productExpr (1 - (o.lLast + o.lBlind)) o.beta o.gamma o.x (partLen cs)
        ⟨o.z t, o.zNext t, l⟩ vals ((e.sigma.drop (t * partLen cs)).take (partLen cs)) t)
        : Except Panic Fr)) =
    .ok ((o.zNext t * ∏ i ∈ part cs t, leftOf cs o i - o.z t * ∏ i ∈ part cs t, rightOf cs o i)
      * o.active) := by
  have hlt := part_lt ht
  rw [mapM_congr_ok _ o.col _ (fun c hc' => columnEval_ok h c (hc.permutation c
    (List.mem_of_mem_drop (List.mem_of_mem_take hc'))))]
  show Except.ok _ = _
  congr 1
  unfold productExpr Opened.active
  dsimp only
  have hlen : ((cs.permutation.drop (t * partLen cs)).take (partLen cs)).length =
      min (t * partLen cs + partLen cs) cs.permutation.length - t * partLen cs := by
    rw [List.length_take, List.length_drop]; omega
  have hperm : ∀ i (hi : i < ((cs.permutation.drop (t * partLen cs)).take (partLen cs)).length),
      o.col ((cs.permutation.drop (t * partLen cs)).take (partLen cs))[i]
        = o.perm cs (t * partLen cs + i) := by
    intro i hi
    unfold Opened.perm
    rw [hlen] at hi
    rw [List.getElem_take, List.getElem_drop, List.getElem?_eq_getElem (by omega)]
  have hend : t * partLen cs + ((cs.permutation.drop (t * partLen cs)).take (partLen cs)).length =
      min (t * partLen cs + partLen cs) cs.permutation.length := by rw [hlen]; omega
  congr 2
  · rw [foldl_prod _ (leftOf cs o) _ (t * partLen cs)]
    · congr 2
      unfold part
      rw [List.length_zip, List.length_map, h.sigma]
      congr 1
      rw [hlen, List.length_take, List.length_drop, List.length_map, List.length_range]
      omega
    · intro i hi
      rw [List.length_zip, List.length_map] at hi
      rw [List.getElem_zip]
      dsimp only
      rw [List.getElem_map, hperm i (by omega)]
      unfold leftOf
      congr 3
      simp only [h.sigma, List.getElem_take, List.getElem_drop, List.getElem_map, List.getElem_range]
  · rw [foldl_right _ _ (o.perm cs) _ (t * partLen cs)]
    · rw [List.length_map, hend]
      rfl
    · intro i hi
      rw [List.getElem_map, hperm i (by simpa using hi)]

theorem permExpressions_ok (h : Matches cs inst user e o) (hc : Closed cs) :
    permExpressions cs inst e o.l0 o.lLast o.lBlind o.beta o.gamma o.x = .ok (permOf cs o) := by
  unfold permExpressions
  have hlinks : ((e.sets.drop 1).zip e.sets) = (List.range (numSets cs - 1)).map fun t =>
      ((⟨o.z (t + 1), o.zNext (t + 1), if t + 2 < numSets cs then some (o.zLast (t + 1)) else none⟩ : SetEval),
       (⟨o.z t, o.zNext t, some (o.zLast t)⟩ : SetEval)) := by
    apply List.ext_getElem
    · rw [h.sets]; simp
    · intro i h1 h2
      simp only [List.length_map, List.length_range] at h2
      simp only [h.sets, List.getElem_zip, List.getElem_drop, List.getElem_map, List.getElem_range]
      rw [if_pos (show i + 1 < numSets cs by omega), show 1 + i = i + 1 by omega]
  have hprods : (e.sets.zip ((chunks (partLen cs) cs.permutation).zip (chunks (partLen cs) e.sigma))).zipIdx
      = (List.range (numSets cs)).map fun t =>
        (((⟨o.z t, o.zNext t, if t + 1 < numSets cs then some (o.zLast t) else none⟩ : SetEval),
          (cs.permutation.drop (t * partLen cs)).take (partLen cs),
          (e.sigma.drop (t * partLen cs)).take (partLen cs)), t) := by
    rw [numSets_chunks cs _ rfl, numSets_chunks cs e.sigma (by rw [h.sigma]; simp)]
    apply List.ext_getElem
    · rw [h.sets]; simp
    · intro i h1 h2
      simp [h.sets]
  dsimp only
  rw [show cs.degree - 2 = partLen cs from rfl, hlinks, hprods]
  rw [mapM_map_ok _ _ (fun t => (o.z (t + 1) - o.zLast t) * o.l0) _ (by intro t _; rfl)]
  rw [mapM_map_ok _ _ (fun t => (o.zNext t * ∏ i ∈ part cs t, leftOf cs o i
    - o.z t * ∏ i ∈ part cs t, rightOf cs o i) * o.active) _
    (by intro t ht; exact productExpr_ok h hc t (List.mem_range.1 ht) _)]
  show Except.ok _ = _
  congr 1
  unfold permOf
  congr 2
  rw [h.sets]
  rcases hn : numSets cs with _ | m
  · simp
  · rw [if_neg (by omega), List.range_succ_eq_map, List.map_cons, List.head?_cons]
    rw [← List.map_cons (f := fun t => (⟨o.z t, o.zNext t,
      if t + 1 < m + 1 then some (o.zLast t) else none⟩ : SetEval)), ← List.range_succ_eq_map,
      List.range_succ]
    simp

theorem compress_ok (h : Matches cs inst user e o) (es : List Expr)
    (hq : ∀ x ∈ es, Queried cs x) :
    compress cs inst e user o.theta es = .ok (o.comp es) := by
  unfold compress
  rw [mapM_congr_ok _ o.expr _ (fun x hx => evalExpr_ok h x (hq x hx))]
  rfl

theorem expressions_ok (ch : Challenges) (h : Matches cs inst ch.user e o) (hc : Closed cs)
    (hb : ch.beta = o.beta) (hg : ch.gamma = o.gamma) (ht : ch.theta = o.theta) (hx : ch.x = o.x) :
    expressions cs inst e ch o.l0 o.lLast o.lBlind = .ok (exprsOf cs o) := by
  unfold expressions
  rw [hb, hg, ht, hx, permExpressions_ok h hc]
  rw [mapM_congr_ok _ o.expr _ (fun x hx => by
    obtain ⟨gate, hg, hx⟩ := List.mem_flatten.1 hx
    exact evalExpr_ok h x (hc.gates gate hg x hx))]
  have hz : e.lookups.zip cs.lookups = cs.lookups.zipIdx.map fun p =>
      ((⟨o.lz p.2, o.lzNext p.2, o.la p.2, o.laInv p.2, o.ls p.2⟩ : LookupEval), p.1) := by
    rw [h.lookups]
    apply List.ext_getElem
    · simp
    · intro i h1 h2; simp
  rw [hz, mapM_map_ok _ _ (fun p => lookupOf o p.1 p.2) _ (by
    intro p hp
    have hm : p.1 ∈ cs.lookups := by
      have := List.mem_map_of_mem (f := Prod.fst) hp
      rwa [List.zipIdx_map_fst] at this
    show lookupExpressions _ _ _ _ _ _ _ _ _ _ _ _ = _
    unfold lookupExpressions
    rw [compress_ok h _ (hc.inputs _ hm), compress_ok h _ (hc.tables _ hm)]
    rfl)]
  rfl

end Verif.Plonk

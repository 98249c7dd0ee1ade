import Verif.Model.PlonkProver
import Verif.Lemmas.PiopClaims
import Verif.Lemmas.KeygenLemmas
import Verif.Lemmas.EvaluationLemmas
import Verif.Props.Lookup

/-! The prover's columns, row by row. -/

namespace Verif.PlonkProver

open Finset Spec Plonk

theorem at_columns {m n : Nat} (f : Nat → Nat → Fr) {c : Nat} (hc : c < m) :
    at_ (columnsOf m n f) c = .ok ((List.range n).map (f c)) := at_range m _ c hc

/-- The columns are those of a table. -/
structure ColumnsOf (cols : Columns) (g : Grid) (nf na ni n : Nat) : Prop where
  fixed : cols.fixed = columnsOf nf n g.fixed
  advice : cols.advice = columnsOf na n g.advice
  inst : cols.inst = columnsOf ni n g.instance_

variable {cols : Columns} {g : Grid} {nf na ni nc n : Nat}

theorem evalRow_ok (h : ColumnsOf cols g nf na ni n) (hn : 0 < n) {user : List Fr}
    (hu : user = (List.range nc).map g.challenge) (idx : Nat) (e : Expr)
    (hm : Mentions nf na ni nc e) : evalRow cols user n idx e = .ok (e.eval n g idx) := by
  induction e with
  | const c => rfl
  | selector s => exact hm.elim
  | fixed c r =>
    show (at_ cols.fixed c >>= fun col => at_ col (rotationIdx idx r n)) = _
    rw [h.fixed, at_columns _ hm, ok_bind, at_range _ _ _ (Graph.rotationIdx_lt idx r hn)]; rfl
  | advice c r =>
    show (at_ cols.advice c >>= fun col => at_ col (rotationIdx idx r n)) = _
    rw [h.advice, at_columns _ hm, ok_bind, at_range _ _ _ (Graph.rotationIdx_lt idx r hn)]; rfl
  | instance_ c r =>
    show (at_ cols.inst c >>= fun col => at_ col (rotationIdx idx r n)) = _
    rw [h.inst, at_columns _ hm, ok_bind, at_range _ _ _ (Graph.rotationIdx_lt idx r hn)]; rfl
  | challenge i => unfold evalRow; rw [hu, at_range _ _ _ hm]; rfl
  | neg a ih => unfold evalRow; rw [ih hm]; rfl
  | sum a b iha ihb => unfold evalRow; rw [iha hm.1, ihb hm.2]; rfl
  | product a b iha ihb => unfold evalRow; rw [iha hm.1, ihb hm.2]; rfl
  | scaled a f ih => unfold evalRow; rw [ih hm]; rfl

theorem compressRows_ok (h : ColumnsOf cols g nf na ni n) (hn : 0 < n) {user : List Fr}
    (hu : user = (List.range nc).map g.challenge) (theta : Fr) (es : List Expr)
    (hm : ∀ e ∈ es, Mentions nf na ni nc e) : compressRows cols user n theta es =
      .ok ((List.range n).map fun r => horner theta 0 (es.map fun e => e.eval n g r)) := by
  unfold compressRows
  apply mapM_congr_ok
  intro r _
  rw [mapM_congr_ok _ (fun e => e.eval n g r) es fun e he => evalRow_ok h hn hu r e (hm e he)]
  rfl

theorem running_eq : ∀ (l : List Fr) (s : Fr),
    running s l = (List.range (l.length + 1)).map fun i => s * (l.take i).prod := by
  intro l
  induction l with
  | nil => intro s; simp [running]
  | cons a l ih =>
    intro s
    rw [running, ih, List.length_cons, List.range_succ_eq_map (n := l.length + 1), List.map_cons, List.map_map]
    simp only [List.take_zero, List.prod_nil, mul_one, List.cons.injEq, true_and]
    apply List.map_congr_left
    intro i _
    simp [mul_assoc]

theorem prod_take (m i : Nat) (hi : i ≤ m) (f : Nat → Fr) :
    (((List.range m).map f).take i).prod = ∏ j ∈ range i, f j := by
  rw [← List.map_take, List.take_range, Nat.min_eq_left hi]
  rfl

theorem running_range (m : Nat) (f : Nat → Fr) (s : Fr) :
    running s ((List.range m).map f) = (List.range (m + 1)).map fun i => s * ∏ j ∈ range i, f j := by
  rw [running_eq, List.length_map, List.length_range]
  apply List.map_congr_left
  intro i hi
  rw [List.mem_range] at hi
  rw [prod_take _ _ (by omega)]

/-- The slices of a list of columns. -/
theorem slice_range (m a b : Nat) : ((List.range m).drop a).take b = List.range' a (min b (m - a)) := by
  rw [List.range_eq_range']
  apply List.ext_getElem
  · simp
  · intro i h1 h2
    simp

theorem denominators_eq (beta gamma : Fr) (V S : Nat → Nat → Fr) : ∀ (m s : Nat) (acc : Nat → Fr),
    denominators beta gamma ((List.range' s m).map fun i => ((List.range n).map (V i), (List.range n).map (S i)))
      ((List.range n).map acc) =
    (List.range n).map fun r => acc r * ∏ i ∈ Ico s (s + m), (V i r + beta * S i r + gamma) := by
  intro m
  induction m with
  | zero => intro s acc; simp [denominators]
  | succ m ih =>
    intro s acc
    have h := ih (s + 1) (fun r => acc r * (V s r + beta * S s r + gamma))
    unfold denominators at h ⊢
    rw [List.range'_succ, List.map_cons, List.foldl_cons]
    dsimp only
    rw [List.zip_map', List.zip_map', List.map_map]
    have e : (List.range n).map ((fun p : Fr × Fr × Fr => p.1 * (beta * p.2.2 + gamma + p.2.1)) ∘
        fun r => (acc r, V s r, S s r)) = (List.range n).map fun r => acc r * (V s r + beta * S s r + gamma) := by
      apply List.map_congr_left
      intro r _
      simp only [Function.comp]
      ring
    rw [e, h]
    apply List.map_congr_left
    intro r _
    rw [mul_assoc, show s + (m + 1) = s + 1 + m by omega,
      Finset.prod_eq_prod_Ico_succ_bot (show s < s + 1 + m by omega)]

theorem numerators_eq (omega beta gamma : Fr) (V : Nat → Nat → Fr) : ∀ (m s : Nat) (acc : Nat → Fr),
    numerators omega beta gamma ((List.range' s m).map fun i => (List.range n).map (V i)) (deltaFr ^ s)
      ((List.range n).map acc) =
    ((List.range n).map fun r => acc r *
      ∏ i ∈ Ico s (s + m), (V i r + beta * omega ^ r * deltaFr ^ i + gamma), deltaFr ^ (s + m)) := by
  intro m
  induction m with
  | zero => intro s acc; simp [numerators]
  | succ m ih =>
    intro s acc
    rw [List.range'_succ, List.map_cons, numerators, List.length_map, List.length_range, Keygen.geometric_eq,
      List.zip_map', List.zip_map', List.map_map]
    have e : (List.range n).map ((fun p : Fr × Fr × Fr => p.1 * (p.2.2 * beta + gamma + p.2.1)) ∘
        fun r => (acc r, V s r, deltaFr ^ s * omega ^ r)) =
        (List.range n).map fun r => acc r * (V s r + beta * omega ^ r * deltaFr ^ s + gamma) := by
      apply List.map_congr_left
      intro r _
      simp only [Function.comp]
      ring
    rw [e, ← pow_succ, ih (s + 1)]
    congr 1
    · apply List.map_congr_left
      intro r _
      rw [mul_assoc, show s + (m + 1) = s + 1 + m by omega,
        Finset.prod_eq_prod_Ico_succ_bot (show s < s + 1 + m by omega)]
    · congr 1; omega

/-- The factor between two rows of a part. -/
def ratio (cs : CS) (omega beta gamma : Fr) (V S : Nat → Nat → Fr) (t r : Nat) : Fr :=
  (∏ i ∈ part cs t, (V i r + beta * S i r + gamma))⁻¹ *
    ∏ i ∈ part cs t, (V i r + beta * omega ^ r * deltaFr ^ i + gamma)

/-- The first value of each running product. -/
def startAt (u : Nat) (q : Nat → Nat → Fr) : Nat → Fr
  | 0 => 1
  | t + 1 => startAt u q t * ∏ r ∈ range u, q t r

/-- The running products: `q` are the factors. -/
def zAt (n bf : Nat) (start : Fr) (q : Nat → Fr) (blind : List Fr) (r : Nat) : Fr :=
  if r < n - bf then start * ∏ i ∈ range r, q i else blind.getD (r - (n - bf)) 0

theorem zAt_list {bf : Nat} (hbf : bf < n) (start : Fr) (q : Nat → Fr) (blind : List Fr)
    (hb : blind.length = bf) (m : Nat) (hm : n - bf ≤ m + 1) :
    (running start ((List.range m).map q)).take (n - bf) ++ blind =
      (List.range n).map (zAt n bf start q blind) := by
  rw [running_range, ← List.map_take, List.take_range, Nat.min_eq_left hm]
  apply List.ext_getElem
  · simp [hb]; omega
  · intro i h1 h2
    simp only [List.length_map, List.length_range] at h2
    rw [List.getElem_map, List.getElem_range, List.getElem_append]
    unfold zAt
    split
    · next h =>
      simp only [List.length_map, List.length_range] at h
      rw [if_pos h]
      simp
    · next h =>
      simp only [List.length_map, List.length_range] at h
      rw [if_neg h]
      simp only [List.length_map, List.length_range]
      rw [List.getD_eq_getElem?_getD, List.getElem?_eq_getElem (by omega), Option.getD_some]

theorem valuesOf_ok (h : ColumnsOf cols g nf na ni n) (c : Col)
    (hc : match c with | .advice c => c < na | .fixed c => c < nf | .instance_ c => c < ni) :
    valuesOf cols c = .ok ((List.range n).map fun r => g.cell (c, r)) := by
  cases c with
  | advice c => show at_ cols.advice c = _; rw [h.advice, at_columns _ hc]; rfl
  | fixed c => show at_ cols.fixed c = _; rw [h.fixed, at_columns _ hc]; rfl
  | instance_ c => show at_ cols.inst c = _; rw [h.inst, at_columns _ hc]; rfl

/-- The value in a column of the permutation. -/
def permAt (cs : CS) (g : Grid) (i r : Nat) : Fr :=
  match cs.permutation[i]? with
  | some c => g.cell (c, r)
  | none => 0

/-- The columns of a constraint system, by numbers. -/
structure HasColumns (cs : CS) (nf na ni : Nat) : Prop where
  columns : ∀ c ∈ cs.permutation, match c with
    | .advice c => c < na | .fixed c => c < nf | .instance_ c => c < ni

theorem values_part (h : ColumnsOf cols g nf na ni n) (cs : CS) (hcs : HasColumns cs nf na ni) (s m : Nat)
    (hm : s + m ≤ cs.permutation.length) :
    ((cs.permutation.drop s).take m).mapM (valuesOf cols) =
      .ok ((List.range' s m).map fun i => (List.range n).map (permAt cs g i)) := by
  rw [mapM_congr_ok _ (fun c => (List.range n).map fun r => g.cell (c, r)) _ (fun c hc =>
    valuesOf_ok h c (hcs.columns c (List.mem_of_mem_drop (List.mem_of_mem_take hc))))]
  congr 1
  apply List.ext_getElem
  · simp; omega
  · intro i h1 h2
    simp only [List.length_map, List.length_range'] at h2
    simp only [List.getElem_map, List.getElem_take, List.getElem_drop, List.getElem_range']
    apply List.map_congr_left
    intro r _
    unfold permAt
    rw [List.getElem?_eq_getElem (by omega)]
    simp

theorem part_eq (cs : CS) {t : Nat} (ht : t < numSets cs) :
    part cs t = Ico (t * partLen cs)
      (t * partLen cs + min (partLen cs) (cs.permutation.length - t * partLen cs)) := by
  have := part_lt ht
  unfold part
  congr 1
  omega

theorem slice_perm {α : Type} (l : List α) (a b : Nat) (hb : b = min c (l.length - a)) :
    (l.drop a).take c = (l.drop a).take b := by
  subst hb
  apply List.ext_getElem
  · simp
  · intro i h1 h2
    simp

/-- The running products of the permutation argument. -/
theorem permutationProducts_ok (pk : ProvingKey) (h : ColumnsOf cols g nf na ni n)
    (hcs : HasColumns pk.cs nf na ni) (S : Nat → Nat → Fr)
    (hS : pk.sigmaValues = columnsOf pk.cs.permutation.length n S) (beta gamma : Fr)
    (blinds : List (List Fr)) (hbl : blinds.length = numSets pk.cs)
    (hb : ∀ b ∈ blinds, b.length = pk.cs.blindingFactors) (hbf : pk.cs.blindingFactors + 1 ≤ n) :
    permutationProducts pk n cols beta gamma blinds =
      .ok ((List.range (numSets pk.cs)).map fun t => (List.range n).map
        (zAt n pk.cs.blindingFactors
          (startAt (n - (pk.cs.blindingFactors + 1))
            (ratio pk.cs pk.domain.omega beta gamma (permAt pk.cs g) S) t)
          (ratio pk.cs pk.domain.omega beta gamma (permAt pk.cs g) S t) (blinds.getD t []))) := by
  have hSl : pk.sigmaValues.length = pk.cs.permutation.length := by rw [hS]; simp [columnsOf]
  unfold permutationProducts
  dsimp only
  have e : pk.cs.degree - 2 = partLen pk.cs := rfl
  rw [e, numSets_chunks pk.cs _ rfl, numSets_chunks pk.cs _ hSl, List.zip_map']
  generalize hq : ratio pk.cs pk.domain.omega beta gamma (permAt pk.cs g) S = q
  generalize hu : n - (pk.cs.blindingFactors + 1) = u
  have key : ∀ (m t : Nat) (bs : List (List Fr)), t + m = numSets pk.cs → bs = blinds.drop t →
      ∀ delta, (0 < m → delta = deltaFr ^ (t * partLen pk.cs)) →
      productSets pk.domain.omega beta gamma n pk.cs.blindingFactors cols
        ((List.range' t m).map fun i => ((pk.cs.permutation.drop (i * partLen pk.cs)).take (partLen pk.cs),
          (pk.sigmaValues.drop (i * partLen pk.cs)).take (partLen pk.cs))) bs delta (startAt u q t) =
      .ok ((List.range' t m).map fun t => (List.range n).map
        (zAt n pk.cs.blindingFactors (startAt u q t) (q t) (blinds.getD t []))) := by
    intro m
    induction m with
    | zero => intro t bs _ _ delta _; simp [productSets]
    | succ m ih =>
      intro t bs htm hbs delta hdel
      have hlt := part_lt (cs := pk.cs) (t := t) (by omega)
      obtain ⟨b, bs', hbb⟩ : ∃ b bs', bs = b :: bs' := by
        cases bs with
        | nil =>
          have := congrArg List.length hbs
          rw [List.length_drop, List.length_nil] at this
          omega
        | cons b bs' => exact ⟨b, bs', rfl⟩
      have hbt : blinds.getD t [] = b := by
        have := congrArg (fun l => l[0]?) (hbs.symm.trans hbb)
        simp only [List.getElem?_drop, Nat.add_zero, List.getElem?_cons_zero] at this
        rw [List.getD_eq_getElem?_getD, this]
        rfl
      have hbs' : bs' = blinds.drop (t + 1) := by
        have := congrArg List.tail (hbs.symm.trans hbb)
        rw [List.tail_drop] at this
        exact this.symm
      have hbl' : b.length = pk.cs.blindingFactors := by
        apply hb
        rw [← hbt, List.getD_eq_getElem?_getD, List.getElem?_eq_getElem (by omega), Option.getD_some]
        exact List.getElem_mem _
      rw [List.range'_succ, List.map_cons, List.map_cons, hbb, productSets]
      have hw : partLen pk.cs = partLen pk.cs := rfl
      generalize hmm : min (partLen pk.cs) (pk.cs.permutation.length - t * partLen pk.cs) = mm
      have hp1 : (pk.cs.permutation.drop (t * partLen pk.cs)).take (partLen pk.cs) =
          (pk.cs.permutation.drop (t * partLen pk.cs)).take mm := slice_perm _ _ _ hmm.symm
      have hp2 : (pk.sigmaValues.drop (t * partLen pk.cs)).take (partLen pk.cs) =
          (List.range' (t * partLen pk.cs) mm).map fun i => (List.range n).map (S i) := by
        rw [hS]
        unfold columnsOf
        rw [← List.map_drop, ← List.map_take, slice_range, hmm]
      rw [hp1, values_part h pk.cs hcs _ _ (by omega), ok_bind, hp2]
      dsimp only
      rw [List.zip_map']
      have hone : List.replicate n (1 : Fr) = (List.range n).map fun _ => 1 := by simp
      rw [hone, denominators_eq, List.map_map, hdel (by omega)]
      have hinv : (List.range n).map ((fun v : Fr => v⁻¹) ∘ fun r => 1 *
          ∏ i ∈ Ico (t * partLen pk.cs) (t * partLen pk.cs + mm), (permAt pk.cs g i r + beta * S i r + gamma)) =
          (List.range n).map fun r => (∏ i ∈ part pk.cs t, (permAt pk.cs g i r + beta * S i r + gamma))⁻¹ := by
        apply List.map_congr_left
        intro r _
        simp only [Function.comp, one_mul]
        rw [part_eq pk.cs (show t < numSets pk.cs by omega), hmm]
      rw [hinv, numerators_eq]
      dsimp only
      have hmod : (List.range n).map (fun r => (∏ i ∈ part pk.cs t, (permAt pk.cs g i r + beta * S i r + gamma))⁻¹ *
          ∏ i ∈ Ico (t * partLen pk.cs) (t * partLen pk.cs + mm),
            (permAt pk.cs g i r + beta * pk.domain.omega ^ r * deltaFr ^ i + gamma)) =
          (List.range n).map (q t) := by
        apply List.map_congr_left
        intro r _
        rw [← hq]
        unfold ratio
        rw [part_eq pk.cs (show t < numSets pk.cs by omega), hmm]
      rw [hmod, ← List.map_take, List.take_range, Nat.min_eq_left (show n - 1 ≤ n by omega),
        zAt_list (by omega) _ _ _ hbl' _ (by omega), hu, at_range _ _ _ (by omega), ok_bind]
      have hz : zAt n pk.cs.blindingFactors (startAt u q t) (q t) b u = startAt u q (t + 1) := by
        unfold zAt
        rw [if_pos (by omega)]
        rfl
      rw [hz, ih (t + 1) bs' (by omega) hbs' _ (fun hm => ?_), ok_bind, hbt]
      · rfl
      · have := part_lt (cs := pk.cs) (t := t + 1) (by omega)
        congr 1
        rw [Nat.add_mul, one_mul] at this ⊢
        omega
  have := key (numSets pk.cs) 0 blinds (by omega) (by simp) 1 (by intro; simp)
  rw [← List.range_eq_range'] at this
  exact this

/-- The running product of a lookup. -/
theorem lookupProduct_ok {bf : Nat} (hbf : bf + 1 ≤ n) (A T a s : Nat → Fr) (beta gamma : Fr) (blind : List Fr)
    (hb : blind.length = bf) :
    lookupProduct n bf ⟨(List.range n).map A, (List.range n).map T, (List.range n).map a, (List.range n).map s⟩
      beta gamma blind =
    .ok ((List.range n).map (zAt n bf 1 (fun r => ((a r + beta) * (s r + gamma))⁻¹ *
      ((A r + beta) * (T r + gamma))) blind)) := by
  unfold lookupProduct
  dsimp only
  rw [List.zip_map', List.map_map, List.zip_map', List.zip_map', List.map_map]
  have e : (List.range n).map ((fun q : Fr × Fr × Fr => q.1 * (q.2.1 + beta) * (q.2.2 + gamma)) ∘
      fun r => (((fun q : Fr × Fr => ((beta + q.1) * (gamma + q.2))⁻¹) ∘ fun r => (a r, s r)) r, A r, T r)) =
      (List.range n).map fun r => ((a r + beta) * (s r + gamma))⁻¹ * ((A r + beta) * (T r + gamma)) := by
    apply List.map_congr_left
    intro r _
    simp only [Function.comp]
    rw [add_comm beta, add_comm gamma, mul_assoc]
  rw [e, zAt_list (by omega) _ _ _ hb _ (by omega), if_pos (by simp)]

end Verif.PlonkProver

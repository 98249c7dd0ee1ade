import Verif.Lemmas.ProverVanish
import Verif.Props.Evaluation

/-! What `evaluate_h` computes in one part of the extended domain. -/

namespace Verif.PlonkProver

open Finset Spec Plonk

/-- The columns of a part, in terms of the values of the verifier's expressions in each row. -/
structure PartOf (c : Cosets) (gp : Grid) (cs : CS) (n nf na ni nc : Nat) (o : Nat → Opened Fr)
    (theta beta gamma : Fr) : Prop where
  l0 : c.l0 = (List.range n).map fun r => (o r).l0
  lLast : c.lLast = (List.range n).map fun r => (o r).lLast
  lActive : c.lActive = (List.range n).map fun r => (o r).active
  cols : ColumnsOf c.cols gp nf na ni n
  sets : c.sets = columnsOf (numSets cs) n fun t r => (o r).z t
  sigma : c.sigma = columnsOf cs.permutation.length n fun i r => (o r).sigma i
  zNext : ∀ t, ∀ r < n, (o r).zNext t = (o (rotationIdx r 1 n)).z t
  zLast : ∀ t, ∀ r < n, (o r).zLast t = (o (rotationIdx r (-((cs.blindingFactors + 1 : Nat) : Int)) n)).z t
  lzNext : ∀ t, ∀ r < n, (o r).lzNext t = (o (rotationIdx r 1 n)).lz t
  laInv : ∀ t, ∀ r < n, (o r).laInv t = (o (rotationIdx r (-1) n)).la t
  expr : ∀ e, Mentions nf na ni nc e → ∀ r < n, e.eval n gp r = (o r).expr e
  perm : ∀ i, ∀ r < n, permAt cs gp i r = (o r).perm cs i
  theta : ∀ r, (o r).theta = theta
  beta : ∀ r, (o r).beta = beta
  gamma : ∀ r, (o r).gamma = gamma

variable {c : Cosets} {gp : Grid} {cs : CS} {n nf na ni nc : Nat} {o : Nat → Opened Fr} {theta beta gamma y : Fr}

theorem foldTerms_ok {α : Type} (y : Fr) (term : α → Except Panic Fr) (f : α → Fr) :
    ∀ (l : List α) (value : Fr), (∀ a ∈ l, term a = .ok (f a)) →
      foldTerms y term l value = .ok (horner y value (l.map f)) := by
  intro l
  induction l with
  | nil => intro value _; rfl
  | cons a l ih =>
    intro value h
    rw [foldTerms, h a (by simp), ok_bind, ih _ fun b hb => h b (by simp [hb])]
    rfl

theorem right_fold (gamma d0 : Fr) (v : Nat → Fr) (m s : Nat) (a : Fr) :
    ((List.range' s m).map v).foldl (fun (acc : Fr × Fr) v => (acc.1 * (v + acc.2 + gamma), acc.2 * deltaFr))
      (a, d0 * deltaFr ^ s) =
    (a * ∏ i ∈ Ico s (s + m), (v i + d0 * deltaFr ^ i + gamma), d0 * deltaFr ^ (s + m)) := by
  apply Prod.ext
  · rw [foldl_right gamma d0 v _ s a (by intro i hi; simp), List.length_map, List.length_range']
  · dsimp only
    induction m generalizing s a with
    | zero => simp
    | succ m ih =>
      rw [List.range'_succ, List.map_cons, List.foldl_cons]
      dsimp only
      rw [mul_assoc d0, ← pow_succ, ih]
      congr 2
      omega

theorem left_fold (beta gamma : Fr) (v s : Nat → Fr) (m t : Nat) (a : Fr) :
    (((List.range' t m).map v).zip ((List.range' t m).map s)).foldl
      (fun (acc : Fr) p => acc * (p.1 + beta * p.2 + gamma)) a =
    a * ∏ i ∈ Ico t (t + m), (v i + beta * s i + gamma) := by
  rw [List.zip_map', foldl_prod (fun p : Fr × Fr => p.1 + beta * p.2 + gamma)
    (fun i => v i + beta * s i + gamma) _ t a (by intro i hi; simp), List.length_map, List.length_range']

theorem foldSets_ok (h : PartOf c gp cs n nf na ni nc o theta beta gamma) (hcs : HasColumns cs nf na ni)
    (hn : 0 < n) (idx : Nat) (hidx : idx < n) (d0 : Fr) (hd0 : d0 = beta * (o idx).x) :
    ∀ (m t : Nat), t + m = numSets cs → ∀ (delta value : Fr), (0 < m → delta = d0 * deltaFr ^ (t * partLen cs)) →
    foldSets y beta gamma c.cols c.lActive idx (rotationIdx idx 1 n)
      ((List.range' t m).map fun t => ((cs.permutation.drop (t * partLen cs)).take (partLen cs),
        (List.range n).map (fun r => (o r).z t), (c.sigma.drop (t * partLen cs)).take (partLen cs))) delta value =
    .ok (horner y value ((List.range' t m).map fun t =>
      ((o idx).zNext t * ∏ i ∈ part cs t, leftOf cs (o idx) i - (o idx).z t * ∏ i ∈ part cs t, rightOf cs (o idx) i)
        * (o idx).active)) := by
  intro m
  induction m with
  | zero => intro t _ delta value _; rfl
  | succ m ih =>
    intro t ht delta value hdel
    have hlt := part_lt (cs := cs) (t := t) (by omega)
    generalize hmm : min (partLen cs) (cs.permutation.length - t * partLen cs) = mm
    have hp1 : (cs.permutation.drop (t * partLen cs)).take (partLen cs) =
        (cs.permutation.drop (t * partLen cs)).take mm := slice_perm _ _ _ hmm.symm
    have hp2 : (c.sigma.drop (t * partLen cs)).take (partLen cs) =
        (List.range' (t * partLen cs) mm).map fun i => (List.range n).map fun r => (o r).sigma i := by
      rw [h.sigma]
      unfold columnsOf
      rw [← List.map_drop, ← List.map_take, slice_range, hmm]
    rw [List.range'_succ, List.map_cons, List.map_cons, foldSets, hp1, values_part h.cols cs hcs _ _ (by omega),
      ok_bind, mapM_map_ok _ _ (fun i => permAt cs gp i idx) _ (by
        intro i _; exact at_range _ _ _ hidx), ok_bind, hp2,
      mapM_map_ok _ _ (fun i => (o idx).sigma i) _ (by intro i _; exact at_range _ _ _ hidx), ok_bind,
      at_range _ _ _ (Graph.rotationIdx_lt idx 1 hn), ok_bind]
    dsimp only
    rw [at_range _ _ _ hidx, ok_bind, h.lActive, at_range _ _ _ hidx, ok_bind, left_fold, hdel (by omega), right_fold,
      ← h.lActive]
    dsimp only
    rw [ih (t + 1) (by omega) _ _ (fun hm => ?_)]
    · show _ = Except.ok (horner y (value * y + _) _)
      congr 3
      have e1 : ∀ i, leftOf cs (o idx) i = permAt cs gp i idx + beta * (o idx).sigma i + gamma := by
        intro i
        unfold leftOf
        rw [h.perm i idx hidx, h.beta, h.gamma]
      have e2 : ∀ i, rightOf cs (o idx) i = permAt cs gp i idx + d0 * deltaFr ^ i + gamma := by
        intro i
        unfold rightOf
        rw [h.perm i idx hidx, h.beta, h.gamma, hd0]
        rfl
      rw [h.zNext t idx hidx, part_eq cs (show t < numSets cs by omega), hmm, prod_congr rfl fun i _ => e1 i,
        prod_congr rfl fun i _ => e2 i]
    · have := part_lt (cs := cs) (t := t + 1) (by omega)
      congr 2
      rw [Nat.add_mul, one_mul] at this ⊢
      omega

theorem permutationValue_ok (h : PartOf c gp cs n nf na ni nc o theta beta gamma) (hcs : HasColumns cs nf na ni)
    (hn : 0 < n) (idx : Nat) (hidx : idx < n) (point : Fr) (hx : (o idx).x = zetaFr * point) (value : Fr) :
    permutationValue cs n c y beta gamma point idx value = .ok (horner y value (permOf cs (o idx))) := by
  have hlen : c.sets.length = numSets cs := by rw [h.sets]; simp [columnsOf]
  unfold permutationValue
  rcases Nat.eq_zero_or_pos (numSets cs) with h0 | hpos
  · rw [if_pos (List.length_eq_zero_iff.1 (by rw [hlen, h0]))]
    unfold permOf
    rw [h0]
    rfl
  · rw [if_neg (by intro hc; rw [hc] at hlen; simp at hlen; omega)]
    dsimp only
    rw [hlen, h.l0, at_range _ _ _ hidx, ok_bind, h.sets, at_columns _ hpos, ok_bind, at_range _ _ _ hidx, ok_bind,
      at_columns _ (show numSets cs - 1 < numSets cs by omega), ok_bind, at_range _ _ _ hidx, ok_bind, h.lLast,
      at_range _ _ _ hidx, ok_bind]
    have hz : ((columnsOf (numSets cs) n fun t r => (o r).z t).drop 1).zip
        (columnsOf (numSets cs) n fun t r => (o r).z t) =
        (List.range (numSets cs - 1)).map fun t =>
          ((List.range n).map (fun r => (o r).z (t + 1)), (List.range n).map fun r => (o r).z t) := by
      unfold columnsOf
      apply List.ext_getElem
      · simp
      · intro i h1 h2
        simp
    rw [hz, foldTerms_ok y _ (fun p : List Fr × List Fr =>
      (p.1.getD idx 0 - p.2.getD (rotationIdx idx (-((cs.blindingFactors + 1 : Nat) : Int)) n) 0) * (o idx).l0), ok_bind]
    · have hch : (chunks (partLen cs) cs.permutation).zip ((columnsOf (numSets cs) n fun t r => (o r).z t).zip
          (chunks (partLen cs) c.sigma)) = (List.range (numSets cs)).map fun t =>
          ((cs.permutation.drop (t * partLen cs)).take (partLen cs),
            (List.range n).map (fun r => (o r).z t), (c.sigma.drop (t * partLen cs)).take (partLen cs)) := by
        rw [numSets_chunks cs _ rfl, numSets_chunks cs c.sigma (by rw [h.sigma]; simp [columnsOf])]
        unfold columnsOf
        rw [List.zip_map', List.zip_map']
      have hfs := foldSets_ok (y := y) h hcs hn idx hidx _ rfl (numSets cs) 0 (by omega) (beta * zetaFr * point)
      rw [← List.range_eq_range'] at hfs
      rw [show cs.degree - 2 = partLen cs from rfl, hch, hfs]
      · unfold permOf
        rw [if_neg (by omega)]
        unfold horner
        rw [List.foldl_append, List.foldl_append, List.foldl_cons, List.foldl_cons, List.foldl_nil, List.map_map]
        congr 2
        congr 1
        · rw [mul_comm (o idx).l0]
          ring
        · apply List.map_congr_left
          intro t ht
          simp only [Function.comp]
          rw [getD_map_range _ _ _ hidx, getD_map_range _ _ _ (Graph.rotationIdx_lt idx _ hn), h.zLast t idx hidx]
      · intro _
        rw [hx]
        simp [mul_assoc]
    · intro p hp
      obtain ⟨t, ht, rfl⟩ := List.mem_map.1 hp
      rw [at_ok (by simpa using hidx) 0, ok_bind, at_ok (by simpa using Graph.rotationIdx_lt idx _ hn) 0, ok_bind]
      rfl

theorem lookupValue_ok (h : PartOf c gp cs n nf na ni nc o theta beta gamma) (hn : 0 < n) (idx : Nat)
    (hidx : idx < n) (l : Lookup) (t : Nat) (tv value : Fr)
    (htv : tv = ((o idx).comp l.input + beta) * ((o idx).comp l.table + gamma)) :
    lookupValue n c ((List.range n).map fun r => (o r).lz t) ((List.range n).map fun r => (o r).la t)
      ((List.range n).map fun r => (o r).ls t) y beta gamma idx tv value =
    .ok (horner y value (lookupOf (o idx) l t)) := by
  unfold lookupValue
  dsimp only
  rw [at_range _ _ _ hidx, ok_bind, at_range _ _ _ hidx, ok_bind, at_range _ _ _ hidx, ok_bind, h.l0,
    at_range _ _ _ hidx, ok_bind, h.lActive, at_range _ _ _ hidx, ok_bind, h.lLast, at_range _ _ _ hidx, ok_bind,
    at_range _ _ _ (Graph.rotationIdx_lt idx 1 hn), ok_bind, at_range _ _ _ (Graph.rotationIdx_lt idx (-1) hn), ok_bind]
  unfold lookupOf horner
  simp only [List.foldl_cons, List.foldl_nil]
  rw [h.lzNext t idx hidx, h.laInv t idx hidx, h.beta, h.gamma, htv]
  show Except.ok _ = Except.ok _
  congr 1
  ring

/-- The graph computes the compressed values of a lookup. -/
def Evaluates (x : GraphInput) (n : Nat) (o : Nat → Opened Fr) (l : Lookup) (g : Graph) : Prop :=
  ∀ idx < n, ∀ data : List Fr, data.length = g.numIntermediates → ∃ data', data'.length = data.length ∧
    g.evaluate data { x with previous := 0 } idx n =
      .ok (((o idx).comp l.input + x.beta) * ((o idx).comp l.table + x.gamma), data')

theorem foldLookups_ok (x : GraphInput) (h : PartOf c gp cs n nf na ni nc o theta x.beta x.gamma) (hn : 0 < n)
    (idx : Nat) (hidx : idx < n) :
    ∀ (ls : List Lookup) (gs : List Graph) (t : Nat) (datas : List (List Fr)) (value : Fr),
    List.Forall₂ (Evaluates x n o) ls gs → List.Forall₂ (fun (d : List Fr) g => d.length = g.numIntermediates) datas gs →
    ∃ datas', List.Forall₂ (fun (d : List Fr) g => d.length = g.numIntermediates) datas' gs ∧
      foldLookups n c x idx (((ls.zipIdx t).zip gs).map fun p => (p.2, (List.range n).map (fun r => (o r).lz p.1.2),
        (List.range n).map (fun r => (o r).la p.1.2), (List.range n).map (fun r => (o r).ls p.1.2))) datas value =
      .ok (horner x.y value ((ls.zipIdx t).map fun p => lookupOf (o idx) p.1 p.2).flatten, datas') := by
  intro ls
  induction ls with
  | nil =>
    intro gs t datas value h1 h2
    cases h1
    cases h2
    exact ⟨[], .nil, rfl⟩
  | cons l ls ih =>
    intro gs t datas value h1 h2
    cases h1 with
    | cons h1 h1s =>
    cases h2 with
    | cons h2 h2s =>
    obtain ⟨data', e1, e2⟩ := h1 idx hidx _ h2
    obtain ⟨datas', e3, e4⟩ := ih _ (t + 1) _ (horner x.y value (lookupOf (o idx) l t)) h1s h2s
    refine ⟨data' :: datas', .cons (e1.trans h2) e3, ?_⟩
    rw [List.zipIdx_cons, List.zip_cons_cons, List.map_cons, foldLookups, e2, ok_bind]
    dsimp only
    rw [lookupValue_ok h hn idx hidx l t _ _ rfl, ok_bind, e4, ok_bind]
    dsimp only
    rw [List.map_cons, List.flatten_cons]
    unfold horner
    rw [List.foldl_append]
    rfl

theorem comp_eq (h : PartOf c gp cs n nf na ni nc o theta beta gamma) (es : List Expr)
    (hm : ∀ e ∈ es, Mentions nf na ni nc e) (idx : Nat) (hidx : idx < n) :
    horner theta 0 (es.map fun e => e.eval n gp idx) = (o idx).comp es := by
  unfold Opened.comp horner
  rw [h.theta]
  congr 1
  apply List.map_congr_left
  intro e he
  exact h.expr e (hm e he) idx hidx

/-- Lookups and their graphs. -/
theorem graphs_ok (h : PartOf c gp cs n nf na ni nc o theta beta gamma) (hn : 0 < n) (x : GraphInput)
    (hx : x = ⟨columnsOf nf n gp.fixed, columnsOf na n gp.advice, columnsOf ni n gp.instance_,
      (List.range nc).map gp.challenge, beta, gamma, theta, y, 0⟩) : ∀ (ls : List Lookup),
    (∀ l ∈ ls, (∀ e ∈ l.input, Mentions nf na ni nc e) ∧ ∀ e ∈ l.table, Mentions nf na ni nc e) →
    ∃ gs, ls.mapM Graph.ofLookup = .ok gs ∧ List.Forall₂ (Evaluates x n o) ls gs := by
  intro ls
  induction ls with
  | nil => intro _; exact ⟨[], rfl, .nil⟩
  | cons l ls ih =>
    intro hm
    obtain ⟨gs, h1, h2⟩ := ih fun l' hl' => hm l' (by simp [hl'])
    have hml := hm l (by simp)
    obtain ⟨G, hG, he⟩ := Props.C35_lookup l nf na ni nc n hn hml.1 hml.2
    refine ⟨G :: gs, by rw [List.mapM_cons, hG, ok_bind, h1, ok_bind]; rfl, .cons ?_ h2⟩
    intro idx hidx data hd
    obtain ⟨data', hl, hev⟩ := he gp beta gamma theta y 0 idx data hd
    refine ⟨data', hl, ?_⟩
    subst hx
    rw [comp_eq h _ hml.1 idx hidx, comp_eq h _ hml.2 idx hidx] at hev
    exact hev

/-- One part. -/
theorem partRows_ok (h : PartOf c gp cs n nf na ni nc o theta beta gamma) (hcs : HasColumns cs nf na ni)
    (hn : 0 < n) (hg : ∀ gate ∈ cs.gates, ∀ e ∈ gate, Mentions nf na ni nc e) (x : GraphInput)
    (hx : x = ⟨columnsOf nf n gp.fixed, columnsOf na n gp.advice, columnsOf ni n gp.instance_,
      (List.range nc).map gp.challenge, beta, gamma, theta, y, 0⟩)
    (gates : Graph) (hgates : Graph.ofGates cs.gates = .ok gates) (gs : List Graph)
    (hgs : List.Forall₂ (Evaluates x n o) cs.lookups gs) (omega factor : Fr)
    (hpt : ∀ r, (o r).x = zetaFr * (factor * omega ^ r)) :
    ∀ (m idx : Nat) (datas : List (List Fr)), idx + m = n →
    List.Forall₂ (fun (d : List Fr) g => d.length = g.numIntermediates) datas gs →
    partRows cs n omega gates ((cs.lookups.zipIdx.zip gs).map fun p => (p.2, (List.range n).map (fun r => (o r).lz p.1.2),
      (List.range n).map (fun r => (o r).la p.1.2), (List.range n).map (fun r => (o r).ls p.1.2))) c x m idx
      (factor * omega ^ idx) datas =
    .ok ((List.range' idx m).map fun r => horner y 0 (exprsOf cs (o r))) := by
  obtain ⟨G, hG, he⟩ := Props.C35_gates cs.gates nf na ni nc n hn hg
  rw [hgates] at hG
  cases hG
  intro m
  induction m with
  | zero => intro idx datas _ _; rfl
  | succ m ih =>
    intro idx datas hm hd
    have hidx : idx < n := by omega
    obtain ⟨data', hl, hev⟩ := he gp beta gamma theta y 0 idx (List.replicate gates.numIntermediates 0) (by simp)
    have hxb : x.beta = beta := by rw [hx]
    have hxg : x.gamma = gamma := by rw [hx]
    have hxy : x.y = y := by rw [hx]
    obtain ⟨datas', e1, e2⟩ := foldLookups_ok x (by rw [hxb, hxg]; exact h) hn idx hidx cs.lookups gs 0 datas
      (horner y (horner y 0 (cs.gates.flatten.map fun e => e.eval n gp idx)) (permOf cs (o idx))) hgs hd
    rw [partRows, rowValue]
    rw [← hx] at hev
    rw [hev, ok_bind]
    dsimp only
    rw [hxy, hxb, hxg, permutationValue_ok h hcs hn idx hidx _ (hpt idx), ok_bind, e2, ok_bind]
    dsimp only
    rw [mul_assoc, ← pow_succ, ih (idx + 1) datas' (by omega) e1, ok_bind, List.range'_succ, List.map_cons]
    show Except.ok _ = Except.ok _
    congr 2
    unfold exprsOf horner
    rw [List.foldl_append, List.foldl_append, hxy]
    congr 3
    apply List.map_congr_left
    intro e hem
    obtain ⟨gate, h1, h2⟩ := List.mem_flatten.1 hem
    exact h.expr e (hg gate h1 e h2) idx hidx

end Verif.PlonkProver

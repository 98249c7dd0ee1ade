import Verif.Lemmas.ProverQuotient
import Verif.Lemmas.ProverVanish

/-! An honest prover's expressions vanish in all rows. -/

namespace Verif.PlonkProver

open Finset Polynomial Spec Plonk

/-- Two grids agree where a constraint system can look. -/
structure GridEq (cs : CS) (n : Nat) (g g' : Grid) : Prop where
  advice : ∀ c < cs.numAdvice, ∀ r < n, g.advice c r = g'.advice c r
  fixed : ∀ c < cs.numFixed, ∀ r < n, g.fixed c r = g'.fixed c r
  inst : ∀ c < cs.numInstance, ∀ r < n, g.instance_ c r = g'.instance_ c r
  challenge : ∀ i < cs.numChallenges, g.challenge i = g'.challenge i

theorem GridEq.eval {cs : CS} {n : Nat} {g g' : Grid} (h : GridEq cs n g g') (hn : 0 < n) (e : Expr)
    (hm : Mentions cs.numFixed cs.numAdvice cs.numInstance cs.numChallenges e) (r : Nat) :
    e.eval n g r = e.eval n g' r := by
  induction e with
  | const c => rfl
  | selector s => exact hm.elim
  | fixed c s => exact h.fixed _ hm _ (Plonk.rotate_lt n r s hn)
  | advice c s => exact h.advice _ hm _ (Plonk.rotate_lt n r s hn)
  | instance_ c s => exact h.inst _ hm _ (Plonk.rotate_lt n r s hn)
  | challenge i => exact h.challenge _ hm
  | neg a ih => show - _ = - _; rw [ih hm]
  | sum a b iha ihb => show _ + _ = _ + _; rw [iha hm.1, ihb hm.2]
  | product a b iha ihb => show _ * _ = _ * _; rw [iha hm.1, ihb hm.2]
  | scaled a f ih => show _ * _ = _ * _; rw [ih hm]

theorem GridEq.cell {cs : CS} {n : Nat} {g g' : Grid} (h : GridEq cs n g g')
    (hcs : HasColumns cs cs.numFixed cs.numAdvice cs.numInstance) (c : Col) (hc : c ∈ cs.permutation) (r : Nat)
    (hr : r < n) : g.cell (c, r) = g'.cell (c, r) := by
  have := hcs.columns c hc
  cases c with
  | advice c => exact h.advice _ this _ hr
  | fixed c => exact h.fixed _ this _ hr
  | instance_ c => exact h.inst _ this _ hr

/-- A compressed lookup column. -/
def compAt (n : Nat) (g : Grid) (theta : Fr) (es : List Expr) (r : Nat) : Fr :=
  (es.map fun e => e.eval n g r).foldl (fun acc v => acc * theta + v) 0

/-- The factors of a lookup's running product. -/
def lookupRatio (n : Nat) (g : Grid) (theta beta gamma : Fr) (l : Lookup) (a s : Nat → Fr) (r : Nat) : Fr :=
  ((a r + beta) * (s r + gamma))⁻¹ * ((compAt n g theta l.input r + beta) * (compAt n g theta l.table r + gamma))

/-- What an honest prover commits to. -/
structure Honest (pk : ProvingKey) (k : Nat) (g : Grid) (S : Nat → Nat → Fr) (instances : List (List Fr))
    (com : Commitments Coeffs) (ch : Challenges) (pb lb : List (List Fr)) (a s : Nat → Nat → Fr) : Prop where
  fixed : InterpAll pk.domain k pk.cs.numFixed pk.fixedPolys g.fixed
  advice : InterpAll pk.domain k pk.cs.numAdvice com.advice g.advice
  inst : ∀ c < pk.cs.numInstance, ∀ r < 2 ^ k, foldedColumn (2 ^ k) (instances.getD c []) r = g.instance_ c r
  user : ∀ i, ch.user.getD i 0 = g.challenge i
  sigma : InterpAll pk.domain k pk.cs.permutation.length pk.sigmaPolys S
  products : InterpAll pk.domain k (numSets pk.cs) com.products fun t =>
    zAt (2 ^ k) pk.cs.blindingFactors (startAt (2 ^ k - (pk.cs.blindingFactors + 1))
      (ratio pk.cs pk.domain.omega ch.beta ch.gamma (permAt pk.cs g) S) t)
      (ratio pk.cs pk.domain.omega ch.beta ch.gamma (permAt pk.cs g) S t) (pb.getD t [])
  number : com.permuted.length = pk.cs.lookups.length
  permuted : ∀ t < pk.cs.lookups.length, Interp pk.domain k (com.permuted.getD t ([], [])).1 (a t) ∧
    Interp pk.domain k (com.permuted.getD t ([], [])).2 (s t)
  shows : ∀ t (ht : t < pk.cs.lookups.length),
    ShowsLookup ((List.range (2 ^ k - (pk.cs.blindingFactors + 1))).map (compAt (2 ^ k) g ch.theta pk.cs.lookups[t].input))
      ((List.range (2 ^ k - (pk.cs.blindingFactors + 1))).map (compAt (2 ^ k) g ch.theta pk.cs.lookups[t].table))
      ((List.range (2 ^ k - (pk.cs.blindingFactors + 1))).map (a t))
      ((List.range (2 ^ k - (pk.cs.blindingFactors + 1))).map (s t))
  lookupNumber : com.lookupProducts.length = pk.cs.lookups.length
  lookupProducts : ∀ t (ht : t < pk.cs.lookups.length), Interp pk.domain k (com.lookupProducts.getD t [])
    (zAt (2 ^ k) pk.cs.blindingFactors 1 (lookupRatio (2 ^ k) g ch.theta ch.beta ch.gamma pk.cs.lookups[t] (a t) (s t))
      (lb.getD t []))

/-- Challenges that do not stop the running products. -/
structure Lucky (pk : ProvingKey) (k : Nat) (g : Grid) (S : Nat → Nat → Fr) (theta beta gamma : Fr) : Prop where
  cells : ∀ i < pk.cs.permutation.length, ∀ r < 2 ^ k - (pk.cs.blindingFactors + 1),
    permAt pk.cs g i r + beta * S i r + gamma ≠ 0
  inputs : ∀ l ∈ pk.cs.lookups, ∀ r < 2 ^ k - (pk.cs.blindingFactors + 1), compAt (2 ^ k) g theta l.input r + beta ≠ 0
  tables : ∀ l ∈ pk.cs.lookups, ∀ r < 2 ^ k - (pk.cs.blindingFactors + 1), compAt (2 ^ k) g theta l.table r + gamma ≠ 0

variable {j k : Nat} {pk : ProvingKey} {L : Int → Fr[X]} {instances : List (List Fr)} {com : Commitments Coeffs}
  {ch : Challenges} {g : Grid} {S : Nat → Nat → Fr} {pb lb : List (List Fr)} {a s : Nat → Nat → Fr}

theorem Honest.gridEq (h : Honest pk k g S instances com ch pb lb a s) :
    GridEq pk.cs (2 ^ k) (gridOf pk.domain (2 ^ k) instances pk.fixedPolys com.advice ch.user) g :=
  ⟨fun c hc r hr => (h.advice.each c hc).rows r hr, fun c hc r hr => (h.fixed.each c hc).rows r hr,
    fun c hc r hr => h.inst c hc r hr, fun i _ => h.user i⟩

/-- The cells are permuted: the product of the left factors is the product of the right factors. -/
theorem cells_product {M u : Nat} (V S : Nat → Nat → Fr) (omega beta gamma : Fr) (σ : Nat × Nat → Nat × Nat)
    (hmaps : ∀ c ∈ range M ×ˢ range u, σ c ∈ range M ×ˢ range u)
    (hinj : ∀ c ∈ range M ×ˢ range u, ∀ d ∈ range M ×ˢ range u, σ c = σ d → c = d)
    (hV : ∀ c ∈ range M ×ˢ range u, V c.1 c.2 = V (σ c).1 (σ c).2)
    (hS : ∀ c ∈ range M ×ˢ range u, S c.1 c.2 = deltaFr ^ (σ c).1 * omega ^ (σ c).2) :
    ∏ i ∈ range M, ∏ r ∈ range u, (V i r + beta * S i r + gamma) =
      ∏ i ∈ range M, ∏ r ∈ range u, (V i r + beta * omega ^ r * deltaFr ^ i + gamma) := by
  rw [← prod_product' (range M) (range u) fun i r => V i r + beta * S i r + gamma,
    ← prod_product' (range M) (range u) fun i r => V i r + beta * omega ^ r * deltaFr ^ i + gamma]
  apply prod_nbij σ hmaps
  · intro c hc d hd
    exact hinj c hc d hd
  · apply surjOn_of_injOn_of_card_le σ hmaps
    · intro c hc d hd
      exact hinj c hc d hd
    · exact le_rfl
  · intro c hc
    rw [hV c hc, hS c hc]
    ring

/-- The honest rows. -/
theorem honest_vanish (hk : IsProvingKey pk k) (hc : Closed pk.cs) (hL : Basis L pk.domain k)
    (hbf : pk.cs.blindingFactors + 1 < 2 ^ k) (h : Honest pk k g S instances com ch pb lb a s)
    (hlucky : Lucky pk k g S ch.theta ch.beta ch.gamma)
    (hgates : ∀ gate ∈ pk.cs.gates, ∀ p ∈ gate, ∀ row, row < 2 ^ k → p.eval (2 ^ k) g row = 0)
    (heq : ∏ i ∈ range pk.cs.permutation.length, ∏ r ∈ range (2 ^ k - (pk.cs.blindingFactors + 1)),
        (permAt pk.cs g i r + ch.beta * S i r + ch.gamma) =
      ∏ i ∈ range pk.cs.permutation.length, ∏ r ∈ range (2 ^ k - (pk.cs.blindingFactors + 1)),
        (permAt pk.cs g i r + ch.beta * pk.domain.omega ^ r * deltaFr ^ i + ch.gamma)) :
    ∀ r < 2 ^ k, ∀ v ∈ exprsOf pk.cs (rowOf L pk.vk instances com ch.user ch.theta ch.beta ch.gamma r), v = 0 := by
  have hd := hk.domain
  have hpos : 0 < 2 ^ k := by positivity
  have hmen := closed_mentioned hc
  have hge := h.gridEq
  have hfam := rowOf_family (L := L) (key := pk.vk) (instances := instances) (com := com) (user := ch.user)
    (theta := ch.theta) (beta := ch.beta) (gamma := ch.gamma) hd hL hbf
  have hu : pk.vk.cs.usableRows (2 ^ k) = 2 ^ k - (pk.cs.blindingFactors + 1) := rfl
  rw [hu] at hfam
  have hzr : ∀ start q blind r, r ≤ 2 ^ k - (pk.cs.blindingFactors + 1) →
      zAt (2 ^ k) pk.cs.blindingFactors start q blind r = start * ∏ i ∈ range r, q i := by
    intro start q blind r hr
    unfold zAt
    rw [if_pos (by omega)]
  have hperm : ∀ i r, r < 2 ^ k → (rowOf L pk.vk instances com ch.user ch.theta ch.beta ch.gamma r).perm pk.cs i =
      permAt pk.cs g i r := by
    intro i r hr
    unfold Opened.perm permAt
    cases hi : pk.cs.permutation[i]? with
    | none => rfl
    | some c =>
      show (rowOf L pk.vk instances com ch.user ch.theta ch.beta ch.gamma r).col c = _
      rw [rowOf_col (key := pk.vk) hd hL r hr c]
      exact hge.cell (closed_columns hc) c (List.mem_of_getElem? hi) r hr
  have hleft : ∀ i < pk.cs.permutation.length, ∀ r < 2 ^ k,
      leftOf pk.cs (rowOf L pk.vk instances com ch.user ch.theta ch.beta ch.gamma r) i =
      permAt pk.cs g i r + ch.beta * S i r + ch.gamma := by
    intro i hi r hr
    unfold leftOf
    rw [hperm i r hr, rowOf_beta, rowOf_gamma]
    show _ + _ * (aeval _ (pick _ _)) + _ = _
    rw [coe_aeval_eq_eval, pick_eval]
    rw [show polyAt (pk.vk.sigma.getD i []) (pk.vk.domain.omega ^ r) = S i r from (h.sigma.each i hi).rows r hr]
  have hright : ∀ i, ∀ r < 2 ^ k,
      rightOf pk.cs (rowOf L pk.vk instances com ch.user ch.theta ch.beta ch.gamma r) i =
      permAt pk.cs g i r + ch.beta * pk.domain.omega ^ r * deltaFr ^ i + ch.gamma := by
    intro i r hr
    unfold rightOf
    rw [hperm i r hr, rowOf_beta, rowOf_gamma]
    show _ + _ * (aeval _ X) * _ + _ = _
    rw [coe_aeval_eq_eval, eval_X]
    rfl
  have hcomp : ∀ es, (∀ e ∈ es, Queried pk.cs e) → ∀ r < 2 ^ k,
      (rowOf L pk.vk instances com ch.user ch.theta ch.beta ch.gamma r).comp es = compAt (2 ^ k) g ch.theta es r := by
    intro es hes r hr
    rw [rowOf_comp (key := pk.vk) hd hL _ _ _ _ r hr es hes]
    unfold compAt
    congr 1
    apply List.map_congr_left
    intro e he
    exact hge.eval hpos e (queried_mentions hc e (hes e he)) r
  have hpartlt : ∀ t, ∀ i ∈ part pk.cs t, i < pk.cs.permutation.length := by
    intro t i hi
    unfold part at hi
    rw [mem_Ico] at hi
    omega
  intro r hr v hv
  unfold exprsOf at hv
  rw [List.mem_append, List.mem_append] at hv
  rcases hv with (hv | hv) | hv
  · obtain ⟨e, he, rfl⟩ := List.mem_map.1 hv
    obtain ⟨gate, hg, he⟩ := List.mem_flatten.1 he
    have hq := hc.gates gate hg e he
    rw [rowOf_expr (key := pk.vk) hd hL r hr e hq]
    rw [show e.eval (2 ^ k) (gridOf pk.vk.domain (2 ^ k) instances pk.vk.fixed com.advice ch.user) r = _ from
      hge.eval hpos e (queried_mentions hc e hq) r]
    exact hgates gate hg e he r hr
  · refine perm_vanish pk.cs hfam (ratio pk.cs pk.domain.omega ch.beta ch.gamma (permAt pk.cs g) S) ?_ ?_ ?_ ?_ r hr v hv
    · intro t ht r hr
      show aeval _ (pick _ _) = _
      rw [coe_aeval_eq_eval, pick_eval]
      exact ((h.products.each t ht).rows r (by omega)).trans (hzr _ _ _ r hr)
    · intro t _ r hr
      unfold ratio
      rw [prod_congr rfl fun i hi => hleft i (hpartlt t i hi) r (by omega),
        prod_congr rfl fun i _ => hright i r (by omega)]
    · intro i hi r hr
      rw [hleft i hi r (by omega)]
      exact hlucky.cells i hi r hr
    · rw [prod_congr rfl fun i hi => prod_congr rfl fun r hr =>
        hleft i (mem_range.1 hi) r (by have := mem_range.1 hr; omega), heq]
      exact (prod_congr rfl fun i _ => prod_congr rfl fun r hr =>
        hright i r (by have := mem_range.1 hr; omega)).symm
  · obtain ⟨p, hp, hv⟩ := List.mem_flatMap.1 hv
    obtain ⟨l, t⟩ := p
    obtain ⟨ht, rfl⟩ := List.getElem?_eq_some_iff.1 (List.mk_mem_zipIdx_iff_getElem?.1 hp)
    have hl := List.getElem_mem ht
    have hA := hcomp _ (hc.inputs _ hl)
    have hT := hcomp _ (hc.tables _ hl)
    have hla : ∀ r < 2 ^ k, (rowOf L pk.vk instances com ch.user ch.theta ch.beta ch.gamma r).la t = a t r := by
      intro r hr
      show aeval _ (toPoly _) = _
      rw [coe_aeval_eq_eval, toPoly_eval]
      exact (h.permuted t ht).1.rows r hr
    have hls : ∀ r < 2 ^ k, (rowOf L pk.vk instances com ch.user ch.theta ch.beta ch.gamma r).ls t = s t r := by
      intro r hr
      show aeval _ (toPoly _) = _
      rw [coe_aeval_eq_eval, toPoly_eval]
      exact (h.permuted t ht).2.rows r hr
    refine lookup_vanish hfam pk.cs.lookups[t] t ch.beta ch.gamma (fun r => rowOf_beta _ _ _ _ r)
      (fun r => rowOf_gamma _ _ _ _ r)
      (lookupRatio (2 ^ k) g ch.theta ch.beta ch.gamma pk.cs.lookups[t] (a t) (s t)) ?_ ?_ ?_ ?_ ?_ r hr v hv
    · intro r hr
      show aeval _ (pick _ _) = _
      rw [coe_aeval_eq_eval, pick_eval]
      refine ((h.lookupProducts t ht).rows r (by omega)).trans ?_
      rw [hzr _ _ _ r hr, one_mul]
    · intro r hr
      unfold lookupRatio
      rw [hla r (by omega), hls r (by omega), hA r (by omega), hT r (by omega)]
    · have e : ∀ (f f' : Nat → Fr), (∀ r < 2 ^ k, f r = f' r) →
          (List.range (2 ^ k - (pk.cs.blindingFactors + 1))).map f =
          (List.range (2 ^ k - (pk.cs.blindingFactors + 1))).map f' := by
        intro f f' hf
        apply List.map_congr_left
        intro r hr
        exact hf r (by have := List.mem_range.1 hr; omega)
      rw [e _ _ hA, e _ _ hT, e _ _ hla, e _ _ hls]
      exact h.shows t ht
    · intro r hr
      rw [hA r (by omega)]
      exact hlucky.inputs _ hl r hr
    · intro r hr
      rw [hT r (by omega)]
      exact hlucky.tables _ hl r hr

end Verif.PlonkProver

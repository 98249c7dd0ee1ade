import Verif.Lemmas.ProverComplete
import Verif.Spec.Honest
import Verif.Props.Lookup
import Verif.Lemmas.PiopCircuit

/-! The honest prover convinces the verifier. -/

namespace Verif.PlonkProver

open Finset Polynomial Spec Plonk

theorem stop_bind {α β : Type} (a : α) (f : α → Except Stop β) : (Except.ok a >>= f) = f a := rfl

theorem total_ok {α : Type} (a : α) : total (.ok a) = .ok a := rfl

theorem list_columns {m n : Nat} {ls : List (List Fr)} (hm : ls.length = m) (hn : ∀ c < m, (ls.getD c []).length = n)
    (f : Nat → Nat → Fr) (hf : ∀ c < m, ∀ r < n, (ls.getD c []).getD r 0 = f c r) : ls = columnsOf m n f := by
  unfold columnsOf
  apply List.ext_getElem
  · simp [hm]
  · intro i h1 h2
    have hi : i < m := by omega
    have e : ls.getD i [] = ls[i] := by
      rw [List.getD_eq_getElem?_getD, List.getElem?_eq_getElem h1, Option.getD_some]
    have hl := hn i hi
    have hv := hf i hi
    rw [e] at hl hv
    simp only [List.getElem_map, List.getElem_range]
    apply List.ext_getElem
    · simp [hl]
    · intro r h3 h4
      have := hv r (by omega)
      rw [List.getD_eq_getElem?_getD, List.getElem?_eq_getElem h3, Option.getD_some] at this
      simp [this]

theorem isProvingKey {pk : ProvingKey} {k : Nat} (h : ProvingKeyFor pk k) : IsProvingKey pk k := by
  refine ⟨h.domain, h.coset, ⟨h.l0.1, h.l0.2⟩, ⟨h.lLast.1, h.lLast.2⟩, ⟨h.lActive.1, h.lActive.2⟩, ?_, ?_⟩
  · exact ⟨fun c r => (pk.fixedValues.getD c []).getD r 0,
      list_columns h.fixed.1 (fun c hc => (h.fixed.2.2 c hc).1) _ fun _ _ _ _ => rfl,
      h.fixed.2.1, fun c hc => ⟨(h.fixed.2.2 c hc).2.1, (h.fixed.2.2 c hc).2.2⟩⟩
  · exact ⟨fun c r => (pk.sigmaValues.getD c []).getD r 0,
      list_columns h.sigma.1 (fun c hc => (h.sigma.2.2 c hc).1) _ fun _ _ _ _ => rfl,
      h.sigma.2.1, fun c hc => ⟨(h.sigma.2.2 c hc).2.1, (h.sigma.2.2 c hc).2.2⟩⟩

variable {k : Nat} {pk : ProvingKey} {instances witness : List (List Fr)} {ch : Challenges} {b : Blinds}

theorem instances_ok (n bf : Nat) (hl : ∀ v ∈ instances, v.length ≤ n - (bf + 1)) :
    (instances.mapM fun v => orErr .instanceTooLarge (instanceColumn n bf v)) =
      .ok (columnsOf instances.length n fun c r => (instances.getD c []).getD r 0) := by
  rw [IsDomain.mapM_ok_map _ (fun v => v ++ List.replicate (n - v.length) 0) _ (by
    intro v hv
    unfold instanceColumn
    rw [if_neg (by have := hl v hv; omega)]
    rfl)]
  congr 1
  apply list_columns (by simp)
  · intro c hc
    have : (instances.map fun v => v ++ List.replicate (n - v.length) 0).getD c [] =
        instances[c] ++ List.replicate (n - instances[c].length) 0 := by
      rw [List.getD_eq_getElem?_getD, List.getElem?_map, List.getElem?_eq_getElem hc]; rfl
    rw [this]
    have := hl _ (List.getElem_mem hc)
    simp; omega
  · intro c hc r hr
    have e : (instances.map fun v => v ++ List.replicate (n - v.length) 0).getD c [] =
        instances[c] ++ List.replicate (n - instances[c].length) 0 := by
      rw [List.getD_eq_getElem?_getD, List.getElem?_map, List.getElem?_eq_getElem hc]; rfl
    have e2 : instances.getD c [] = instances[c] := by
      rw [List.getD_eq_getElem?_getD, List.getElem?_eq_getElem hc, Option.getD_some]
    rw [e, e2, List.getD_eq_getElem?_getD, List.getD_eq_getElem?_getD, List.getElem?_append]
    split
    · rfl
    · next h =>
      rw [List.getElem?_replicate, List.getElem?_eq_none (l := instances[c]) (by omega)]
      split <;> rfl

theorem advice_ok {m n : Nat} (hn : 0 < n) (hw : witness.length = m) (hl : ∀ v ∈ witness, v.length = n)
    (fixed inst : List (List Fr)) (user : List Fr) :
    witness.map adviceColumn = columnsOf m n (tableOf n fixed witness inst user).advice := by
  have e : ∀ c (hc : c < witness.length), witness.getD c [] = witness[c] := by
    intro c hc
    rw [List.getD_eq_getElem?_getD, List.getElem?_eq_getElem hc, Option.getD_some]
  have e' : ∀ c (hc : c < witness.length), (witness.map adviceColumn).getD c [] = adviceColumn witness[c] := by
    intro c hc
    rw [List.getD_eq_getElem?_getD, List.getElem?_map, List.getElem?_eq_getElem hc]; rfl
  apply list_columns (by simp [hw])
  · intro c hc
    rw [e' c (by omega)]
    unfold adviceColumn
    rw [List.length_set]
    exact hl _ (List.getElem_mem _)
  · intro c hc r hr
    have hlen := hl _ (List.getElem_mem (show c < witness.length by omega))
    rw [e' c (by omega)]
    unfold adviceColumn tableOf
    dsimp only
    rw [e c (by omega), List.getD_eq_getElem?_getD, List.getElem?_set, hlen]
    by_cases h1 : r + 1 = n
    · rw [if_pos h1, if_pos (by omega), if_pos (by omega)]; rfl
    · rw [if_neg h1, if_neg (by omega), List.getD_eq_getElem?_getD]

theorem user_ok {m : Nat} (h : ch.user.length = m) (n : Nat) (fixed inst : List (List Fr)) :
    ch.user = (List.range m).map (tableOf n fixed witness inst ch.user).challenge := by
  apply List.ext_getElem
  · simp [h]
  · intro i h1 h2
    simp only [List.getElem_map, List.getElem_range]
    show _ = ch.user.getD i 0
    rw [List.getD_eq_getElem?_getD, List.getElem?_eq_getElem h1, Option.getD_some]

theorem permuteAll_ok (cols : Columns) (user : List Fr) (n usable : Nat) (theta : Fr) :
    ∀ (l : List (Lookup × List Fr × List Fr)) (ps : List Permuted),
      List.Forall₂ (fun x p => commitPermuted cols user n usable theta x.1 x.2.1 x.2.2 = .ok (some p)) l ps →
      permuteAll cols user n usable theta l = .ok ps := by
  intro l ps h
  induction h with
  | nil => rfl
  | @cons x p l ps hx _ ih =>
    obtain ⟨l', bA, bS⟩ := x
    unfold permuteAll
    dsimp only at hx
    rw [hx, ih]
    rfl

theorem list_as_map (l : List Fr) {n : Nat} (h : l.length = n) : l = (List.range n).map fun r => l.getD r 0 := by
  apply List.ext_getElem
  · simp [h]
  · intro i h1 h2
    simp [List.getD_eq_getElem?_getD, List.getElem?_eq_getElem h1]

/-- One lookup. -/
theorem commitPermuted_ok {cols : Columns} {g : Grid} {nf na ni nc n u : Nat} (h : ColumnsOf cols g nf na ni n)
    (hn : 0 < n) {user : List Fr} (hu : user = (List.range nc).map g.challenge) (theta : Fr) (l : Lookup)
    (hin : ∀ e ∈ l.input, Mentions nf na ni nc e) (htab : ∀ e ∈ l.table, Mentions nf na ni nc e) (hun : u ≤ n)
    (blindA blindS : List Fr) (hA : blindA.length = n - u) (hS : blindS.length = n - u)
    (hsat : ∀ r < u, ∃ r', r' < u ∧ l.input.map (fun e => e.eval n g r) = l.table.map fun e => e.eval n g r') :
    ∃ a s : Nat → Fr, commitPermuted cols user n u theta l blindA blindS =
        .ok (some ⟨(List.range n).map (compAt n g theta l.input), (List.range n).map (compAt n g theta l.table),
          (List.range n).map a, (List.range n).map s⟩) ∧
      ShowsLookup ((List.range u).map (compAt n g theta l.input)) ((List.range u).map (compAt n g theta l.table))
        ((List.range u).map a) ((List.range u).map s) := by
  have htake : ∀ f : Nat → Fr, ((List.range n).map f).take u = (List.range u).map f := by
    intro f
    rw [← List.map_take, List.take_range, Nat.min_eq_left hun]
  obtain ⟨a, s, h1, h2⟩ := Props.C36_complete n u hun ((List.range n).map (compAt n g theta l.input))
    ((List.range n).map (compAt n g theta l.table)) blindA blindS (by simp) (by simp) hA hS (by
      rw [htake, htake]
      intro x hx
      obtain ⟨r, hr, rfl⟩ := List.mem_map.1 hx
      obtain ⟨r', hr', e⟩ := hsat r (List.mem_range.1 hr)
      refine List.mem_map.2 ⟨r', List.mem_range.2 hr', ?_⟩
      unfold compAt
      rw [e])
  rw [htake, htake] at h2
  have la : a.length = u := by have := h2.input.length_eq; simpa using this
  have ls : s.length = u := by have := h2.table.length_eq; simpa using this
  have ea := list_as_map (a ++ blindA) (n := n) (by rw [List.length_append, la, hA]; omega)
  have es := list_as_map (s ++ blindS) (n := n) (by rw [List.length_append, ls, hS]; omega)
  refine ⟨fun r => (a ++ blindA).getD r 0, fun r => (s ++ blindS).getD r 0, ?_, ?_⟩
  · unfold commitPermuted
    rw [compressRows_ok h hn hu theta _ hin, ok_bind, compressRows_ok h hn hu theta _ htab, ok_bind]
    have e1 : Lookup.permutePair n u
        ((List.range n).map fun r => horner theta 0 (l.input.map fun e => e.eval n g r))
        ((List.range n).map fun r => horner theta 0 (l.table.map fun e => e.eval n g r)) blindA blindS =
        .ok (some (a ++ blindA, s ++ blindS)) := h1
    rw [e1, ok_bind]
    dsimp only
    rw [← ea, ← es]
    rfl
  · rw [← htake fun r => (a ++ blindA).getD r 0, ← htake fun r => (s ++ blindS).getD r 0, ← ea, ← es,
      List.take_left' la, List.take_left' ls]
    exact h2

theorem getD_lists {α : Type} (l : List α) (x : α) {i : Nat} (h : i < l.length) : l.getD i x = l[i] := by
  rw [List.getD_eq_getElem?_getD, List.getElem?_eq_getElem h, Option.getD_some]

theorem InterpAll.congr {d : Domain} {m : Nat} {ps : List (List Fr)} {f f' : Nat → Nat → Fr} (h : InterpAll d k m ps f)
    (e : ∀ c < m, ∀ r < 2 ^ k, f c r = f' c r) : InterpAll d k m ps f' :=
  ⟨h.length, fun c hc => ⟨(h.each c hc).length, fun r hr => ((h.each c hc).rows r hr).trans (e c hc r hr)⟩⟩

/-- The scalars of the prover, as values of polynomials. -/
def evalsOf (pk : ProvingKey) (com : Commitments Coeffs) (x : Fr) : Evals :=
      ⟨pk.cs.adviceQueries.map fun q => polyAt (com.advice.getD q.1 []) (pk.domain.omega ^ q.2 * x),
       pk.cs.fixedQueries.map fun q => polyAt (pk.fixedPolys.getD q.1 []) (pk.domain.omega ^ q.2 * x),
       polyAt com.random x,
       (List.range pk.cs.permutation.length).map fun i => polyAt (pk.sigmaPolys.getD i []) x,
       (List.range (numSets pk.cs)).map fun t => ⟨polyAt (com.products.getD t []) x,
         polyAt (com.products.getD t []) (pk.domain.omega * x),
         if t + 1 < numSets pk.cs then some (polyAt (com.products.getD t [])
           (pk.domain.omega ^ (-((pk.cs.blindingFactors + 1 : Nat) : Int)) * x)) else none⟩,
       (List.range pk.cs.lookups.length).map fun t => ⟨polyAt (com.lookupProducts.getD t []) x,
         polyAt (com.lookupProducts.getD t []) (pk.domain.omega * x), polyAt (com.permuted.getD t ([], [])).1 x,
         polyAt (com.permuted.getD t ([], [])).1 (pk.domain.omega ^ (-1 : Int) * x),
         polyAt (com.permuted.getD t ([], [])).2 x⟩⟩

/-- The scalars of the prover. -/
theorem evals_ok (hk : IsProvingKey pk k) (hc : Closed pk.cs) {com : Commitments Coeffs} (hcom : Sized pk k com) (x : Fr) :
    evals pk com x = .ok (evalsOf pk com x) := by
  have hd := hk.domain
  obtain ⟨ff, -, hf⟩ := hk.fixed
  obtain ⟨fs, -, hs⟩ := hk.sigma
  have hrot : ∀ s, pk.domain.rotateOmega x s = pk.domain.omega ^ s * x := by
    intro s; rw [hd.rotateOmega_eq, mul_comm]
  have hrot1 : pk.domain.rotateOmega x 1 = pk.domain.omega * x := by rw [hrot, zpow_one]
  unfold evals evalsOf
  dsimp only
  rw [mapM_congr_ok _ (fun q : Nat × Int => polyAt (com.advice.getD q.1 []) (pk.domain.omega ^ q.2 * x)) _ (by
      intro q hq
      have : q.1 < com.advice.length := by rw [hcom.advice.1]; exact hc.advice q hq
      rw [at_getElem this, ok_bind, evalPolynomial_eq, hrot, getD_lists _ _ this]
      rfl), ok_bind,
    mapM_congr_ok _ (fun q : Nat × Int => polyAt (pk.fixedPolys.getD q.1 []) (pk.domain.omega ^ q.2 * x)) _ (by
      intro q hq
      have : q.1 < pk.fixedPolys.length := by rw [hf.length]; exact hc.fixed q hq
      rw [at_getElem this, ok_bind, evalPolynomial_eq, hrot, getD_lists _ _ this]
      rfl), ok_bind]
  simp only [evalPolynomial_eq, hrot1]
  simp only [hrot]
  refine congrArg Except.ok ?_
  congr 1
  · apply List.ext_getElem
    · simp [hs.length]
    · intro i h1 h2
      have : i < pk.sigmaPolys.length := by simpa using h1
      simp only [List.getElem_map, List.getElem_range]
      rw [getD_lists _ _ this]
  · apply List.ext_getElem
    · simp [hcom.products.1]
    · intro i h1 h2
      have : i < com.products.length := by simpa using h1
      simp only [List.getElem_map, List.getElem_range, List.getElem_zipIdx, Nat.zero_add]
      rw [getD_lists _ _ this]
      simp only [hcom.products.1]
  · apply List.ext_getElem
    · simp [hcom.lookupProducts.1, hcom.permuted.1]
    · intro i h1 h2
      simp only [List.length_map, List.length_zip] at h1
      simp only [List.getElem_map, List.getElem_range, List.getElem_zip]
      rw [getD_lists _ _ (show i < com.lookupProducts.length by omega), getD_lists _ _ (show i < com.permuted.length by omega)]

theorem evalsOf_matches {L : Int → Fr[X]} (com : Commitments Coeffs) {inst : List Fr}
    (hinst : inst = pk.cs.instanceQueries.map fun q =>
      ((polyOpened L pk.vk instances com ch.user ch.theta ch.beta ch.gamma).inst q.1 q.2).eval ch.x)
    (hu : ch.user.length = pk.cs.numChallenges) :
    Matches pk.cs inst ch.user (evalsOf pk com ch.x)
      ((polyOpened L pk.vk instances com ch.user ch.theta ch.beta ch.gamma).map (aeval (R := Fr) ch.x)) := by
  constructor
  · unfold evalsOf Opened.map polyOpened
    simp only [coe_aeval_eq_eval, scale_eval, pick_eval]
    rfl
  · unfold evalsOf Opened.map polyOpened
    simp only [coe_aeval_eq_eval, scale_eval, pick_eval]
    rfl
  · rw [hinst]
    unfold Opened.map
    simp only [coe_aeval_eq_eval]
  · apply List.ext_getElem
    · simp [hu]
    · intro i h1 h2
      simp only [List.getElem_map, List.getElem_range]
      show _ = aeval _ (C _)
      rw [coe_aeval_eq_eval, eval_C, getD_lists _ _ h1]
  · unfold evalsOf Opened.map polyOpened
    simp only [coe_aeval_eq_eval, pick_eval]
    rfl
  · unfold evalsOf Opened.map polyOpened
    simp only [coe_aeval_eq_eval, scale_eval, pick_eval]
    rfl
  · unfold evalsOf Opened.map polyOpened
    simp only [coe_aeval_eq_eval, scale_eval, pick_eval, toPoly_eval]
    rfl

/-- The prover, run honestly. -/
theorem create_ok (hpk : ProvingKeyFor pk k) (hc : Closed pk.cs) (hbf : pk.cs.blindingFactors + 1 < 2 ^ k)
    (hi : instances.length = pk.cs.numInstance)
    (hil : ∀ v ∈ instances, v.length ≤ 2 ^ k - (pk.cs.blindingFactors + 1))
    (hw : witness.length = pk.cs.numAdvice) (hwl : ∀ v ∈ witness, v.length = 2 ^ k)
    (hu : ch.user.length = pk.cs.numChallenges) (hb : EnoughBlinds pk.cs b)
    (fuel : Nat) (hf : pk.cs.permutation.length * 2 ^ k ≤ fuel) (copies : List ((Col × Nat) × (Col × Nat)))
    (hrows : ∀ p ∈ copies, p.1.2 < pk.cs.usableRows (2 ^ k) ∧ p.2.2 < pk.cs.usableRows (2 ^ k))
    (a : PermAssembly) (ha : PermAssembly.copyAll fuel copies (PermAssembly.new (2 ^ k) pk.cs.permutation) = .ok (.ok a))
    (hsig : SigmaOf pk.domain pk.cs.permutation.length (2 ^ k) pk.sigmaPolys a.mapping)
    (hsat : Satisfied pk.cs (2 ^ k) (tableOf (2 ^ k) pk.fixedValues witness instances ch.user) copies)
    (hlucky : Lucky pk k (tableOf (2 ^ k) pk.fixedValues witness instances ch.user)
      (fun c r => (pk.sigmaValues.getD c []).getD r 0) ch.theta ch.beta ch.gamma)
    (hx : ch.x ^ 2 ^ k ≠ 1) :
    ∃ com e queries, createProof pk (2 ^ k) instances witness ch b = .ok (com, e) ∧
      Shaped (verifyingKeyOf pk) com e ∧ claims (verifyingKeyOf pk) (2 ^ k) instances com ch e = .ok queries ∧
      ∀ q ∈ queries, Spec.Holds q := by
  have hk := isProvingKey hpk
  have hd := hk.domain
  have hpos : 0 < 2 ^ k := by positivity
  have hmen := closed_mentioned hc
  have hcols := closed_columns hc
  obtain ⟨L, hLd, hL, hls⟩ := exists_basis hd
  generalize hg : tableOf (2 ^ k) pk.fixedValues witness instances ch.user = g at *
  generalize hS : (fun c r => (pk.sigmaValues.getD c []).getD r 0) = S at *
  have hsv : pk.sigmaValues = columnsOf pk.cs.permutation.length (2 ^ k) S :=
    list_columns hpk.sigma.1 (fun c hc => (hpk.sigma.2.2 c hc).1) _ fun c _ r _ => by rw [← hS]
  have hsp : InterpAll pk.domain k pk.cs.permutation.length pk.sigmaPolys S := by
    rw [← hS]
    exact ⟨hpk.sigma.2.1, fun c hc => ⟨(hpk.sigma.2.2 c hc).2.1, (hpk.sigma.2.2 c hc).2.2⟩⟩
  have hfp : InterpAll pk.domain k pk.cs.numFixed pk.fixedPolys g.fixed := by
    rw [← hg]
    exact ⟨hpk.fixed.2.1, fun c hc => ⟨(hpk.fixed.2.2 c hc).2.1, (hpk.fixed.2.2 c hc).2.2⟩⟩
  have hadv : witness.map adviceColumn = columnsOf pk.cs.numAdvice (2 ^ k) g.advice := by
    rw [← hg]; exact advice_ok hpos hw hwl _ _ _
  have hin : (instances.mapM fun v => orErr .instanceTooLarge (instanceColumn (2 ^ k) pk.cs.blindingFactors v)) =
      .ok (columnsOf pk.cs.numInstance (2 ^ k) g.instance_) := by
    rw [instances_ok _ _ hil, hi, ← hg]
    rfl
  have hcolumns : ColumnsOf ⟨pk.fixedValues, witness.map adviceColumn, columnsOf pk.cs.numInstance (2 ^ k) g.instance_⟩ g
      pk.cs.numFixed pk.cs.numAdvice pk.cs.numInstance (2 ^ k) := by
    refine ⟨list_columns hpk.fixed.1 (fun c hc => (hpk.fixed.2.2 c hc).1) _ fun c _ r _ => ?_, hadv, rfl⟩
    rw [← hg]; rfl
  have huser : ch.user = (List.range pk.cs.numChallenges).map g.challenge := by
    rw [← hg]; exact user_ok hu _ _ _
  obtain ⟨instPolys, hip, hip2⟩ := interpAll_exists hd pk.cs.numInstance g.instance_
  obtain ⟨advPolys, hap, hap2⟩ := interpAll_exists hd pk.cs.numAdvice g.advice
  -- the lookups
  have hlook : ∀ t, ∃ a s : Nat → Fr, ∀ (ht : t < pk.cs.lookups.length),
      commitPermuted ⟨pk.fixedValues, witness.map adviceColumn, columnsOf pk.cs.numInstance (2 ^ k) g.instance_⟩ ch.user
        (2 ^ k) (2 ^ k - (pk.cs.blindingFactors + 1)) ch.theta pk.cs.lookups[t] (b.permuted.getD t ([], [])).1
        (b.permuted.getD t ([], [])).2 =
        .ok (some ⟨(List.range (2 ^ k)).map (compAt (2 ^ k) g ch.theta pk.cs.lookups[t].input),
          (List.range (2 ^ k)).map (compAt (2 ^ k) g ch.theta pk.cs.lookups[t].table),
          (List.range (2 ^ k)).map a, (List.range (2 ^ k)).map s⟩) ∧
      ShowsLookup ((List.range (2 ^ k - (pk.cs.blindingFactors + 1))).map (compAt (2 ^ k) g ch.theta pk.cs.lookups[t].input))
        ((List.range (2 ^ k - (pk.cs.blindingFactors + 1))).map (compAt (2 ^ k) g ch.theta pk.cs.lookups[t].table))
        ((List.range (2 ^ k - (pk.cs.blindingFactors + 1))).map a)
        ((List.range (2 ^ k - (pk.cs.blindingFactors + 1))).map s) := by
    intro t
    by_cases ht : t < pk.cs.lookups.length
    · have hl := List.getElem_mem ht
      have hbm : b.permuted.getD t ([], []) ∈ b.permuted := by
        rw [getD_lists _ _ (by rw [hb.permuted]; exact ht)]
        exact List.getElem_mem _
      have hbl := hb.permutedRows _ hbm
      obtain ⟨a, s, h1, h2⟩ := commitPermuted_ok hcolumns hpos huser ch.theta pk.cs.lookups[t] (hmen.lookups _ hl).1
        (hmen.lookups _ hl).2 (u := 2 ^ k - (pk.cs.blindingFactors + 1)) (by omega) (b.permuted.getD t ([], [])).1
        (b.permuted.getD t ([], [])).2 (by rw [hbl.1]; omega) (by rw [hbl.2]; omega) (hsat.lookups _ hl)
      exact ⟨a, s, fun _ => ⟨h1, h2⟩⟩
    · exact ⟨fun _ => 0, fun _ => 0, fun h => absurd h ht⟩
  choose la ls hlook using hlook
  let F : Nat → Permuted := fun t =>
    ⟨(List.range (2 ^ k)).map (compAt (2 ^ k) g ch.theta (pk.cs.lookups.getD t ⟨[], []⟩).input),
      (List.range (2 ^ k)).map (compAt (2 ^ k) g ch.theta (pk.cs.lookups.getD t ⟨[], []⟩).table),
      (List.range (2 ^ k)).map (la t), (List.range (2 ^ k)).map (ls t)⟩
  have hpermuted : permuteAll
      ⟨pk.fixedValues, witness.map adviceColumn, columnsOf pk.cs.numInstance (2 ^ k) g.instance_⟩ ch.user
      (2 ^ k) (2 ^ k - (pk.cs.blindingFactors + 1)) ch.theta
      ((pk.cs.lookups.zip b.permuted).map fun p => (p.1, p.2.1, p.2.2)) =
      .ok ((List.range pk.cs.lookups.length).map F) := by
    apply permuteAll_ok
    rw [List.forall₂_iff_get]
    refine ⟨by simp [hb.permuted], ?_⟩
    intro t h1 h2
    simp only [List.length_map, List.length_zip] at h1
    have ht : t < pk.cs.lookups.length := by omega
    have hbt : t < b.permuted.length := by omega
    have := (hlook t ht).1
    rw [getD_lists _ _ hbt] at this
    simp only [List.get_eq_getElem, List.getElem_map, List.getElem_zip, List.getElem_range]
    rw [this]
    simp only [F, getD_lists _ _ ht]
  choose pa hpa hpa2 using fun t => interp_exists hd (la t)
  choose ps hps hps2 using fun t => interp_exists hd (ls t)
  have hpp : (((List.range pk.cs.lookups.length).map F).mapM fun p => do
      return ((← pk.domain.lagrangeToCoeff p.permutedInput), (← pk.domain.lagrangeToCoeff p.permutedTable))) =
      .ok ((List.range pk.cs.lookups.length).map fun t => (pa t, ps t)) := by
    apply mapM_map_ok
    intro t _
    show (pk.domain.lagrangeToCoeff ((List.range (2 ^ k)).map (la t)) >>= fun x =>
      pk.domain.lagrangeToCoeff ((List.range (2 ^ k)).map (ls t)) >>= fun y => pure (x, y)) = _
    rw [hpa, ok_bind, hps, ok_bind]
    rfl
  have hsets : b.products.length = numSets pk.cs := by rw [hb.products, chunks_length]; rfl
  have hprod : permutationProducts pk (2 ^ k)
      ⟨pk.fixedValues, witness.map adviceColumn, columnsOf pk.cs.numInstance (2 ^ k) g.instance_⟩ ch.beta ch.gamma
      b.products = .ok (columnsOf (numSets pk.cs) (2 ^ k) fun t =>
        zAt (2 ^ k) pk.cs.blindingFactors (startAt (2 ^ k - (pk.cs.blindingFactors + 1))
          (ratio pk.cs pk.domain.omega ch.beta ch.gamma (permAt pk.cs g) S) t)
          (ratio pk.cs pk.domain.omega ch.beta ch.gamma (permAt pk.cs g) S t) (b.products.getD t [])) :=
    permutationProducts_ok pk hcolumns hcols S hsv ch.beta ch.gamma b.products hsets hb.productRows (by omega)
  obtain ⟨zPolys, hzp, hzp2⟩ := interpAll_exists hd (numSets pk.cs) fun t =>
    zAt (2 ^ k) pk.cs.blindingFactors (startAt (2 ^ k - (pk.cs.blindingFactors + 1))
      (ratio pk.cs pk.domain.omega ch.beta ch.gamma (permAt pk.cs g) S) t)
      (ratio pk.cs pk.domain.omega ch.beta ch.gamma (permAt pk.cs g) S t) (b.products.getD t [])
  have hlp : ((((List.range pk.cs.lookups.length).map F).zip b.lookups).mapM fun p =>
      lookupProduct (2 ^ k) pk.cs.blindingFactors p.1 ch.beta ch.gamma p.2) =
      .ok (columnsOf pk.cs.lookups.length (2 ^ k) fun t => zAt (2 ^ k) pk.cs.blindingFactors 1
        (lookupRatio (2 ^ k) g ch.theta ch.beta ch.gamma (pk.cs.lookups.getD t ⟨[], []⟩) (la t) (ls t))
        (b.lookups.getD t [])) := by
    have e : ((List.range pk.cs.lookups.length).map F).zip b.lookups =
        (List.range pk.cs.lookups.length).map fun t => (F t, b.lookups.getD t []) := by
      apply List.ext_getElem
      · simp [hb.lookups]
      · intro t h1 h2
        simp only [List.length_zip] at h1
        simp only [List.getElem_zip, List.getElem_map, List.getElem_range]
        rw [getD_lists _ _ (show t < b.lookups.length by omega)]
    rw [e]
    apply mapM_map_ok
    intro t ht
    have ht := List.mem_range.1 ht
    apply lookupProduct_ok (by omega)
    apply hb.lookupRows
    rw [getD_lists _ _ (by rw [hb.lookups]; exact ht)]
    exact List.getElem_mem _
  obtain ⟨lzPolys, hlz, hlz2⟩ := interpAll_exists hd pk.cs.lookups.length fun t => zAt (2 ^ k) pk.cs.blindingFactors 1
    (lookupRatio (2 ^ k) g ch.theta ch.beta ch.gamma (pk.cs.lookups.getD t ⟨[], []⟩) (la t) (ls t)) (b.lookups.getD t [])
  obtain ⟨rnd, hrnd, -⟩ := interp_exists hd fun _ => (1 : Fr)
  have hrnd' : pk.domain.lagrangeToCoeff (List.replicate (2 ^ k) (1 : Fr)) = .ok rnd := by
    rw [← hrnd]
    congr 1
    simp
  let com0 : Commitments Coeffs :=
    ⟨advPolys, (List.range pk.cs.lookups.length).map fun t => (pa t, ps t), zPolys, lzPolys, rnd, []⟩
  have hsized : ∀ p, Sized pk k { com0 with pieces := p } := by
    intro p
    refine ⟨⟨hap2.length, interpAll_lengths hap2⟩, ⟨by simp [com0], ?_⟩, ⟨hzp2.length, interpAll_lengths hzp2⟩,
      ⟨hlz2.length, interpAll_lengths hlz2⟩⟩
    intro q hq
    obtain ⟨t, -, rfl⟩ := List.mem_map.1 hq
    exact ⟨(hpa2 t).length, (hps2 t).length⟩
  have hpget : ∀ t < pk.cs.lookups.length, com0.permuted.getD t ([], []) = (pa t, ps t) := by
    intro t ht
    rw [getD_lists _ _ (by simpa [com0] using ht)]
    simp [com0]
  have hfold : ∀ c < pk.cs.numInstance, ∀ r < 2 ^ k,
      foldedColumn (2 ^ k) (instances.getD c []) r = g.instance_ c r := by
    intro c hcc r hr
    have : (instances.getD c []).length ≤ 2 ^ k := by
      rcases getD_mem_or instances c [] with h | h
      · exact (hil _ h).trans (by omega)
      · rw [h]; simp
    rw [foldedColumn_short this r, ← hg]
    rfl
  have hhonest : Honest pk k g S instances com0 ch b.products b.lookups la ls := by
    refine ⟨hfp, hap2, hfold, fun i => by rw [← hg]; rfl, hsp, hzp2, by simp [com0], ?_, fun t ht => (hlook t ht).2,
      hlz2.length, ?_⟩
    · intro t ht
      rw [hpget t ht]
      exact ⟨hpa2 t, hps2 t⟩
    · intro t ht
      have := hlz2.each t ht
      rwa [getD_lists pk.cs.lookups _ ht] at this
  have hvan : ∀ r < 2 ^ k, (numer L pk instances com0 ch).eval (pk.domain.omega ^ r) = 0 := by
    intro r hr
    obtain ⟨σ, s1, s2, s3, s4⟩ := cells_perm hc.distinct (u := 2 ^ k - (pk.cs.blindingFactors + 1)) (by omega) fuel hf
      copies hrows a ha g.cell hsat.copies
    have heq := cells_product (permAt pk.cs g) S pk.domain.omega ch.beta ch.gamma σ s1 s2 (by
      intro c hcm
      have hcm' := s1 c hcm
      have m1 := mem_range.1 (mem_product.1 hcm).1
      have m2 := mem_range.1 (mem_product.1 hcm').1
      unfold permAt
      rw [List.getElem?_eq_getElem m1, List.getElem?_eq_getElem m2]
      exact s4 c.1 c.2 (σ c).1 (σ c).2 hcm rfl _ _ (List.getElem?_eq_getElem m1) (List.getElem?_eq_getElem m2)) (by
      intro c hcm
      have m1 := mem_range.1 (mem_product.1 hcm).1
      have m2 := mem_range.1 (mem_product.1 hcm).2
      rw [← hsig c.1 m1 c.2 (by omega) (σ c).1 (σ c).2 (s3 c hcm)]
      exact ((hsp.each c.1 m1).rows c.2 (by omega)).symm)
    have hz := honest_vanish hk hc hL hbf hhonest hlucky hsat.gates heq r hr
    have : (numer L pk instances com0 ch).eval (pk.domain.omega ^ r) =
        (exprsOf pk.cs (rowOf L pk.vk instances com0 ch.user ch.theta ch.beta ch.gamma r)).foldl
          (fun acc v => acc * ch.y + v) 0 := (sum_eval _ _ _ _).symm
    rw [this]
    clear this
    generalize exprsOf pk.cs (rowOf L pk.vk instances com0 ch.user ch.theta ch.beta ch.gamma r) = l at hz
    induction l with
    | nil => rfl
    | cons v l ih =>
      rw [List.foldl_cons, zero_mul, zero_add, hz v (by simp)]
      exact ih fun w hw => hz w (by simp [hw])
  have hH := evaluateH_ok (com := com0) (ch := ch) hk hc hLd hL hbf (hip2.congr fun c hc r hr => (hfold c hc r hr).symm)
    (hsized []) hu
  obtain ⟨pieces, hq1, hq2, hq3, hq4⟩ := quotient_ok (ch := ch) (instances := instances) hk hLd (hsized []) rfl (by omega) hvan
  have hev := evals_ok hk hc (hsized pieces) ch.x
  generalize hcom : ({ com0 with pieces := pieces } : Commitments Coeffs) = com at hev
  have hcreate : createProof pk (2 ^ k) instances witness ch b = .ok (com, evalsOf pk com ch.x) := by
    unfold createProof
    rw [if_neg (by simp [hi])]
    dsimp only
    rw [hin, stop_bind, hip, total_ok, stop_bind, hpermuted, stop_bind, hpp, total_ok, stop_bind, hprod, total_ok,
      stop_bind, hzp, total_ok, stop_bind, hlp, total_ok, stop_bind, hlz, total_ok, stop_bind, hrnd', total_ok, stop_bind,
      hadv, hap, total_ok, stop_bind, hH, total_ok, stop_bind, hq1, total_ok, stop_bind]
    show (total (evals pk { com0 with pieces := pieces } ch.x) >>= fun e => pure ({ com0 with pieces := pieces }, e)) = _
    rw [hcom, hev]
    rfl
  have hshape : Shaped (verifyingKeyOf pk) com (evalsOf pk com ch.x) := by
    rw [← hcom]
    constructor
    · exact hfp.length
    · exact hsp.length
    · exact hap2.length
    · exact hhonest.number
    · exact hzp2.length.trans (by rw [chunks_length]; rfl)
    · exact hlz2.length
    · exact hq2.trans hd.quotient.symm
    · simp [evalsOf, verifyingKeyOf]
    · simp [evalsOf, verifyingKeyOf]
    · simp [evalsOf, verifyingKeyOf, hsp.length]
    · simp [evalsOf, com0, hzp2.length]
    · intro i h
      simp only [evalsOf, List.length_map, List.length_range, List.getElem_map, List.getElem_range]
      split
      · next h => simp [h]
      · next h => simp [h]
    · simp [evalsOf, verifyingKeyOf]
  have hm := evalsOf_matches (instances := instances) (L := L) com rfl hu
  have hexp := expressions_ok ch hm hc (by
    show _ = aeval _ (C ch.beta); rw [coe_aeval_eq_eval, eval_C]) (by
    show _ = aeval _ (C ch.gamma); rw [coe_aeval_eq_eval, eval_C]) (by
    show _ = aeval _ (C ch.theta); rw [coe_aeval_eq_eval, eval_C]) (by
    show _ = aeval _ X; rw [coe_aeval_eq_eval, eval_X])
  have hclaims := (claims_eq (L := L) (key := verifyingKeyOf pk) (com := com) (instances := instances) (hls _ hx) hx hc
    hshape hi).trans (congrArg (fun z => z >>= fun exprs =>
      Except.ok (queriesOf (verifyingKeyOf pk) (2 ^ k) com ch (evalsOf pk com ch.x) exprs)) hexp)
  rw [ok_bind] at hclaims
  refine ⟨com, evalsOf pk com ch.x, _, hcreate, hshape, hclaims, ?_⟩
  apply (queries_hold (L := L) (key := verifyingKeyOf pk) (instances := instances) hd hx hshape hu rfl).2
  refine ⟨hm, ?_, rfl⟩
  have := hq4 ch.x
  rw [show com.pieces = pieces by rw [← hcom], ← this, ← hcom]
  exact sum_eval _ _ _ _

end Verif.PlonkProver

import Verif.Lemmas.ProverPoly
import Verif.Props.Domain
import Mathlib.Algebra.Polynomial.Div

/-! `evaluate_h` as a polynomial, and the quotient. -/

namespace Verif.PlonkProver

open Finset Polynomial Spec Plonk

variable {j k : Nat} {pk : ProvingKey} {L : Int → Fr[X]} {instances : List (List Fr)} {com : Commitments Coeffs}
  {instPolys : List Coeffs} {ch : Challenges}

/-- The numerator of the quotient. -/
noncomputable def numer (L : Int → Fr[X]) (pk : ProvingKey) (instances : List (List Fr)) (com : Commitments Coeffs)
    (ch : Challenges) : Fr[X] :=
  (exprsOf pk.cs (polyOpened L pk.vk instances com ch.user ch.theta ch.beta ch.gamma)).foldl
    (fun acc v => acc * C ch.y + v) 0

theorem interpAll_lengths {d : Domain} {m : Nat} {ps : List (List Fr)} {f : Nat → Nat → Fr} (h : InterpAll d k m ps f) :
    ∀ p ∈ ps, p.length = 2 ^ k := by
  intro p hp
  obtain ⟨i, hi, rfl⟩ := List.mem_iff_getElem.1 hp
  have := (h.each i (by rw [← h.length]; exact hi)).length
  rwa [List.getD_eq_getElem?_getD, List.getElem?_eq_getElem hi, Option.getD_some] at this

theorem part_single (hd : IsDomain pk.domain j k) {p : List Fr} {f : Nat → Fr} (h : Interp pk.domain k p f) (factor : Fr) :
    pk.domain.coeffToExtendedPart p factor = .ok ((List.range (2 ^ k)).map fun r =>
      (toPoly p).eval (pk.domain.gCoset * factor * pk.domain.omega ^ r)) := by
  rw [hd.coeffToExtendedPart_ok p h.length]
  simp only [toPoly_eval]

theorem partValues_ok (hk : IsProvingKey pk k) (hc : Closed pk.cs) (hLd : ∀ s, (L s).natDegree ≤ 2 ^ k - 1)
    (hL : Basis L pk.domain k) (hbf : pk.cs.blindingFactors + 1 < 2 ^ k)
    (hinst : InterpAll pk.domain k pk.cs.numInstance instPolys fun c => foldedColumn (2 ^ k) (instances.getD c []))
    (hcom : Sized pk k com) (hu : ch.user.length = pk.cs.numChallenges) (factor : Fr) :
    partValues pk (2 ^ k) com instPolys ch factor = .ok ((List.range (2 ^ k)).map fun r =>
      (numer L pk instances com ch).eval (pk.domain.gCoset * factor * pk.domain.omega ^ r)) := by
  have hd := hk.domain
  have hpos : 0 < 2 ^ k := by positivity
  obtain ⟨b1, b2, b3⟩ := key_basis (instances := instances) (com := com) (user := ch.user) (theta := ch.theta)
    (beta := ch.beta) (gamma := ch.gamma) hk hLd hL hbf
  obtain ⟨ff, -, hf⟩ := hk.fixed
  obtain ⟨fs, -, hs⟩ := hk.sigma
  have hpart := partOf_ok (com := com) (user := ch.user) (theta := ch.theta) (beta := ch.beta) (gamma := ch.gamma)
    hd hc hLd hL hinst factor
  have hmen := closed_mentioned hc
  obtain ⟨G, hG, -⟩ := Props.C35_gates pk.cs.gates _ _ _ _ (2 ^ k) hpos hmen.gates
  obtain ⟨gs, hgs, hgs2⟩ := graphs_ok (y := ch.y) hpart hpos _ rfl pk.cs.lookups hmen.lookups
  unfold partValues
  dsimp only
  rw [parts_columns hd hf.length (interpAll_lengths hf), ok_bind, part_single hd hk.l0, ok_bind, part_single hd hk.lLast,
    ok_bind, part_single hd hk.lActive, ok_bind, parts_columns hd hcom.advice.1 hcom.advice.2, ok_bind,
    parts_columns hd hinst.length (interpAll_lengths hinst), ok_bind, parts_columns hd hcom.products.1 hcom.products.2,
    ok_bind, parts_columns hd hs.length (interpAll_lengths hs), ok_bind, hG, ok_bind, hgs, ok_bind,
    mapM_congr_ok _ (fun (p : Coeffs × Coeffs) =>
      ((List.range (2 ^ k)).map (fun r => (toPoly p.1).eval (pk.domain.gCoset * factor * pk.domain.omega ^ r)),
       (List.range (2 ^ k)).map fun r => (toPoly p.2).eval (pk.domain.gCoset * factor * pk.domain.omega ^ r))) _ (by
        intro p hp
        have := hcom.permuted.2 p hp
        rw [hd.coeffToExtendedPart_ok p.1 this.1, ok_bind, hd.coeffToExtendedPart_ok p.2 this.2, ok_bind]
        simp only [toPoly_eval]
        rfl), ok_bind,
    parts_columns hd hcom.lookupProducts.1 hcom.lookupProducts.2, ok_bind]
  have huser : ch.user = (List.range pk.cs.numChallenges).map (partGrid pk com instPolys ch.user factor).challenge := by
    apply List.ext_getElem
    · simp [hu]
    · intro i h1 h2
      simp only [List.getElem_map, List.getElem_range]
      show _ = ch.user.getD i 0
      rw [List.getD_eq_getElem?_getD, List.getElem?_eq_getElem h1, Option.getD_some]
  have hrows := partRows_ok hpart (closed_columns hc) hpos hmen.gates _ rfl G hG gs hgs2 pk.domain.omega factor (by
    intro r
    show aeval _ X = _
    rw [coe_aeval_eq_eval, eval_X, hk.coset]
    ring) (2 ^ k) 0 (gs.map fun g => List.replicate g.numIntermediates 0) (by omega) (by
      rw [List.forall₂_map_left_iff]
      apply List.forall₂_same.2
      intro g _
      simp)
  rw [← List.range_eq_range', pow_zero, mul_one, ← huser] at hrows
  have hlists : (gs.zip ((columnsOf pk.cs.lookups.length (2 ^ k) fun c r =>
        (pick com.lookupProducts c).eval (pk.domain.gCoset * factor * pk.domain.omega ^ r)).zip
      (com.permuted.map fun (p : Coeffs × Coeffs) =>
        ((List.range (2 ^ k)).map (fun r => (toPoly p.1).eval (pk.domain.gCoset * factor * pk.domain.omega ^ r)),
         (List.range (2 ^ k)).map fun r => (toPoly p.2).eval (pk.domain.gCoset * factor * pk.domain.omega ^ r))))).map
      (fun (p : Graph × List Fr × List Fr × List Fr) => (p.1, p.2.1, p.2.2.1, p.2.2.2)) =
    (pk.cs.lookups.zipIdx.zip gs).map fun p => (p.2,
      (List.range (2 ^ k)).map (fun r =>
        (partOpened L pk instances com ch.user ch.theta ch.beta ch.gamma factor r).lz p.1.2),
      (List.range (2 ^ k)).map (fun r =>
        (partOpened L pk instances com ch.user ch.theta ch.beta ch.gamma factor r).la p.1.2),
      (List.range (2 ^ k)).map (fun r =>
        (partOpened L pk instances com ch.user ch.theta ch.beta ch.gamma factor r).ls p.1.2)) := by
    have hgl := hgs2.length_eq
    apply List.ext_getElem
    · simp [columnsOf, hcom.permuted.1, hgl]
    · intro i h1 h2
      have h3 : i < com.permuted.length := by
        simp [columnsOf] at h1; omega
      simp only [columnsOf, List.getElem_map, List.getElem_zip, List.getElem_range, List.getElem_zipIdx, Nat.zero_add]
      have hg : com.permuted.getD i ([], []) = com.permuted[i] := by
        rw [List.getD_eq_getElem?_getD, List.getElem?_eq_getElem h3, Option.getD_some]
      unfold partOpened Opened.map polyOpened
      simp only [coe_aeval_eq_eval, hg]
  rw [hlists]
  refine Eq.trans ?_ (Eq.trans hrows ?_)
  · congr 1
    unfold partCosets
    dsimp only
    rw [b1, b2, b3]
    unfold Opened.active partOpened Opened.map polyOpened
    simp only [coe_aeval_eq_eval, Polynomial.eval_sub, Polynomial.eval_one, Polynomial.eval_add]
    rfl
  · congr 1
    apply List.map_congr_left
    intro r _
    exact sum_eval _ _ _ _

theorem evaluateH_ok (hk : IsProvingKey pk k) (hc : Closed pk.cs) (hLd : ∀ s, (L s).natDegree ≤ 2 ^ k - 1)
    (hL : Basis L pk.domain k) (hbf : pk.cs.blindingFactors + 1 < 2 ^ k)
    (hinst : InterpAll pk.domain k pk.cs.numInstance instPolys fun c => foldedColumn (2 ^ k) (instances.getD c []))
    (hcom : Sized pk k com) (hu : ch.user.length = pk.cs.numChallenges) :
    evaluateH pk (2 ^ k) com instPolys ch = .ok ((List.range (2 ^ pk.domain.extendedK)).map fun i =>
      (numer L pk instances com ch).eval (pk.domain.gCoset * pk.domain.extendedOmega ^ i)) := by
  have hd := hk.domain
  unfold evaluateH
  rw [mapM_congr_ok _ (fun i => (List.range (2 ^ k)).map fun r => (numer L pk instances com ch).eval
    (pk.domain.gCoset * pk.domain.extendedOmega ^ i * pk.domain.omega ^ r)) _
    (fun i _ => partValues_ok hk hc hLd hL hbf hinst hcom hu _), ok_bind]
  unfold Domain.extendedFromLagrangeVec
  rw [hd.k_mod, hd.extendedLen, hd.parts_count, if_neg (by simp), if_neg, hd.rows]
  · congr 1
    have e : 2 ^ pk.domain.extendedK = 2 ^ k * 2 ^ (pk.domain.extendedK - k) := by
      rw [← pow_add]; congr 1; have := hd.k_le; omega
    rw [e, ← IsDomain.flatMap_range_eq]
    apply List.flatMap_congr
    intro r hr
    rw [List.map_map]
    apply List.map_congr_left
    intro p _
    simp only [Function.comp]
    rw [getD_map_range _ _ _ (List.mem_range.1 hr), ← hd.tower, ← pow_mul, mul_assoc, ← pow_add]
    congr 3; ring
  · simp [hd.rows]

theorem com_bounded (hk : IsProvingKey pk k) (hcom : Sized pk k com) (hp : com.pieces = []) :
    ComBounded (2 ^ k) pk.vk com := by
  obtain ⟨ff, -, hf⟩ := hk.fixed
  obtain ⟨fs, -, hs⟩ := hk.sigma
  constructor
  · exact fun p h => (interpAll_lengths hf p h).le
  · exact fun p h => (interpAll_lengths hs p h).le
  · exact fun p h => (hcom.advice.2 p h).le
  · exact fun p h => ⟨(hcom.permuted.2 p h).1.le, (hcom.permuted.2 p h).2.le⟩
  · exact fun p h => (hcom.products.2 p h).le
  · exact fun p h => (hcom.lookupProducts.2 p h).le
  · rw [hp]; intro p h; cases h

theorem numer_degree (hk : IsProvingKey pk k) (hLd : ∀ s, (L s).natDegree ≤ 2 ^ k - 1) (hcom : Sized pk k com)
    (hp : com.pieces = []) (h2 : 2 ≤ 2 ^ k) :
    (numer L pk instances com ch).natDegree ≤ pk.cs.degree * (2 ^ k - 1) := by
  have e : 2 ^ k - 1 + 1 = 2 ^ k := by omega
  have hs : Small (2 ^ k - 1) (polyOpened L pk.vk instances com ch.user ch.theta ch.beta ch.gamma) :=
    polyOpened_small (by omega) (by omega) hLd (by rw [e]; exact com_bounded hk hcom hp)
  exact fold_degree _ _ _ _ (by simp) (exprs_degree hs pk.cs)

theorem sum_blocks (n m : Nat) (f : Nat → Fr) :
    ∑ i ∈ range (n * m), f i = ∑ i ∈ range m, ∑ t ∈ range n, f (i * n + t) := by
  induction m with
  | zero => simp
  | succ m ih =>
    rw [Nat.mul_succ, sum_range_add, ih, sum_range_succ]
    congr 1
    apply sum_congr rfl
    intro t _
    rw [mul_comm]

/-- The pieces put together are the list. -/
theorem chunksExact_sum {n m : Nat} (hn : 0 < n) (q : List Fr) (hq : q.length = n * m) :
    (chunksExact n q).length = m ∧ (∀ p ∈ chunksExact n q, p.length = n) ∧
    ∀ x, polyAt q x = ∑ i ∈ range m, (x ^ n) ^ i * polyAt ((chunksExact n q).getD i []) x := by
  have hl : q.length / n = m := by rw [hq, Nat.mul_div_cancel_left _ hn]
  have hfit : ∀ i < m, i * n + n ≤ q.length := by
    intro i hi
    rw [hq]
    calc i * n + n = n * (i + 1) := by ring
      _ ≤ n * m := Nat.mul_le_mul_left _ hi
  refine ⟨by simp [chunksExact, hl], ?_, ?_⟩
  · intro p hp
    unfold chunksExact at hp
    rw [hl] at hp
    obtain ⟨i, hi, rfl⟩ := List.mem_map.1 hp
    have := hfit i (List.mem_range.1 hi)
    rw [List.length_take, List.length_drop]
    omega
  · intro x
    rw [polyAt_eq, hq, sum_blocks]
    apply sum_congr rfl
    intro i hi
    have hi' := mem_range.1 hi
    have e : (chunksExact n q).getD i [] = (q.drop (i * n)).take n := by
      unfold chunksExact
      rw [hl, List.getD_eq_getElem?_getD, List.getElem?_map, List.getElem?_range hi']; rfl
    have hlen : ((q.drop (i * n)).take n).length = n := by
      rw [List.length_take, List.length_drop]; have := hfit i hi'; omega
    rw [e, polyAt_eq, hlen, mul_sum]
    apply sum_congr rfl
    intro t ht
    rw [List.getD_eq_getElem?_getD, List.getD_eq_getElem?_getD, List.getElem?_take_of_lt (mem_range.1 ht),
      List.getElem?_drop]
    simp only [smul_eq_mul]
    ring

/-- If the numerator vanishes in all rows, the prover finds the quotient. -/
theorem quotient_ok (hk : IsProvingKey pk k) (hLd : ∀ s, (L s).natDegree ≤ 2 ^ k - 1) (hcom : Sized pk k com)
    (hp : com.pieces = []) (h2 : 2 ≤ 2 ^ k)
    (hvan : ∀ r < 2 ^ k, (numer L pk instances com ch).eval (pk.domain.omega ^ r) = 0) :
    ∃ pieces, quotientPieces pk.domain (2 ^ k) ((List.range (2 ^ pk.domain.extendedK)).map fun i =>
        (numer L pk instances com ch).eval (pk.domain.gCoset * pk.domain.extendedOmega ^ i)) = .ok pieces ∧
      pieces.length = pk.cs.degree - 1 ∧ (∀ p ∈ pieces, p.length = 2 ^ k) ∧
      ∀ x, (numer L pk instances com ch).eval x =
        (∑ i ∈ range pieces.length, (x ^ 2 ^ k) ^ i * polyAt (pieces.getD i []) x) * (x ^ 2 ^ k - 1) := by
  have hd := hk.domain
  have hdeg := numer_degree (instances := instances) (ch := ch) hk hLd hcom hp h2
  have h3 := degree_ge pk.cs
  generalize hF : numer L pk instances com ch = F at *
  have hm : (X ^ 2 ^ k - C 1 : Fr[X]).Monic := monic_X_pow_sub_C 1 (by omega)
  have hmd : (X ^ 2 ^ k - C 1 : Fr[X]).natDegree = 2 ^ k := natDegree_X_pow_sub_C
  have hone : ∀ r, (pk.domain.omega ^ r) ^ 2 ^ k = 1 := by
    intro r
    rw [← pow_mul, mul_comm, pow_mul, hd.omega.pow_eq_one, one_pow]
  have hdiv := modByMonic_add_div F (X ^ 2 ^ k - C 1 : Fr[X])
  have hz : F %ₘ (X ^ 2 ^ k - C 1) = 0 := by
    apply poly_unique hd _ (by simp)
    · intro r hr
      have := congrArg (fun p => p.eval (pk.domain.omega ^ r)) hdiv
      simp only [Polynomial.eval_add, Polynomial.eval_mul, Polynomial.eval_sub, Polynomial.eval_pow, eval_X, eval_C,
        hone, sub_self, zero_mul, add_zero] at this
      rw [this, hvan r hr, Polynomial.eval_zero]
    · have := natDegree_modByMonic_lt F hm (by
        intro h
        have := congrArg natDegree h
        rw [hmd, natDegree_one] at this
        omega)
      rw [hmd] at this
      omega
  rw [hz, zero_add] at hdiv
  have hQ : (F /ₘ (X ^ 2 ^ k - C 1)).natDegree < 2 ^ k * (pk.cs.degree - 1) := by
    rw [natDegree_divByMonic F hm, hmd]
    obtain ⟨n, hn⟩ : ∃ n, 2 ^ k = n + 1 := ⟨2 ^ k - 1, by omega⟩
    obtain ⟨e, he⟩ : ∃ e, pk.cs.degree = e + 1 := ⟨pk.cs.degree - 1, by omega⟩
    rw [hn, he] at hdeg ⊢
    rw [hn] at h2
    rw [he] at h3
    simp only [Nat.add_sub_cancel] at hdeg ⊢
    have : (e + 1) * n = e * n + n := by ring
    have h4 : (n + 1) * e = e * n + e := by ring
    omega
  generalize F /ₘ (X ^ 2 ^ k - C 1) = Q at *
  let q : List Fr := (List.range (2 ^ k * (pk.cs.degree - 1))).map Q.coeff
  have hql : q.length = 2 ^ k * (pk.cs.degree - 1) := by simp [q]
  have hqv : ∀ x, polyAt q x = Q.eval x := by
    intro x
    rw [polyAt_eq, hql, eval_eq_sum_range' hQ]
    apply sum_congr rfl
    intro i hi
    rw [getD_map_range _ _ _ (mem_range.1 hi), smul_eq_mul, mul_comm]
  obtain ⟨c1, c2, c3⟩ := chunksExact_sum (by omega) q hql
  refine ⟨chunksExact (2 ^ k) q, ?_, c1, c2, ?_⟩
  · have := Props.C41_quotient hd (fun x => F.eval x) q hql (by
      intro x
      show F.eval x = _
      rw [hqv, ← hdiv, smul_eq_mul]
      simp)
    unfold quotientPieces
    cases hdv : pk.domain.divideByVanishingPoly ((List.range (2 ^ pk.domain.extendedK)).map fun i =>
        F.eval (pk.domain.gCoset * pk.domain.extendedOmega ^ i)) with
    | error e => rw [hdv] at this; cases this
    | ok v =>
      rw [hdv] at this
      have this : pk.domain.extendedToCoeff v = .ok q := this
      rw [ok_bind, this, ok_bind]
      rfl
  · intro x
    rw [c1, ← c3, hqv, ← hdiv]
    simp [mul_comm]

end Verif.PlonkProver

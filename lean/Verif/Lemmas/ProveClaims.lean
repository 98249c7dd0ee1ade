import Verif.Lemmas.ProveSync
import Verif.Lemmas.ClaimsNat
import Verif.Lemmas.ShplonkComplete

/-! The prover opens the queries the verifier asks. -/

namespace Verif.Transcript

open Plonk Spec PlonkProver Shplonk

/-- A query of the verifier, with the polynomial; `h` is the combined quotient. -/
def polyClaim (h : Coeffs) (q : Query (Ref × Coeffs)) : Claim Ref Coeffs :=
  match q.commitment with
  | .point c => ⟨c.1, c.2, q.point, q.value⟩
  | .msm _ => ⟨.quotient, h, q.point, q.value⟩

theorem claims_split {C : Type} {key : Key C} {n : Nat} {instances : List (List Fr)} {com : Commitments C}
    {ch : Challenges} {e : Evals} {qs : List (Query C)} (h : claims key n instances com ch e = .ok qs) :
    ∃ advice perm fixed expected,
      columnQueries key.domain ch.x key.cs.adviceQueries com.advice e.advice = .ok advice ∧
      permQueries key.domain key.cs.blindingFactors ch.x (com.products.zip e.sets) = .ok perm ∧
      columnQueries key.domain ch.x key.cs.fixedQueries key.fixed e.fixed = .ok fixed ∧
      qs = advice ++ perm ++ (((com.permuted.zip com.lookupProducts).zip e.lookups).flatMap fun p =>
          lookupQueries key.domain ch.x p.1.1 p.1.2 p.2) ++ fixed ++
        ((key.sigma.zip e.sigma).map fun p => ⟨.point p.1, ch.x, p.2⟩) ++
        [⟨.msm (combinePieces (ch.x ^ n) com.pieces), ch.x, expected⟩, ⟨.point com.random, ch.x, e.random⟩] := by
  unfold claims at h
  dsimp only at h
  obtain ⟨inst, -, h⟩ := bind_ok.1 h
  split at h
  · exact absurd h (by simp)
  obtain ⟨lLast, -, h⟩ := bind_ok.1 h
  obtain ⟨l0, -, h⟩ := bind_ok.1 h
  obtain ⟨exprs, -, h⟩ := bind_ok.1 h
  split at h
  · exact absurd h (by simp)
  obtain ⟨advice, h1, h⟩ := bind_ok.1 h
  obtain ⟨perm, h2, h⟩ := bind_ok.1 h
  obtain ⟨fixed, h3, h⟩ := bind_ok.1 h
  exact ⟨advice, perm, fixed, _, h1, h2, h3, (Except.ok.inj h).symm⟩

/-- Only the quotient is a combination of commitments. -/
theorem claims_msm {C : Type} {key : Key C} {n : Nat} {instances : List (List Fr)} {com : Commitments C}
    {ch : Challenges} {e : Evals} {qs : List (Query C)} (h : claims key n instances com ch e = .ok qs)
    {ts : List (Fr × C)} {x v : Fr} (hq : (⟨.msm ts, x, v⟩ : Query C) ∈ qs) :
    ts = combinePieces (ch.x ^ n) com.pieces ∧ x = ch.x := by
  have hcol : ∀ {d : Domain} {x : Fr} {l : List (Nat × Int)} {coms : List C} {ev : List Fr} {Q : List (Query C)},
      columnQueries d x l coms ev = .ok Q → ∀ q ∈ Q, ∃ c, q.commitment = .point c := by
    intro d x l coms ev Q h q hq
    unfold columnQueries at h
    obtain ⟨a, -, ha⟩ := mapM_mem h q hq
    obtain ⟨c, -, ha⟩ := bind_ok.1 ha
    obtain ⟨v, -, ha⟩ := bind_ok.1 ha
    obtain rfl := Except.ok.inj ha
    exact ⟨c, rfl⟩
  have no : ∀ {q : Query C} {ts : List (Fr × C)} {c : C}, q.commitment = .msm ts → q.commitment = .point c → False := by
    intro q ts c h1 h2
    rw [h1] at h2
    exact absurd h2 (by simp)
  obtain ⟨advQ, permQ, fxQ, w, h1, h2, h3, rfl⟩ := claims_split h
  simp only [List.mem_append] at hq
  rcases hq with ((((hq | hq) | hq) | hq) | hq) | hq
  · obtain ⟨c, hc⟩ := hcol h1 _ hq
    exact (no rfl hc).elim
  · unfold permQueries at h2
    obtain ⟨lasts, h5, h4⟩ := bind_ok.1 h2
    obtain rfl := Except.ok.inj h4
    rcases List.mem_append.1 hq with hq | hq
    · obtain ⟨p, -, hp⟩ := List.mem_flatMap.1 hq
      simp at hp
    · obtain ⟨a, -, ha⟩ := mapM_mem h5 _ hq
      split at ha
      · exact absurd ha (by simp)
      · have := congrArg Query.commitment (Except.ok.inj ha)
        exact absurd this (by simp)
  · obtain ⟨p, -, hp⟩ := List.mem_flatMap.1 hq
    simp [lookupQueries] at hp
  · obtain ⟨c, hc⟩ := hcol h3 _ hq
    exact (no rfl hc).elim
  · obtain ⟨p, -, hp⟩ := List.mem_map.1 hq
    have := congrArg Query.commitment hp
    exact absurd this (by simp)
  · simp only [List.mem_cons, List.not_mem_nil, or_false] at hq
    rcases hq with hq | hq
    · have h1 := congrArg Query.commitment hq
      have h2 := congrArg Query.point hq
      exact ⟨by injection h1, h2⟩
    · have := congrArg Query.commitment hq
      exact absurd this (by simp)

theorem at_some {α : Type} {l : List α} {i : Nat} {a : α} (h : at_ l i = .ok a) : l[i]? = some a := by
  unfold at_ at h
  split at h
  · next v hv => rw [hv, Except.ok.inj h]
  · exact absurd h (by simp)

theorem at_number {tag : Nat → Ref} {l : List Coeffs} {i : Nat} {c : Ref × Coeffs}
    (h : at_ (Ref.number tag l) i = .ok c) : c.1 = tag i ∧ at_ l i = .ok c.2 := by
  have h := at_some h
  unfold Ref.number at h
  rw [List.getElem?_map, List.getElem?_zipIdx, Option.map_map, Option.map_eq_some_iff] at h
  obtain ⟨a, ha, rfl⟩ := h
  refine ⟨by simp, ?_⟩
  unfold at_
  rw [ha]
  rfl

theorem columns_match {d : Domain} {x : Fr} {h : Coeffs} (tag : Nat → Ref) {coms : List Coeffs} :
    ∀ {qs : List (Nat × Int)} {ev : List Fr} {Q : List (Query (Ref × Coeffs))} {ps : List (Claim Ref Coeffs)},
    columnQueries d x qs (Ref.number tag coms) ev = .ok Q →
    (qs.mapM fun (q : Nat × Int) => do return evalPolynomial (← at_ coms q.1) (d.rotateOmega x q.2)) = .ok ev →
    (qs.mapM fun (q : Nat × Int) => do return ask (tag q.1) (← at_ coms q.1) (d.rotateOmega x q.2)) = .ok ps →
    ps = Q.map (polyClaim h) := by
  intro qs ev Q ps h1 h2 h3
  unfold columnQueries at h1
  have h1 := mapM_forall₂ _ h1
  have h2 := mapM_forall₂ _ h2
  have h3 := mapM_forall₂ _ h3
  rw [List.forall₂_iff_get] at h1 h2 h3
  obtain ⟨l1, h1⟩ := h1
  obtain ⟨l2, h2⟩ := h2
  obtain ⟨l3, h3⟩ := h3
  rw [List.length_zipIdx] at l1
  apply List.ext_getElem
  · rw [List.length_map, ← l1, ← l3]
  · intro i i1 i2
    rw [List.length_map] at i2
    have h1 := h1 i (by rw [List.length_zipIdx]; omega) i2
    have h2 := h2 i (by omega) (by omega)
    have h3 := h3 i (by omega) i1
    simp only [List.get_eq_getElem, List.getElem_zipIdx, Nat.zero_add] at h1 h2 h3
    obtain ⟨c, hc, h1⟩ := bind_ok.1 h1
    obtain ⟨v, hv, h1⟩ := bind_ok.1 h1
    obtain ⟨c2, hc2, h2⟩ := bind_ok.1 h2
    obtain ⟨c3, hc3, h3⟩ := bind_ok.1 h3
    obtain ⟨t1, t2⟩ := at_number hc
    rw [t2] at hc2 hc3
    obtain rfl := Except.ok.inj hc2
    obtain rfl := Except.ok.inj hc3
    have h1 := Except.ok.inj h1
    have h2 := Except.ok.inj h2
    have h3 := Except.ok.inj h3
    have hv := at_some hv
    rw [List.getElem?_eq_getElem (by omega)] at hv
    rw [List.getElem_map, ← h1, ← h3, ← Option.some.inj hv, ← h2]
    unfold polyClaim ask
    rw [← t1]

/-- The sum of the pieces. -/
theorem combineQuotient_value {n : Nat} {xn : Fr} {pieces : List Coeffs} {h : Coeffs} (hl : ∀ p ∈ pieces, p.length = n)
    (hq : combineQuotient n xn pieces = .ok h) :
    h.length = n ∧ ∀ z, polyAt h z = ((combinePieces xn pieces).map fun t => t.1 * polyAt t.2 z).sum := by
  unfold combineQuotient at hq
  unfold combinePieces
  have hl : ∀ p ∈ pieces.reverse, p.length = n := by simpa using hl
  generalize pieces.reverse = ps at *
  suffices ∀ (ps : List Coeffs) (acc : Coeffs) (macc : List (Fr × Coeffs)) (h : Coeffs), (∀ p ∈ ps, p.length = n) →
      acc.length = n → (∀ z, polyAt acc z = (macc.map fun t => t.1 * polyAt t.2 z).sum) →
      ps.foldlM (fun acc p => addPoly (mulPoly acc xn) p) acc = .ok h →
      h.length = n ∧ ∀ z, polyAt h z = ((ps.foldl (fun acc c => acc.map (fun (t : Fr × Coeffs) =>
        (t.1 * xn, t.2)) ++ [(1, c)]) macc).map fun t => t.1 * polyAt t.2 z).sum from
    this ps (List.replicate n 0) [] h hl (by simp) (by
      intro z
      rw [show List.replicate n (0 : Fr) = (List.range n).map (fun _ => 0) by simp, polyAt_map_zero _ _ _ (fun _ _ => rfl)]
      simp) hq
  intro ps
  induction ps with
  | nil =>
    intro acc macc h _ hacc hm hq
    obtain rfl := Except.ok.inj hq
    exact ⟨hacc, hm⟩
  | cons p ps ih =>
    intro acc macc h hl hacc hm hq
    rw [List.foldlM_cons] at hq
    have hp := hl p (by simp)
    obtain ⟨c, c1, c2, c3⟩ := addPoly_ok (a := mulPoly acc xn) (b := p) (by rw [mulPoly_length, hacc, hp])
    rw [c1] at hq
    refine ih c _ h (fun p hp => hl p (by simp [hp])) (by rw [c2, mulPoly_length, hacc]) ?_ hq
    intro z
    rw [c3, mulPoly_at, hm, List.map_append, List.sum_append, List.map_map]
    simp only [List.map_cons, List.map_nil, List.sum_cons, List.sum_nil, one_mul, add_zero]
    congr 1
    rw [← List.sum_map_mul_left]
    congr 1
    apply List.map_congr_left
    intro t _
    simp only [Function.comp]
    ring

section main

variable {pk : ProvingKey} {com : Commitments Coeffs} {ch : Challenges} {e : Evals} {n : Nat}
  {instances : List (List Fr)} {h : Coeffs} {queries : List (Claim Ref Coeffs)} {Q : List (Query (Ref × Coeffs))}

/-- What the prover opens is what the verifier asks. -/
theorem queries_match (he : evals pk com ch.x = .ok e) (hq : proverQueries pk com ch.x h = .ok queries)
    (hl : com.lookupProducts.length = com.permuted.length)
    (hc : claims (Ref.ofKey (verifyingKeyOf pk)) n instances (Ref.ofCommitments com) ch e = .ok Q)
    (hexp : ∀ v, (⟨.msm (combinePieces (ch.x ^ n) (Ref.ofCommitments com).pieces), ch.x, v⟩ :
      Query (Ref × Coeffs)) ∈ Q → v = evalPolynomial h ch.x) :
    queries = Q.map (polyClaim h) := by
  obtain ⟨advQ, permQ, fxQ, v, q1, q2, q3, q4⟩ := claims_split hc
  have hexp := hexp v (by rw [q4]; simp)
  unfold evals at he
  obtain ⟨adv, e1, he⟩ := bind_ok.1 he
  obtain ⟨fx, e2, he⟩ := bind_ok.1 he
  obtain rfl := Except.ok.inj he
  unfold proverQueries at hq
  dsimp only at hq
  obtain ⟨advP, p1, hq⟩ := bind_ok.1 hq
  obtain ⟨fxP, p2, hq⟩ := bind_ok.1 hq
  obtain rfl := Except.ok.inj hq
  dsimp only at q1 q2 q3 q4
  have a1 : advP = advQ.map (polyClaim h) := columns_match .advice q1 e1 p1
  have a2 : fxP = fxQ.map (polyClaim h) := columns_match .fixed q3 e2 p2
  rw [q4, List.map_append, List.map_append, List.map_append, List.map_append, List.map_append, ← a1, ← a2, hexp]
  congr 1
  congr 1
  · congr 1
    congr 1
    · congr 1
      -- the permutation
      have z : (Ref.ofCommitments com).products.zip (com.products.zipIdx.map fun (p : Coeffs × Nat) =>
          (⟨evalPolynomial p.1 ch.x, evalPolynomial p.1 (pk.domain.rotateOmega ch.x 1),
            if p.2 + 1 < com.products.length then
              some (evalPolynomial p.1 (pk.domain.rotateOmega ch.x (-((pk.cs.blindingFactors + 1 : Nat) : Int))))
            else none⟩ : SetEval)) =
          com.products.zipIdx.map fun (p : Coeffs × Nat) => (((Ref.product p.2, p.1) : Ref × Coeffs),
          (⟨evalPolynomial p.1 ch.x, evalPolynomial p.1 (pk.domain.rotateOmega ch.x 1),
            if p.2 + 1 < com.products.length then
              some (evalPolynomial p.1 (pk.domain.rotateOmega ch.x (-((pk.cs.blindingFactors + 1 : Nat) : Int))))
            else none⟩ : SetEval)) := by
        unfold Ref.ofCommitments Ref.number
        dsimp only
        rw [List.zip_map', ]
      rw [z] at q2
      unfold permQueries at q2
      dsimp only at q2
      obtain ⟨lasts, h1, h2⟩ := bind_ok.1 q2
      obtain rfl := Except.ok.inj h2
      rw [List.map_append, List.flatMap_map, List.map_flatMap]
      congr 1
      replace h1 := mapM_forall₂ _ h1
      rw [← List.map_reverse, ← List.map_drop, List.forall₂_map_left_iff] at h1
      clear q2 q4 h2
      generalize com.products.zipIdx.reverse.drop 1 = l at h1 ⊢
      induction h1 with
      | nil => rfl
      | @cons a b l ls hab _ ih =>
        rw [List.map_cons, List.map_cons, ih]
        congr 1
        dsimp only at hab
        split at hab
        · exact absurd hab (by simp)
        · next w hw =>
          split at hw
          · obtain rfl := Except.ok.inj hab
            obtain rfl := Option.some.inj hw
            rfl
          · exact absurd hw (by simp)
    · -- the lookups
      have z : ((Ref.ofCommitments com).permuted.zip (Ref.ofCommitments com).lookupProducts).zip
          ((com.lookupProducts.zip com.permuted).map fun (p : Coeffs × Coeffs × Coeffs) =>
            (⟨evalPolynomial p.1 ch.x, evalPolynomial p.1 (pk.domain.rotateOmega ch.x 1), evalPolynomial p.2.1 ch.x,
              evalPolynomial p.2.1 (pk.domain.rotateOmega ch.x (-1)), evalPolynomial p.2.2 ch.x⟩ : LookupEval)) =
          (com.permuted.zip com.lookupProducts).zipIdx.map fun (p : ((Coeffs × Coeffs) × Coeffs) × Nat) =>
            (((((Ref.permutedInput p.2, p.1.1.1) : Ref × Coeffs), ((Ref.permutedTable p.2, p.1.1.2) : Ref × Coeffs)),
              ((Ref.lookupProduct p.2, p.1.2) : Ref × Coeffs)),
            (⟨evalPolynomial p.1.2 ch.x, evalPolynomial p.1.2 (pk.domain.rotateOmega ch.x 1),
              evalPolynomial p.1.1.1 ch.x, evalPolynomial p.1.1.1 (pk.domain.rotateOmega ch.x (-1)),
              evalPolynomial p.1.1.2 ch.x⟩ : LookupEval)) := by
        apply List.ext_getElem
        · simp [Ref.ofCommitments, Ref.number, hl]
        · intro i i1 i2
          simp [Ref.ofCommitments, Ref.number]
      have : (Ref.ofKey (verifyingKeyOf pk)).domain = pk.domain := rfl
      rw [this, z, List.flatMap_map, List.map_flatMap]
      rfl
  · unfold Ref.ofKey Ref.number verifyingKeyOf
    dsimp only
    have z : (pk.sigmaPolys.zipIdx.map fun (p : Coeffs × Nat) => (Ref.sigma p.2, p.1)).zip
        (pk.sigmaPolys.map fun p => evalPolynomial p ch.x) =
        pk.sigmaPolys.zipIdx.map fun (p : Coeffs × Nat) => ((Ref.sigma p.2, p.1), evalPolynomial p.1 ch.x) := by
      apply List.ext_getElem
      · simp
      · intro i i1 i2
        simp
    rw [z, List.map_map, List.map_map]
    rfl

/-- Every query of the prover is true, about the polynomial its reference stands for, and at a rotation
of `x`. -/
theorem queries_good {k : Nat} (hd : IsDomain pk.domain pk.cs.degree k) (hq : proverQueries pk com ch.x h = .ok queries)
    (l1 : ∀ p ∈ com.advice, p.length = 2 ^ k) (l2 : ∀ p ∈ com.permuted, p.1.length = 2 ^ k ∧ p.2.length = 2 ^ k)
    (l3 : ∀ p ∈ com.products, p.length = 2 ^ k) (l4 : ∀ p ∈ com.lookupProducts, p.length = 2 ^ k)
    (l5 : com.random.length = 2 ^ k) (l6 : h.length = 2 ^ k) (l7 : ∀ p ∈ pk.fixedPolys, p.length = 2 ^ k)
    (l8 : ∀ p ∈ pk.sigmaPolys, p.length = 2 ^ k) :
    ∃ object : Ref → Coeffs, ∀ q ∈ queries, q.object = object q.ref ∧ ClaimTrue q ∧ q.object.length = 2 ^ k ∧
      ∃ j : Int, q.point = ch.x * pk.domain.omega ^ j := by
  let object : Ref → Coeffs := fun ref => match ref with
    | .advice i => com.advice.getD i []
    | .product i => com.products.getD i []
    | .permutedInput i => (com.permuted.getD i ([], [])).1
    | .permutedTable i => (com.permuted.getD i ([], [])).2
    | .lookupProduct i => com.lookupProducts.getD i []
    | .fixed i => pk.fixedPolys.getD i []
    | .sigma i => pk.sigmaPolys.getD i []
    | .quotient => h
    | .random => com.random
  refine ⟨object, ?_⟩
  have main : ∀ (ref : Ref) (p : Coeffs) (j : Int), p = object ref → p.length = 2 ^ k →
      (ask ref p (pk.domain.rotateOmega ch.x j)).object = object ref ∧
      ClaimTrue (ask ref p (pk.domain.rotateOmega ch.x j)) ∧
      (ask ref p (pk.domain.rotateOmega ch.x j)).object.length = 2 ^ k ∧
      ∃ j' : Int, (ask ref p (pk.domain.rotateOmega ch.x j)).point = ch.x * pk.domain.omega ^ j' := by
    intro ref p j hp hl
    exact ⟨hp, evalPolynomial_eq _ _, hl, j, hd.rotateOmega_eq _ _⟩
  have main0 : ∀ (ref : Ref) (p : Coeffs), p = object ref → p.length = 2 ^ k →
      (ask ref p ch.x).object = object ref ∧ ClaimTrue (ask ref p ch.x) ∧
      (ask ref p ch.x).object.length = 2 ^ k ∧ ∃ j' : Int, (ask ref p ch.x).point = ch.x * pk.domain.omega ^ j' := by
    intro ref p hp hl
    exact ⟨hp, evalPolynomial_eq _ _, hl, 0, by simp [ask]⟩
  have getD_of : ∀ {α : Type} {l : List α} {i : Nat} {a : α} (z : α), l[i]? = some a → a = l.getD i z := by
    intro α l i a z h
    rw [List.getD_eq_getElem?_getD, h, Option.getD_some]
  unfold proverQueries at hq
  dsimp only at hq
  obtain ⟨advP, p1, hq⟩ := bind_ok.1 hq
  obtain ⟨fxP, p2, hq⟩ := bind_ok.1 hq
  obtain rfl := Except.ok.inj hq
  intro q hq
  simp only [List.mem_append] at hq
  rcases hq with (((((hq | hq | hq) | hq) | hq) | hq) | hq)
  · obtain ⟨a, -, ha⟩ := mapM_mem p1 q hq
    obtain ⟨p, hp, ha⟩ := bind_ok.1 ha
    obtain rfl := Except.ok.inj ha
    have := at_some hp
    exact main _ _ _ (getD_of [] this) (l1 _ (List.mem_of_getElem? this))
  · obtain ⟨⟨p, i⟩, hp, hq⟩ := List.mem_flatMap.1 hq
    rw [List.mem_zipIdx_iff_getElem?] at hp
    simp only [List.mem_cons, List.not_mem_nil, or_false] at hq
    rcases hq with rfl | rfl
    · exact main0 _ _ (getD_of [] hp) (l3 _ (List.mem_of_getElem? hp))
    · exact main _ _ _ (getD_of [] hp) (l3 _ (List.mem_of_getElem? hp))
  · obtain ⟨⟨p, i⟩, hp, rfl⟩ := List.mem_map.1 hq
    have hp := List.mem_reverse.1 (List.mem_of_mem_drop hp)
    rw [List.mem_zipIdx_iff_getElem?] at hp
    exact main _ _ _ (getD_of [] hp) (l3 _ (List.mem_of_getElem? hp))
  · obtain ⟨⟨⟨⟨a, s⟩, z⟩, i⟩, hp, hq⟩ := List.mem_flatMap.1 hq
    rw [List.mem_zipIdx_iff_getElem?] at hp
    dsimp only at hp
    rw [List.getElem?_zip_eq_some] at hp
    obtain ⟨h1, h2⟩ := hp
    dsimp only at h1 h2
    have m1 := l2 _ (List.mem_of_getElem? h1)
    have m2 := l4 _ (List.mem_of_getElem? h2)
    have o1 := getD_of ([], []) h1
    have o2 := getD_of [] h2
    have o3 : a = object (.permutedInput i) := by show a = (com.permuted.getD i ([], [])).1; rw [← o1]
    have o4 : s = object (.permutedTable i) := by show s = (com.permuted.getD i ([], [])).2; rw [← o1]
    simp only [List.mem_cons, List.not_mem_nil, or_false] at hq
    rcases hq with rfl | rfl | rfl | rfl | rfl
    · exact main0 _ _ o2 m2
    · exact main0 _ _ o3 m1.1
    · exact main0 _ _ o4 m1.2
    · exact main _ _ _ o3 m1.1
    · exact main _ _ _ o2 m2
  · obtain ⟨a, -, ha⟩ := mapM_mem p2 q hq
    obtain ⟨p, hp, ha⟩ := bind_ok.1 ha
    obtain rfl := Except.ok.inj ha
    have := at_some hp
    exact main _ _ _ (getD_of [] this) (l7 _ (List.mem_of_getElem? this))
  · obtain ⟨⟨p, i⟩, hp, rfl⟩ := List.mem_map.1 hq
    rw [List.mem_zipIdx_iff_getElem?] at hp
    exact main0 _ _ (getD_of [] hp) (l8 _ (List.mem_of_getElem? hp))
  · simp only [List.mem_cons, List.not_mem_nil, or_false] at hq
    rcases hq with rfl | rfl
    · exact main0 _ _ rfl l6
    · exact main0 _ _ rfl l5

end main

end Verif.Transcript

import Verif.Spec.Messages
import Verif.Lemmas.ProveClaims
import Verif.Lemmas.ShplonkSound

/-! The queries of the verifier, for a prover that commits to polynomials. -/

namespace Verif.Transcript

open Plonk Spec PlonkProver Shplonk

/-- A combination of polynomials is a polynomial. -/
theorem combination_exists (N : Nat) (ts : List (Fr × Poly)) (h : ∀ t ∈ ts, t.2.length ≤ N) :
    ∃ p : Poly, p.length = N ∧ ∀ z, polyAt p z = (ts.map fun t => t.1 * polyAt t.2 z).sum := by
  induction ts with
  | nil =>
    refine ⟨List.replicate N 0, by simp, fun z => ?_⟩
    rw [show List.replicate N (0 : Fr) = (List.range N).map (fun _ => 0) by simp, polyAt_map_zero _ _ _ (fun _ _ => rfl)]
    rfl
  | cons t ts ih =>
    obtain ⟨p, hp, hz⟩ := ih fun t ht => h t (by simp [ht])
    refine ⟨p.zipIdx.map fun (q : Fr × Nat) => q.1 + t.1 * t.2.getD q.2 0, by simp [hp], fun z => ?_⟩
    rw [polyAt_zipIdx p t.2 (fun a b => a + t.1 * b) z (by rw [hp]; exact h t (by simp)) t.1 (fun _ _ => rfl),
      hz, List.map_cons, List.sum_cons, add_comm]

theorem combinePieces_mem {C : Type} {xn : Fr} {pieces : List C} {t : Fr × C} (h : t ∈ combinePieces xn pieces) :
    t.2 ∈ pieces := by
  unfold combinePieces at h
  rw [← List.mem_reverse]
  generalize pieces.reverse = l at h
  suffices ∀ (l : List C) (acc : List (Fr × C)), t ∈ l.foldl (fun acc c => acc.map (fun (t : Fr × C) =>
      (t.1 * xn, t.2)) ++ [(1, c)]) acc → t.2 ∈ l ∨ ∃ t' ∈ acc, t'.2 = t.2 by
    rcases this l [] h with h | ⟨t', ht', -⟩
    · exact h
    · simp at ht'
  intro l
  induction l with
  | nil => intro acc h; exact .inr ⟨t, h, rfl⟩
  | cons c l ih =>
    intro acc h
    rw [List.foldl_cons] at h
    rcases ih _ h with h | ⟨t', ht', he⟩
    · exact .inl (by simp [h])
    · rw [List.mem_append, List.mem_map, List.mem_singleton] at ht'
      rcases ht' with ⟨t'', h1, rfl⟩ | rfl
      · exact .inr ⟨t'', h1, he⟩
      · exact .inl (by simp [← he])

theorem zipIdx_idxOf {α : Type} [BEq α] [LawfulBEq α] {l : List α} (hn : l.Nodup) {a : α} {j : Nat}
    (h : (a, j) ∈ l.zipIdx) : l.idxOf a = j := by
  rw [List.mem_zipIdx_iff_getElem?] at h
  obtain ⟨hj, he⟩ := List.getElem?_eq_some_iff.1 h
  dsimp only at hj he
  rw [← he]
  exact hn.idxOf_getElem j hj

section

variable {key : Key Poly} {com : Commitments Poly} {ch : Challenges} {e : Evals} {n k N : Nat}
  {instances : List (List Fr)} {h : Coeffs} {Q : List (Query (Ref × Coeffs))}

/-- The polynomial a reference stands for; `h` is the combined quotient. -/
def objectOf (key : Key Poly) (com : Commitments Poly) (h : Poly) : Ref → Poly
  | .advice i => com.advice.getD i []
  | .product i => com.products.getD i []
  | .permutedInput i => (com.permuted.getD i ([], [])).1
  | .permutedTable i => (com.permuted.getD i ([], [])).2
  | .lookupProduct i => com.lookupProducts.getD i []
  | .fixed i => key.fixed.getD i []
  | .sigma i => key.sigma.getD i []
  | .quotient => h
  | .random => com.random

/-- The value claimed for a reference at a rotation. -/
def claimedOf (cs : CS) (e : Evals) (expected : Fr) : Ref → Int → Fr
  | .advice i, r => e.advice.getD (cs.adviceQueries.idxOf (i, r)) 0
  | .product i, r =>
    let s := e.sets.getD i ⟨0, 0, none⟩
    if r = 0 then s.product else if r = 1 then s.next else s.last.getD 0
  | .permutedInput i, r =>
    let l := e.lookups.getD i ⟨0, 0, 0, 0, 0⟩
    if r = 0 then l.input else l.inputInv
  | .permutedTable i, _ => (e.lookups.getD i ⟨0, 0, 0, 0, 0⟩).table
  | .lookupProduct i, r =>
    let l := e.lookups.getD i ⟨0, 0, 0, 0, 0⟩
    if r = 0 then l.product else l.next
  | .fixed i, r => e.fixed.getD (cs.fixedQueries.idxOf (i, r)) 0
  | .sigma i, _ => e.sigma.getD i 0
  | .quotient, _ => expected
  | .random, _ => e.random

/-- Every query is about what its reference stands for, at a rotation of `x`; the value depends on the
reference and the rotation only. -/
theorem queries_form (hd : IsDomain key.domain key.cs.degree k)
    (n1 : key.cs.adviceQueries.Nodup) (n2 : key.cs.fixedQueries.Nodup)
    (hc : claims (Ref.ofKey key) n instances (Ref.ofCommitments com) ch e = .ok Q) :
    ∃ expected, ∀ q ∈ Q.map (polyClaim h), q.object = objectOf key com h q.ref ∧
      ∃ r : Int, (r = 0 ∨ r = 1 ∨ r = -1 ∨ r = -((key.cs.blindingFactors + 1 : Nat) : Int) ∨
          ∃ c, (c, r) ∈ key.cs.adviceQueries ++ key.cs.fixedQueries) ∧
        q.point = ch.x * key.domain.omega ^ r ∧ q.value = claimedOf key.cs e expected q.ref r := by
  obtain ⟨advQ, permQ, fxQ, v, q1, q2, q3, rfl⟩ := claims_split hc
  refine ⟨v, ?_⟩
  have getD_of : ∀ {α : Type} {l : List α} {i : Nat} {a : α} (z : α), l[i]? = some a → a = l.getD i z := by
    intro α l i a z h
    rw [List.getD_eq_getElem?_getD, h, Option.getD_some]
  have hcol : ∀ {qs : List (Nat × Int)} (tag : Nat → Ref) {coms : List Poly} {ev : List Fr}
      {Q : List (Query (Ref × Coeffs))}, qs.Nodup → columnQueries key.domain ch.x qs (Ref.number tag coms) ev = .ok Q →
      ∀ q ∈ Q, ∃ c r, (c, r) ∈ qs ∧ polyClaim h q = ⟨tag c, coms.getD c [], ch.x * key.domain.omega ^ r,
        ev.getD (qs.idxOf (c, r)) 0⟩ := by
    intro qs tag coms ev Q hn hq q hmem
    unfold columnQueries at hq
    obtain ⟨⟨⟨c, r⟩, j⟩, hj, ha⟩ := mapM_mem hq q hmem
    obtain ⟨p, hp, ha⟩ := bind_ok.1 ha
    obtain ⟨w, hw, ha⟩ := bind_ok.1 ha
    obtain rfl := Except.ok.inj ha
    obtain ⟨t1, t2⟩ := at_number hp
    have hmem' : (c, r) ∈ qs := by
      rw [List.mem_zipIdx_iff_getElem?] at hj
      exact List.mem_of_getElem? hj
    refine ⟨c, r, hmem', ?_⟩
    rw [zipIdx_idxOf hn hj, ← getD_of 0 (at_some hw), ← getD_of [] (at_some t2), ← hd.rotateOmega_eq, ← t1]
    rfl
  have bridge : ∀ (q : Claim Ref Coeffs) (ref : Ref) (r : Int),
      q = ⟨ref, objectOf key com h ref, ch.x * key.domain.omega ^ r, claimedOf key.cs e v ref r⟩ →
      (r = 0 ∨ r = 1 ∨ r = -1 ∨ r = -((key.cs.blindingFactors + 1 : Nat) : Int) ∨
          ∃ c, (c, r) ∈ key.cs.adviceQueries ++ key.cs.fixedQueries) →
      q.object = objectOf key com h q.ref ∧
      ∃ r : Int, (r = 0 ∨ r = 1 ∨ r = -1 ∨ r = -((key.cs.blindingFactors + 1 : Nat) : Int) ∨
          ∃ c, (c, r) ∈ key.cs.adviceQueries ++ key.cs.fixedQueries) ∧
        q.point = ch.x * key.domain.omega ^ r ∧ q.value = claimedOf key.cs e v q.ref r := by
    rintro q ref r rfl hr
    exact ⟨rfl, r, hr, rfl, rfl⟩
  have x0 : ch.x = ch.x * key.domain.omega ^ (0 : Int) := by simp
  have bf0 : (-((key.cs.blindingFactors + 1 : Nat) : Int)) ≠ 0 := by omega
  have bf1 : (-((key.cs.blindingFactors + 1 : Nat) : Int)) ≠ 1 := by omega
  intro q' hq'
  obtain ⟨q, hq, rfl⟩ := List.mem_map.1 hq'
  rw [List.mem_append, List.mem_append, List.mem_append, List.mem_append, List.mem_append] at hq
  rcases hq with ((((hq | hq) | hq) | hq) | hq) | hq
  · obtain ⟨c, r, hr, he⟩ := hcol .advice n1 q1 q hq
    exact bridge _ (.advice c) r he (.inr (.inr (.inr (.inr ⟨c, by simp [hr]⟩))))
  · -- the permutation
    have z : ∀ (p : (Ref × Poly) × SetEval), p ∈ (Ref.ofCommitments com).products.zip e.sets →
        ∃ i, p.1.1 = Ref.product i ∧ p.1.2 = com.products.getD i [] ∧ p.2 = e.sets.getD i ⟨0, 0, none⟩ := by
      intro p hp
      obtain ⟨i, hi, rfl⟩ := List.getElem_of_mem hp
      refine ⟨i, ?_, ?_, ?_⟩
      · simp [Ref.ofCommitments, Ref.number]
      · have : i < com.products.length := by
          simp [Ref.ofCommitments, Ref.number] at hi
          omega
        simp [Ref.ofCommitments, Ref.number, List.getD_eq_getElem?_getD, this]
      · have : i < e.sets.length := by
          simp [Ref.ofCommitments, Ref.number] at hi
          omega
        simp [List.getD_eq_getElem?_getD, this]
    unfold permQueries at q2
    obtain ⟨lasts, h5, h4⟩ := bind_ok.1 q2
    obtain rfl := Except.ok.inj h4
    rcases List.mem_append.1 hq with hq | hq
    · obtain ⟨⟨⟨ref, p⟩, s⟩, hp, hq⟩ := List.mem_flatMap.1 hq
      obtain ⟨i, a1, a2, a3⟩ := z _ hp
      dsimp only at a1 a2 a3
      subst a1 a2
      simp only [List.mem_cons, List.not_mem_nil, or_false] at hq
      rcases hq with rfl | rfl
      · refine bridge _ (.product i) 0 ?_ (.inl rfl)
        rw [← x0]
        show _ = (⟨_, _, _, _⟩ : Claim Ref Coeffs)
        simp only [polyClaim, claimedOf, objectOf, ← a3, if_pos]
      · refine bridge _ (.product i) 1 ?_ (.inr (.inl rfl))
        simp only [polyClaim, claimedOf, objectOf, ← a3, if_pos, if_neg one_ne_zero]
        rw [← hd.rotateOmega_eq]
        rfl
    · obtain ⟨⟨⟨ref, p⟩, s⟩, hp, ha⟩ := mapM_mem h5 _ hq
      obtain ⟨i, a1, a2, a3⟩ := z _ (List.mem_reverse.1 (List.mem_of_mem_drop hp))
      dsimp only at a1 a2 a3 ha
      subst a1 a2
      split at ha
      · exact absurd ha (by simp)
      · next w hw =>
        obtain rfl := Except.ok.inj ha
        refine bridge _ (.product i) (-((key.cs.blindingFactors + 1 : Nat) : Int)) ?_ (.inr (.inr (.inr (.inl rfl))))
        simp only [polyClaim, claimedOf, objectOf, ← a3, if_neg bf0, if_neg bf1]
        rw [← hd.rotateOmega_eq, hw]
        rfl
  · -- the lookups
    obtain ⟨⟨⟨⟨⟨r1, p1⟩, r2, p2⟩, r3, p3⟩, l⟩, hp, hq⟩ := List.mem_flatMap.1 hq
    obtain ⟨i, hi, he⟩ := List.getElem_of_mem hp
    have hi' := hi
    simp only [Ref.ofCommitments, Ref.number, List.length_zip, List.length_map, List.length_zipIdx] at hi'
    have i1 : i < com.permuted.length := by omega
    have i2 : i < com.lookupProducts.length := by omega
    have i3 : i < e.lookups.length := by omega
    simp only [List.getElem_zip, Ref.ofCommitments, Ref.number, List.getElem_map, List.getElem_zipIdx, Nat.zero_add,
      Prod.mk.injEq] at he
    obtain ⟨⟨⟨⟨rfl, rfl⟩, rfl, rfl⟩, rfl, rfl⟩, rfl⟩ := he
    have o1 : com.permuted[i] = com.permuted.getD i ([], []) := getD_of _ (List.getElem?_eq_getElem i1)
    have o2 : com.lookupProducts[i] = com.lookupProducts.getD i [] := getD_of _ (List.getElem?_eq_getElem i2)
    have o3 : e.lookups[i] = e.lookups.getD i ⟨0, 0, 0, 0, 0⟩ := getD_of _ (List.getElem?_eq_getElem i3)
    have m1 : (-1 : Int) ≠ 0 := by decide
    rw [o1, o2, o3] at hq
    simp only [lookupQueries, List.mem_cons, List.not_mem_nil, or_false] at hq
    rcases hq with rfl | rfl | rfl | rfl | rfl
    · refine bridge _ (.lookupProduct i) 0 ?_ (.inl rfl)
      simp only [polyClaim, claimedOf, objectOf, if_pos]
      rw [← x0]
    · refine bridge _ (.permutedInput i) 0 ?_ (.inl rfl)
      simp only [polyClaim, claimedOf, objectOf, if_pos]
      rw [← x0]
    · refine bridge _ (.permutedTable i) 0 ?_ (.inl rfl)
      simp only [polyClaim, claimedOf, objectOf]
      rw [← x0]
    · refine bridge _ (.permutedInput i) (-1) ?_ (.inr (.inr (.inl rfl)))
      simp only [polyClaim, claimedOf, objectOf, if_neg m1]
      rw [← hd.rotateOmega_eq]
      rfl
    · refine bridge _ (.lookupProduct i) 1 ?_ (.inr (.inl rfl))
      simp only [polyClaim, claimedOf, objectOf, if_neg one_ne_zero]
      rw [← hd.rotateOmega_eq]
      rfl
  · obtain ⟨c, r, hr, he⟩ := hcol .fixed n2 q3 q hq
    exact bridge _ (.fixed c) r he (.inr (.inr (.inr (.inr ⟨c, by simp [hr]⟩))))
  · obtain ⟨⟨⟨ref, p⟩, w⟩, hp, rfl⟩ := List.mem_map.1 hq
    obtain ⟨i, hi, he⟩ := List.getElem_of_mem hp
    have hi' := hi
    simp only [Ref.ofKey, Ref.number, List.length_zip, List.length_map, List.length_zipIdx] at hi'
    have i1 : i < key.sigma.length := by omega
    have i2 : i < e.sigma.length := by omega
    simp only [List.getElem_zip, Ref.ofKey, Ref.number, List.getElem_map, List.getElem_zipIdx, Nat.zero_add,
      Prod.mk.injEq] at he
    obtain ⟨⟨rfl, rfl⟩, rfl⟩ := he
    refine bridge _ (.sigma i) 0 ?_ (.inl rfl)
    simp only [polyClaim, claimedOf, objectOf]
    rw [← x0, ← getD_of [] (List.getElem?_eq_getElem i1), ← getD_of 0 (List.getElem?_eq_getElem i2)]
  · simp only [List.mem_cons, List.not_mem_nil, or_false] at hq
    rcases hq with rfl | rfl
    · refine bridge _ .quotient 0 ?_ (.inl rfl)
      rw [← x0]
      rfl
    · refine bridge _ .random 0 ?_ (.inl rfl)
      rw [← x0]
      rfl

/-- No polynomial of a proof has more than `N` coefficients. -/
structure Small (N : Nat) (key : Key Poly) (com : Commitments Poly) : Prop where
  fixed : ∀ p ∈ key.fixed, p.length ≤ N
  sigma : ∀ p ∈ key.sigma, p.length ≤ N
  advice : ∀ p ∈ com.advice, p.length ≤ N
  permuted : ∀ p ∈ com.permuted, p.1.length ≤ N ∧ p.2.length ≤ N
  products : ∀ p ∈ com.products, p.length ≤ N
  lookupProducts : ∀ p ∈ com.lookupProducts, p.length ≤ N
  random : com.random.length ≤ N
  pieces : ∀ p ∈ com.pieces, p.length ≤ N

theorem objectOf_small (hs : Small N key com) (hh : h.length ≤ N) (ref : Ref) : (objectOf key com h ref).length ≤ N := by
  have g : ∀ {l : List Poly} (i : Nat), (∀ p ∈ l, p.length ≤ N) → (l.getD i []).length ≤ N := by
    intro l i hl
    by_cases hi : i < l.length
    · rw [List.getD_eq_getElem?_getD, List.getElem?_eq_getElem hi, Option.getD_some]
      exact hl _ (List.getElem_mem hi)
    · rw [List.getD_eq_getElem?_getD, List.getElem?_eq_none (by omega)]
      simp
  have g' : ∀ (i : Nat), (com.permuted.getD i ([], [])).1.length ≤ N ∧ (com.permuted.getD i ([], [])).2.length ≤ N := by
    intro i
    by_cases hi : i < com.permuted.length
    · rw [List.getD_eq_getElem?_getD, List.getElem?_eq_getElem hi, Option.getD_some]
      exact hs.permuted _ (List.getElem_mem hi)
    · rw [List.getD_eq_getElem?_getD, List.getElem?_eq_none (by omega)]
      simp
  cases ref with
  | advice i => exact g i hs.advice
  | product i => exact g i hs.products
  | permutedInput i => exact (g' i).1
  | permutedTable i => exact (g' i).2
  | lookupProduct i => exact g i hs.lookupProducts
  | fixed i => exact g i hs.fixed
  | sigma i => exact g i hs.sigma
  | quotient => exact hh
  | random => exact hs.random

/-- The number of queries for a key. -/
def queryCount (cs : CS) : Nat :=
  cs.adviceQueries.length + 3 * (chunks (cs.degree - 2) cs.permutation).length + 5 * cs.lookups.length +
    cs.fixedQueries.length + cs.permutation.length + 2

theorem queries_count {C : Type} {key : Key C} {com : Commitments C} {Q : List (Query C)} (hs : Shaped key com e)
    (hc : claims key n instances com ch e = .ok Q) : Q.length ≤ queryCount key.cs := by
  obtain ⟨advQ, permQ, fxQ, v, q1, q2, q3, rfl⟩ := claims_split hc
  have hcol : ∀ {d : Domain} {x : Fr} {qs : List (Nat × Int)} {coms : List C} {ev : List Fr} {Q : List (Query C)},
      columnQueries d x qs coms ev = .ok Q → Q.length = qs.length := by
    intro d x qs coms ev Q h
    unfold columnQueries at h
    rw [← (mapM_forall₂ _ h).length_eq, List.length_zipIdx]
  unfold permQueries at q2
  obtain ⟨lasts, h5, h4⟩ := bind_ok.1 q2
  obtain rfl := Except.ok.inj h4
  have h5 := (mapM_forall₂ _ h5).length_eq
  have f1 : ∀ (l : List (C × SetEval)) (f g : C × SetEval → Query C), (l.flatMap fun s => [f s, g s]).length = 2 * l.length := by
    intro l f g
    induction l with
    | nil => rfl
    | cons a l ih => rw [List.flatMap_cons, List.length_append, ih, List.length_cons]; simp; omega
  have f2 : ∀ (l : List (((C × C) × C) × LookupEval)), (l.flatMap fun p =>
      lookupQueries key.domain ch.x p.1.1 p.1.2 p.2).length = 5 * l.length := by
    intro l
    induction l with
    | nil => rfl
    | cons a l ih => rw [List.flatMap_cons, List.length_append, ih, List.length_cons]; simp [lookupQueries]; omega
  simp only [List.length_append, f1, f2, List.length_map, List.length_zip, List.length_cons, List.length_nil,
    hcol q1, hcol q3, hs.sets, hs.products, hs.permuted, hs.lookupProducts, hs.lookups, hs.sigma, hs.sigmaColumns,
    Nat.min_self, List.length_drop, List.length_reverse] at h5 ⊢
  unfold queryCount
  omega

theorem shaped_map {C D : Type} {f : C → D} {key : Key C} {com : Commitments C} {e : Evals}
    (h : Shaped (mapKey f key) (mapCommitments f com) e) : Shaped key com e := by
  obtain ⟨h1, h2, h3, h4, h5, h6, h7, h8, h9, h10, h11, h12, h13⟩ := h
  simp only [mapKey, mapCommitments, List.length_map] at *
  exact ⟨h1, h2, h3, h4, h5, h6, h7, h8, h9, h10, h11, h12, h13⟩

variable {G G₂ GT : Type} [AddCommGroup G] [Module Fr G]
variable [AddCommGroup G₂] [Module Fr G₂] [AddCommGroup GT] [Module Fr GT] [DecidableEq GT]

theorem msm_sum (s : Fr) (g : G) (ts : List (Fr × Poly)) :
    (ts.map fun t => t.1 • commitTo s g t.2).sum = ((ts.map fun t => t.1 * polyAt t.2 s).sum) • g := by
  induction ts with
  | nil => simp
  | cons t ts ih => rw [List.map_cons, List.sum_cons, ih, List.map_cons, List.sum_cons, add_smul, commitTo, smul_smul]

/-- If the queries are not all true, the verifier accepts only by chance. -/
theorem passes_sound (hd : IsDomain key.domain key.cs.degree k)
    (n1 : key.cs.adviceQueries.Nodup) (n2 : key.cs.fixedQueries.Nodup)
    (w1 w2 : Nat) (hw1 : key.cs.blindingFactors + 1 ≤ w1) (hw2 : 1 ≤ w2) (hw : w1 + w2 < 2 ^ k)
    (hrot : ∀ q ∈ key.cs.adviceQueries ++ key.cs.fixedQueries, -(w1 : Int) ≤ q.2 ∧ q.2 ≤ w2)
    (hx : ch.x ≠ 0) (hs : Small N key com)
    (hnot : ¬ ∃ queries, Shaped key com e ∧ claims key n instances com ch e = .ok queries ∧ ∀ q ∈ queries, Spec.Holds q)
    (h1 : Fr → Fr → Poly) (l1 : ∀ y v, (h1 y v).length ≤ N)
    (h2 : Fr → Fr → Fr → Poly) (l2 : ∀ y v u, (h2 y v u).length ≤ N) :
    ∃ (By : Finset Fr) (Bv : Fr → Finset Fr) (Bu : Fr → Fr → Finset Fr) (Bs : Fr → Fr → Fr → Finset Fr),
      By.card ≤ queryCount key.cs ∧ (∀ y, (Bv y).card ≤ queryCount key.cs) ∧
      (∀ y v, (Bu y v).card ≤ queryCount key.cs + N) ∧ (∀ y v u, (Bs y v u).card ≤ N) ∧
      ∀ y v u s, ∀ (pairing : G →ₗ[Fr] G₂ →ₗ[Fr] GT) (g : G) (g2 : G₂), pairing g g2 ≠ 0 →
        Passes pairing ⟨n, g, g2, s • g2⟩ (mapKey (commitTo s g) key) instances
          (mapCommitments (commitTo s g) com) ch e y v (commitTo s g (h1 y v)) u (commitTo s g (h2 y v u)) →
        y ∈ By ∨ v ∈ Bv y ∨ u ∈ Bu y v ∨ s ∈ Bs y v u := by
  by_cases hgood : Shaped key com e ∧ ∃ Q, claims (Ref.ofKey key) n instances (Ref.ofCommitments com) ch e = .ok Q
  · obtain ⟨hsh, Q, hQ⟩ := hgood
    obtain ⟨h, hl, hv⟩ := combination_exists N (combinePieces (ch.x ^ n) com.pieces)
      (fun t ht => hs.pieces _ (combinePieces_mem ht))
    obtain ⟨expected, form⟩ := queries_form (h := h) hd n1 n2 hQ
    have hmap : ∀ {D : Type} (f : Poly → D), claims (Ref.ofKey (mapKey f key)) n instances
        (Ref.ofCommitments (mapCommitments f com)) ch e = .ok (Q.map (mapQuery fun p => (p.1, f p.2))) := by
      intro D f
      rw [ofKey_map, ofCommitments_map, claims_map, hQ]
      rfl
    have hplain : claims key n instances com ch e = .ok (Q.map (mapQuery Prod.snd)) := by
      have := claims_map Prod.snd (Ref.ofKey key) n instances (Ref.ofCommitments com) ch e
      rw [mapKey_ofKey, mapCommitments_ofCommitments, hQ] at this
      exact this
    have hms : ∀ ts x v, (⟨.msm ts, x, v⟩ : Query (Ref × Coeffs)) ∈ Q →
        ts.map (fun t => (t.1, t.2.2)) = combinePieces (ch.x ^ n) com.pieces := by
      intro ts x v hq
      rw [(claims_msm hQ hq).1, ← combinePieces_map]
      congr 1
      simp [Ref.ofCommitments, Function.comp_def]
    have hcount : (Q.map (polyClaim h)).length ≤ queryCount key.cs := by
      have := queries_count hsh hplain
      rwa [List.length_map] at this ⊢
    have hfalse : ∃ q ∈ Q.map (polyClaim h), ¬ ClaimTrue q := by
      by_contra hall
      push Not at hall
      refine hnot ⟨_, hsh, hplain, fun q' hq' => ?_⟩
      obtain ⟨q, hq, rfl⟩ := List.mem_map.1 hq'
      have ht := hall _ (List.mem_map_of_mem hq)
      obtain ⟨c, x, v⟩ := q
      cases c with
      | point c => exact ht.symm
      | msm ts =>
        have e1 := hms ts x v hq
        show ((ts.map fun t => (t.1, t.2.2)).map fun t => t.1 * polyAt t.2 x).sum = v
        rw [e1, ← hv]
        exact ht.symm
    have hcons : Consistent (Q.map (polyClaim h)) := by
      intro q hq q' hq' he
      rw [(form q hq).1, (form q' hq').1, he]
    have hfun : Functional (Q.map (polyClaim h)) := by
      intro q hq q' hq' he hp
      obtain ⟨-, r, hr, e1, e2⟩ := form q hq
      obtain ⟨-, r', hr', e1', e2'⟩ := form q' hq'
      have range : ∀ r : Int, (r = 0 ∨ r = 1 ∨ r = -1 ∨ r = -((key.cs.blindingFactors + 1 : Nat) : Int) ∨
          ∃ c, (c, r) ∈ key.cs.adviceQueries ++ key.cs.fixedQueries) → -(w1 : Int) ≤ r ∧ r ≤ w2 := by
        rintro r (hr | hr | hr | hr | ⟨c, hr⟩)
        · omega
        · omega
        · omega
        · omega
        · exact hrot _ hr
      have b := range r hr
      have b' := range r' hr'
      rw [e1, e1'] at hp
      have hp := mul_left_cancel₀ hx hp
      have hom : key.domain.omega ≠ 0 := hd.omega.ne_zero (by positivity)
      have : key.domain.omega ^ (r - r') = 1 := by
        rw [zpow_sub₀ hom, hp, div_self (zpow_ne_zero _ hom)]
      rw [hd.omega.zpow_eq_one_iff_dvd] at this
      have hrr : r - r' = 0 := by
        apply Int.eq_zero_of_abs_lt_dvd this
        rw [abs_lt]
        have : ((2 ^ k : Nat) : Int) > w1 + w2 := by exact_mod_cast hw
        constructor <;> omega
      have : r = r' := by omega
      rw [e2, e2', he, this]
    obtain ⟨By, Bv, Bu, Bs, c1, c2, c3, c4, c5⟩ := open_sound (G := G) (G₂ := G₂) (GT := GT) hfalse hcons hfun (N := N)
      (fun q hq => by rw [(form q hq).1]; exact objectOf_small hs (by omega) _)
      ((Q.map (polyClaim h)).map Claim.point) (fun q hq => List.mem_map_of_mem hq) h1 l1 h2 l2
    refine ⟨By, Bv, Bu, Bs, by omega, fun y => by have := c2 y; omega, fun y v => ?_, c4, ?_⟩
    · have := c3 y v
      rw [List.length_map] at this
      omega
    · intro y v u s pairing g g2 hp hpass
      obtain ⟨-, queries, hq, hacc⟩ := hpass
      have hq' := hmap (commitTo s g)
      rw [hq] at hq'
      obtain rfl := Except.ok.inj hq'
      refine c5 y v u s pairing g g2 hp _ ?_ hacc
      rw [List.map_map, List.forall₂_map_left_iff, List.forall₂_map_right_iff, List.forall₂_same]
      intro q hq
      obtain ⟨c, x, w⟩ := q
      cases c with
      | point c => exact ⟨rfl, rfl, rfl, rfl⟩
      | msm ts =>
        refine ⟨rfl, rfl, rfl, ?_⟩
        have e1 := hms ts x w hq
        show (((ts.map fun t => (t.1, (t.2.1, commitTo s g t.2.2))).map fun t => (t.1, t.2.2)).map
          fun t => t.1 • t.2).sum = polyAt h s • g
        rw [hv, ← e1, ← msm_sum, List.map_map, List.map_map, List.map_map]
        rfl
  · refine ⟨∅, fun _ => ∅, fun _ _ => ∅, fun _ _ _ => ∅, by simp, by simp, by simp, by simp, ?_⟩
    intro y v u s pairing g g2 _ hpass
    obtain ⟨hsh, queries, hq, -⟩ := hpass
    refine absurd ⟨shaped_map hsh, ?_⟩ hgood
    rw [ofKey_map, ofCommitments_map, claims_map] at hq
    cases hQ : claims (Ref.ofKey key) n instances (Ref.ofCommitments com) ch e with
    | error e' => rw [hQ] at hq; cases hq
    | ok Q => exact ⟨Q, rfl⟩

end

end Verif.Transcript

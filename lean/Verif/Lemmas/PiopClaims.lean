import Verif.Lemmas.PiopOpened
import Verif.Lemmas.CompressCS

/-! What true claims say about the committed polynomials. -/

namespace Verif.Plonk

open Finset Polynomial Spec

theorem at_ok {α : Type} {l : List α} {i : Nat} (h : i < l.length) (x : α) :
    at_ l i = .ok (l.getD i x) := by
  unfold at_
  rw [List.getD_eq_getElem?_getD, List.getElem?_eq_getElem h]
  rfl

theorem at_getElem {α : Type} {l : List α} {i : Nat} (h : i < l.length) : at_ l i = .ok l[i] := by
  unfold at_
  rw [List.getElem?_eq_getElem h]

/-- The queries of columns. -/
theorem columnQueries_ok (d : Domain) (x : Fr) (qs : List (Nat × Int)) (coms : List Poly) (evals : List Fr)
    (hc : ∀ q ∈ qs, q.1 < coms.length) (hl : evals.length = qs.length) :
    columnQueries d x qs coms evals = .ok ((qs.zip evals).map fun p =>
      ⟨.point (coms.getD p.1.1 []), d.rotateOmega x p.1.2, p.2⟩) := by
  unfold columnQueries
  rw [mapM_congr_ok _ (fun (q : (Nat × Int) × Nat) =>
    (⟨.point (coms.getD q.1.1 []), d.rotateOmega x q.1.2, evals.getD q.2 0⟩ : Query Poly)) _ (by
      intro q hq
      rw [List.mem_zipIdx_iff_getElem?] at hq
      obtain ⟨hq1, hq2⟩ := List.getElem?_eq_some_iff.1 hq
      rw [at_ok (hc q.1 (hq2 ▸ List.getElem_mem _)) [], at_ok (by omega) 0]
      rfl)]
  congr 1
  apply List.ext_getElem
  · simp [hl]
  · intro i h1 h2
    simp only [List.length_map, List.length_zipIdx] at h1
    simp only [List.getElem_map, List.getElem_zipIdx, List.getElem_zip, zero_add,
      List.getD_eq_getElem?_getD, List.getElem?_eq_getElem (show i < evals.length by omega),
      Option.getD_some]

/-- True queries of columns determine the scalars. -/
theorem columnQueries_holds {d : Domain} {j k : Nat} (hd : IsDomain d j k) (x : Fr)
    (qs : List (Nat × Int)) (coms : List Poly) (evals : List Fr) (hl : evals.length = qs.length) :
    (∀ q ∈ (qs.zip evals).map (fun p =>
      (⟨.point (coms.getD p.1.1 []), d.rotateOmega x p.1.2, p.2⟩ : Query Poly)), Holds q) ↔
    evals = qs.map fun q => (scale (d.omega ^ q.2) (pick coms q.1)).eval x := by
  have hv : ∀ q : Nat × Int, polyAt (coms.getD q.1 []) (d.rotateOmega x q.2)
      = (scale (d.omega ^ q.2) (pick coms q.1)).eval x := by
    intro q
    rw [scale_eval, pick_eval, hd.rotateOmega_eq, mul_comm]
  constructor
  · intro h
    apply List.ext_getElem
    · simp [hl]
    · intro i h1 h2
      rw [List.length_map] at h2
      have := h _ (List.mem_map_of_mem (a := (qs[i], evals[i])) (by
        have hz : i < (qs.zip evals).length := by simp; omega
        have := List.getElem_mem hz
        rwa [List.getElem_zip] at this))
      have this : polyAt (coms.getD qs[i].1 []) (d.rotateOmega x qs[i].2) = evals[i] := this
      rw [hv] at this
      rw [List.getElem_map, this]
  · intro h q hq
    rw [List.mem_map] at hq
    obtain ⟨p, hp, rfl⟩ := hq
    show polyAt (coms.getD p.1.1 []) (d.rotateOmega x p.1.2) = p.2
    rw [hv]
    rw [h] at hp
    rw [List.mem_iff_getElem] at hp
    obtain ⟨i, hi, rfl⟩ := hp
    simp only [List.getElem_zip, List.getElem_map]

theorem rotationRange_le (qs : List (Nat × Int)) : ∀ m : Int × Int, m.1 ≤ m.2 →
    let r := qs.foldl (fun (m : Int × Int) q =>
      if q.2 < m.1 then (q.2, m.2) else if q.2 > m.2 then (m.1, q.2) else m) m
    r.1 ≤ m.1 ∧ m.2 ≤ r.2 ∧ ∀ q ∈ qs, r.1 ≤ q.2 ∧ q.2 ≤ r.2 := by
  induction qs with
  | nil => intro m hm; simp
  | cons q qs ih =>
    intro m hm
    dsimp only
    rw [List.foldl_cons]
    have key : ∀ m' : Int × Int, m'.1 ≤ m.1 → m.2 ≤ m'.2 → m'.1 ≤ q.2 → q.2 ≤ m'.2 →
        let r := qs.foldl (fun (m : Int × Int) q =>
          if q.2 < m.1 then (q.2, m.2) else if q.2 > m.2 then (m.1, q.2) else m) m'
        r.1 ≤ m.1 ∧ m.2 ≤ r.2 ∧ ∀ q' ∈ q :: qs, r.1 ≤ q'.2 ∧ q'.2 ≤ r.2 := by
      intro m' h1 h2 h3 h4
      have := ih m' (by omega)
      dsimp only at this ⊢
      refine ⟨by omega, by omega, ?_⟩
      intro q' hq'
      rcases List.mem_cons.1 hq' with rfl | hq'
      · omega
      · exact this.2.2 q' hq'
    split
    · exact key _ (by dsimp only; omega) (by dsimp only; omega) (by dsimp only; omega) (by dsimp only; omega)
    · split
      · exact key _ (by dsimp only; omega) (by dsimp only; omega) (by dsimp only; omega) (by dsimp only; omega)
      · exact key _ (by omega) (by omega) (by omega) (by omega)

theorem maxLen_ge (l : List (List Fr)) (c : List Fr) (h : c ∈ l) :
    c.length ≤ (l.map List.length).foldl max 0 := by
  have key : ∀ (l : List Nat) (a : Nat), a ≤ l.foldl max a ∧ ∀ x ∈ l, x ≤ l.foldl max a := by
    intro l
    induction l with
    | nil => intro a; simp
    | cons b l ih =>
      intro a
      rw [List.foldl_cons]
      have := ih (max a b)
      refine ⟨by omega, ?_⟩
      intro x hx
      rcases List.mem_cons.1 hx with rfl | hx
      · omega
      · exact this.2 x hx
  exact (key _ 0).2 _ (List.mem_map_of_mem h)

theorem innerProduct_ok (a b : List Fr) (h : a.length = b.length) :
    innerProduct a b = .ok (∑ i ∈ range a.length, a.getD i 0 * b.getD i 0) := by
  unfold innerProduct
  rw [if_neg (by omega)]
  have key : ∀ (a b : List Fr) (s : Fr), a.length = b.length →
      (a.zip b).foldl (fun (acc : Fr) p => acc + p.1 * p.2) s
        = s + ∑ i ∈ range a.length, a.getD i 0 * b.getD i 0 := by
    intro a
    induction a with
    | nil => intro b s _; simp
    | cons x a ih =>
      intro b s hb
      cases b with
      | nil => simp at hb
      | cons y b =>
        rw [List.zip_cons_cons, List.foldl_cons, ih b _ (by simpa using hb), List.length_cons,
          sum_range_succ']
        simp only [List.getD_cons_succ, List.getD_cons_zero]
        ring
  rw [key a b 0 h, zero_add]

theorem intRange_length (lo hi : Int) : (intRange lo hi).length = (hi - lo).toNat := by
  simp [intRange]

theorem intRange_getElem (lo hi : Int) (i : Nat) (h : i < (intRange lo hi).length) :
    (intRange lo hi)[i] = lo + (i : Int) := by
  simp [intRange]

variable {L : Int → Fr[X]} {key : Key Poly} {j k : Nat} {instances : List (List Fr)}
  {com : Commitments Poly} {user : List Fr} {theta beta gamma : Fr}

/-- The values of the public inputs. -/
theorem instanceEvals_ok (d : Domain) (cs : CS) (x xn : Fr)
    (hls : ∀ rs : List Int, d.lIRange x xn rs = rs.map fun s => (L s).eval x)
    (hq : ∀ q ∈ cs.instanceQueries, q.1 < instances.length) :
    instanceEvals d cs x xn instances = .ok (cs.instanceQueries.map fun q =>
      (∑ i ∈ range (instances.getD q.1 []).length,
        C ((instances.getD q.1 []).getD i 0) * L ((i : Int) - q.2)).eval x) := by
  unfold instanceEvals
  have hr := rotationRange_le cs.instanceQueries (0, 0) (le_refl _)
  dsimp only at hr
  change (rotationRange cs.instanceQueries).1 ≤ 0 ∧ 0 ≤ (rotationRange cs.instanceQueries).2 ∧
    ∀ q ∈ cs.instanceQueries, (rotationRange cs.instanceQueries).1 ≤ q.2 ∧
      q.2 ≤ (rotationRange cs.instanceQueries).2 at hr
  generalize rotationRange cs.instanceQueries = m at hr
  obtain ⟨minR, maxR⟩ := m
  dsimp only at hr ⊢
  apply mapM_congr_ok
  intro q hqm
  obtain ⟨h1, h2, h3⟩ := hr
  have h3 := h3 q hqm
  have hlen := maxLen_ge instances (instances.getD q.1 []) (by
    rw [List.getD_eq_getElem?_getD, List.getElem?_eq_getElem (hq q hqm)]
    exact List.getElem_mem _)
  rw [at_ok (hq q hqm) []]
  generalize (instances.map List.length).foldl max 0 = maxLen at hlen
  generalize instances.getD q.1 [] = col at hlen
  show innerProduct col _ = _
  have hsl : (slice (d.lIRange x xn (intRange (-maxR) (maxLen + (minR.natAbs : Int)))) (maxR - q.2).toNat
      col.length).length = col.length := by
    unfold slice
    rw [hls, List.length_take, List.length_drop, List.length_map, intRange_length]
    omega
  rw [innerProduct_ok _ _ hsl.symm, eval_finsetSum]
  congr 1
  apply sum_congr rfl
  intro i hi
  rw [mem_range] at hi
  rw [eval_mul, eval_C]
  congr 1
  unfold slice
  rw [hls, List.getD_eq_getElem?_getD, List.getElem?_take, if_pos hi, List.getElem?_drop,
    List.getElem?_map, List.getElem?_eq_getElem (by rw [intRange_length]; omega), intRange_getElem,
    Option.map_some, Option.getD_some]
  congr 2
  omega

/-- The queries of the running products of the permutation. -/
theorem permQueries_ok (d : Domain) (bf : Nat) (x : Fr) (sets : List (Poly × SetEval))
    (hl : ∀ (i : Nat) (h : i < sets.length), i + 1 < sets.length → sets[i].2.last.isSome = true) :
    permQueries d bf x sets = .ok (sets.flatMap (fun s =>
      [⟨.point s.1, x, s.2.product⟩, ⟨.point s.1, d.rotateOmega x 1, s.2.next⟩]) ++
      (sets.reverse.drop 1).map fun s =>
        ⟨.point s.1, d.rotateOmega x (-((bf + 1 : Nat) : Int)), s.2.last.getD 0⟩) := by
  unfold permQueries
  dsimp only
  rw [mapM_congr_ok _ (fun (s : Poly × SetEval) =>
    (⟨.point s.1, d.rotateOmega x (-((bf + 1 : Nat) : Int)), s.2.last.getD 0⟩ : Query Poly)) _ (by
      intro s hs
      rw [List.mem_iff_getElem] at hs
      obtain ⟨i, hi, rfl⟩ := hs
      simp only [List.length_drop, List.length_reverse] at hi
      have := hl (sets.length - 1 - (1 + i)) (by omega) (by omega)
      simp only [List.getElem_drop, List.getElem_reverse]
      generalize sets[sets.length - 1 - (1 + i)] = s at this
      obtain ⟨c, p, n, l⟩ := s
      cases l with
      | none => simp at this
      | some v => rfl)]
  rfl

/-- The value of the combined quotient. -/
theorem combinePieces_value (xn : Fr) (f : Poly → Fr) (pieces : List Poly) :
    ((combinePieces xn pieces).map fun t => t.1 * f t.2).sum
      = ∑ i ∈ range pieces.length, xn ^ i * f (pieces.getD i []) := by
  unfold combinePieces
  induction pieces with
  | nil => simp
  | cons p ps ih =>
    rw [List.reverse_cons, List.foldl_append, List.foldl_cons, List.foldl_nil, List.map_append,
      List.sum_append, List.map_map, List.length_cons, sum_range_succ']
    simp only [List.getD_cons_succ, List.getD_cons_zero, pow_zero, one_mul, List.map_cons, List.map_nil,
      List.sum_cons, List.sum_nil, add_zero]
    congr 1
    have : ∀ l : List (Fr × Poly), (l.map ((fun t => t.1 * f t.2) ∘ fun (t : Fr × Poly) => (t.1 * xn, t.2))).sum
        = xn * (l.map fun t => t.1 * f t.2).sum := by
      intro l
      induction l with
      | nil => simp
      | cons a l ihl =>
        rw [List.map_cons, List.sum_cons, ihl, List.map_cons, List.sum_cons]
        simp only [Function.comp]
        ring
    rw [this, ih, mul_sum]
    apply sum_congr rfl
    intro i _
    rw [pow_succ]
    ring

/-- The queries at the end, once the expressions are known. -/
def queriesOf (key : Key Poly) (n : Nat) (com : Commitments Poly) (ch : Challenges) (e : Evals)
    (exprs : List Fr) : List (Query Poly) :=
  (key.cs.adviceQueries.zip e.advice).map (fun p =>
      ⟨.point (com.advice.getD p.1.1 []), key.domain.rotateOmega ch.x p.1.2, p.2⟩) ++
    ((com.products.zip e.sets).flatMap (fun s =>
      [⟨.point s.1, ch.x, s.2.product⟩, ⟨.point s.1, key.domain.rotateOmega ch.x 1, s.2.next⟩]) ++
      ((com.products.zip e.sets).reverse.drop 1).map fun s =>
        ⟨.point s.1, key.domain.rotateOmega ch.x (-((key.cs.blindingFactors + 1 : Nat) : Int)),
          s.2.last.getD 0⟩) ++
    (((com.permuted.zip com.lookupProducts).zip e.lookups).flatMap fun p =>
      lookupQueries key.domain ch.x p.1.1 p.1.2 p.2) ++
    (key.cs.fixedQueries.zip e.fixed).map (fun p =>
      ⟨.point (key.fixed.getD p.1.1 []), key.domain.rotateOmega ch.x p.1.2, p.2⟩) ++
    ((key.sigma.zip e.sigma).map fun p => ⟨.point p.1, ch.x, p.2⟩) ++
    [⟨.msm (combinePieces (ch.x ^ n) com.pieces), ch.x,
      exprs.foldl (fun acc v => acc * ch.y + v) 0 * (ch.x ^ n - 1)⁻¹⟩,
      ⟨.point com.random, ch.x, e.random⟩]

theorem chunks_length {α : Type} (size : Nat) (l : List α) :
    (chunks size l).length = (l.length + size - 1) / size := by
  simp [chunks]

theorem foldl_sum (l : List Fr) (a : Fr) : l.foldl (fun acc v => acc + v) a = a + l.sum := by
  induction l generalizing a with
  | nil => simp
  | cons b l ih => rw [List.foldl_cons, ih, List.sum_cons, add_assoc]

theorem ok_bind {α β : Type} (a : α) (f : α → Except Panic β) : ((Except.ok a : Except Panic α) >>= f) = f a :=
  rfl

/-- The computation of the verifier, up to the expressions. -/
theorem claims_eq {n : Nat} {ch : Challenges} {e : Evals}
    (hls : ∀ rs : List Int, key.domain.lIRange ch.x (ch.x ^ n) rs = rs.map fun s => (L s).eval ch.x)
    (hx : ch.x ^ n ≠ 1) (hc : Closed key.cs) (hs : Shaped key com e)
    (hi : instances.length = key.cs.numInstance) :
    claims key n instances com ch e =
      (expressions key.cs (key.cs.instanceQueries.map fun q =>
          ((polyOpened L key instances com ch.user ch.theta ch.beta ch.gamma).inst q.1 q.2).eval ch.x) e ch
        ((polyOpened L key instances com ch.user ch.theta ch.beta ch.gamma).l0.eval ch.x)
        ((polyOpened L key instances com ch.user ch.theta ch.beta ch.gamma).lLast.eval ch.x)
        ((polyOpened L key instances com ch.user ch.theta ch.beta ch.gamma).lBlind.eval ch.x)) >>= fun exprs =>
      .ok (queriesOf key n com ch e exprs) := by
  have hset : ∀ (i : Nat) (h : i < (com.products.zip e.sets).length), i + 1 < (com.products.zip e.sets).length →
      (com.products.zip e.sets)[i].2.last.isSome = true := by
    intro i h h'
    simp only [List.length_zip] at h h'
    rw [List.getElem_zip]
    exact (hs.lasts i (by omega)).2 (by omega)
  unfold claims
  dsimp only
  rw [instanceEvals_ok (L := L) _ _ _ _ hls (fun q hq => hi ▸ hc.inst q hq), ok_bind,
    hls, List.length_map, intRange_length, if_neg (by omega),
    at_getElem (show 0 < _ by rw [List.length_map, intRange_length]; omega), ok_bind,
    at_getElem (show 1 + key.cs.blindingFactors < _ by rw [List.length_map, intRange_length]; omega), ok_bind]
  simp only [List.getElem_map, intRange_getElem]
  have e1 : -((key.cs.blindingFactors + 1 : Nat) : Int) + ((0 : Nat) : Int)
      = -((key.cs.blindingFactors + 1 : Nat) : Int) := by omega
  have e2 : -((key.cs.blindingFactors + 1 : Nat) : Int) + ((1 + key.cs.blindingFactors : Nat) : Int) = 0 := by
    omega
  have e3 : List.foldl (fun (acc v : Fr) => acc + v) 0 (slice (List.map (fun s => eval ch.x (L s))
      (intRange (-((key.cs.blindingFactors + 1 : Nat) : Int)) 1)) 1 key.cs.blindingFactors)
      = (polyOpened L key instances com ch.user ch.theta ch.beta ch.gamma).lBlind.eval ch.x := by
    rw [foldl_sum, zero_add]
    show _ = (∑ i ∈ range _, L _).eval ch.x
    rw [eval_finsetSum, Finset.sum_range]
    rw [← List.sum_ofFn]
    congr 1
    apply List.ext_getElem
    · simp only [slice, List.length_take, List.length_drop, List.length_map, intRange_length, List.length_ofFn]
      omega
    · intro i h1 h2
      simp only [slice, List.getElem_take, List.getElem_drop, List.getElem_map, intRange_getElem,
        List.getElem_ofFn]
      rw [Nat.add_comm 1 i]
  rw [e1, e2, e3]
  have hbody : ∀ exprs : List Fr, (if ch.x ^ n - 1 = 0 then Except.error Panic.unwrap else do
      let advice ← columnQueries key.domain ch.x key.cs.adviceQueries com.advice e.advice
      let perm ← permQueries key.domain key.cs.blindingFactors ch.x (com.products.zip e.sets)
      let fixed ← columnQueries key.domain ch.x key.cs.fixedQueries key.fixed e.fixed
      Except.ok (advice ++ perm ++ (((com.permuted.zip com.lookupProducts).zip e.lookups).flatMap fun p =>
          lookupQueries key.domain ch.x p.1.1 p.1.2 p.2) ++ fixed ++
        (key.sigma.zip e.sigma).map (fun p => ⟨.point p.1, ch.x, p.2⟩) ++
        [⟨.msm (combinePieces (ch.x ^ n) com.pieces), ch.x,
          exprs.foldl (fun acc v => acc * ch.y + v) 0 * (ch.x ^ n - 1)⁻¹⟩,
          ⟨.point com.random, ch.x, e.random⟩])) = Except.ok (queriesOf key n com ch e exprs) := by
    intro exprs
    rw [if_neg (show ¬ ch.x ^ n - 1 = 0 from fun h => hx (sub_eq_zero.1 h)),
      columnQueries_ok _ _ _ _ _ (fun q hq => hs.adviceColumns ▸ hc.advice q hq) hs.advice, ok_bind,
      permQueries_ok _ _ _ _ hset, ok_bind,
      columnQueries_ok _ _ _ _ _ (fun q hq => hs.fixedColumns ▸ hc.fixed q hq) hs.fixed, ok_bind]
    rfl
  simp only [hbody]
  rfl

/-- True queries of a list of polynomials at one point. -/
theorem pointwise (coms : List Poly) (evals : List Fr) (x : Fr) (hl : evals.length = coms.length)
    (m : Nat) (hm : coms.length = m) :
    (∀ q ∈ (coms.zip evals).map (fun p => (⟨.point p.1, x, p.2⟩ : Query Poly)), Holds q) ↔
      evals = (List.range m).map fun i => (pick coms i).eval x := by
  constructor
  · intro h
    apply List.ext_getElem
    · simp [hl, hm]
    · intro i h1 h2
      have hz : i < (coms.zip evals).length := by simp; omega
      have := h _ (List.mem_map_of_mem (List.getElem_mem hz))
      rw [List.getElem_zip] at this
      have this : polyAt coms[i] x = evals[i] := this
      rw [List.getElem_map, List.getElem_range, pick_eval, List.getD_eq_getElem?_getD,
        List.getElem?_eq_getElem (by omega), Option.getD_some, this]
  · intro h q hq
    rw [List.mem_map] at hq
    obtain ⟨p, hp, rfl⟩ := hq
    rw [List.mem_iff_getElem] at hp
    obtain ⟨i, hi, rfl⟩ := hp
    simp only [List.length_zip] at hi
    rw [List.getElem_zip]
    show polyAt coms[i] x = evals[i]
    have := congrArg (fun l => l[i]?) h
    simp only [List.getElem?_map, List.getElem?_range (show i < m by omega), Option.map_some,
      List.getElem?_eq_getElem (show i < evals.length by omega), Option.some.injEq] at this
    rw [this, pick_eval, List.getD_eq_getElem?_getD, List.getElem?_eq_getElem (by omega), Option.getD_some]

/-- The queries are true exactly when the scalars are the values of the polynomials and the quotient
fits. -/
theorem queries_hold (hd : IsDomain key.domain j k) {n : Nat} {ch : Challenges} {e : Evals}
    {exprs inst : List Fr} (hx : ch.x ^ n ≠ 1) (hs : Shaped key com e)
    (hu : ch.user.length = key.cs.numChallenges)
    (hinst : inst = key.cs.instanceQueries.map fun q =>
      ((polyOpened L key instances com ch.user ch.theta ch.beta ch.gamma).inst q.1 q.2).eval ch.x) :
    (∀ q ∈ queriesOf key n com ch e exprs, Holds q) ↔
      Matches key.cs inst ch.user e
        ((polyOpened L key instances com ch.user ch.theta ch.beta ch.gamma).map (aeval (R := Fr) ch.x)) ∧
      exprs.foldl (fun acc v => acc * ch.y + v) 0 =
        (∑ i ∈ range com.pieces.length, (ch.x ^ n) ^ i * polyAt (com.pieces.getD i []) ch.x) * (ch.x ^ n - 1) ∧
      polyAt com.random ch.x = e.random := by
  have hw : key.domain.rotateOmega ch.x 1 = key.domain.omega * ch.x := by
    rw [hd.rotateOmega_eq, zpow_one, mul_comm]
  have hne : ch.x ^ n - 1 ≠ 0 := fun h => hx (sub_eq_zero.1 h)
  have hns : e.sets.length = numSets key.cs := by
    rw [hs.sets, hs.products, chunks_length]
    rfl
  have hpl : com.products.length = numSets key.cs := by rw [← hs.sets, hns]
  have hgetp : ∀ i (hi : i < com.products.length), com.products.getD i [] = com.products[i] := by
    intro i hi
    rw [List.getD_eq_getElem?_getD, List.getElem?_eq_getElem hi, Option.getD_some]
  have hgetl : ∀ i (hi : i < com.lookupProducts.length), com.lookupProducts.getD i [] = com.lookupProducts[i] := by
    intro i hi
    rw [List.getD_eq_getElem?_getD, List.getElem?_eq_getElem hi, Option.getD_some]
  have hgetm : ∀ i (hi : i < com.permuted.length), com.permuted.getD i ([], []) = com.permuted[i] := by
    intro i hi
    rw [List.getD_eq_getElem?_getD, List.getElem?_eq_getElem hi, Option.getD_some]
  -- the running products
  have hperm : (∀ q ∈ ((com.products.zip e.sets).flatMap (fun s =>
      [(⟨.point s.1, ch.x, s.2.product⟩ : Query Poly), ⟨.point s.1, key.domain.rotateOmega ch.x 1, s.2.next⟩]) ++
      ((com.products.zip e.sets).reverse.drop 1).map fun s =>
        (⟨.point s.1, key.domain.rotateOmega ch.x (-((key.cs.blindingFactors + 1 : Nat) : Int)),
          s.2.last.getD 0⟩ : Query Poly)), Holds q) ↔
      e.sets = (List.range (numSets key.cs)).map fun t =>
        ⟨(pick com.products t).eval ch.x, (scale key.domain.omega (pick com.products t)).eval ch.x,
          if t + 1 < numSets key.cs then some ((scale (key.domain.omega ^
            (-((key.cs.blindingFactors + 1 : Nat) : Int))) (pick com.products t)).eval ch.x) else none⟩ := by
    have hmem : ∀ s, s ∈ (com.products.zip e.sets).reverse.drop 1 ↔
        ∃ (i : Nat) (hi : i + 1 < numSets key.cs), s = (com.products[i]'(by omega), e.sets[i]'(by omega)) := by
      intro s
      rw [List.mem_iff_getElem]
      constructor
      · rintro ⟨i, hi, rfl⟩
        simp only [List.length_drop, List.length_reverse, List.length_zip] at hi
        refine ⟨numSets key.cs - 1 - (1 + i), by omega, ?_⟩
        simp only [List.getElem_drop, List.getElem_reverse, List.getElem_zip, List.length_zip, hns, hpl,
          Nat.min_self]
      · rintro ⟨i, hi, rfl⟩
        refine ⟨numSets key.cs - 2 - i, by simp; omega, ?_⟩
        simp only [List.getElem_drop, List.getElem_reverse, List.getElem_zip, List.length_zip, hns, hpl,
          Nat.min_self]
        have : numSets key.cs - 1 - (1 + (numSets key.cs - 2 - i)) = i := by omega
        simp only [this]
    constructor
    · intro h
      apply List.ext_getElem
      · simp [hns]
      · intro i h1 h2
        rw [List.length_map, List.length_range] at h2
        have hz : i < (com.products.zip e.sets).length := by simp; omega
        have g1 := h ⟨.point com.products[i], ch.x, e.sets[i].product⟩ (by
          apply List.mem_append_left
          rw [List.mem_flatMap]
          exact ⟨_, List.getElem_mem hz, by rw [List.getElem_zip]; simp⟩)
        have g2 := h ⟨.point com.products[i], key.domain.rotateOmega ch.x 1, e.sets[i].next⟩ (by
          apply List.mem_append_left
          rw [List.mem_flatMap]
          exact ⟨_, List.getElem_mem hz, by rw [List.getElem_zip]; simp⟩)
        have g1 : polyAt com.products[i] ch.x = e.sets[i].product := g1
        have g2 : polyAt com.products[i] (key.domain.rotateOmega ch.x 1) = e.sets[i].next := g2
        have g3 : e.sets[i].last = if i + 1 < numSets key.cs then some ((scale (key.domain.omega ^
            (-((key.cs.blindingFactors + 1 : Nat) : Int))) (pick com.products i)).eval ch.x) else none := by
          have hlast := hs.lasts i (by omega)
          split
          · next hlt =>
            have g := h ⟨.point com.products[i], key.domain.rotateOmega ch.x
                (-((key.cs.blindingFactors + 1 : Nat) : Int)), e.sets[i].last.getD 0⟩ (by
              apply List.mem_append_right
              rw [List.mem_map]
              exact ⟨_, (hmem _).2 ⟨i, hlt, rfl⟩, rfl⟩)
            have g : polyAt com.products[i] (key.domain.rotateOmega ch.x
                (-((key.cs.blindingFactors + 1 : Nat) : Int))) = e.sets[i].last.getD 0 := g
            rw [scale_eval, pick_eval, hgetp i (by omega)]
            rw [hd.rotateOmega_eq, mul_comm] at g
            rw [g]
            have := hlast.2 (by omega)
            generalize e.sets[i].last = o at this
            cases o with
            | none => simp at this
            | some v => rfl
          · next hlt =>
            rw [← Option.not_isSome_iff_eq_none]
            intro hh
            have := hlast.1 hh
            omega
        rw [List.getElem_map, List.getElem_range, scale_eval, pick_eval, pick_eval, hgetp i (by omega), ← g3,
          ← hw, g1, g2]
    · intro h q hq
      have hsi : ∀ i (hi : i < numSets key.cs), e.sets[i]'(by omega) =
          ⟨(pick com.products i).eval ch.x, (scale key.domain.omega (pick com.products i)).eval ch.x,
          if i + 1 < numSets key.cs then some ((scale (key.domain.omega ^
            (-((key.cs.blindingFactors + 1 : Nat) : Int))) (pick com.products i)).eval ch.x) else none⟩ := by
        intro i hi
        have := congrArg (fun l => l[i]?) h
        simpa only [List.getElem?_map, List.getElem?_range hi, Option.map_some,
          List.getElem?_eq_getElem (show i < e.sets.length by omega), Option.some.injEq] using this
      rcases List.mem_append.1 hq with hq | hq
      · rw [List.mem_flatMap] at hq
        obtain ⟨s, hsm, hq⟩ := hq
        rw [List.mem_iff_getElem] at hsm
        obtain ⟨i, hi, rfl⟩ := hsm
        simp only [List.length_zip] at hi
        rw [List.getElem_zip] at hq
        simp only [List.mem_cons, List.not_mem_nil, or_false] at hq
        rcases hq with rfl | rfl
        · show polyAt com.products[i] ch.x = e.sets[i].product
          rw [hsi i (by omega)]
          dsimp only
          rw [pick_eval, hgetp i (by omega)]
        · show polyAt com.products[i] (key.domain.rotateOmega ch.x 1) = e.sets[i].next
          rw [hsi i (by omega)]
          dsimp only
          rw [scale_eval, pick_eval, hgetp i (by omega), hw]
      · rw [List.mem_map] at hq
        obtain ⟨s, hsm, rfl⟩ := hq
        obtain ⟨i, hi, rfl⟩ := (hmem s).1 hsm
        show polyAt com.products[i] (key.domain.rotateOmega ch.x
                (-((key.cs.blindingFactors + 1 : Nat) : Int))) = e.sets[i].last.getD 0
        rw [hsi i (by omega)]
        dsimp only
        rw [if_pos hi, Option.getD_some, scale_eval, pick_eval, hgetp i (by omega), hd.rotateOmega_eq,
          mul_comm]
  -- the lookups
  have hlook : (∀ q ∈ (((com.permuted.zip com.lookupProducts).zip e.lookups).flatMap fun p =>
      lookupQueries key.domain ch.x p.1.1 p.1.2 p.2), Holds q) ↔
      e.lookups = (List.range key.cs.lookups.length).map fun t =>
        ⟨(pick com.lookupProducts t).eval ch.x, (scale key.domain.omega (pick com.lookupProducts t)).eval ch.x,
          (toPoly (com.permuted.getD t ([], [])).1).eval ch.x,
          (scale (key.domain.omega ^ (-1 : Int)) (toPoly (com.permuted.getD t ([], [])).1)).eval ch.x,
          (toPoly (com.permuted.getD t ([], [])).2).eval ch.x⟩ := by
    have h1 := hs.permuted
    have h2 := hs.lookupProducts
    have h3 := hs.lookups
    have hiff : ∀ i (hi : i < key.cs.lookups.length),
        (∀ q ∈ lookupQueries key.domain ch.x (com.permuted[i]'(by omega)) (com.lookupProducts[i]'(by omega))
          (e.lookups[i]'(by omega)), Holds q) ↔ e.lookups[i]'(by omega) =
        ⟨(pick com.lookupProducts i).eval ch.x, (scale key.domain.omega (pick com.lookupProducts i)).eval ch.x,
          (toPoly (com.permuted.getD i ([], [])).1).eval ch.x,
          (scale (key.domain.omega ^ (-1 : Int)) (toPoly (com.permuted.getD i ([], [])).1)).eval ch.x,
          (toPoly (com.permuted.getD i ([], [])).2).eval ch.x⟩ := by
      intro i hi
      rw [scale_eval, scale_eval, toPoly_eval, toPoly_eval, toPoly_eval, pick_eval, pick_eval,
        hgetl i (by omega), hgetm i (by omega)]
      generalize e.lookups[i]'(by omega) = ev
      unfold lookupQueries
      dsimp only
      rw [hw, hd.rotateOmega_eq, mul_comm ch.x]
      simp only [List.forall_mem_cons, List.not_mem_nil, false_imp_iff, implies_true, and_true]
      obtain ⟨a, b, c, d', f⟩ := ev
      simp only [LookupEval.mk.injEq, Holds]
      constructor
      · rintro ⟨h1, h2, h3, h4, h5⟩
        exact ⟨h1.symm, h5.symm, h2.symm, h4.symm, h3.symm⟩
      · rintro ⟨h1, h2, h3, h4, h5⟩
        exact ⟨h1.symm, h3.symm, h5.symm, h4.symm, h2.symm⟩
    constructor
    · intro h
      apply List.ext_getElem
      · simp [h3]
      · intro i g1 g2
        rw [List.length_map, List.length_range] at g2
        rw [List.getElem_map, List.getElem_range, ← hiff i g2]
        intro q hq
        apply h
        rw [List.mem_flatMap]
        have hz : i < ((com.permuted.zip com.lookupProducts).zip e.lookups).length := by simp; omega
        exact ⟨_, List.getElem_mem hz, by rw [List.getElem_zip, List.getElem_zip]; exact hq⟩
    · intro h q hq
      rw [List.mem_flatMap] at hq
      obtain ⟨p, hp, hq⟩ := hq
      rw [List.mem_iff_getElem] at hp
      obtain ⟨i, hi, rfl⟩ := hp
      simp only [List.length_zip] at hi
      rw [List.getElem_zip, List.getElem_zip] at hq
      refine (hiff i (by omega)).2 ?_ q hq
      have := congrArg (fun l => l[i]?) h
      simpa only [List.getElem?_map, List.getElem?_range (show i < key.cs.lookups.length by omega), Option.map_some,
        List.getElem?_eq_getElem (show i < e.lookups.length by omega), Option.some.injEq] using this
  have hsig := pointwise key.sigma e.sigma ch.x hs.sigma _ hs.sigmaColumns
  have hadv := columnQueries_holds hd ch.x key.cs.adviceQueries com.advice e.advice hs.advice
  have hfix := columnQueries_holds hd ch.x key.cs.fixedQueries key.fixed e.fixed hs.fixed
  have hquo : Holds ⟨.msm (combinePieces (ch.x ^ n) com.pieces), ch.x,
      exprs.foldl (fun acc v => acc * ch.y + v) 0 * (ch.x ^ n - 1)⁻¹⟩ ↔
      exprs.foldl (fun acc v => acc * ch.y + v) 0 =
        (∑ i ∈ range com.pieces.length, (ch.x ^ n) ^ i * polyAt (com.pieces.getD i []) ch.x) * (ch.x ^ n - 1) := by
    show ((combinePieces (ch.x ^ n) com.pieces).map fun t => t.1 * polyAt t.2 ch.x).sum = _ ↔ _
    rw [combinePieces_value (ch.x ^ n) (fun p => polyAt p ch.x), eq_mul_inv_iff_mul_eq₀ hne, eq_comm]
  have huser : ch.user = (List.range key.cs.numChallenges).map fun i =>
      aeval (R := Fr) ch.x (C (ch.user.getD i 0) : Fr[X]) := by
    apply List.ext_getElem
    · simp [hu]
    · intro i h1 h2
      rw [List.getElem_map, List.getElem_range, coe_aeval_eq_eval, eval_C, List.getD_eq_getElem?_getD,
        List.getElem?_eq_getElem h1, Option.getD_some]
  unfold queriesOf
  simp only [List.forall_mem_append, List.forall_mem_cons, List.not_mem_nil, false_imp_iff, implies_true,
    and_true]
  rw [List.forall_mem_append] at hperm
  constructor
  · rintro ⟨⟨⟨⟨⟨h1, h2⟩, h3⟩, h4⟩, h5⟩, h6, h7⟩
    exact ⟨⟨hadv.1 h1, hfix.1 h4, hinst, huser, hsig.1 h5, hperm.1 h2, hlook.1 h3⟩, hquo.1 h6, h7⟩
  · rintro ⟨hm, h6, h7⟩
    exact ⟨⟨⟨⟨⟨hadv.2 hm.advice, hperm.2 hm.sets⟩, hlook.2 hm.lookups⟩, hfix.2 hm.fixed⟩, hsig.2 hm.sigma⟩,
      hquo.2 h6, h7⟩

end Verif.Plonk

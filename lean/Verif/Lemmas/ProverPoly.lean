import Verif.Lemmas.ProverH

/-! The polynomials of the key and of an honest prover. -/

namespace Verif.PlonkProver

open Finset Polynomial Spec Plonk

/-- The polynomial with coefficients `p` takes the values `f` in the rows. -/
structure Interp (d : Domain) (k : Nat) (p : List Fr) (f : Nat → Fr) : Prop where
  length : p.length = 2 ^ k
  rows : ∀ r < 2 ^ k, polyAt p (d.omega ^ r) = f r

/-- The lists interpolate the columns. -/
structure InterpAll (d : Domain) (k m : Nat) (ps : List (List Fr)) (f : Nat → Nat → Fr) : Prop where
  length : ps.length = m
  each : ∀ c < m, Interp d k (ps.getD c []) (f c)

variable {d : Domain} {j k : Nat}

theorem interp_exists (hd : IsDomain d j k) (f : Nat → Fr) :
    ∃ p, d.lagrangeToCoeff ((List.range (2 ^ k)).map f) = .ok p ∧ Interp d k p f := by
  obtain ⟨c, h1, h2, h3⟩ := hd.lagrangeToCoeff_values ((List.range (2 ^ k)).map f) (by simp)
  refine ⟨c, h1, h2, fun r hr => ?_⟩
  rw [h3 r (by simpa using hr)]
  simp

theorem interpAll_exists (hd : IsDomain d j k) (m : Nat) (f : Nat → Nat → Fr) :
    ∃ ps, (columnsOf m (2 ^ k) f).mapM d.lagrangeToCoeff = .ok ps ∧ InterpAll d k m ps f := by
  choose p h1 h2 using fun c => interp_exists hd (f c)
  refine ⟨(List.range m).map p, mapM_map_ok _ _ _ _ fun c _ => h1 c, by simp, fun c hc => ?_⟩
  have : ((List.range m).map p).getD c [] = p c := by
    rw [List.getD_eq_getElem?_getD, List.getElem?_map, List.getElem?_range hc]; rfl
  rw [this]
  exact h2 c

/-- Few coefficients and the values in the rows determine a polynomial. -/
theorem poly_unique (hd : IsDomain d j k) {p q : Fr[X]} (hp : p.natDegree ≤ 2 ^ k - 1) (hq : q.natDegree ≤ 2 ^ k - 1)
    (h : ∀ r < 2 ^ k, p.eval (d.omega ^ r) = q.eval (d.omega ^ r)) : p = q := by
  classical
  have hpos : 0 < 2 ^ k := by positivity
  rw [← sub_eq_zero]
  apply eq_zero_of_natDegree_lt_card_of_eval_eq_zero' _ ((range (2 ^ k)).image fun r => d.omega ^ r)
  · intro x hx
    obtain ⟨r, hr, rfl⟩ := mem_image.1 hx
    rw [Polynomial.eval_sub, h r (mem_range.1 hr), sub_self]
  · rw [card_image_of_injOn, card_range]
    · exact lt_of_le_of_lt (sub_le_of hp hq) (by omega)
    · intro a ha b hb he
      exact hd.omega.pow_inj (mem_range.1 ha) (mem_range.1 hb) he

theorem rotation_point (hd : IsDomain d j k) (a : Fr) (r : Nat) (s : Int) :
    d.omega ^ s * (a * d.omega ^ r) = a * d.omega ^ rotationIdx r s (2 ^ k) := by
  rw [mul_left_comm, pow_zpow hd]
  rfl

/-- A proving key made for `2^k` rows. -/
structure IsProvingKey (pk : ProvingKey) (k : Nat) : Prop where
  domain : IsDomain pk.domain pk.cs.degree k
  coset : pk.domain.gCoset = zetaFr
  l0 : Interp pk.domain k pk.l0 fun r => if r = 0 then 1 else 0
  lLast : Interp pk.domain k pk.lLast fun r => if r = pk.cs.usableRows (2 ^ k) then 1 else 0
  lActive : Interp pk.domain k pk.lActive fun r => if r < pk.cs.usableRows (2 ^ k) then 1 else 0
  fixed : ∃ f, pk.fixedValues = columnsOf pk.cs.numFixed (2 ^ k) f ∧ InterpAll pk.domain k pk.cs.numFixed pk.fixedPolys f
  sigma : ∃ f, pk.sigmaValues = columnsOf pk.cs.permutation.length (2 ^ k) f ∧
    InterpAll pk.domain k pk.cs.permutation.length pk.sigmaPolys f

/-- The key of the verifier, with polynomials for commitments. -/
def ProvingKey.vk (pk : ProvingKey) : Key Poly := ⟨pk.domain, pk.cs, pk.fixedPolys, pk.sigmaPolys⟩

/-- Polynomials of the right number and size. -/
structure Sized (pk : ProvingKey) (k : Nat) (com : Commitments Coeffs) : Prop where
  advice : com.advice.length = pk.cs.numAdvice ∧ ∀ p ∈ com.advice, p.length = 2 ^ k
  permuted : com.permuted.length = pk.cs.lookups.length ∧ ∀ p ∈ com.permuted, p.1.length = 2 ^ k ∧ p.2.length = 2 ^ k
  products : com.products.length = numSets pk.cs ∧ ∀ p ∈ com.products, p.length = 2 ^ k
  lookupProducts : com.lookupProducts.length = pk.cs.lookups.length ∧ ∀ p ∈ com.lookupProducts, p.length = 2 ^ k

/-- All expressions are about columns and challenges that exist. -/
structure Mentioned (cs : CS) : Prop where
  gates : ∀ gate ∈ cs.gates, ∀ e ∈ gate, Mentions cs.numFixed cs.numAdvice cs.numInstance cs.numChallenges e
  lookups : ∀ l ∈ cs.lookups, (∀ e ∈ l.input, Mentions cs.numFixed cs.numAdvice cs.numInstance cs.numChallenges e) ∧
    ∀ e ∈ l.table, Mentions cs.numFixed cs.numAdvice cs.numInstance cs.numChallenges e

theorem queried_mentions {cs : CS} (hc : Closed cs) (e : Expr) (h : Queried cs e) :
    Mentions cs.numFixed cs.numAdvice cs.numInstance cs.numChallenges e := by
  induction e with
  | const c => trivial
  | selector s => exact h.elim
  | fixed c r => exact hc.fixed _ h
  | advice c r => exact hc.advice _ h
  | instance_ c r => exact hc.inst _ h
  | challenge i => exact h
  | neg a ih => exact ih h
  | sum a b iha ihb => exact ⟨iha h.1, ihb h.2⟩
  | product a b iha ihb => exact ⟨iha h.1, ihb h.2⟩
  | scaled a f ih => exact ih h

theorem closed_mentioned {cs : CS} (hc : Closed cs) : Mentioned cs :=
  ⟨fun gate hg e he => queried_mentions hc e (hc.gates gate hg e he), fun l hl =>
    ⟨fun e he => queried_mentions hc e (hc.inputs l hl e he), fun e he => queried_mentions hc e (hc.tables l hl e he)⟩⟩

theorem closed_columns {cs : CS} (hc : Closed cs) : HasColumns cs cs.numFixed cs.numAdvice cs.numInstance := by
  constructor
  intro c hm
  have := hc.permutation c hm
  cases c with
  | advice c => exact hc.advice _ this
  | fixed c => exact hc.fixed _ this
  | instance_ c => exact hc.inst _ this

/-- A list of polynomials as columns of values at shifted points. -/
theorem parts_columns (hd : IsDomain d j k) {m : Nat} {ps : List (List Fr)} (hl : ps.length = m)
    (hp : ∀ p ∈ ps, p.length = 2 ^ k) (f : Fr) :
    ps.mapM (fun p => d.coeffToExtendedPart p f) =
      .ok (columnsOf m (2 ^ k) fun c r => (pick ps c).eval (d.gCoset * f * d.omega ^ r)) := by
  rw [mapM_congr_ok _ (fun p => (List.range (2 ^ k)).map fun i => polyAt p (d.gCoset * f * d.omega ^ i)) _
    fun p hp' => hd.coeffToExtendedPart_ok p (hp p hp') f]
  congr 1
  unfold columnsOf
  apply List.ext_getElem
  · simp [hl]
  · intro i h1 h2
    simp only [List.length_map] at h1
    simp only [List.getElem_map, List.getElem_range]
    apply List.map_congr_left
    intro r _
    rw [pick_eval, List.getD_eq_getElem?_getD, List.getElem?_eq_getElem h1, Option.getD_some]

variable {pk : ProvingKey} {L : Int → Fr[X]} {instances : List (List Fr)} {com : Commitments Coeffs}
  {user : List Fr} {theta beta gamma : Fr} {instPolys : List Coeffs}

theorem interp_degree {p : List Fr} {f : Nat → Fr} (h : Interp d k p f) : (toPoly p).natDegree ≤ 2 ^ k - 1 := by
  have hpos : 0 < 2 ^ k := by positivity
  apply toPoly_degree
  rw [h.length]
  omega

/-- The polynomials of the key are those of the verifier. -/
theorem key_basis (hk : IsProvingKey pk k) (hLd : ∀ s, (L s).natDegree ≤ 2 ^ k - 1) (hL : Basis L pk.domain k)
    (hbf : pk.cs.blindingFactors + 1 < 2 ^ k) :
    toPoly pk.l0 = (polyOpened L pk.vk instances com user theta beta gamma).l0 ∧
    toPoly pk.lLast = (polyOpened L pk.vk instances com user theta beta gamma).lLast ∧
    toPoly pk.lActive = (polyOpened L pk.vk instances com user theta beta gamma).active := by
  have hfam := rowOf_family (L := L) (key := pk.vk) (instances := instances) (com := com) (user := user)
    (theta := theta) (beta := beta) (gamma := gamma) hk.domain hL hbf
  refine ⟨?_, ?_, ?_⟩
  · apply poly_unique hk.domain (interp_degree hk.l0) (hLd _)
    intro r hr
    rw [toPoly_eval, hk.l0.rows r hr, ← hfam.l0 r hr]
    show aeval _ (L 0) = _
    rw [coe_aeval_eq_eval]
    rfl
  · apply poly_unique hk.domain (interp_degree hk.lLast) (hLd _)
    intro r hr
    rw [toPoly_eval, hk.lLast.rows r hr]
    refine (hfam.lLast r hr).symm.trans ?_
    show aeval _ (L _) = _
    rw [coe_aeval_eq_eval]
    rfl
  · apply poly_unique hk.domain (interp_degree hk.lActive)
    · apply sub_le_of (one_le_of _)
      apply add_le_of (hLd _)
      refine natDegree_sum_le_of_forall_le (range pk.cs.blindingFactors) (fun i => L _) ?_
      intro i _
      exact hLd _
    · intro r hr
      rw [toPoly_eval, hk.lActive.rows r hr]
      have e : (rowOf L pk.vk instances com user theta beta gamma r).active =
          (polyOpened L pk.vk instances com user theta beta gamma).active.eval (pk.domain.omega ^ r) := by
        unfold Opened.active rowOf Opened.map
        simp only [coe_aeval_eq_eval, Polynomial.eval_sub, Polynomial.eval_one, Polynomial.eval_add]
        rfl
      rw [← e]
      split
      · next h => rw [hfam.active h]
      · next h => rw [inactive hfam (Nat.le_of_not_lt h) hr]

/-- The polynomials of the public inputs are those of the verifier. -/
theorem inst_poly (hd : IsDomain pk.domain j k) (hLd : ∀ s, (L s).natDegree ≤ 2 ^ k - 1) (hL : Basis L pk.domain k)
    (c : Nat) {p : List Fr} (hp : Interp pk.domain k p (foldedColumn (2 ^ k) (instances.getD c []))) (s : Int) :
    scale (pk.domain.omega ^ s) (toPoly p) =
      (polyOpened L pk.vk instances com user theta beta gamma).inst c s := by
  have hpos : 0 < 2 ^ k := by positivity
  apply poly_unique hd (scale_degree _ _ (interp_degree hp))
  · refine natDegree_sum_le_of_forall_le (range (instances.getD c []).length)
      (fun i => C ((instances.getD c []).getD i 0) * L ((i : Int) - s)) ?_
    intro i _
    exact le_trans (natDegree_C_mul_le _ _) (hLd _)
  · intro r hr
    have h1 := rowOf_inst (key := pk.vk) (instances := instances) (com := com) (user := user) (theta := theta)
      (beta := beta) (gamma := gamma) hL c s r hr
    rw [scale_eval, pow_zpow hd, toPoly_eval, hp.rows _ (Plonk.rotate_lt _ _ _ hpos), ← h1]
    show aeval _ (∑ i ∈ range _, C _ * L _) = _
    rw [coe_aeval_eq_eval]
    rfl

/-- The table of a part of the extended domain. -/
noncomputable def partGrid (pk : ProvingKey) (com : Commitments Coeffs) (instPolys : List Coeffs) (user : List Fr)
    (f : Fr) : Grid where
  advice c r := (pick com.advice c).eval (pk.domain.gCoset * f * pk.domain.omega ^ r)
  fixed c r := (pick pk.fixedPolys c).eval (pk.domain.gCoset * f * pk.domain.omega ^ r)
  instance_ c r := (pick instPolys c).eval (pk.domain.gCoset * f * pk.domain.omega ^ r)
  selector _ _ := false
  challenge i := user.getD i 0

/-- The values of the verifier's expressions in a part. -/
noncomputable def partOpened (L : Int → Fr[X]) (pk : ProvingKey) (instances : List (List Fr)) (com : Commitments Coeffs)
    (user : List Fr) (theta beta gamma f : Fr) (r : Nat) : Opened Fr :=
  (polyOpened L pk.vk instances com user theta beta gamma).map
    (aeval (R := Fr) (pk.domain.gCoset * f * pk.domain.omega ^ r))

theorem part_expr (hd : IsDomain pk.domain j k) (hLd : ∀ s, (L s).natDegree ≤ 2 ^ k - 1) (hL : Basis L pk.domain k)
    (hinst : InterpAll pk.domain k pk.cs.numInstance instPolys fun c => foldedColumn (2 ^ k) (instances.getD c []))
    (f : Fr) (r : Nat) (e : Expr) (hm : Mentions nf na pk.cs.numInstance nc e) :
    e.eval (2 ^ k) (partGrid pk com instPolys user f) r =
      (partOpened L pk instances com user theta beta gamma f r).expr e := by
  induction e with
  | const c => rfl
  | selector s => exact hm.elim
  | fixed c s =>
    show (pick _ _).eval _ = aeval _ (scale _ _)
    rw [coe_aeval_eq_eval, scale_eval]
    congr 1
    exact (rotation_point hd _ _ _).symm
  | advice c s =>
    show (pick _ _).eval _ = aeval _ (scale _ _)
    rw [coe_aeval_eq_eval, scale_eval]
    congr 1
    exact (rotation_point hd _ _ _).symm
  | instance_ c s =>
    show (pick instPolys c).eval _ = aeval _ ((polyOpened L pk.vk instances com user theta beta gamma).inst c s)
    rw [← inst_poly hd hLd hL c (hinst.each c hm) s, coe_aeval_eq_eval, scale_eval]
    congr 1
    exact (rotation_point hd _ _ _).symm
  | challenge i =>
    show user.getD i 0 = aeval _ (C _)
    rw [coe_aeval_eq_eval, eval_C]
  | neg a ih => show - _ = - _; rw [ih hm]
  | sum a b iha ihb => show _ + _ = _ + _; rw [iha hm.1, ihb hm.2]
  | product a b iha ihb => show _ * _ = _ * _; rw [iha hm.1, ihb hm.2]
  | scaled a f ih => show _ * _ = _ * _; rw [ih hm]; rfl

/-- The columns that `evaluate_h` computes for a part. -/
noncomputable def partCosets (L : Int → Fr[X]) (pk : ProvingKey) (k : Nat) (instances : List (List Fr))
    (com : Commitments Coeffs) (instPolys : List Coeffs) (user : List Fr) (theta beta gamma f : Fr) : Cosets :=
  let o := partOpened L pk instances com user theta beta gamma f
  let g := partGrid pk com instPolys user f
  ⟨(List.range (2 ^ k)).map fun r => (o r).l0, (List.range (2 ^ k)).map fun r => (o r).lLast,
    (List.range (2 ^ k)).map fun r => (o r).active,
    ⟨columnsOf pk.cs.numFixed (2 ^ k) g.fixed, columnsOf pk.cs.numAdvice (2 ^ k) g.advice,
      columnsOf pk.cs.numInstance (2 ^ k) g.instance_⟩,
    columnsOf (numSets pk.cs) (2 ^ k) fun t r => (o r).z t,
    columnsOf pk.cs.permutation.length (2 ^ k) fun i r => (o r).sigma i⟩

theorem partOf_ok (hd : IsDomain pk.domain j k) (hc : Closed pk.cs) (hLd : ∀ s, (L s).natDegree ≤ 2 ^ k - 1)
    (hL : Basis L pk.domain k)
    (hinst : InterpAll pk.domain k pk.cs.numInstance instPolys fun c => foldedColumn (2 ^ k) (instances.getD c []))
    (f : Fr) : PartOf (partCosets L pk k instances com instPolys user theta beta gamma f)
      (partGrid pk com instPolys user f) pk.cs (2 ^ k) pk.cs.numFixed pk.cs.numAdvice pk.cs.numInstance
      pk.cs.numChallenges (partOpened L pk instances com user theta beta gamma f) theta beta gamma where
  l0 := rfl
  lLast := rfl
  lActive := rfl
  cols := ⟨rfl, rfl, rfl⟩
  sets := rfl
  sigma := rfl
  zNext t r _ := by
    show aeval _ (scale _ _) = aeval _ (pick _ _)
    rw [coe_aeval_eq_eval, coe_aeval_eq_eval, scale_eval]
    congr 1
    have := rotation_point hd (pk.domain.gCoset * f) r 1
    rw [zpow_one] at this
    exact this
  zLast t r _ := by
    show aeval _ (scale _ _) = aeval _ (pick _ _)
    rw [coe_aeval_eq_eval, coe_aeval_eq_eval, scale_eval]
    congr 1
    exact rotation_point hd _ _ _
  lzNext t r _ := by
    show aeval _ (scale _ _) = aeval _ (pick _ _)
    rw [coe_aeval_eq_eval, coe_aeval_eq_eval, scale_eval]
    congr 1
    have := rotation_point hd (pk.domain.gCoset * f) r 1
    rw [zpow_one] at this
    exact this
  laInv t r _ := by
    show aeval _ (scale _ _) = aeval _ (toPoly _)
    rw [coe_aeval_eq_eval, coe_aeval_eq_eval, scale_eval]
    congr 1
    exact rotation_point hd _ _ _
  expr e hm r _ := part_expr hd hLd hL hinst f r e hm
  perm i r hr := by
    unfold permAt Opened.perm
    cases hp : pk.cs.permutation[i]? with
    | none => rfl
    | some c =>
      have hrot : rotate (2 ^ k) r 0 = r := by
        unfold rotate
        rw [add_zero, Int.emod_eq_of_lt (by omega) (by exact_mod_cast hr)]
        omega
      have hcol := (closed_columns hc).columns c (List.mem_of_getElem? hp)
      have hz := hd
      cases c with
      | advice c =>
        have h1 := part_expr (nf := pk.cs.numFixed) (nc := 0) (com := com) (user := user) (theta := theta) (beta := beta)
          (gamma := gamma) hd hLd hL hinst f r (.advice c 0) hcol
        unfold Expr.eval at h1
        rw [hrot] at h1
        exact h1
      | fixed c =>
        have h1 := part_expr (na := pk.cs.numAdvice) (nc := 0) (com := com) (user := user) (theta := theta) (beta := beta)
          (gamma := gamma) hd hLd hL hinst f r (.fixed c 0) hcol
        unfold Expr.eval at h1
        rw [hrot] at h1
        exact h1
      | instance_ c =>
        have h1 := part_expr (nf := pk.cs.numFixed) (na := 0) (nc := 0) (com := com) (user := user) (theta := theta) (beta := beta)
          (gamma := gamma) hd hLd hL hinst f r (.instance_ c 0) hcol
        unfold Expr.eval at h1
        rw [hrot] at h1
        exact h1
  theta r := by show aeval _ (C _) = _; rw [coe_aeval_eq_eval, eval_C]
  beta r := by show aeval _ (C _) = _; rw [coe_aeval_eq_eval, eval_C]
  gamma r := by show aeval _ (C _) = _; rw [coe_aeval_eq_eval, eval_C]

end Verif.PlonkProver

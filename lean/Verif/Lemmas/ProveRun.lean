import Verif.Lemmas.SyncLemmas

/-! The steps of a run of the prover that ends with a proof. -/

namespace Verif.Transcript

open Plonk Spec PlonkProver Shplonk

variable {G G₂ : Type} [AddCommGroup G]

/-- The intermediate results of `prove`. -/
structure Run (checks : Bool) (codec : Codec G) (hash : Hash) (srs : Srs G G₂) (pk : ProvingKey) (repr : Fr)
    (instances : List (List Fr)) (synth : Nat → List Fr → Except PlonkProver.Stop (List (List Fr)))
    (blinds : Blinds) (out : List UInt8) where
  inst : List (List Fr)
  instPolys : List Coeffs
  columns : List (List Fr)
  ch : Challenges
  w1 : Writer
  w1' : Writer
  permuted : List Permuted
  w2 : Writer
  w2' : Writer
  w2'' : Writer
  products : List (List Fr)
  w3 : Writer
  lookupProducts : List (List Fr)
  w4 : Writer
  w5 : Writer
  w5' : Writer
  com : Commitments Coeffs
  h : List Fr
  w6 : Writer
  w6' : Writer
  e : Evals
  hPoly : Coeffs
  queries : List (Claim Ref Coeffs)
  y' : Fr
  v : Fr
  w7 : Writer
  w7' : Writer
  hx : List Fr
  sets : List ExtendedSet
  superPoints : List Fr
  h1 : G
  w8 : Writer
  u : Fr
  w8' : Writer
  lx : List Fr
  h2 : G
  w9 : Writer
  num : instances.length = pk.cs.numInstance
  instEq : (instances.mapM fun v =>
    PlonkProver.orErr .instanceTooLarge (instanceColumn srs.n pk.cs.blindingFactors v)) = .ok inst
  instPolysEq : inst.mapM pk.domain.lagrangeToCoeff = .ok instPolys
  phases : writePhases codec hash srs.commitLagrange pk.cs synth pk.cs.phases
    (List.replicate pk.cs.numAdvice (List.replicate srs.n 0)) (List.replicate pk.cs.numChallenges 0)
    ⟨instances.flatten.foldl commonScalar (commonScalar [] repr), []⟩ = .ok (columns, ch.user, w1)
  theta : PlonkProver.draw hash w1 = (ch.theta, w1')
  permutedEq : permuteAll ⟨pk.fixedValues, columns, inst⟩ ch.user srs.n (srs.n - (pk.cs.blindingFactors + 1)) ch.theta
    ((pk.cs.lookups.zip blinds.permuted).map fun p => (p.1, p.2.1, p.2.2)) = .ok permuted
  permutedPolys : (permuted.mapM fun p => do
    return ((← pk.domain.lagrangeToCoeff p.permutedInput), (← pk.domain.lagrangeToCoeff p.permutedTable))) =
      .ok com.permuted
  write2 : writeAll codec srs.commitLagrange (permuted.flatMap fun p => [p.permutedInput, p.permutedTable]) w1' = .ok w2
  beta : PlonkProver.draw hash w2 = (ch.beta, w2')
  gamma : PlonkProver.draw hash w2' = (ch.gamma, w2'')
  productsEq : permutationProducts pk srs.n ⟨pk.fixedValues, columns, inst⟩ ch.beta ch.gamma blinds.products = .ok products
  productPolys : products.mapM pk.domain.lagrangeToCoeff = .ok com.products
  write3 : writeAll codec srs.commitLagrange products w2'' = .ok w3
  lookupProductsEq : ((permuted.zip blinds.lookups).mapM fun p =>
    lookupProduct srs.n pk.cs.blindingFactors p.1 ch.beta ch.gamma p.2) = .ok lookupProducts
  lookupPolys : lookupProducts.mapM pk.domain.lagrangeToCoeff = .ok com.lookupProducts
  write4 : writeAll codec srs.commitLagrange lookupProducts w3 = .ok w4
  random : pk.domain.lagrangeToCoeff (List.replicate srs.n (1 : Fr)) = .ok com.random
  write5 : writeCommitment codec .transcript (srs.commit com.random) w4 = .ok w5
  y : PlonkProver.draw hash w5 = (ch.y, w5')
  advice : columns.mapM pk.domain.lagrangeToCoeff = .ok com.advice
  hEq : evaluateH pk srs.n { com with pieces := [] } instPolys ch = .ok h
  pieces : quotientPieces pk.domain srs.n h = .ok com.pieces
  write6 : writeAll codec srs.commit com.pieces w5' = .ok w6
  x : PlonkProver.draw hash w6 = (ch.x, w6')
  eEq : evals pk com ch.x = .ok e
  hPolyEq : combineQuotient srs.n (ch.x ^ srs.n) com.pieces = .ok hPoly
  queriesEq : proverQueries pk com ch.x hPoly = .ok queries
  y'Eq : PlonkProver.draw hash ((scalarsOf e).foldl writeScalar w6') = (y', w7)
  vEq : PlonkProver.draw hash w7 = (v, w7')
  openFirst : openFirst srs.n queries y' v = .ok (hx, sets, superPoints)
  h1Eq : srs.commit hx = .ok h1
  write8 : writePoint codec w7' h1 = some w8
  uEq : PlonkProver.draw hash w8 = (u, w8')
  openSecond : openSecond checks sets superPoints hx y' v u = .ok lx
  h2Eq : srs.commit lx = .ok h2
  write9 : writePoint codec w8' h2 = some w9
  outEq : out = w9.output

variable {checks : Bool} {codec : Codec G} {hash : Hash} {srs : Srs G G₂} {pk : ProvingKey} {repr : Fr}
  {instances : List (List Fr)} {synth : Nat → List Fr → Except PlonkProver.Stop (List (List Fr))}
  {blinds : Blinds} {out : List UInt8}

/-- A run that ends with a proof has gone through all the steps. -/
theorem exists_run (hp : prove checks codec hash srs pk repr instances synth blinds = .ok out) :
    Nonempty (Run checks codec hash srs pk repr instances synth blinds out) := by
  unfold prove at hp
  split at hp
  · exact absurd hp (by simp)
  · next num =>
    dsimp only at hp
    obtain ⟨inst, instEq, hp⟩ := bind_ok.1 hp
    obtain ⟨instPolys, instPolysEq, hp⟩ := bind_ok.1 hp
    obtain ⟨⟨columns, user, w1⟩, phases, hp⟩ := bind_ok.1 hp
    dsimp only at hp
    rcases theta : PlonkProver.draw hash w1 with ⟨θ, w1'⟩
    rw [theta] at hp
    dsimp only at hp
    obtain ⟨permuted, permutedEq, hp⟩ := bind_ok.1 hp
    obtain ⟨permutedP, permutedPolys, hp⟩ := bind_ok.1 hp
    obtain ⟨w2, write2, hp⟩ := bind_ok.1 hp
    rcases beta : PlonkProver.draw hash w2 with ⟨β, w2'⟩
    rw [beta] at hp
    dsimp only at hp
    rcases gamma : PlonkProver.draw hash w2' with ⟨γ, w2''⟩
    rw [gamma] at hp
    dsimp only at hp
    obtain ⟨products, productsEq, hp⟩ := bind_ok.1 hp
    obtain ⟨productP, productPolys, hp⟩ := bind_ok.1 hp
    obtain ⟨w3, write3, hp⟩ := bind_ok.1 hp
    obtain ⟨lookupProducts, lookupProductsEq, hp⟩ := bind_ok.1 hp
    obtain ⟨lookupP, lookupPolys, hp⟩ := bind_ok.1 hp
    obtain ⟨w4, write4, hp⟩ := bind_ok.1 hp
    obtain ⟨rnd, random, hp⟩ := bind_ok.1 hp
    obtain ⟨w5, write5, hp⟩ := bind_ok.1 hp
    rcases y : PlonkProver.draw hash w5 with ⟨yy, w5'⟩
    rw [y] at hp
    dsimp only at hp
    obtain ⟨adv, advice, hp⟩ := bind_ok.1 hp
    obtain ⟨h, hEq, hp⟩ := bind_ok.1 hp
    obtain ⟨pcs, pieces, hp⟩ := bind_ok.1 hp
    obtain ⟨w6, write6, hp⟩ := bind_ok.1 hp
    rcases x : PlonkProver.draw hash w6 with ⟨xx, w6'⟩
    rw [x] at hp
    dsimp only at hp
    obtain ⟨e, eEq, hp⟩ := bind_ok.1 hp
    obtain ⟨hPoly, hPolyEq, hp⟩ := bind_ok.1 hp
    obtain ⟨queries, queriesEq, hp⟩ := bind_ok.1 hp
    rcases y'Eq : PlonkProver.draw hash ((scalarsOf e).foldl writeScalar w6') with ⟨y', w7⟩
    rw [y'Eq] at hp
    dsimp only at hp
    rcases vEq : PlonkProver.draw hash w7 with ⟨v, w7'⟩
    rw [vEq] at hp
    dsimp only at hp
    obtain ⟨⟨hx, sets, superPoints⟩, openFirst, hp⟩ := bind_ok.1 hp
    dsimp only at hp
    obtain ⟨w8, write8, hp⟩ := bind_ok.1 hp
    rcases uEq : PlonkProver.draw hash w8 with ⟨u, w8'⟩
    rw [uEq] at hp
    dsimp only at hp
    obtain ⟨lx, openSecond, hp⟩ := bind_ok.1 hp
    obtain ⟨w9, write9, hp⟩ := bind_ok.1 hp
    obtain ⟨h1, h1Eq, write8⟩ := write_commitment write8
    obtain ⟨h2, h2Eq, write9⟩ := write_commitment write9
    exact ⟨{
      inst := inst, instPolys := instPolys, columns := columns, ch := ⟨user, θ, β, γ, yy, xx⟩, w1 := w1, w1' := w1'
      permuted := permuted, w2 := w2, w2' := w2', w2'' := w2'', products := products, w3 := w3
      lookupProducts := lookupProducts, w4 := w4, w5 := w5, w5' := w5'
      com := ⟨adv, permutedP, productP, lookupP, rnd, pcs⟩, h := h, w6 := w6, w6' := w6', e := e, hPoly := hPoly
      queries := queries, y' := y', v := v, w7 := w7, w7' := w7', hx := hx, sets := sets, superPoints := superPoints
      h1 := h1, w8 := w8, u := u, w8' := w8', lx := lx, h2 := h2, w9 := w9
      num := by simpa using num
      instEq := instEq, instPolysEq := total_eq.1 instPolysEq, phases := phases, theta := theta
      permutedEq := permutedEq, permutedPolys := total_eq.1 permutedPolys, write2 := write2, beta := beta
      gamma := gamma, productsEq := total_eq.1 productsEq, productPolys := total_eq.1 productPolys
      write3 := write3, lookupProductsEq := total_eq.1 lookupProductsEq, lookupPolys := total_eq.1 lookupPolys
      write4 := write4, random := total_eq.1 random, write5 := write5, y := y, advice := total_eq.1 advice
      hEq := total_eq.1 hEq, pieces := total_eq.1 pieces, write6 := write6, x := x, eEq := total_eq.1 eEq
      hPolyEq := total_eq.1 hPolyEq, queriesEq := total_eq.1 queriesEq, y'Eq := y'Eq, vEq := vEq
      openFirst := total_eq.1 openFirst, h1Eq := h1Eq, write8 := write8, uEq := uEq
      openSecond := total_eq.1 openSecond, h2Eq := h2Eq, write9 := write9
      outEq := (Except.ok.inj hp).symm }⟩

/-- The run computes what `createProof` does. -/
theorem Run.create (r : Run checks codec hash srs pk repr instances synth blinds out) (witness : List (List Fr))
    (hw : witness.map adviceColumn = r.columns) :
    createProof pk srs.n instances witness r.ch blinds = .ok (r.com, r.e) := by
  unfold createProof
  rw [if_neg (by simpa using r.num)]
  dsimp only
  rw [r.instEq]
  have a1 := total_eq.2 r.instPolysEq
  have a2 := total_eq.2 r.permutedPolys
  have a3 := total_eq.2 r.productsEq
  have a4 := total_eq.2 r.productPolys
  have a5 := total_eq.2 r.lookupProductsEq
  have a6 := total_eq.2 r.lookupPolys
  have a7 := total_eq.2 r.random
  have a8 := total_eq.2 r.advice
  have a9 := total_eq.2 r.hEq
  have a10 := total_eq.2 r.pieces
  have a11 := total_eq.2 r.eEq
  show (PlonkProver.total _ >>= _) = _
  rw [a1]
  show (permuteAll _ _ _ _ _ _ >>= _) = _
  rw [hw, r.permutedEq]
  show (PlonkProver.total _ >>= _) = _
  rw [a2]
  show (PlonkProver.total _ >>= _) = _
  rw [a3]
  show (PlonkProver.total _ >>= _) = _
  rw [a4]
  show (PlonkProver.total _ >>= _) = _
  rw [a5]
  show (PlonkProver.total _ >>= _) = _
  rw [a6]
  show (PlonkProver.total _ >>= _) = _
  rw [a7]
  show (PlonkProver.total _ >>= _) = _
  rw [a8]
  show (PlonkProver.total _ >>= _) = _
  rw [a9]
  show (PlonkProver.total _ >>= _) = _
  rw [a10]
  show (PlonkProver.total _ >>= _) = _
  rw [a11]
  rfl

end Verif.Transcript

import Verif.Lemmas.ProveAccept
import Verif.Lemmas.ProveColumns
import Verif.Lemmas.KeyLemmas

/-! How a run of the prover ends. -/

namespace Verif.Transcript

open Plonk Spec PlonkProver Shplonk

/-- A computation ends with a result of which `Q` holds, or with an error of which `E` holds. -/
def Ends {α : Type} (E : PlonkProver.Stop → Prop) (Q : α → Prop) : Except PlonkProver.Stop α → Prop
  | .ok a => Q a
  | .error e => E e

variable {α β : Type} {E : PlonkProver.Stop → Prop} {Q : α → Prop} {R : β → Prop}

theorem Ends.bind {x : Except PlonkProver.Stop α} {f : α → Except PlonkProver.Stop β} (hx : Ends E Q x)
    (hf : ∀ a, x = .ok a → Q a → Ends E R (f a)) : Ends E R (x >>= f) := by
  cases x with
  | error e => exact hx
  | ok a => exact hf a rfl hx

theorem Ends.step {x : Except PlonkProver.Stop α} {f : α → Except PlonkProver.Stop β} {a : α} (hx : x = .ok a)
    (hf : Ends E R (f a)) : Ends E R (x >>= f) := by
  rw [hx]
  exact hf

theorem Ends.total {x : Except Panic α} {f : α → Except PlonkProver.Stop β} {a : α} (hx : x = .ok a)
    (hf : Ends E R (f a)) : Ends E R (PlonkProver.total x >>= f) := by
  rw [hx]
  exact hf

/-- `m` points and `s` scalars have been written, and `d` challenges drawn. -/
def Grown (m s d : Nat) (w w' : Writer) : Prop :=
  w'.absorbed.length = w.absorbed.length + 65 * m + 33 * s + d ∧ w'.output.length = w.output.length + 32 * (m + s)

theorem Grown.trans {m s d m' s' d' : Nat} {w w' w'' : Writer} (h : Grown m s d w w') (h' : Grown m' s' d' w' w'') :
    Grown (m + m') (s + s') (d + d') w w'' := by
  unfold Grown at *
  omega

theorem Grown.refl (w : Writer) : Grown 0 0 0 w w := by
  unfold Grown
  omega

theorem draw_grown {hash : Hash} {w w' : Writer} {c : Fr} (h : PlonkProver.draw hash w = (c, w')) : Grown 0 0 1 w w' := by
  unfold PlonkProver.draw squeeze at h
  obtain ⟨-, rfl⟩ := Prod.mk.inj h
  simp [Grown]

theorem writeScalars_grown : ∀ (l : List Fr) (w : Writer), Grown 0 l.length 0 w (l.foldl writeScalar w) := by
  intro l
  induction l with
  | nil => exact fun w => Grown.refl w
  | cons x l ih =>
    intro w
    rw [List.foldl_cons]
    have h1 : Grown 0 1 0 w (writeScalar w x) := by
      unfold Grown writeScalar commonScalar
      simp [scalarBytes_length]
    have := h1.trans (ih (writeScalar w x))
    rw [Nat.add_comm 1] at this
    exact this

theorem squeezePhase_grown {hash : Hash} {phase : Nat} : ∀ (l : List (Nat × Nat)) (user : List Fr) (a : List UInt8),
    (squeezePhase hash phase l user a).2.length = a.length + (l.filter fun p => p.1 = phase).length := by
  intro l
  induction l with
  | nil => intro user a; rfl
  | cons p l ih =>
    intro user a
    obtain ⟨p, i⟩ := p
    unfold squeezePhase
    rw [List.filter_cons]
    by_cases h : p = phase
    · rw [if_pos h, if_pos (by simpa using h)]
      dsimp only [squeeze]
      rw [ih]
      simp
      omega
    · rw [if_neg h, if_neg (by simpa using h)]
      exact ih user a

variable {G G₂ : Type} [AddCommGroup G] [Module Fr G] {codec : Codec G}

/-- The errors for a point without coordinates. -/
def Allows (codec : Codec G) (E : PlonkProver.Stop → Prop) : Prop :=
  (∃ p, codec.coords p = none) → E (.error .transcript) ∧ E (.error .constraintSystemFailure)

omit [AddCommGroup G] [Module Fr G] in
theorem writePoint_grown (hl : Lawful codec) {w w' : Writer} {p : G} (h : writePoint codec w p = some w') :
    Grown 1 0 0 w w' := by
  unfold writePoint commonPoint at h
  cases hc : codec.coords p with
  | none => rw [hc] at h; exact absurd h (by simp)
  | some xy =>
    obtain ⟨x, y⟩ := xy
    rw [hc] at h
    obtain rfl := Option.some.inj h
    obtain ⟨h1, h2⟩ := hl.coords p x y hc
    unfold Grown
    simp [h1, h2, hl.length]

omit [AddCommGroup G] [Module Fr G] in
theorem writeCommitment_ends (hl : Lawful codec) (hE : Allows codec E) {err : ProveErr}
    (herr : err = .transcript ∨ err = .constraintSystemFailure) {c : Except Panic G} {g : G} (hc : c = .ok g) (w : Writer) :
    Ends E (Grown 1 0 0 w) (writeCommitment codec err c w) := by
  unfold writeCommitment
  refine Ends.total hc ?_
  cases hw : writePoint codec w g with
  | some w' => exact writePoint_grown hl hw
  | none =>
    have : ∃ p, codec.coords p = none := by
      refine ⟨g, ?_⟩
      unfold writePoint commonPoint at hw
      cases hc : codec.coords g with
      | none => rfl
      | some xy => rw [hc] at hw; exact absurd hw (by simp)
    rcases herr with rfl | rfl
    · exact (hE this).1
    · exact (hE this).2

omit [AddCommGroup G] [Module Fr G] in
theorem writeAll_ends (hl : Lawful codec) (hE : Allows codec E) {commit : α → Except Panic G} :
    ∀ (ps : List α) (w : Writer), (∀ p ∈ ps, ∃ g, commit p = .ok g) →
      Ends E (Grown ps.length 0 0 w) (writeAll codec commit ps w) := by
  intro ps
  induction ps with
  | nil => exact fun w _ => Grown.refl w
  | cons p ps ih =>
    intro w h
    obtain ⟨g, hg⟩ := h p (by simp)
    refine Ends.bind (writeCommitment_ends hl hE (Or.inl rfl) hg w) fun w1 _ h1 => ?_
    have := ih w1 fun q hq => h q (by simp [hq])
    cases hr : writeAll codec commit ps w1 with
    | error e => rw [hr] at this; exact this
    | ok w2 =>
      rw [hr] at this
      have := h1.trans this
      rw [Nat.add_comm 1] at this
      exact this

omit [AddCommGroup G] [Module Fr G] in
theorem writeAdvice_ends (hl : Lawful codec) (hE : Allows codec E) {commit : List Fr → Except Panic G} {phase : Nat}
    {cols : List (List Fr)} (hcols : ∀ c ∈ cols, ∃ g, commit (adviceColumn c) = .ok g) :
    ∀ (l : List (Nat × Nat)) (advice : List (List Fr)) (w : Writer), (∀ p ∈ l, p.2 < cols.length) →
      Ends E (fun r => Grown (l.filter fun p => p.1 = phase).length 0 0 w r.2)
        (writeAdvice codec commit phase cols l advice w) := by
  intro l
  induction l with
  | nil => exact fun _ w _ => Grown.refl w
  | cons p l ih =>
    intro advice w h
    obtain ⟨p, i⟩ := p
    unfold writeAdvice
    rw [List.filter_cons]
    by_cases hp : p = phase
    · rw [if_pos hp, if_pos (by simpa using hp)]
      have hi := h (p, i) (by simp)
      refine Ends.total (at_getElem hi) ?_
      obtain ⟨g, hg⟩ := hcols _ (List.getElem_mem hi)
      refine Ends.bind (writeCommitment_ends hl hE (Or.inl rfl) hg w) fun w1 _ h1 => ?_
      have := ih (advice.set i (adviceColumn cols[i])) w1 fun q hq => h q (by simp [hq])
      cases hr : writeAdvice codec commit phase cols l (advice.set i (adviceColumn cols[i])) w1 with
      | error e => rw [hr] at this; exact this
      | ok r =>
        rw [hr] at this
        have := h1.trans this
        rw [Nat.add_comm 1] at this
        exact this
    · rw [if_neg hp, if_neg (by simpa using hp)]
      exact ih advice w fun q hq => h q (by simp [hq])

/-- The number of points in a proof up to the challenge `x`. -/
def pointsBefore (cs : CS) : Nat :=
  cs.numAdvice + 2 * cs.lookups.length + numSets cs + cs.lookups.length + 1 + (cs.degree - 1)

/-- The number of scalars in a proof. -/
def scalarCount (cs : CS) : Nat :=
  cs.adviceQueries.length + cs.fixedQueries.length + 1 + cs.permutation.length + (3 * numSets cs - 1) +
    5 * cs.lookups.length

theorem scalarsOf_length (pk : ProvingKey) (com : Commitments Coeffs) (x : Fr) :
    (scalarsOf (evalsOf pk com x)).length = scalarCount pk.cs := by
  have h1 : ∀ n S : Nat, n ≤ S → ((List.range n).map fun t => (if t + 1 < S then 3 else 2 : Nat)).sum =
      if n = S then 3 * n - 1 else 3 * n := by
    intro n S
    induction n with
    | zero => intro _; split <;> rfl
    | succ n ih =>
      intro h
      rw [List.range_succ, List.map_append, List.sum_append, ih (by omega), if_neg (by omega)]
      simp only [List.map_cons, List.map_nil, List.sum_cons, List.sum_nil]
      split <;> split <;> omega
  have h2 : ∀ n : Nat, ((List.range n).map fun _ => (5 : Nat)).sum = 5 * n := by
    intro n
    simp [mul_comm]
  unfold scalarsOf evalsOf scalarCount
  simp only [List.length_append, List.length_map, List.length_cons, List.length_nil, List.length_flatMap,
    List.map_map, Function.comp_def, List.length_range]
  have h3 := h1 (numSets pk.cs) (numSets pk.cs) le_rfl
  rw [if_pos rfl] at h3
  have h4 : ((List.range (numSets pk.cs)).map fun t => 0 + 1 + 1 + (if t + 1 < numSets pk.cs then
      some (polyAt (com.products.getD t []) (pk.domain.omega ^ (-((pk.cs.blindingFactors + 1 : Nat) : Int)) * x))
      else none).toList.length).sum = 3 * numSets pk.cs - 1 := by
    rw [← h3]
    congr 1
    apply List.map_congr_left
    intro t _
    split <;> rfl
  have h5 : ((List.range pk.cs.lookups.length).map fun _ => 1 + 1 + 1 + 1 + 1).sum = _ := h2 pk.cs.lookups.length
  simp only [Nat.zero_add] at h4 ⊢
  omega

section polys

variable {d : Domain} {j k : Nat}

theorem lagrange_ok (h : IsDomain d j k) {a : List Fr} (ha : a.length = 2 ^ k) :
    ∃ p, d.lagrangeToCoeff a = .ok p ∧ p.length = 2 ^ k := by
  obtain ⟨c, h1, h2, -⟩ := h.lagrangeToCoeff_values a ha
  exact ⟨c, h1, h2⟩

theorem lagrangeAll_ok (h : IsDomain d j k) : ∀ (l : List (List Fr)), (∀ a ∈ l, a.length = 2 ^ k) →
    ∃ ps, l.mapM d.lagrangeToCoeff = .ok ps ∧ ps.length = l.length ∧ ∀ p ∈ ps, p.length = 2 ^ k := by
  intro l
  induction l with
  | nil => exact fun _ => ⟨[], rfl, rfl, by simp⟩
  | cons a l ih =>
    intro hl
    obtain ⟨ps, h1, h2, h3⟩ := ih fun b hb => hl b (by simp [hb])
    obtain ⟨p, h4, h5⟩ := lagrange_ok h (hl a (by simp))
    refine ⟨p :: ps, ?_, by simp [h2], ?_⟩
    · rw [List.mapM_cons, h4, h1]
      rfl
    · intro q hq
      rcases List.mem_cons.1 hq with rfl | hq
      · exact h5
      · exact h3 q hq

theorem pieces_ok (h : IsDomain d j k) {v : List Fr} (hv : v.length = 2 ^ d.extendedK) :
    ∃ pieces, quotientPieces d (2 ^ k) v = .ok pieces := by
  have hpos : 0 < d.tEvaluations.length := by rw [h.tLength]; positivity
  unfold quotientPieces Domain.divideByVanishingPoly
  rw [if_neg (by rw [h.extendedLen]; simpa using hv), if_neg (by omega)]
  simp only [bind, Except.bind]
  unfold Domain.extendedToCoeff Domain.ifft
  rw [if_neg (by rw [h.extendedLen]; simpa using hv), dft_ok _ _ d.extendedK h.extendedOmegaInv_primitive (by simpa using hv)]
  exact ⟨_, rfl⟩

theorem combineQuotient_ok {n : Nat} (xn : Fr) (pieces : List Coeffs) (hl : ∀ p ∈ pieces, p.length = n) :
    ∃ h, combineQuotient n xn pieces = .ok h := by
  unfold combineQuotient
  have hl : ∀ p ∈ pieces.reverse, p.length = n := by simpa using hl
  generalize pieces.reverse = ps at *
  suffices ∀ (ps : List Coeffs) (acc : Coeffs), (∀ p ∈ ps, p.length = n) → acc.length = n →
      ∃ h, ps.foldlM (fun acc p => addPoly (mulPoly acc xn) p) acc = .ok h from this ps _ hl (by simp)
  intro ps
  induction ps with
  | nil => exact fun acc _ _ => ⟨acc, rfl⟩
  | cons p ps ih =>
    intro acc hl hacc
    have hp := hl p (by simp)
    obtain ⟨c, c1, c2, -⟩ := addPoly_ok (a := mulPoly acc xn) (b := p) (by rw [mulPoly_length, hacc, hp])
    rw [List.foldlM_cons, c1]
    exact ih c (fun p hp => hl p (by simp [hp])) (by rw [c2, mulPoly_length, hacc])

end polys

section queries

variable {pk : ProvingKey} {com : Commitments Coeffs} {k : Nat}

theorem proverQueries_ok (hpk : ProvingKeyFor pk k) (hc : Closed pk.cs) (hcom : Sized pk k com) (x : Fr) (h : Coeffs) :
    ∃ qs, proverQueries pk com x h = .ok qs ∧ qs ≠ [] := by
  unfold proverQueries
  dsimp only
  rw [mapM_congr_ok _ (fun q : Nat × Int => ask (.advice q.1) (com.advice.getD q.1 []) (pk.domain.rotateOmega x q.2)) _ (by
      intro q hq
      have : q.1 < com.advice.length := by rw [hcom.advice.1]; exact hc.advice q hq
      rw [at_getElem this, ok_bind, getD_lists _ _ this]
      rfl), ok_bind,
    mapM_congr_ok _ (fun q : Nat × Int => ask (.fixed q.1) (pk.fixedPolys.getD q.1 []) (pk.domain.rotateOmega x q.2)) _ (by
      intro q hq
      have : q.1 < pk.fixedPolys.length := by rw [hpk.fixed.2.1]; exact hc.fixed q hq
      rw [at_getElem this, ok_bind, getD_lists _ _ this]
      rfl), ok_bind]
  exact ⟨_, rfl, by simp⟩

/-- The opening. -/
theorem open_ends {n : Nat} (checks : Bool) {ps : List (Claim Ref Coeffs)} (hn : 0 < n) (hne : ps ≠ [])
    (ht : ∀ q ∈ ps, ClaimTrue q) (hc : Consistent ps) (hl : ∀ q ∈ ps, q.object.length = n) (pts : List Fr)
    (hpts : ∀ q ∈ ps, q.point ∈ pts) (hfew : pts.length ≤ n) (y v : Fr) :
    ∃ hx sets sup, openFirst n ps y v = .ok (hx, sets, sup) ∧ hx.length = n ∧
      ∀ u, (∃ h, openSecond checks sets sup hx y v u = .ok h ∧ h.length ≤ n) ∨
        (openSecond checks sets sup hx y v u = .error .unwrap ∧ ∃ q ∈ ps, q.point = u) := by
  obtain ⟨sets, sup, p1, p2⟩ := intermediateSets_ok ps
  have hsup : sup.length ≤ n := by
    refine le_trans ?_ hfew
    refine (p2.nodup.subperm (fun p hp => ?_)).length_le
    obtain ⟨q, hq, rfl⟩ := (p2.mem p).1 hp
    exact hpts q hq
  have hg := good_sets p2 ht hc hl hsup
  have hsne := sets_ne p2 hne
  obtain ⟨hx, qsx, o1, o2, o3, o4⟩ := openFirst_ok p1 hg hsne y v
  refine ⟨hx, _, sup, o1, o2, fun u => ?_⟩
  cases sets with
  | nil => exact absurd rfl hsne
  | cons s0 rest =>
    obtain ⟨c1, c2⟩ := openSecond_ok checks hg hn p2.nodup p2.inside y v u o2 o3 o4
    by_cases hz : vanishing (diffs sup s0.points) u = 0
    · refine Or.inr ⟨c1 hz, ?_⟩
      rw [vanishing_zero] at hz
      exact (p2.mem u).1 (List.mem_filter.1 hz).1
    · obtain ⟨h, h1, h2, -⟩ := c2 hz
      exact Or.inl ⟨h, h1, h2⟩

end queries

section main

variable {checks : Bool} {hash : Hash} {srs : Srs G G₂} {pk : ProvingKey} {repr : Fr}
  {instances : List (List Fr)} {synth : Nat → List Fr → Except PlonkProver.Stop (List (List Fr))}
  {blinds : Blinds} {k : Nat} {f : Coeffs → G}

/-- The columns are those of a witness for which the lookups hold. -/
structure Witnessed (pk : ProvingKey) (k : Nat) (instances columns : List (List Fr)) (user : List Fr) : Prop where
  number : user.length = pk.cs.numChallenges
  shown : ∃ witness : List (List Fr), witness.map adviceColumn = columns ∧ witness.length = pk.cs.numAdvice ∧
    (∀ v ∈ witness, v.length = 2 ^ k) ∧
    ∀ l ∈ pk.cs.lookups, ∀ r < pk.cs.usableRows (2 ^ k), ∃ r', r' < pk.cs.usableRows (2 ^ k) ∧
      l.input.map (fun e => e.eval (2 ^ k) (tableOf (2 ^ k) pk.fixedValues witness instances user) r) =
        l.table.map fun e => e.eval (2 ^ k) (tableOf (2 ^ k) pk.fixedValues witness instances user) r'

/-- The lookups. -/
theorem permuteAll_exists {cols : Columns} {g : Grid} {nf na ni nc n u : Nat} (h : ColumnsOf cols g nf na ni n)
    (hn : 0 < n) {user : List Fr} (hu : user = (List.range nc).map g.challenge) (theta : Fr) (hun : u ≤ n) :
    ∀ l : List (Lookup × List Fr × List Fr),
    (∀ x ∈ l, (∀ e ∈ x.1.input, Mentions nf na ni nc e) ∧ (∀ e ∈ x.1.table, Mentions nf na ni nc e) ∧
      x.2.1.length = n - u ∧ x.2.2.length = n - u ∧
      ∀ r < u, ∃ r', r' < u ∧ x.1.input.map (fun e => e.eval n g r) = x.1.table.map fun e => e.eval n g r') →
    ∃ ps, permuteAll cols user n u theta l = .ok ps ∧ ps.length = l.length ∧
      ∀ p ∈ ps, ∃ A T a s : Nat → Fr, p = ⟨(List.range n).map A, (List.range n).map T, (List.range n).map a, (List.range n).map s⟩ := by
  intro l
  induction l with
  | nil => exact fun _ => ⟨[], rfl, rfl, by simp⟩
  | cons x l ih =>
    intro hl
    obtain ⟨ps, i1, i2, i3⟩ := ih fun y hy => hl y (by simp [hy])
    obtain ⟨h1, h2, h3, h4, h5⟩ := hl x (by simp)
    obtain ⟨a, s, c1, -⟩ := commitPermuted_ok h hn hu theta x.1 h1 h2 hun x.2.1 x.2.2 h3 h4 h5
    refine ⟨⟨(List.range n).map (compAt n g theta x.1.input), (List.range n).map (compAt n g theta x.1.table),
      (List.range n).map a, (List.range n).map s⟩ :: ps, ?_, by simp [i2], ?_⟩
    · obtain ⟨l', bA, bS⟩ := x
      unfold permuteAll
      dsimp only at c1
      rw [c1, i1]
      rfl
    · intro p hp
      rcases List.mem_cons.1 hp with rfl | hp
      · exact ⟨_, _, _, _, rfl⟩
      · exact i3 p hp

theorem prove_ends (hl : Lawful codec) (hE : Allows codec E) (hpk : ProvingKeyFor pk k) (hc : Closed pk.cs)
    (hbf : pk.cs.blindingFactors + 1 < 2 ^ k) (hcom : Commits srs pk.domain k f)
    (hi : instances.length = pk.cs.numInstance)
    (hil : ∀ v ∈ instances, v.length ≤ 2 ^ k - (pk.cs.blindingFactors + 1)) (hb : EnoughBlinds pk.cs blinds)
    (hph : Ends E (fun r => Witnessed pk k instances r.1 r.2.1 ∧ Grown pk.cs.numAdvice 0 pk.cs.numChallenges
        ⟨instances.flatten.foldl commonScalar (commonScalar [] repr), []⟩ r.2.2)
      (writePhases codec hash srs.commitLagrange pk.cs synth pk.cs.phases
        (List.replicate pk.cs.numAdvice (List.replicate (2 ^ k) 0)) (List.replicate pk.cs.numChallenges 0)
        ⟨instances.flatten.foldl commonScalar (commonScalar [] repr), []⟩))
    (hu : ∀ a b : List UInt8, a.length = (instances.flatten.foldl commonScalar (commonScalar [] repr)).length +
        65 * pointsBefore pk.cs + pk.cs.numChallenges + 4 → a.length < b.length →
      (squeeze hash b).1 ^ 2 ^ k = (squeeze hash a).1 ^ 2 ^ k → E (.panic .unwrap)) :
    Ends E (fun out => out.length = 32 * (pointsBefore pk.cs + 2 + scalarCount pk.cs))
      (prove checks codec hash srs pk repr instances synth blinds) := by
  have hk := isProvingKey hpk
  have hd := hk.domain
  have hpos : 0 < 2 ^ k := by positivity
  have hmen := closed_mentioned hc
  have hcols := closed_columns hc
  obtain ⟨L, hLd, hL, -⟩ := exists_basis hd
  have commitLag : ∀ a : List Fr, a.length = 2 ^ k → ∃ g, srs.commitLagrange a = .ok g := by
    intro a ha
    obtain ⟨p, h1, -⟩ := lagrange_ok hd ha
    exact ⟨_, hcom.lagrange a p h1⟩
  have commitCo : ∀ a : List Fr, a.length ≤ 2 ^ k → ∃ g, srs.commit a = .ok g := fun a ha => ⟨_, hcom.coeff a ha⟩
  unfold prove
  rw [if_neg (by simp [hi])]
  dsimp only
  rw [hcom.rows]
  refine Ends.step (instances_ok _ _ hil) ?_
  rw [hi]
  obtain ⟨instPolys, hip, hip2⟩ := interpAll_exists hd pk.cs.numInstance fun c r => (instances.getD c []).getD r 0
  refine Ends.total hip ?_
  refine Ends.bind hph ?_
  rintro ⟨columns, user, w1⟩ - ⟨⟨huser, witness, rfl, hw, hwl, hsat⟩, g1⟩
  dsimp only at g1 ⊢
  rcases htheta : PlonkProver.draw hash w1 with ⟨θ, w1'⟩
  have g2 := g1.trans (draw_grown htheta)
  dsimp only
  generalize hg : tableOf (2 ^ k) pk.fixedValues witness instances user = g at *
  have hadv : witness.map adviceColumn = columnsOf pk.cs.numAdvice (2 ^ k) g.advice := by
    rw [← hg]; exact advice_ok hpos hw hwl _ _ _
  have hcolumns : ColumnsOf ⟨pk.fixedValues, witness.map adviceColumn,
      columnsOf pk.cs.numInstance (2 ^ k) fun c r => (instances.getD c []).getD r 0⟩ g
      pk.cs.numFixed pk.cs.numAdvice pk.cs.numInstance (2 ^ k) := by
    refine ⟨list_columns hpk.fixed.1 (fun c hc => (hpk.fixed.2.2 c hc).1) _ fun c _ r _ => ?_, hadv, ?_⟩
    · rw [← hg]; rfl
    · rw [← hg]; rfl
  have huser' : user = (List.range pk.cs.numChallenges).map g.challenge := by
    have := user_ok (witness := witness) (ch := ⟨user, 0, 0, 0, 0, 0⟩) huser (2 ^ k) pk.fixedValues instances
    rw [← hg]; exact this
  obtain ⟨permuted, hp1, hp2, hp3⟩ := permuteAll_exists hcolumns hpos huser' θ
    (u := 2 ^ k - (pk.cs.blindingFactors + 1)) (by omega)
    ((pk.cs.lookups.zip blinds.permuted).map fun p => (p.1, p.2.1, p.2.2)) (by
      intro x hx
      obtain ⟨p, hp, rfl⟩ := List.mem_map.1 hx
      have h1 := (List.of_mem_zip hp).1
      have h2 := hb.permutedRows _ (List.of_mem_zip hp).2
      exact ⟨(hmen.lookups _ h1).1, (hmen.lookups _ h1).2, by rw [h2.1]; omega, by rw [h2.2]; omega, hsat _ h1⟩)
  replace hp2 : permuted.length = pk.cs.lookups.length := by
    rw [hp2]
    simp [hb.permuted]
  refine Ends.step hp1 ?_
  have hpolys : ∃ pp, (permuted.mapM fun p => do
      return ((← pk.domain.lagrangeToCoeff p.permutedInput), (← pk.domain.lagrangeToCoeff p.permutedTable))) = .ok pp ∧
      pp.length = permuted.length ∧ ∀ p ∈ pp, p.1.length = 2 ^ k ∧ p.2.length = 2 ^ k := by
    clear hp1 hp2
    induction permuted with
    | nil => exact ⟨[], rfl, rfl, by simp⟩
    | cons p ps ih =>
      obtain ⟨pp, i1, i2, i3⟩ := ih fun q hq => hp3 q (by simp [hq])
      obtain ⟨A, T, a, s, rfl⟩ := hp3 p (by simp)
      obtain ⟨p1, j1, j2⟩ := lagrange_ok hd (a := (List.range (2 ^ k)).map a) (by simp)
      obtain ⟨p2, k1, k2⟩ := lagrange_ok hd (a := (List.range (2 ^ k)).map s) (by simp)
      refine ⟨(p1, p2) :: pp, ?_, by simp [i2], ?_⟩
      · rw [List.mapM_cons, i1]
        dsimp only
        rw [j1, k1]
        rfl
      · intro q hq
        rcases List.mem_cons.1 hq with rfl | hq
        · exact ⟨j2, k2⟩
        · exact i3 q hq
  obtain ⟨pp, hpp1, hpp2, hpp3⟩ := hpolys
  refine Ends.total hpp1 ?_
  refine Ends.bind (writeAll_ends hl hE _ _ ?_) ?_
  · intro q hq
    obtain ⟨p, hp, hq⟩ := List.mem_flatMap.1 hq
    obtain ⟨A, T, a, s, rfl⟩ := hp3 p hp
    simp only [List.mem_cons, List.not_mem_nil, or_false] at hq
    rcases hq with rfl | rfl <;> exact commitLag _ (by simp)
  rintro w2 - g3
  have hflat : (permuted.flatMap fun p => [p.permutedInput, p.permutedTable]).length = 2 * pk.cs.lookups.length := by
    rw [← hp2]
    clear hp1 hp2 hp3 hpp1 hpp2 g3
    induction permuted with
    | nil => rfl
    | cons p ps ih => rw [List.flatMap_cons, List.length_append, ih]; simp; omega
  rw [hflat] at g3
  replace g3 := g2.trans g3
  rcases hbeta : PlonkProver.draw hash w2 with ⟨β, w2'⟩
  dsimp only
  rcases hgamma : PlonkProver.draw hash w2' with ⟨γ, w2''⟩
  dsimp only
  replace g3 := (g3.trans (draw_grown hbeta)).trans (draw_grown hgamma)
  have hsets : blinds.products.length = numSets pk.cs := by rw [hb.products, chunks_length]; rfl
  have hsv : pk.sigmaValues = columnsOf pk.cs.permutation.length (2 ^ k) fun c r => (pk.sigmaValues.getD c []).getD r 0 :=
    list_columns hpk.sigma.1 (fun c hc => (hpk.sigma.2.2 c hc).1) _ fun c _ r _ => rfl
  refine Ends.total (permutationProducts_ok pk hcolumns hcols _ hsv β γ blinds.products hsets hb.productRows (by omega)) ?_
  generalize hprods : ((List.range (numSets pk.cs)).map fun t => (List.range (2 ^ k)).map
        (zAt (2 ^ k) pk.cs.blindingFactors
          (startAt (2 ^ k - (pk.cs.blindingFactors + 1))
            (ratio pk.cs pk.domain.omega β γ (permAt pk.cs g) fun c r => (pk.sigmaValues.getD c []).getD r 0) t)
          (ratio pk.cs pk.domain.omega β γ (permAt pk.cs g) (fun c r => (pk.sigmaValues.getD c []).getD r 0) t)
          (blinds.products.getD t []))) = products
  have hpl : products.length = numSets pk.cs := by rw [← hprods]; simp
  have hpr : ∀ p ∈ products, p.length = 2 ^ k := by
    rw [← hprods]
    intro p hp
    obtain ⟨t, -, rfl⟩ := List.mem_map.1 hp
    simp
  clear hprods
  obtain ⟨zPolys, hz1, hz2, hz3⟩ := lagrangeAll_ok hd products hpr
  refine Ends.total hz1 ?_
  refine Ends.bind (writeAll_ends hl hE _ _ fun p hp => commitLag p (hpr p hp)) ?_
  rintro w3 - g4
  rw [hpl] at g4
  replace g4 := g3.trans g4
  have hlp : ∃ ls, ((permuted.zip blinds.lookups).mapM fun p =>
      lookupProduct (2 ^ k) pk.cs.blindingFactors p.1 β γ p.2) = .ok ls ∧ ls.length = (permuted.zip blinds.lookups).length ∧
      ∀ p ∈ ls, p.length = 2 ^ k := by
    have hz : ∀ p ∈ permuted.zip blinds.lookups, (∃ A T a s : Nat → Fr, p.1 = ⟨(List.range (2 ^ k)).map A,
        (List.range (2 ^ k)).map T, (List.range (2 ^ k)).map a, (List.range (2 ^ k)).map s⟩) ∧
        p.2.length = pk.cs.blindingFactors := fun p hp =>
      ⟨hp3 _ (List.of_mem_zip hp).1, hb.lookupRows _ (List.of_mem_zip hp).2⟩
    generalize permuted.zip blinds.lookups = l at hz
    induction l with
    | nil => exact ⟨[], rfl, rfl, by simp⟩
    | cons p l ih =>
      obtain ⟨ls, i1, i2, i3⟩ := ih fun q hq => hz q (by simp [hq])
      obtain ⟨⟨A, T, a, s, e⟩, hbl⟩ := hz p (by simp)
      have := lookupProduct_ok (n := 2 ^ k) (bf := pk.cs.blindingFactors) (by omega) A T a s β γ p.2 hbl
      rw [← e] at this
      obtain ⟨z, hz1, hz2⟩ : ∃ z : List Fr, lookupProduct (2 ^ k) pk.cs.blindingFactors p.1 β γ p.2 = .ok z ∧
        z.length = 2 ^ k := ⟨_, this, by simp⟩
      clear this
      refine ⟨z :: ls, ?_, by simp [i2], ?_⟩
      · rw [List.mapM_cons, hz1, i1]
        rfl
      · intro q hq
        rcases List.mem_cons.1 hq with rfl | hq
        · exact hz2
        · exact i3 q hq
  obtain ⟨ls, hl1, hl2, hl3⟩ := hlp
  replace hl2 : ls.length = pk.cs.lookups.length := by
    rw [hl2]; simp [hp2, hb.lookups]
  refine Ends.total hl1 ?_
  obtain ⟨lPolys, hlz1, hlz2, hlz3⟩ := lagrangeAll_ok hd ls hl3
  refine Ends.total hlz1 ?_
  refine Ends.bind (writeAll_ends hl hE _ _ fun p hp => commitLag p (hl3 p hp)) ?_
  rintro w4 - g5
  rw [hl2] at g5
  replace g5 := g4.trans g5
  obtain ⟨rnd, hr1, hr2⟩ := lagrange_ok hd (a := List.replicate (2 ^ k) 1) (by simp)
  refine Ends.total hr1 ?_
  obtain ⟨grnd, hgr⟩ := commitCo rnd hr2.le
  refine Ends.bind (writeCommitment_ends hl hE (Or.inl rfl) hgr _) ?_
  rintro w5 - g6
  replace g6 := g5.trans g6
  rcases hy : PlonkProver.draw hash w5 with ⟨y, w5'⟩
  dsimp only
  replace g6 := g6.trans (draw_grown hy)
  obtain ⟨aPolys, ha1, ha2, ha3⟩ := lagrangeAll_ok hd (witness.map adviceColumn) (by
    intro a ha
    obtain ⟨v, hv, rfl⟩ := List.mem_map.1 ha
    unfold adviceColumn
    rw [List.length_set]
    exact hwl v hv)
  refine Ends.total ha1 ?_
  have hsized : ∀ p, Sized pk k ⟨aPolys, pp, zPolys, lPolys, rnd, p⟩ := fun p =>
    ⟨⟨ha2.trans (by simp [hw]), ha3⟩, ⟨hpp2.trans hp2, hpp3⟩, ⟨hz2.trans hpl, hz3⟩, ⟨hlz2.trans hl2, hlz3⟩⟩
  have hfold : ∀ c < pk.cs.numInstance, ∀ r < 2 ^ k,
      (instances.getD c []).getD r 0 = foldedColumn (2 ^ k) (instances.getD c []) r := by
    intro c hcc r hr
    have : (instances.getD c []).length ≤ 2 ^ k := by
      rcases getD_mem_or instances c [] with h | h
      · exact (hil _ h).trans (by omega)
      · rw [h]; simp
    rw [foldedColumn_short this r]
  have hH := evaluateH_ok (ch := ⟨user, θ, β, γ, y, 0⟩) hk hc hLd hL hbf (hip2.congr hfold) (hsized []) huser
  refine Ends.total hH ?_
  obtain ⟨pieces, hq⟩ := pieces_ok hd (v := (List.range (2 ^ pk.domain.extendedK)).map fun i =>
      (numer L pk instances ⟨aPolys, pp, zPolys, lPolys, rnd, []⟩ ⟨user, θ, β, γ, y, 0⟩).eval
        (pk.domain.gCoset * pk.domain.extendedOmega ^ i)) (by simp)
  obtain ⟨hq1, hq2⟩ := pieces_inv hd hq
  refine Ends.total hq ?_
  refine Ends.bind (writeAll_ends hl hE _ _ fun p hp => commitCo p (hq2 p hp).le) ?_
  rintro w6 - g7
  rw [hq1, hd.quotient] at g7
  replace g7 := g6.trans g7
  rcases hx : PlonkProver.draw hash w6 with ⟨x, w6'⟩
  dsimp only
  have g8 := g7.trans (draw_grown hx)
  refine Ends.total (evals_ok hk hc (hsized pieces) x) ?_
  obtain ⟨hPoly, hh⟩ := combineQuotient_ok (x ^ 2 ^ k) pieces hq2
  have hhl := (combineQuotient_value hq2 hh).1
  refine Ends.total hh ?_
  replace g8 := g8.trans (writeScalars_grown (scalarsOf (evalsOf pk ⟨aPolys, pp, zPolys, lPolys, rnd, pieces⟩ x)) w6')
  rw [scalarsOf_length] at g8
  obtain ⟨qs, hqs, hqne⟩ := proverQueries_ok hpk hc (hsized pieces) x hPoly
  refine Ends.total hqs ?_
  have hfix : ∀ p ∈ pk.fixedPolys, p.length = 2 ^ k := by
    intro p hp
    obtain ⟨i, hi, rfl⟩ := List.getElem_of_mem hp
    have := (hpk.fixed.2.2 i (by rw [← hpk.fixed.2.1]; exact hi)).2.1
    rwa [List.getD_eq_getElem?_getD, List.getElem?_eq_getElem hi, Option.getD_some] at this
  have hsig : ∀ p ∈ pk.sigmaPolys, p.length = 2 ^ k := by
    intro p hp
    obtain ⟨i, hi, rfl⟩ := List.getElem_of_mem hp
    have := (hpk.sigma.2.2 i (by rw [← hpk.sigma.2.1]; exact hi)).2.1
    rwa [List.getD_eq_getElem?_getD, List.getElem?_eq_getElem hi, Option.getD_some] at this
  obtain ⟨object, hgood⟩ := queries_good (ch := ⟨user, θ, β, γ, y, x⟩) hd hqs ha3 hpp3 hz3 hlz3 hr2 hhl hfix hsig
  rcases hy' : PlonkProver.draw hash ((scalarsOf (evalsOf pk ⟨aPolys, pp, zPolys, lPolys, rnd, pieces⟩ x)).foldl writeScalar w6')
    with ⟨y', w7⟩
  dsimp only
  rcases hv : PlonkProver.draw hash w7 with ⟨v, w7'⟩
  dsimp only
  replace g8 := (g8.trans (draw_grown hy')).trans (draw_grown hv)
  have hroot : ∀ j : Int, (pk.domain.omega ^ j) ^ 2 ^ k = 1 := by
    intro j
    rw [← zpow_natCast, ← zpow_mul, mul_comm, zpow_mul, zpow_natCast, hd.omega.pow_eq_one, one_zpow]
  obtain ⟨hX, sets, sup, o1, o2, o3⟩ := open_ends checks hpos hqne (fun q hq => (hgood q hq).2.1)
    (fun q hq q' hq' h => by rw [(hgood q hq).1, (hgood q' hq').1, h]) (fun q hq => (hgood q hq).2.2.1)
    ((List.range (2 ^ k)).map fun i => x * pk.domain.omega ^ i) (fun q hq => by
      obtain ⟨-, -, -, j, hj⟩ := hgood q hq
      have : NeZero (2 ^ k) := ⟨by positivity⟩
      obtain ⟨i, hi, he⟩ := hd.omega.eq_pow_of_pow_eq_one (hroot j)
      exact List.mem_map.2 ⟨i, List.mem_range.2 hi, by rw [hj, he]⟩) (by simp) y' v
  refine Ends.total o1 ?_
  dsimp only
  obtain ⟨gh, hgh⟩ := commitCo hX o2.le
  refine Ends.bind (writeCommitment_ends hl hE (Or.inr rfl) hgh _) ?_
  rintro w8 - g9
  replace g9 := g8.trans g9
  rcases hu' : PlonkProver.draw hash w8 with ⟨u, w8'⟩
  dsimp only
  have g10 := g9.trans (draw_grown hu')
  rcases o3 u with ⟨lx, o4, o5⟩ | ⟨o4, q, hq, rfl⟩
  · refine Ends.total o4 ?_
    obtain ⟨gl, hgl⟩ := commitCo lx o5
    refine Ends.bind (writeCommitment_ends hl hE (Or.inr rfl) hgl _) ?_
    rintro w9 - g11
    replace g11 := (g10.trans g11).2
    show w9.output.length = _
    rw [g11]
    unfold pointsBefore
    simp only [List.length_nil]
    omega
  · rw [o4]
    show E (.panic .unwrap)
    obtain ⟨-, -, -, j, hj⟩ := hgood q hq
    have e1 : q.point = (squeeze hash w8.absorbed).1 := (congrArg Prod.fst hu').symm
    have e2 : x = (squeeze hash w6.absorbed).1 := (congrArg Prod.fst hx).symm
    have hlen := g7.1
    have hlen' := g9.1
    refine hu w6.absorbed w8.absorbed ?_ ?_ ?_
    · rw [hlen]
      unfold pointsBefore
      simp only
      omega
    · rw [hlen, hlen']
      simp only
      omega
    · rw [← e1, ← e2, hj, mul_pow, hroot, mul_one]

end main

section circuit

open Keygen Props

theorem allocMany_queries (cs : CS) (m : Nat) : (cs.allocMany m).fixedQueries.length ≤ cs.fixedQueries.length + m := by
  induction m with
  | zero => exact le_rfl
  | succ m ih =>
    show (CS.addQuery (cs.allocMany m).fixedQueries ((cs.allocMany m).numFixed, 0)).length ≤ _
    unfold CS.addQuery
    split
    · omega
    · simp only [List.length_append, List.length_singleton]
      omega

theorem compressed_queries {cs : CS} {simple : Nat → Bool} (hs : Sane cs simple)
    {acts : List (List Bool)} {c : CS.Compressed} {cols : List (List Fr)} {as : List SelectorAssignment}
    (hc : cs.compressSelectors acts = .ok (c, cols, as)) :
    c.cs.fixedQueries.length ≤ cs.fixedQueries.length + cols.length := by
  obtain ⟨degrees, combos, n', rs, -, -, -, -, -, e⟩ := compression_facts hs hc
  rw [e]
  exact allocMany_queries cs cols.length

omit [AddCommGroup G] [Module Fr G] in
theorem phases_ends (hl : Lawful codec) (hE : Allows codec E) {hash : Hash} {commit : List Fr → Except Panic G} {cs : CS}
    {k : Nat} {mx : Matrix} {inst : Nat → List Fr}
    (h1 : cs.advicePhase = mainCS.advicePhase) (h2 : cs.challengePhase = mainCS.challengePhase)
    (hc : ∀ a : List Fr, a.length = 2 ^ k → ∃ g, commit a = .ok g)
    (hs : ∀ ch, ∃ a, synthesize (2 ^ k) mx ch inst = .ok a) (advice : List (List Fr)) (user : List Fr) (w : Writer) :
    Ends E (fun r => Grown 28 0 11 w r.2.2)
      (writePhases codec hash commit cs (circuitSynth k mx inst) cs.phases advice user w) := by
  have hph : cs.phases = [0, 1] := by
    unfold CS.phases
    rw [h1]
    decide +kernel
  have hna : mainCS.numAdvice = 28 := by decide +kernel
  have hle : ∀ p ∈ mainCS.advicePhase.zipIdx, p.2 < 28 := by decide +kernel
  have hcp : ∀ p ∈ mainCS.challengePhase.zipIdx, p.1 ≠ 1 := by decide +kernel
  have hcount : (mainCS.advicePhase.zipIdx.filter fun p => p.1 = 0).length +
      (mainCS.advicePhase.zipIdx.filter fun p => p.1 = 1).length = 28 := by decide +kernel
  have hcount' : (mainCS.challengePhase.zipIdx.filter fun p => p.1 = 0).length = 11 := by decide +kernel
  have synth : ∀ phase user, ∃ cols, circuitSynth k mx inst phase user = .ok cols ∧ cols.length = 28 ∧
      ∀ c ∈ cols, c.length = 2 ^ k := by
    intro phase user
    obtain ⟨a, ha⟩ := hs fun i => user.getD i 0
    unfold circuitSynth
    rw [ha]
    refine ⟨_, rfl, by simp [hna], ?_⟩
    intro c hc
    obtain ⟨i, -, rfl⟩ := List.mem_map.1 hc
    simp
  have hcol : ∀ c : List Fr, c.length = 2 ^ k → ∃ g, commit (adviceColumn c) = .ok g := by
    intro c hcl
    refine hc _ ?_
    unfold adviceColumn
    rw [List.length_set, hcl]
  rw [← h1] at hle hcount
  rw [← h2] at hcp hcount'
  clear h1 h2 hna
  generalize circuitSynth k mx inst = made at synth ⊢
  rw [hph]
  unfold writePhases
  obtain ⟨cols0, s0, s1, s2⟩ := synth 0 user
  refine Ends.step s0 ?_
  refine Ends.bind (writeAdvice_ends hl hE (fun c hc => hcol c (s2 c hc)) _ _ _ (by rw [s1]; exact hle)) ?_
  rintro ⟨advice0, w0⟩ - g0
  dsimp only at g0 ⊢
  have g1 := squeezePhase_grown (hash := hash) (phase := 0) cs.challengePhase.zipIdx user w0.absorbed
  generalize squeezePhase hash 0 cs.challengePhase.zipIdx user w0.absorbed = sq at g1
  obtain ⟨user0, abs0⟩ := sq
  dsimp only at g1 ⊢
  unfold writePhases
  obtain ⟨cols1, t0, t1, t2⟩ := synth 1 user0
  refine Ends.step t0 ?_
  refine Ends.bind (writeAdvice_ends hl hE (fun c hc => hcol c (t2 c hc)) _ _ _ (by rw [t1]; exact hle)) ?_
  rintro ⟨advice1, w1⟩ - g2
  dsimp only at g2 ⊢
  rw [squeezePhase_none _ _ _ hcp]
  unfold writePhases
  show Grown 28 0 11 w ⟨w1.absorbed, w1.output⟩
  unfold Grown at *
  dsimp only at g2 ⊢
  omega

variable {checks checks' : Bool} {src : List UInt8} {code : List Fr} {input : List Nat} {n : Nat} {s : Verif.Interp} {k : Nat}
  {pk : ProvingKey} {srs : Srs G G₂} {f : Coeffs → G} {hash : Hash} {repr : Fr} {blinds : Blinds}

/-- The prover of the brainfuck circuit. -/
theorem circuit_ends (hp : GoodProgram checks src code) (hi : GoodInput 8 input) (hn : n ≤ 2 ^ 62)
    (hlen : input.length < 2 ^ 64) (hr : runOn n 8 code input = some (.ok s)) (hread : s.input = []) (hk9 : 9 ≤ k)
    (hroom : s.matrix.instruction.length + 7 ≤ 2 ^ k) (hroom' : input.length + 7 ≤ 2 ^ k) {ch : Nat → Fr} {a : Assembly}
    (ha : synthesize (2 ^ k) s.matrix ch (publicInputs code (toFr input)) = .ok a)
    {c : CS.Compressed} {cols : List (List Fr)} {as : List SelectorAssignment}
    (hc : mainCS.compressSelectors (selectorTable (2 ^ k) a) = .ok (c, cols, as))
    (hcols : ∀ col ∈ cols, col.length = 2 ^ k) (hpk : ProvingKeyFor pk k) (hcs : pk.cs = c.cs)
    (hfix : pk.fixedValues = fixedValues mainCS (2 ^ k) a cols)
    (hl : Lawful codec) (hE : Allows codec E) (hcom : Commits srs pk.domain k f) (hb : EnoughBlinds pk.cs blinds)
    (hu : ∀ a b : List UInt8, a.length = ([publicInputs code (toFr input) 0, publicInputs code (toFr input) 1].flatten.foldl
        commonScalar (commonScalar [] repr)).length + 65 * 44 + 15 → a.length < b.length →
      (squeeze hash b).1 ^ 2 ^ k = (squeeze hash a).1 ^ 2 ^ k → E (.panic .unwrap)) :
    Ends E (fun out => out.length ≤ 4512) (prove checks' codec hash srs pk repr
      [publicInputs code (toFr input) 0, publicInputs code (toFr input) 1]
      (circuitSynth k s.matrix (publicInputs code (toFr input))) blinds) := by
  have h9 : 2 ^ 9 ≤ 2 ^ k := Nat.pow_le_pow_right (by norm_num) hk9
  have hsyn : ∀ ch, ∃ a, synthesize (2 ^ k) s.matrix ch (publicInputs code (toFr input)) = .ok a := fun ch =>
    (honest_room hp hi hn hr (2 ^ k) ch).2 ⟨by omega, hroom, hroom'⟩
  obtain ⟨g1', g2', g3', g4', g5', g6'⟩ := gates_count
  have hna : mainCS.numAdvice = 28 := by decide +kernel
  have haq : mainCS.adviceQueries.length = 52 := by decide +kernel
  have hfq : mainCS.fixedQueries.length = 1 := by decide +kernel
  have hdg : mainCS.degree = 11 := by decide +kernel
  obtain ⟨c1, c2, c3, c4, c5, c6, c7, c8, c9, c10⟩ := compressed_permutation mainCS_sane hc
  obtain ⟨p1, p2⟩ := compressed_phases mainCS_sane hc
  obtain ⟨hnd, h16⟩ := C33_circuit
  have hcl := compressed_closed mainCS_sane mainCS_closed hc
  have hdeg : c.cs.degree = 11 := by rw [C32_degree _ _ mainCS_sane _ _ _ _ hc, hdg]
  have hsets : numSets c.cs = 2 := by
    unfold numSets
    unfold partLen
    rw [c1, h16, hdeg]
  have hpts : pointsBefore pk.cs = 44 := by
    unfold pointsBefore
    rw [hcs, hsets, c5, hna, c6, g2', hdeg]
  have hus : c.cs.usableRows (2 ^ k) = 2 ^ k - 6 := by
    unfold CS.usableRows; rw [c10, g6']
  obtain ⟨-, hl0, hl1, -⟩ := (synthesize_ok_iff _ _ _ _ _).1 ha
  have hq := compressed_queries mainCS_sane hc
  have hsc : scalarCount pk.cs ≤ 95 := by
    have := assignments_inRange hc
    unfold scalarCount
    rw [hcs, hsets, c9, haq, c1, h16, c6, g2']
    omega
  have hbf : pk.cs.blindingFactors = 5 := by rw [hcs, c10, g6']
  have commitLag : ∀ a : List Fr, a.length = 2 ^ k → ∃ g, srs.commitLagrange a = .ok g := by
    intro a ha
    obtain ⟨p, h1, -⟩ := lagrange_ok hpk.domain ha
    exact ⟨_, hcom.lagrange a p h1⟩
  have hph := phases_ends (E := E) (hash := hash) (cs := pk.cs) (inst := publicInputs code (toFr input)) hl hE (by rw [hcs, p1])
    (by rw [hcs, p2]) commitLag hsyn (List.replicate pk.cs.numAdvice (List.replicate (2 ^ k) 0))
    (List.replicate pk.cs.numChallenges 0)
    ⟨[publicInputs code (toFr input) 0, publicInputs code (toFr input) 1].flatten.foldl commonScalar (commonScalar [] repr), []⟩
  have main := prove_ends (checks := checks') (E := E) (hash := hash) (repr := repr)
    (synth := circuitSynth k s.matrix (publicInputs code (toFr input)))
    (instances := [publicInputs code (toFr input) 0, publicInputs code (toFr input) 1]) hl hE hpk
    (by rw [hcs]; exact hcl) (by rw [hbf]; omega) hcom
    (by rw [hcs, c3, g4']; rfl) (by
      intro v hv
      rw [hbf]
      simp only [List.mem_cons, List.not_mem_nil, or_false] at hv
      rcases hv with rfl | rfl
      · exact hl0
      · exact hl1) hb (by
      generalize hw : writePhases codec hash srs.commitLagrange pk.cs
        (circuitSynth k s.matrix (publicInputs code (toFr input))) pk.cs.phases
        (List.replicate pk.cs.numAdvice (List.replicate (2 ^ k) 0)) (List.replicate pk.cs.numChallenges 0)
        ⟨[publicInputs code (toFr input) 0, publicInputs code (toFr input) 1].flatten.foldl commonScalar
          (commonScalar [] repr), []⟩ = res at hph ⊢
      cases res with
      | error e => exact hph
      | ok r =>
        obtain ⟨columns, user, w1⟩ := r
        obtain ⟨hul, witness, w1, w2⟩ := circuit_columns (by rw [hcs, p1]) (by rw [hcs, p2]) (by rw [hcs, c5])
          (by rw [hcs, c4]) hw
        refine ⟨⟨by rw [hcs, c4, g5']; exact hul, witness, w2, ?_, ?_, ?_⟩, by rw [hcs, c4, g5', c5, hna]; exact hph⟩
        · unfold witnessColumns at w1
          split at w1
          · obtain rfl := Except.ok.inj w1
            rw [hcs, c5]
            simp
          · exact absurd w1 (by simp)
          · exact absurd w1 (by simp)
        · unfold witnessColumns at w1
          split at w1
          · obtain rfl := Except.ok.inj w1
            intro v hv
            obtain ⟨i, -, rfl⟩ := List.mem_map.1 hv
            simp
          · exact absurd w1 (by simp)
          · exact absurd w1 (by simp)
        · obtain ⟨a0, ha0⟩ := hsyn (fun _ => 0)
          obtain ⟨a1, ha1⟩ := hsyn (fun i => user.getD i 0)
          have hsat := honest_table hp hi hn hlen hr hread ha ha0 ha1 hc hcols w1
          rw [hcs, hfix]
          exact hsat.lookups)
    (by
      intro a b e1
      rw [hpts, hcs, c4, g5'] at e1
      exact hu a b (by rw [e1]))
  generalize prove checks' codec hash srs pk repr _ _ blinds = res at main ⊢
  cases res with
  | error e => exact main
  | ok out =>
    have main : out.length = 32 * (pointsBefore pk.cs + 2 + scalarCount pk.cs) := main
    show out.length ≤ 4512
    omega

end circuit

end Verif.Transcript

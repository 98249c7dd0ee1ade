import Verif.Lemmas.ProveRun
import Verif.Lemmas.ProverCreate
import Verif.Lemmas.KzgLemmas

/-! The verifier reads what the prover has written. -/

namespace Verif.Transcript

open Plonk Spec PlonkProver Shplonk

section lists

variable {α β ε : Type}

theorem mapM_forall₂ (f : α → Except ε β) : ∀ {l : List α} {r : List β}, l.mapM f = .ok r →
    List.Forall₂ (fun a b => f a = .ok b) l r := by
  intro l
  induction l with
  | nil => intro r h; obtain rfl := Except.ok.inj h; exact .nil
  | cons a l ih =>
    intro r h
    rw [List.mapM_cons] at h
    obtain ⟨b, hb, h⟩ := bind_ok.1 h
    obtain ⟨bs, hbs, h⟩ := bind_ok.1 h
    obtain rfl := Except.ok.inj h
    exact .cons hb (ih hbs)

theorem mapM_length {f : α → Except ε β} {l : List α} {r : List β} (h : l.mapM f = .ok r) : r.length = l.length :=
  (mapM_forall₂ f h).length_eq.symm

theorem forall₂_mem_right {R : α → β → Prop} {l : List α} {r : List β} (h : List.Forall₂ R l r) :
    ∀ b ∈ r, ∃ a ∈ l, R a b := by
  induction h with
  | nil => simp
  | @cons a b l r hab _ ih =>
    intro b' hb'
    rcases List.mem_cons.1 hb' with rfl | hb'
    · exact ⟨a, by simp, hab⟩
    · obtain ⟨a', h1, h2⟩ := ih b' hb'
      exact ⟨a', by simp [h1], h2⟩

theorem mapM_mem {f : α → Except ε β} {l : List α} {r : List β} (h : l.mapM f = .ok r) :
    ∀ b ∈ r, ∃ a ∈ l, f a = .ok b := forall₂_mem_right (mapM_forall₂ f h)

theorem mapM_eq_map {f : α → Except ε β} {g : α → β} {l : List α} {r : List β} (h : l.mapM f = .ok r)
    (hg : ∀ a b, f a = .ok b → g a = b) : l.map g = r := by
  have := mapM_forall₂ f h
  clear h
  induction this with
  | nil => rfl
  | cons hab _ ih => rw [List.map_cons, hg _ _ hab, ih]

end lists

section phases

variable {G : Type} [Zero G] {codec : Codec G} {hash : Hash} {commit : List Fr → Except Panic G} {val : List Fr → G}

theorem read_advice (hl : Lawful codec) (hv : ∀ col c, commit col = .ok c → val col = c) {phase : Nat}
    {cols : List (List Fr)} : ∀ {l : List (Nat × Nat)} {advice advice' : List (List Fr)} {w w' : Writer},
    writeAdvice codec commit phase cols l advice w = .ok (advice', w') →
      Reads w w' (Verify.readAdvice codec phase l (advice.map val)) (advice'.map val) := by
  intro l
  induction l with
  | nil =>
    intro advice advice' w w' h
    obtain ⟨rfl, rfl⟩ := Prod.mk.inj (Except.ok.inj h)
    exact reads_nil w _
  | cons q l ih =>
    intro advice advice' w w' h
    obtain ⟨p, i⟩ := q
    unfold writeAdvice at h
    show Reads w w' (fun t => Verify.readAdvice codec phase ((p, i) :: l) (advice.map val) t) _
    unfold Verify.readAdvice
    split at h
    · next hp =>
      simp only [if_pos hp]
      obtain ⟨col, h1, h⟩ := bind_ok.1 h
      obtain ⟨w1, h2, h⟩ := bind_ok.1 h
      obtain ⟨c, hc, h2⟩ := write_commitment h2
      have := ih h
      rw [List.map_set, hv _ _ hc] at this
      exact (read_point hl .io h2).bind
        (k := fun c t => Verify.readAdvice codec phase l ((advice.map val).set i c) t) this
    · next hp =>
      simp only [if_neg hp]
      exact ih h

theorem read_phases (hl : Lawful codec) (hv : ∀ col c, commit col = .ok c → val col = c) {cs : CS}
    {synth : Nat → List Fr → Except PlonkProver.Stop (List (List Fr))} :
    ∀ {phases : List Nat} {advice advice' : List (List Fr)} {user user' : List Fr} {w w' : Writer},
    writePhases codec hash commit cs synth phases advice user w = .ok (advice', user', w') →
      ∃ b, w'.output = w.output ++ b ∧ ∀ rest,
        Verify.readPhases codec hash cs phases (advice.map val) user ⟨w.absorbed, b ++ rest⟩ =
          .ok (advice'.map val, user', ⟨w'.absorbed, rest⟩) := by
  intro phases
  induction phases with
  | nil =>
    intro advice advice' user user' w w' h
    obtain ⟨rfl, h2⟩ := Prod.mk.inj (Except.ok.inj h)
    obtain ⟨rfl, rfl⟩ := Prod.mk.inj h2
    exact ⟨[], by simp, fun rest => rfl⟩
  | cons phase phases ih =>
    intro advice advice' user user' w w' h
    unfold writePhases at h
    obtain ⟨cols, h1, h⟩ := bind_ok.1 h
    obtain ⟨⟨adv1, w1⟩, h2, h⟩ := bind_ok.1 h
    dsimp only at h
    rcases hs : squeezePhase hash phase cs.challengePhase.zipIdx user w1.absorbed with ⟨user1, a1⟩
    rw [hs] at h
    dsimp only at h
    obtain ⟨b2, e2, r2⟩ := ih h
    obtain ⟨b1, e1, r1⟩ := read_advice hl hv h2
    refine ⟨b1 ++ b2, by rw [e2, e1, List.append_assoc], fun rest => ?_⟩
    unfold Verify.readPhases
    rw [List.append_assoc, r1]
    simp only [bind, Except.bind, hs]
    exact r2 rest

end phases

theorem read_draw {hash : Hash} {w w' : Writer} {c : Fr} (h : PlonkProver.draw hash w = (c, w')) :
    w'.output = w.output ∧ ∀ input, Verify.draw hash ⟨w.absorbed, input⟩ = (c, ⟨w'.absorbed, input⟩) := by
  unfold PlonkProver.draw at h
  obtain ⟨rfl, rfl⟩ := Prod.mk.inj h
  exact ⟨rfl, fun input => rfl⟩

section polys

variable {d : Domain} {j k : Nat}

theorem lagrange_inv (h : IsDomain d j k) {a p : List Fr} (hp : d.lagrangeToCoeff a = .ok p) :
    a.length = 2 ^ k ∧ p.length = 2 ^ k := by
  by_cases ha : a.length = 2 ^ k
  · obtain ⟨c, h1, h2, -⟩ := h.lagrangeToCoeff_values a ha
    rw [hp] at h1
    obtain rfl := Except.ok.inj h1
    exact ⟨ha, h2⟩
  · unfold Domain.lagrangeToCoeff at hp
    rw [h.k_mod, if_pos ha] at hp
    exact absurd hp (by simp)

theorem pieces_inv (h : IsDomain d j k) {v : List Fr} {pieces : List Coeffs}
    (hp : quotientPieces d (2 ^ k) v = .ok pieces) :
    pieces.length = d.quotientPolyDegree ∧ ∀ p ∈ pieces, p.length = 2 ^ k := by
  unfold quotientPieces at hp
  obtain ⟨v1, h1, hp⟩ := bind_ok.1 hp
  obtain ⟨v2, h2, hp⟩ := bind_ok.1 hp
  obtain rfl := Except.ok.inj hp
  have l1 : v1.length = 2 ^ d.extendedK := by
    unfold Domain.divideByVanishingPoly at h1
    split at h1
    · exact absurd h1 (by simp)
    · next hv =>
      split at h1
      · exact absurd h1 (by simp)
      · obtain rfl := Except.ok.inj h1
        rw [List.length_mapIdx, ← h.extendedLen]
        simpa using hv
  unfold Domain.extendedToCoeff Domain.ifft at h2
  rw [if_neg (by rw [h.extendedLen]; simpa using l1), dft_ok v1 _ d.extendedK h.extendedOmegaInv_primitive l1] at h2
  simp only [Except.map] at h2
  obtain rfl := Except.ok.inj h2
  have hle := h.extendedLeast.1.2
  have hmod : d.n * d.quotientPolyDegree % 2 ^ 64 = 2 ^ k * d.quotientPolyDegree := by
    rw [h.rows, Nat.mod_eq_of_lt]
    rw [h.quotient]
    have := Nat.pow_le_pow_right (n := 2) (by norm_num) h.ek_le
    omega
  have c := chunksExact_sum (n := 2 ^ k) (m := d.quotientPolyDegree) (by positivity)
    ((d.distributePowersZeta ((((List.range (2 ^ d.extendedK)).map fun b => polyAt v1 (d.extendedOmegaInv ^ b))).map
      fun x => d.extendedIfftDivisor • x) false).take (d.n * d.quotientPolyDegree % 2 ^ 64)) (by
    rw [hmod, List.length_take]
    unfold Domain.distributePowersZeta
    rw [List.length_mapIdx, List.length_map, List.length_map, List.length_range, h.quotient]
    omega)
  exact ⟨c.1, c.2.1⟩

end polys

/-- Commitments are what they should be. -/
structure Commits {G G₂ : Type} [AddCommGroup G] [Module Fr G] (srs : Srs G G₂) (d : Domain) (k : Nat)
    (f : Coeffs → G) : Prop where
  rows : srs.n = 2 ^ k
  coeff : ∀ c, c.length ≤ 2 ^ k → srs.commit c = .ok (f c)
  lagrange : ∀ col p, d.lagrangeToCoeff col = .ok p → srs.commitLagrange col = .ok (f p)
  zero : srs.commitLagrange (List.replicate (2 ^ k) 0) = .ok 0

section run

variable {G G₂ : Type} [AddCommGroup G] [Module Fr G]
variable {checks : Bool} {codec : Codec G} {hash : Hash} {srs : Srs G G₂} {pk : ProvingKey} {repr : Fr}
  {instances : List (List Fr)} {synth : Nat → List Fr → Except PlonkProver.Stop (List (List Fr))}
  {blinds : Blinds} {out : List UInt8}

theorem writeAdvice_length {commit : List Fr → Except Panic G} {phase : Nat} {cols : List (List Fr)} :
    ∀ {l : List (Nat × Nat)} {advice advice' : List (List Fr)} {w w' : Writer},
    writeAdvice codec commit phase cols l advice w = .ok (advice', w') → advice'.length = advice.length := by
  intro l
  induction l with
  | nil =>
    intro advice advice' w w' h
    obtain ⟨rfl, rfl⟩ := Prod.mk.inj (Except.ok.inj h)
    rfl
  | cons q l ih =>
    intro advice advice' w w' h
    obtain ⟨p, i⟩ := q
    unfold writeAdvice at h
    split at h
    · obtain ⟨col, h1, h⟩ := bind_ok.1 h
      obtain ⟨w1, h2, h⟩ := bind_ok.1 h
      rw [ih h, List.length_set]
    · exact ih h

theorem writePhases_length {commit : List Fr → Except Panic G} {cs : CS}  :
    ∀ {phases : List Nat} {advice advice' : List (List Fr)} {user user' : List Fr} {w w' : Writer},
    writePhases codec hash commit cs synth phases advice user w = .ok (advice', user', w') →
      advice'.length = advice.length := by
  intro phases
  induction phases with
  | nil =>
    intro advice advice' user user' w w' h
    obtain ⟨rfl, h2⟩ := Prod.mk.inj (Except.ok.inj h)
    rfl
  | cons phase phases ih =>
    intro advice advice' user user' w w' h
    unfold writePhases at h
    obtain ⟨cols, h1, h⟩ := bind_ok.1 h
    obtain ⟨⟨adv1, w1⟩, h2, h⟩ := bind_ok.1 h
    dsimp only at h
    rw [ih h, writeAdvice_length h2]

theorem permuteAll_length {cols : Columns} {user : List Fr} {n usable : Nat} {theta : Fr} :
    ∀ {l : List (Lookup × List Fr × List Fr)} {ps : List Permuted},
      permuteAll cols user n usable theta l = .ok ps → ps.length = l.length := by
  intro l
  induction l with
  | nil => intro ps h; obtain rfl := Except.ok.inj h; rfl
  | cons q l ih =>
    intro ps h
    obtain ⟨a, b, c⟩ := q
    unfold permuteAll at h
    obtain ⟨p, h1, h⟩ := bind_ok.1 h
    obtain ⟨p', h2, h⟩ := bind_ok.1 h
    obtain ⟨qs, h3, h⟩ := bind_ok.1 h
    obtain rfl := Except.ok.inj h
    simp [ih h3]

theorem productSets_length {omega beta gamma : Fr} {n bf : Nat} {cols : Columns} :
    ∀ {sets : List (List Col × List (List Fr))} {bs : List (List Fr)} {delta lastZ : Fr} {zs : List (List Fr)},
      productSets omega beta gamma n bf cols sets bs delta lastZ = .ok zs → zs.length = min sets.length bs.length := by
  intro sets
  induction sets with
  | nil =>
    intro bs delta lastZ zs h
    unfold productSets at h
    obtain rfl := Except.ok.inj h
    simp
  | cons s sets ih =>
    intro bs delta lastZ zs h
    cases bs with
    | nil =>
      unfold productSets at h
      obtain rfl := Except.ok.inj h
      simp
    | cons b bs =>
      obtain ⟨c, sg⟩ := s
      unfold productSets at h
      obtain ⟨vs, h1, h⟩ := bind_ok.1 h
      dsimp only at h
      obtain ⟨lz, h2, h⟩ := bind_ok.1 h
      obtain ⟨zs', h3, h⟩ := bind_ok.1 h
      obtain rfl := Except.ok.inj h
      simp only [List.length_cons, ih h3]
      omega

theorem evals_shape {com : Commitments Coeffs} {x : Fr} {e : Evals} (h : evals pk com x = .ok e)
    (hl : com.lookupProducts.length = com.permuted.length) :
    e.advice.length = pk.cs.adviceQueries.length ∧ e.fixed.length = pk.cs.fixedQueries.length ∧
    e.sigma.length = pk.sigmaPolys.length ∧ e.sets.length = com.products.length ∧
    (∀ (i : Nat) (h : i < e.sets.length), e.sets[i].last.isSome = true ↔ i + 1 < e.sets.length) ∧
    e.lookups.length = com.permuted.length := by
  unfold evals at h
  obtain ⟨adv, h1, h⟩ := bind_ok.1 h
  obtain ⟨fx, h2, h⟩ := bind_ok.1 h
  obtain rfl := Except.ok.inj h
  refine ⟨mapM_length h1, mapM_length h2, by simp, by simp, ?_, by simp [hl]⟩
  intro i hi
  simp only [List.length_map, List.length_zipIdx] at hi
  simp only [List.getElem_map, List.getElem_zipIdx, List.length_map, List.length_zipIdx, Nat.zero_add]
  split <;> simp_all

variable {k : Nat}

theorem Run.shaped (r : Run checks codec hash srs pk repr instances synth blinds out) (hpk : ProvingKeyFor pk k)
    (hn : srs.n = 2 ^ k) (hb : EnoughBlinds pk.cs blinds) : Shaped (verifyingKeyOf pk) r.com r.e := by
  have l1 : r.permuted.length = pk.cs.lookups.length := by
    rw [permuteAll_length r.permutedEq]
    simp [hb.permuted]
  have l2 : r.com.permuted.length = pk.cs.lookups.length := by rw [mapM_length r.permutedPolys, l1]
  have l3 : r.com.lookupProducts.length = pk.cs.lookups.length := by
    rw [mapM_length r.lookupPolys, mapM_length r.lookupProductsEq]
    simp [l1, hb.lookups]
  obtain ⟨e1, e2, e3, e4, e5, e6⟩ := evals_shape r.eEq (by rw [l2, l3])
  refine ⟨hpk.fixed.2.1, hpk.sigma.2.1, ?_, l2, ?_, l3, ?_, e1, e2, e3, e4, e5, by rw [e6, l2]; rfl⟩
  · rw [mapM_length r.advice, writePhases_length r.phases]
    simp [verifyingKeyOf]
  · have := r.productsEq
    unfold permutationProducts at this
    rw [mapM_length r.productPolys, productSets_length this, hb.products]
    simp only [List.length_zip, chunks_length, hpk.sigma.1, verifyingKeyOf]
    simp
  · have := r.pieces
    rw [hn] at this
    exact (pieces_inv hpk.domain this).1

/-- All polynomials have as many coefficients as there are rows. -/
theorem Run.lengths (r : Run checks codec hash srs pk repr instances synth blinds out) (hpk : ProvingKeyFor pk k)
    (hn : srs.n = 2 ^ k) :
    (∀ p ∈ r.com.advice, p.length = 2 ^ k) ∧ (∀ p ∈ r.com.permuted, p.1.length = 2 ^ k ∧ p.2.length = 2 ^ k) ∧
    (∀ p ∈ r.com.products, p.length = 2 ^ k) ∧ (∀ p ∈ r.com.lookupProducts, p.length = 2 ^ k) ∧
    r.com.random.length = 2 ^ k ∧ (∀ p ∈ r.com.pieces, p.length = 2 ^ k) := by
  have hd := hpk.domain
  refine ⟨?_, ?_, ?_, ?_, (lagrange_inv hd r.random).2, ?_⟩
  · intro p hp
    obtain ⟨a, -, ha⟩ := mapM_mem r.advice p hp
    exact (lagrange_inv hd ha).2
  · intro p hp
    obtain ⟨a, -, ha⟩ := mapM_mem r.permutedPolys p hp
    obtain ⟨p1, h1, ha⟩ := bind_ok.1 ha
    obtain ⟨p2, h2, ha⟩ := bind_ok.1 ha
    obtain rfl := Except.ok.inj ha
    exact ⟨(lagrange_inv hd h1).2, (lagrange_inv hd h2).2⟩
  · intro p hp
    obtain ⟨a, -, ha⟩ := mapM_mem r.productPolys p hp
    exact (lagrange_inv hd ha).2
  · intro p hp
    obtain ⟨a, -, ha⟩ := mapM_mem r.lookupPolys p hp
    exact (lagrange_inv hd ha).2
  · have := r.pieces
    rw [hn] at this
    exact (pieces_inv hd this).2

/-- The values a column's commitment is made of. -/
theorem commit_columns {f : Coeffs → G} (hc : Commits srs pk.domain k f) {cols polys : List (List Fr)} {cs : List G}
    (h1 : cols.mapM pk.domain.lagrangeToCoeff = .ok polys) (h2 : cols.mapM srs.commitLagrange = .ok cs) :
    cs = polys.map f := by
  replace h1 := mapM_forall₂ _ h1
  induction h1 generalizing cs with
  | nil => obtain rfl := Except.ok.inj h2; rfl
  | @cons a b l r hab _ ih =>
    rw [List.mapM_cons, hc.lagrange _ _ hab] at h2
    obtain ⟨c, hc', h2⟩ := bind_ok.1 h2
    obtain ⟨cs', hcs', h2⟩ := bind_ok.1 h2
    obtain rfl := Except.ok.inj h2
    obtain rfl := Except.ok.inj hc'
    rw [ih hcs']
    rfl

theorem commit_pairs {f : Coeffs → G} (hc : Commits srs pk.domain k f) {ps : List Permuted} {polys : List (Coeffs × Coeffs)}
    {cs : List (G × G)}
    (h1 : (ps.mapM fun p => do
      return ((← pk.domain.lagrangeToCoeff p.permutedInput), (← pk.domain.lagrangeToCoeff p.permutedTable))) = .ok polys)
    (h2 : (ps.mapM fun p => do
      return ((← srs.commitLagrange p.permutedInput), (← srs.commitLagrange p.permutedTable))) = .ok cs) :
    cs = polys.map fun p => (f p.1, f p.2) := by
  replace h1 := mapM_forall₂ _ h1
  induction h1 generalizing cs with
  | nil => obtain rfl := Except.ok.inj h2; rfl
  | @cons a b l r hab _ ih =>
    obtain ⟨p1, g1, hab⟩ := bind_ok.1 hab
    obtain ⟨p2, g2, hab⟩ := bind_ok.1 hab
    obtain rfl := Except.ok.inj hab
    rw [List.mapM_cons, hc.lagrange _ _ g1, hc.lagrange _ _ g2] at h2
    obtain ⟨c, hc', h2⟩ := bind_ok.1 h2
    obtain ⟨cs', hcs', h2⟩ := bind_ok.1 h2
    obtain rfl := Except.ok.inj h2
    obtain rfl := Except.ok.inj hc'
    rw [ih hcs']
    rfl

theorem commit_polys {f : Coeffs → G} (hc : Commits srs pk.domain k f) {polys : List Coeffs} {cs : List G}
    (hl : ∀ p ∈ polys, p.length = 2 ^ k) (h : polys.mapM srs.commit = .ok cs) : cs = polys.map f := by
  rw [IsDomain.mapM_ok_map _ f _ (fun p hp => hc.coeff p (by rw [hl p hp]))] at h
  exact (Except.ok.inj h).symm

/-- The verifier reads the prover's messages, and draws the same challenges. -/
theorem Run.read (r : Run checks codec hash srs pk repr instances synth blinds out) (hl : Lawful codec)
    (hpk : ProvingKeyFor pk k) (hb : EnoughBlinds pk.cs blinds) {f : Coeffs → G} (hc : Commits srs pk.domain k f)
    (rest : List UInt8) :
    ∃ t t' t'', Verify.readCommitments codec hash (mapKey f (verifyingKeyOf pk)) repr instances (out ++ rest) =
        .ok (mapCommitments f r.com, r.ch, t) ∧
      Verify.readEvals (mapKey f (verifyingKeyOf pk)) (mapCommitments f r.com) t = .ok (r.e, t') ∧
      Verify.readOpening codec hash t' = .ok (r.y', r.v, r.h1, r.u, r.h2, t'') := by
  have hsh := r.shaped hpk hc.rows hb
  obtain ⟨len1, len2, len3, len4, len5, len6⟩ := r.lengths hpk hc.rows
  -- the columns
  obtain ⟨val, hval⟩ : ∃ val : List Fr → G, ∀ col c, srs.commitLagrange col = .ok c → val col = c :=
    ⟨fun col => match srs.commitLagrange col with | .ok c => c | .error _ => 0, by
      intro col c h; simp only [h]⟩
  obtain ⟨b1, o1, s1⟩ := read_phases hl hval r.phases
  have z1 : (List.replicate pk.cs.numAdvice (List.replicate srs.n (0 : Fr))).map val =
      List.replicate pk.cs.numAdvice 0 := by
    rw [List.map_replicate, hc.rows, hval _ _ hc.zero]
  have z2 : r.columns.map val = r.com.advice.map f := by
    have h1 := mapM_forall₂ _ r.advice
    have : ∀ (cols polys : List (List Fr)), List.Forall₂ (fun a b => pk.domain.lagrangeToCoeff a = .ok b) cols polys →
        cols.map val = polys.map f := by
      intro cols polys h
      induction h with
      | nil => rfl
      | cons hab _ ih => rw [List.map_cons, List.map_cons, ih, hval _ _ (hc.lagrange _ _ hab)]
    exact this _ _ h1
  rw [z1, z2] at s1
  obtain ⟨d1, t1⟩ := read_draw r.theta
  obtain ⟨cs2, c2, b2, o2, s2⟩ := read_pairs hl r.write2
  obtain rfl := commit_pairs hc r.permutedPolys c2
  have n2 : r.permuted.length = pk.cs.lookups.length := by
    rw [permuteAll_length r.permutedEq]; simp [hb.permuted]
  rw [n2] at s2
  obtain ⟨d2, t2⟩ := read_draw r.beta
  obtain ⟨d2', t2'⟩ := read_draw r.gamma
  obtain ⟨cs3, c3, b3, o3, s3⟩ := read_points hl r.write3
  obtain rfl := commit_columns hc r.productPolys c3
  have n3 : r.products.length = (chunks (pk.cs.degree - 2) pk.cs.permutation).length := by
    rw [← mapM_length r.productPolys]; exact hsh.products
  rw [n3] at s3
  obtain ⟨cs4, c4, b4, o4, s4⟩ := read_points hl r.write4
  obtain rfl := commit_columns hc r.lookupPolys c4
  have n4 : r.lookupProducts.length = pk.cs.lookups.length := by
    rw [← mapM_length r.lookupPolys]; exact hsh.lookupProducts
  rw [n4] at s4
  obtain ⟨p5, c5, w5⟩ := write_commitment r.write5
  rw [hc.coeff _ (by rw [len5])] at c5
  obtain rfl := Except.ok.inj c5
  obtain ⟨b5, o5, s5⟩ := read_point hl .io w5
  obtain ⟨d5, t5⟩ := read_draw r.y
  obtain ⟨cs6, c6, b6, o6, s6⟩ := read_points hl r.write6
  obtain rfl := commit_polys hc len6 c6
  have n6 : r.com.pieces.length = pk.domain.quotientPolyDegree := hsh.pieces
  rw [n6] at s6
  obtain ⟨d6, t6⟩ := read_draw r.x
  -- the scalars
  obtain ⟨b7, o7, s7⟩ := read_scalars r.e.advice r.w6'
  obtain ⟨b8, o8, s8⟩ := read_scalars r.e.fixed (r.e.advice.foldl writeScalar r.w6')
  obtain ⟨b9, o9, s9⟩ := read_scalar (r.e.fixed.foldl writeScalar (r.e.advice.foldl writeScalar r.w6')) r.e.random
  obtain ⟨b10, o10, s10⟩ := read_scalars r.e.sigma
    (writeScalar (r.e.fixed.foldl writeScalar (r.e.advice.foldl writeScalar r.w6')) r.e.random)
  obtain ⟨b11, o11, s11⟩ := read_sets r.e.sets (r.e.sigma.foldl writeScalar
    (writeScalar (r.e.fixed.foldl writeScalar (r.e.advice.foldl writeScalar r.w6')) r.e.random)) hsh.lasts
  obtain ⟨b12, o12, s12⟩ := read_lookups r.e.lookups ((r.e.sets.flatMap fun s =>
    [s.product, s.next] ++ s.last.toList).foldl writeScalar (r.e.sigma.foldl writeScalar
    (writeScalar (r.e.fixed.foldl writeScalar (r.e.advice.foldl writeScalar r.w6')) r.e.random)))
  have hw : (scalarsOf r.e).foldl writeScalar r.w6' = (r.e.lookups.flatMap fun l =>
      [l.product, l.next, l.input, l.inputInv, l.table]).foldl writeScalar ((r.e.sets.flatMap fun s =>
      [s.product, s.next] ++ s.last.toList).foldl writeScalar (r.e.sigma.foldl writeScalar
      (writeScalar (r.e.fixed.foldl writeScalar (r.e.advice.foldl writeScalar r.w6')) r.e.random))) := by
    unfold scalarsOf
    simp only [List.foldl_append, List.foldl_cons, List.foldl_nil]
  have y' := r.y'Eq
  rw [hw] at y'
  obtain ⟨d7, t7⟩ := read_draw y'
  obtain ⟨d7', t7'⟩ := read_draw r.vEq
  obtain ⟨b13, o13, s13⟩ := read_point hl .opening r.write8
  obtain ⟨d8, t8⟩ := read_draw r.uEq
  obtain ⟨b14, o14, s14⟩ := read_point hl .opening r.write9
  have hout : out = b1 ++ b2 ++ b3 ++ b4 ++ b5 ++ b6 ++ b7 ++ b8 ++ b9 ++ b10 ++ b11 ++ b12 ++ b13 ++ b14 := by
    rw [r.outEq, o14, d8, o13, d7', d7, o12, o11, o10, o9, o8, o7, d6, o6, d5, o5, o4, o3, d2', d2, o2, d1, o1]
    rfl
  beta_reduce at s5 s9 s13 s14
  rw [hsh.advice] at s7
  rw [hsh.fixed] at s8
  rw [hsh.sigma] at s10
  rw [hsh.sets] at s11
  rw [hsh.lookups] at s12
  refine ⟨⟨r.w6'.absorbed, b7 ++ (b8 ++ (b9 ++ (b10 ++ (b11 ++ (b12 ++ (b13 ++ (b14 ++ rest)))))))⟩,
    ⟨((scalarsOf r.e).foldl writeScalar r.w6').absorbed, b13 ++ (b14 ++ rest)⟩, ⟨r.w9.absorbed, rest⟩, ?_, ?_, ?_⟩
  · have hout2 := congrArg (· ++ rest) hout
    beta_reduce at hout2
    rw [hout2]
    unfold Verify.readCommitments
    have hnum : instances.length = (mapKey f (verifyingKeyOf pk)).cs.numInstance := r.num
    rw [if_neg (fun h => h hnum)]
    dsimp only [mapKey, verifyingKeyOf]
    simp only [List.append_assoc]
    dsimp only at s1
    rw [s1]
    simp only [bind, Except.bind, t1]
    rw [s2]
    simp only [t2, t2']
    rw [s3]
    dsimp only
    rw [s4]
    dsimp only
    rw [s5]
    simp only [t5]
    rw [s6]
    simp only [t6]
    rfl
  · rw [hw]
    unfold Verify.readEvals
    have m1 : (mapCommitments f r.com).products.length = r.com.products.length := List.length_map _
    have m2 : (mapCommitments f r.com).lookupProducts.length = pk.cs.lookups.length := by
      refine Eq.trans ?_ hsh.lookupProducts
      exact List.length_map _
    have m3 : (mapKey f (verifyingKeyOf pk)).sigma.length = (verifyingKeyOf pk).sigma.length := List.length_map _
    rw [m1, m2, m3]
    dsimp only [mapKey]
    rw [s7]
    simp only [bind, Except.bind]
    rw [s8]
    dsimp only
    rw [s9]
    dsimp only
    rw [s10]
    dsimp only
    rw [s11]
    dsimp only
    have s12 := s12 (b13 ++ (b14 ++ rest))
    dsimp only [verifyingKeyOf] at s12
    rw [s12]
    rfl
  · rw [hw]
    unfold Verify.readOpening
    simp only [t7, t7']
    rw [s13]
    simp only [bind, Except.bind, t8]
    rw [s14]
    rfl

end run

end Verif.Transcript

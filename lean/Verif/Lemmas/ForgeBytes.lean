import Verif.Lemmas.TrailingBytes

/-! Reading the same point and the same scalar again and again. -/

namespace Verif.Transcript

open Plonk Verify Spec

/-- The same bytes several times. -/
def repeated (m : Nat) (b : List UInt8) : List UInt8 := (List.replicate m b).flatten

theorem repeated_zero (b rest : List UInt8) : repeated 0 b ++ rest = rest := rfl

theorem repeated_add (m n : Nat) (b rest : List UInt8) :
    repeated (m + n) b ++ rest = repeated m b ++ (repeated n b ++ rest) := by
  unfold repeated
  rw [List.replicate_add, List.flatten_append, List.append_assoc]

theorem repeated_one (b rest : List UInt8) : repeated 1 b ++ rest = b ++ rest := by
  simp [repeated]

theorem repeated_succ (n : Nat) (b rest : List UInt8) :
    repeated (n + 1) b ++ rest = repeated 1 b ++ (repeated n b ++ rest) := by
  rw [Nat.add_comm, repeated_add]

theorem repeated_one' (b : List UInt8) : repeated 1 b = b := by
  simp [repeated]

/-- From bytes of the given form something is read, and only the rest remains. -/
def Eats {α : Type} (b : List UInt8) (m : Nat) (read : Reader → Except Verify.Stop (α × Reader)) : Prop :=
  ∀ absorbed rest, ∃ a absorbed', read ⟨absorbed, repeated m b ++ rest⟩ = .ok (a, ⟨absorbed', rest⟩)

variable {G : Type} {codec : Codec G} {hash : Hash} {p : G} {e : Err}

theorem point_read (hl : Lawful codec) {x y : List UInt8} (hp : codec.coords p = some (x, y))
    (absorbed rest : List UInt8) : orErr e (readPoint codec ⟨absorbed, repeated 1 (codec.toBytes p) ++ rest⟩) =
      .ok (p, ⟨absorbed ++ 1 :: (x ++ y), rest⟩) := by
  rw [repeated_one]
  unfold readPoint
  show orErr e ((readExact 32 (codec.toBytes p ++ rest)).bind _) = _
  rw [readExact_append (hl.length p)]
  dsimp only [Option.bind_some]
  rw [hl.decode]
  show orErr e ((commonPoint codec absorbed p).bind _) = _
  unfold commonPoint
  rw [hp]
  rfl

theorem point_eats (hl : Lawful codec) (hp : codec.coords p ≠ none) :
    Eats (codec.toBytes p) 1 (fun t => orErr e (readPoint codec t)) := by
  intro absorbed rest
  obtain ⟨⟨x, y⟩, hxy⟩ := Option.ne_none_iff_exists'.1 hp
  exact ⟨_, _, point_read hl hxy absorbed rest⟩

theorem zero_bytes : leNat (scalarBytes 0) = 0 := by decide

theorem scalar_eats : Eats (scalarBytes 0) 1 (fun t => orErr e (readScalar t)) := by
  intro absorbed rest
  refine ⟨0, commonScalar absorbed 0, ?_⟩
  rw [repeated_one]
  unfold readScalar
  show orErr e ((readExact 32 (scalarBytes 0 ++ rest)).bind _) = _
  rw [readExact_append (by decide)]
  dsimp only [Option.bind_some]
  rw [zero_bytes, if_pos (by decide)]
  rfl

theorem points_repeated (hl : Lawful codec) {x y : List UInt8} (hp : codec.coords p = some (x, y)) : ∀ (n : Nat)
    (absorbed rest : List UInt8), readPoints codec n ⟨absorbed, repeated n (codec.toBytes p) ++ rest⟩ =
      .ok (List.replicate n p, ⟨absorbed ++ repeated n (1 :: (x ++ y)), rest⟩) := by
  intro n
  induction n with
  | zero => intro absorbed rest; simp [readPoints, repeated]
  | succ n ih =>
    intro absorbed rest
    rw [repeated_succ]
    refine bind_ok.2 ⟨_, point_read (e := .io) hl hp absorbed _, bind_ok.2 ⟨_, ih _ rest, ?_⟩⟩
    show Except.ok _ = Except.ok _
    congr 2
    have := repeated_succ n (1 :: (x ++ y)) []
    rw [List.append_nil, List.append_nil, repeated_one'] at this
    rw [this, List.append_assoc]

theorem points_eats (hl : Lawful codec) (hp : codec.coords p ≠ none) (n : Nat) :
    Eats (codec.toBytes p) n (readPoints codec n) := by
  intro absorbed rest
  obtain ⟨⟨x, y⟩, hxy⟩ := Option.ne_none_iff_exists'.1 hp
  exact ⟨_, _, points_repeated hl hxy n absorbed rest⟩

theorem pairs_eats (hl : Lawful codec) (hp : codec.coords p ≠ none) : ∀ n : Nat,
    Eats (codec.toBytes p) (2 * n) (readPairs codec n) := by
  intro n
  induction n with
  | zero => intro absorbed rest; exact ⟨_, _, rfl⟩
  | succ n ih =>
    intro absorbed rest
    rw [show 2 * (n + 1) = 1 + (1 + 2 * n) by omega, repeated_add, repeated_add]
    obtain ⟨a, ab, h1⟩ := point_eats (e := .io) hl hp absorbed
      (repeated 1 (codec.toBytes p) ++ (repeated (2 * n) (codec.toBytes p) ++ rest))
    obtain ⟨b, ab', h2⟩ := point_eats (e := .io) hl hp ab (repeated (2 * n) (codec.toBytes p) ++ rest)
    obtain ⟨c, ab'', h3⟩ := ih ab' rest
    exact ⟨_, _, bind_ok.2 ⟨_, h1, bind_ok.2 ⟨_, h2, bind_ok.2 ⟨_, h3, rfl⟩⟩⟩⟩

theorem scalars_eats : ∀ n : Nat, Eats (scalarBytes 0) n (readScalars n) := by
  intro n
  induction n with
  | zero => intro absorbed rest; exact ⟨_, _, rfl⟩
  | succ n ih =>
    intro absorbed rest
    rw [repeated_succ]
    obtain ⟨a, ab, h1⟩ := scalar_eats (e := .io) absorbed (repeated n (scalarBytes 0) ++ rest)
    obtain ⟨b, ab', h2⟩ := ih ab rest
    exact ⟨_, _, bind_ok.2 ⟨_, h1, bind_ok.2 ⟨_, h2, rfl⟩⟩⟩

theorem sets_eats : ∀ n : Nat, Eats (scalarBytes 0) (3 * n - 1) (readSets n) := by
  intro n
  induction n with
  | zero => intro absorbed rest; exact ⟨_, _, rfl⟩
  | succ n ih =>
    intro absorbed rest
    rcases Nat.eq_zero_or_pos n with rfl | hn
    · rw [show 3 * (0 + 1) - 1 = 1 + 1 by omega, repeated_add]
      obtain ⟨a, ab, h1⟩ := scalar_eats (e := .io) absorbed (repeated 1 (scalarBytes 0) ++ rest)
      obtain ⟨b, ab', h2⟩ := scalar_eats (e := .io) ab rest
      exact ⟨_, _, bind_ok.2 ⟨_, h1, bind_ok.2 ⟨_, h2, bind_ok.2 ⟨(none, _), rfl, bind_ok.2 ⟨([], _), rfl, rfl⟩⟩⟩⟩⟩
    · rw [show 3 * (n + 1) - 1 = 1 + (1 + (1 + (3 * n - 1))) by omega, repeated_add, repeated_add, repeated_add]
      obtain ⟨a, ab, h1⟩ := scalar_eats (e := .io) absorbed
        (repeated 1 (scalarBytes 0) ++ (repeated 1 (scalarBytes 0) ++ (repeated (3 * n - 1) (scalarBytes 0) ++ rest)))
      obtain ⟨b, ab', h2⟩ := scalar_eats (e := .io) ab
        (repeated 1 (scalarBytes 0) ++ (repeated (3 * n - 1) (scalarBytes 0) ++ rest))
      obtain ⟨c, ab'', h3⟩ := scalar_eats (e := .io) ab' (repeated (3 * n - 1) (scalarBytes 0) ++ rest)
      obtain ⟨d, ab''', h4⟩ := ih ab'' rest
      refine ⟨_, _, bind_ok.2 ⟨_, h1, bind_ok.2 ⟨_, h2, bind_ok.2 ⟨(some c, _), ?_, bind_ok.2 ⟨_, h4, rfl⟩⟩⟩⟩⟩
      show readLast n _ = _
      unfold readLast
      rw [if_pos hn]
      exact bind_ok.2 ⟨_, h3, rfl⟩

theorem lookups_eats : ∀ n : Nat, Eats (scalarBytes 0) (5 * n) (readLookups n) := by
  intro n
  induction n with
  | zero => intro absorbed rest; exact ⟨_, _, rfl⟩
  | succ n ih =>
    intro absorbed rest
    rw [show 5 * (n + 1) = 1 + (1 + (1 + (1 + (1 + 5 * n)))) by omega, repeated_add, repeated_add, repeated_add,
      repeated_add, repeated_add]
    obtain ⟨a1, b1, h1⟩ := scalar_eats (e := .io) absorbed (repeated 1 (scalarBytes 0) ++
      (repeated 1 (scalarBytes 0) ++ (repeated 1 (scalarBytes 0) ++ (repeated 1 (scalarBytes 0) ++
        (repeated (5 * n) (scalarBytes 0) ++ rest)))))
    obtain ⟨a2, b2, h2⟩ := scalar_eats (e := .io) b1
      (repeated 1 (scalarBytes 0) ++ (repeated 1 (scalarBytes 0) ++ (repeated 1 (scalarBytes 0) ++
        (repeated (5 * n) (scalarBytes 0) ++ rest))))
    obtain ⟨a3, b3, h3⟩ := scalar_eats (e := .io) b2
      (repeated 1 (scalarBytes 0) ++ (repeated 1 (scalarBytes 0) ++ (repeated (5 * n) (scalarBytes 0) ++ rest)))
    obtain ⟨a4, b4, h4⟩ := scalar_eats (e := .io) b3
      (repeated 1 (scalarBytes 0) ++ (repeated (5 * n) (scalarBytes 0) ++ rest))
    obtain ⟨a5, b5, h5⟩ := scalar_eats (e := .io) b4 (repeated (5 * n) (scalarBytes 0) ++ rest)
    obtain ⟨a6, b6, h6⟩ := ih b5 rest
    exact ⟨_, _, bind_ok.2 ⟨_, h1, bind_ok.2 ⟨_, h2, bind_ok.2 ⟨_, h3, bind_ok.2 ⟨_, h4, bind_ok.2 ⟨_, h5,
      bind_ok.2 ⟨_, h6, rfl⟩⟩⟩⟩⟩⟩⟩

theorem advice_eats (hl : Lawful codec) (hp : codec.coords p ≠ none) {phase : Nat} :
    ∀ (l : List (Nat × Nat)) (advice : List G),
      Eats (codec.toBytes p) (l.filter fun q => q.1 = phase).length (readAdvice codec phase l advice) := by
  intro l
  induction l with
  | nil => intro advice absorbed rest; exact ⟨_, _, rfl⟩
  | cons q l ih =>
    intro advice absorbed rest
    obtain ⟨q, i⟩ := q
    rw [List.filter_cons]
    by_cases hq : q = phase
    · rw [if_pos (by simpa using hq), List.length_cons, repeated_succ]
      unfold readAdvice
      rw [if_pos hq]
      obtain ⟨a, ab, h1⟩ := point_eats (e := .io) hl hp absorbed
        (repeated (l.filter fun q => q.1 = phase).length (codec.toBytes p) ++ rest)
      obtain ⟨b, ab', h2⟩ := ih (advice.set i a) ab rest
      exact ⟨_, _, bind_ok.2 ⟨_, h1, h2⟩⟩
    · rw [if_neg (by simpa using hq)]
      unfold readAdvice
      rw [if_neg hq]
      exact ih advice absorbed rest

theorem phases_eats (hl : Lawful codec) (hp : codec.coords p ≠ none) {cs : CS} : ∀ (l : List Nat) (advice : List G)
    (user : List Fr) (absorbed rest : List UInt8), ∃ a u absorbed', readPhases codec hash cs l advice user
      ⟨absorbed, repeated (phasePoints cs l) (codec.toBytes p) ++ rest⟩ = .ok (a, u, ⟨absorbed', rest⟩) := by
  intro l
  induction l with
  | nil => intro advice user absorbed rest; exact ⟨_, _, _, rfl⟩
  | cons q l ih =>
    intro advice user absorbed rest
    have : phasePoints cs (q :: l) = (cs.advicePhase.zipIdx.filter fun r => r.1 = q).length + phasePoints cs l := by
      unfold phasePoints
      rw [List.map_cons, List.sum_cons]
    rw [this, repeated_add]
    obtain ⟨a, ab, h1⟩ := advice_eats hl hp (phase := q) cs.advicePhase.zipIdx advice absorbed
      (repeated (phasePoints cs l) (codec.toBytes p) ++ rest)
    obtain ⟨b, u, ab', h2⟩ := ih a (squeezePhase hash q cs.challengePhase.zipIdx user ab).1
      (squeezePhase hash q cs.challengePhase.zipIdx user ab).2 rest
    exact ⟨_, _, _, by unfold readPhases; exact bind_ok.2 ⟨_, h1, h2⟩⟩

/-- The number of points before the opening. -/
def readPointCount {C : Type} (key : Key C) : Nat :=
  phasePoints key.cs key.cs.phases + 2 * key.cs.lookups.length +
    (chunks (key.cs.degree - 2) key.cs.permutation).length + key.cs.lookups.length + 1 + key.domain.quotientPolyDegree

/-- The number of scalars. -/
def readScalarCount {C : Type} (key : Key C) : Nat :=
  key.cs.adviceQueries.length + key.cs.fixedQueries.length + 1 + key.sigma.length +
    (3 * (chunks (key.cs.degree - 2) key.cs.permutation).length - 1) + 5 * key.cs.lookups.length

theorem commitments_eats [Zero G] (hl : Lawful codec) (hp : codec.coords p ≠ none) (key : Key G) (repr : Fr)
    (instances : List (List Fr)) (hi : instances.length = key.cs.numInstance) (rest : List UInt8) :
    ∃ com ch absorbed, readCommitments codec hash key repr instances
      (repeated (readPointCount key) (codec.toBytes p) ++ rest) = .ok (com, ch, ⟨absorbed, rest⟩) ∧
      ∀ x y, codec.coords p = some (x, y) → ∃ before, ch.x = (squeeze hash
        (before ++ repeated key.domain.quotientPolyDegree (1 :: (x ++ y)))).1 := by
  obtain ⟨⟨px, py⟩, hxy⟩ := Option.ne_none_iff_exists'.1 hp
  unfold readCommitments readPointCount
  rw [if_neg (not_not.2 hi), repeated_add, repeated_add, repeated_add, repeated_add, repeated_add]
  have r6 := points_repeated hl hxy key.domain.quotientPolyDegree
  generalize hb6 : repeated key.domain.quotientPolyDegree (codec.toBytes p) ++ rest = i6
  generalize hb5 : repeated 1 (codec.toBytes p) ++ i6 = i5
  generalize hb4 : repeated key.cs.lookups.length (codec.toBytes p) ++ i5 = i4
  generalize hb3 : repeated (chunks (key.cs.degree - 2) key.cs.permutation).length (codec.toBytes p) ++ i4 = i3
  generalize hb2 : repeated (2 * key.cs.lookups.length) (codec.toBytes p) ++ i3 = i2
  obtain ⟨a1, u1, b1, h1⟩ := phases_eats (hash := hash) hl hp (cs := key.cs) key.cs.phases (List.replicate key.cs.numAdvice 0)
    (List.replicate key.cs.numChallenges 0) (instances.flatten.foldl commonScalar (commonScalar [] repr)) i2
  obtain ⟨a2, b2, h2⟩ := pairs_eats hl hp key.cs.lookups.length (b1 ++ [0]) i3
  obtain ⟨a3, b3, h3⟩ := points_eats hl hp (chunks (key.cs.degree - 2) key.cs.permutation).length
    (b2 ++ [0] ++ [0]) i4
  obtain ⟨a4, b4, h4⟩ := points_eats hl hp key.cs.lookups.length b3 i5
  obtain ⟨a5, b5, h5⟩ := point_eats (e := .io) hl hp b4 i6
  have h6 := r6 (b5 ++ [0]) rest
  rw [hb2] at h2
  rw [hb3] at h3
  rw [hb4] at h4
  rw [hb5] at h5
  rw [hb6] at h6
  refine ⟨_, _, _, bind_ok.2 ⟨_, h1, bind_ok.2 ⟨_, h2, bind_ok.2 ⟨_, h3, bind_ok.2 ⟨_, h4, bind_ok.2 ⟨_, h5,
    bind_ok.2 ⟨_, h6, rfl⟩⟩⟩⟩⟩⟩, fun x y h => ?_⟩
  rw [hxy] at h
  obtain ⟨rfl, rfl⟩ := Prod.mk.inj (Option.some.inj h)
  exact ⟨_, rfl⟩

theorem evals_eats (key : Key G) (com : Commitments G)
    (h1 : com.products.length = (chunks (key.cs.degree - 2) key.cs.permutation).length)
    (h2 : com.lookupProducts.length = key.cs.lookups.length) :
    Eats (scalarBytes 0) (readScalarCount key) (readEvals key com) := by
  intro absorbed rest
  unfold readEvals readScalarCount
  rw [h1, h2, repeated_add, repeated_add, repeated_add, repeated_add, repeated_add]
  generalize hb6 : repeated (5 * key.cs.lookups.length) (scalarBytes 0) ++ rest = i6
  generalize hb5 : repeated (3 * (chunks (key.cs.degree - 2) key.cs.permutation).length - 1) (scalarBytes 0) ++ i6 = i5
  generalize hb4 : repeated key.sigma.length (scalarBytes 0) ++ i5 = i4
  generalize hb3 : repeated 1 (scalarBytes 0) ++ i4 = i3
  generalize hb2 : repeated key.cs.fixedQueries.length (scalarBytes 0) ++ i3 = i2
  obtain ⟨a1, b1, g1⟩ := scalars_eats key.cs.adviceQueries.length absorbed i2
  obtain ⟨a2, b2, g2⟩ := scalars_eats key.cs.fixedQueries.length b1 i3
  obtain ⟨a3, b3, g3⟩ := scalar_eats (e := .io) b2 i4
  obtain ⟨a4, b4, g4⟩ := scalars_eats key.sigma.length b3 i5
  obtain ⟨a5, b5, g5⟩ := sets_eats (chunks (key.cs.degree - 2) key.cs.permutation).length b4 i6
  obtain ⟨a6, b6, g6⟩ := lookups_eats key.cs.lookups.length b5 rest
  rw [hb2] at g2
  rw [hb3] at g3
  rw [hb4] at g4
  rw [hb5] at g5
  rw [hb6] at g6
  exact ⟨_, _, bind_ok.2 ⟨_, g1, bind_ok.2 ⟨_, g2, bind_ok.2 ⟨_, g3, bind_ok.2 ⟨_, g4, bind_ok.2 ⟨_, g5,
    bind_ok.2 ⟨_, g6, rfl⟩⟩⟩⟩⟩⟩⟩

end Verif.Transcript

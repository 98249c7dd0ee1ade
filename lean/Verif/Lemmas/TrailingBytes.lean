import Verif.Lemmas.SyncLemmas

/-! How much of its input a reader looks at. -/

namespace Verif.Transcript

open Plonk Verify

/-- Reading turned `t` into `t'` by using `n` bytes, and would have gone the same way (`go`) whatever
follows them. -/
def Used (n : Nat) (t t' : Reader) (go : Reader → Reader → Prop) : Prop :=
  ∃ used, used.length = n ∧ t.input = used ++ t'.input ∧ ∀ rest, go ⟨t.absorbed, used ++ rest⟩ ⟨t'.absorbed, rest⟩

variable {G : Type} {codec : Codec G} {hash : Hash}

theorem Used.trans {n m : Nat} {t t' t'' : Reader} {go go' : Reader → Reader → Prop} (h : Used n t t' go)
    (h' : Used m t' t'' go') : Used (n + m) t t'' (fun a c => ∃ b, go a b ∧ go' b c) := by
  obtain ⟨u, h1, h2, h3⟩ := h
  obtain ⟨u', h1', h2', h3'⟩ := h'
  refine ⟨u ++ u', by rw [List.length_append, h1, h1'], by rw [h2, h2', List.append_assoc], fun rest => ?_⟩
  exact ⟨_, by rw [List.append_assoc]; exact h3 _, h3' rest⟩

theorem Used.mono {n m : Nat} {t t' : Reader} {go go' : Reader → Reader → Prop} (h : Used n t t' go) (hn : n = m)
    (hg : ∀ a b, go a b → go' a b) : Used m t t' go' := by
  obtain ⟨u, h1, h2, h3⟩ := h
  exact ⟨u, by rw [h1, hn], h2, fun rest => hg _ _ (h3 rest)⟩

theorem Used.nothing (t : Reader) : Used 0 t t (fun a b => a = b) := ⟨[], rfl, rfl, fun _ => rfl⟩

theorem Used.draw (t : Reader) : Used 0 t (Verify.draw hash t).2
    (fun a b => Verify.draw hash a = ((Verify.draw hash t).1, b)) := ⟨[], rfl, rfl, fun _ => rfl⟩

theorem readExact_used {n : Nat} {l a b : List UInt8} (h : readExact n l = some (a, b)) :
    l = a ++ b ∧ a.length = n ∧ ∀ rest, readExact n (a ++ rest) = some (a, rest) := by
  unfold readExact at h
  split at h
  · exact absurd h (by simp)
  · rename_i hn
    obtain ⟨rfl, rfl⟩ := Prod.mk.inj (Option.some.inj h)
    have hl : (l.take n).length = n := by rw [List.length_take]; omega
    refine ⟨(List.take_append_drop n l).symm, hl, fun rest => ?_⟩
    exact readExact_append hl

theorem readPoint_used {t t' : Reader} {p : G} (h : readPoint codec t = some (p, t')) :
    Used 32 t t' (fun a b => readPoint codec a = some (p, b)) := by
  unfold readPoint at h
  obtain ⟨⟨bytes, left⟩, h1, h⟩ := Option.bind_eq_some_iff.1 h
  obtain ⟨q, h2, h⟩ := Option.bind_eq_some_iff.1 h
  obtain ⟨absorbed, h3, h⟩ := Option.bind_eq_some_iff.1 h
  obtain ⟨rfl, rfl⟩ := Prod.mk.inj (Option.some.inj h)
  obtain ⟨e1, e2, e3⟩ := readExact_used h1
  refine ⟨bytes, e2, e1, fun rest => ?_⟩
  unfold readPoint
  show (readExact 32 (bytes ++ rest)).bind _ = _
  rw [e3]
  dsimp only [Option.bind_some]
  rw [h2]
  show (commonPoint codec t.absorbed q).bind _ = _
  rw [h3]
  rfl

theorem readScalar_used {t t' : Reader} {x : Fr} (h : readScalar t = some (x, t')) :
    Used 32 t t' (fun a b => readScalar a = some (x, b)) := by
  unfold readScalar at h
  obtain ⟨⟨bytes, left⟩, h1, h⟩ := Option.bind_eq_some_iff.1 h
  obtain ⟨e1, e2, e3⟩ := readExact_used h1
  dsimp only at h
  split at h
  · rename_i hlt
    obtain ⟨rfl, rfl⟩ := Prod.mk.inj (Option.some.inj h)
    refine ⟨bytes, e2, e1, fun rest => ?_⟩
    unfold readScalar
    show (readExact 32 (bytes ++ rest)).bind _ = _
    rw [e3]
    dsimp only [Option.bind_some]
    rw [if_pos hlt]
    rfl
  · exact absurd h (by simp)

theorem point_used {e : Err} {t : Reader} {r : G × Reader} (h : orErr e (readPoint codec t) = .ok r) :
    Used 32 t r.2 (fun a b => orErr e (readPoint codec a) = .ok (r.1, b)) := by
  cases hp : readPoint codec t with
  | none => rw [hp] at h; cases h
  | some r' =>
    rw [hp] at h
    obtain rfl := Except.ok.inj h
    exact (readPoint_used hp).mono rfl fun a b hab => by rw [hab]; rfl

theorem scalar_used {e : Err} {t : Reader} {r : Fr × Reader} (h : orErr e (readScalar t) = .ok r) :
    Used 32 t r.2 (fun a b => orErr e (readScalar a) = .ok (r.1, b)) := by
  cases hp : readScalar t with
  | none => rw [hp] at h; cases h
  | some r' =>
    rw [hp] at h
    obtain rfl := Except.ok.inj h
    exact (readScalar_used hp).mono rfl fun a b hab => by rw [hab]; rfl

theorem points_used : ∀ (n : Nat) {t : Reader} {r : List G × Reader}, readPoints codec n t = .ok r →
    Used (32 * n) t r.2 (fun a b => readPoints codec n a = .ok (r.1, b)) := by
  intro n
  induction n with
  | zero =>
    intro t r h
    obtain rfl := Except.ok.inj h
    exact (Used.nothing t).mono rfl fun a b hab => by rw [hab]; rfl
  | succ n ih =>
    intro t r h
    obtain ⟨a, h1, h⟩ := bind_ok.1 h
    obtain ⟨b, h2, h⟩ := bind_ok.1 h
    obtain rfl := Except.ok.inj h
    refine ((point_used h1).trans (ih h2)).mono (by omega) ?_
    rintro x z ⟨y, g1, g2⟩
    exact bind_ok.2 ⟨_, g1, bind_ok.2 ⟨_, g2, rfl⟩⟩

theorem scalars_used : ∀ (n : Nat) {t : Reader} {r : List Fr × Reader}, readScalars n t = .ok r →
    Used (32 * n) t r.2 (fun a b => readScalars n a = .ok (r.1, b)) := by
  intro n
  induction n with
  | zero =>
    intro t r h
    obtain rfl := Except.ok.inj h
    exact (Used.nothing t).mono rfl fun a b hab => by rw [hab]; rfl
  | succ n ih =>
    intro t r h
    obtain ⟨a, h1, h⟩ := bind_ok.1 h
    obtain ⟨b, h2, h⟩ := bind_ok.1 h
    obtain rfl := Except.ok.inj h
    refine ((scalar_used h1).trans (ih h2)).mono (by omega) ?_
    rintro x z ⟨y, g1, g2⟩
    exact bind_ok.2 ⟨_, g1, bind_ok.2 ⟨_, g2, rfl⟩⟩

theorem pairs_used : ∀ (n : Nat) {t : Reader} {r : List (G × G) × Reader}, readPairs codec n t = .ok r →
    Used (32 * (2 * n)) t r.2 (fun a b => readPairs codec n a = .ok (r.1, b)) := by
  intro n
  induction n with
  | zero =>
    intro t r h
    obtain rfl := Except.ok.inj h
    exact (Used.nothing t).mono rfl fun a b hab => by rw [hab]; rfl
  | succ n ih =>
    intro t r h
    obtain ⟨a, h1, h⟩ := bind_ok.1 h
    obtain ⟨b, h2, h⟩ := bind_ok.1 h
    obtain ⟨c, h3, h⟩ := bind_ok.1 h
    obtain rfl := Except.ok.inj h
    refine (((point_used h1).trans (point_used h2)).trans (ih h3)).mono (by omega) ?_
    rintro x w ⟨z, ⟨y, g1, g2⟩, g3⟩
    exact bind_ok.2 ⟨_, g1, bind_ok.2 ⟨_, g2, bind_ok.2 ⟨_, g3, rfl⟩⟩⟩

theorem last_used {n : Nat} {t : Reader} {r : Option Fr × Reader} (h : readLast n t = .ok r) :
    Used (if 0 < n then 32 else 0) t r.2 (fun a b => readLast n a = .ok (r.1, b)) := by
  unfold readLast at h ⊢
  split at h
  · rename_i hn
    obtain ⟨v, h1, h⟩ := bind_ok.1 h
    obtain rfl := Except.ok.inj h
    rw [if_pos hn]
    refine (scalar_used h1).mono rfl fun a b g => ?_
    rw [if_pos hn]
    exact bind_ok.2 ⟨_, g, rfl⟩
  · rename_i hn
    obtain rfl := Except.ok.inj h
    rw [if_neg hn]
    refine (Used.nothing t).mono rfl fun a b g => ?_
    rw [if_neg hn, g]

theorem sets_used : ∀ (n : Nat) {t : Reader} {r : List SetEval × Reader}, readSets n t = .ok r →
    Used (32 * (3 * n - 1)) t r.2 (fun a b => readSets n a = .ok (r.1, b)) := by
  intro n
  induction n with
  | zero =>
    intro t r h
    obtain rfl := Except.ok.inj h
    exact (Used.nothing t).mono rfl fun a b hab => by rw [hab]; rfl
  | succ n ih =>
    intro t r h
    obtain ⟨a, h1, h⟩ := bind_ok.1 h
    obtain ⟨b, h2, h⟩ := bind_ok.1 h
    obtain ⟨c, h3, h⟩ := bind_ok.1 h
    obtain ⟨d, h4, h⟩ := bind_ok.1 h
    obtain rfl := Except.ok.inj h
    refine ((((scalar_used h1).trans (scalar_used h2)).trans (last_used h3)).trans (ih h4)).mono ?_ ?_
    · split <;> omega
    · rintro x v ⟨w, ⟨z, ⟨y, g1, g2⟩, g3⟩, g4⟩
      exact bind_ok.2 ⟨_, g1, bind_ok.2 ⟨_, g2, bind_ok.2 ⟨_, g3, bind_ok.2 ⟨_, g4, rfl⟩⟩⟩⟩

theorem lookups_used : ∀ (n : Nat) {t : Reader} {r : List LookupEval × Reader}, readLookups n t = .ok r →
    Used (32 * (5 * n)) t r.2 (fun a b => readLookups n a = .ok (r.1, b)) := by
  intro n
  induction n with
  | zero =>
    intro t r h
    obtain rfl := Except.ok.inj h
    exact (Used.nothing t).mono rfl fun a b hab => by rw [hab]; rfl
  | succ n ih =>
    intro t r h
    obtain ⟨a, h1, h⟩ := bind_ok.1 h
    obtain ⟨b, h2, h⟩ := bind_ok.1 h
    obtain ⟨c, h3, h⟩ := bind_ok.1 h
    obtain ⟨d, h4, h⟩ := bind_ok.1 h
    obtain ⟨e, h5, h⟩ := bind_ok.1 h
    obtain ⟨f, h6, h⟩ := bind_ok.1 h
    obtain rfl := Except.ok.inj h
    refine ((((((scalar_used h1).trans (scalar_used h2)).trans (scalar_used h3)).trans (scalar_used h4)).trans
      (scalar_used h5)).trans (ih h6)).mono (by omega) ?_
    rintro x v ⟨t6, ⟨t5, ⟨t4, ⟨t3, ⟨t2, g1, g2⟩, g3⟩, g4⟩, g5⟩, g6⟩
    exact bind_ok.2 ⟨_, g1, bind_ok.2 ⟨_, g2, bind_ok.2 ⟨_, g3, bind_ok.2 ⟨_, g4, bind_ok.2 ⟨_, g5,
      bind_ok.2 ⟨_, g6, rfl⟩⟩⟩⟩⟩⟩

theorem advice_used {phase : Nat} : ∀ (l : List (Nat × Nat)) {advice : List G} {t : Reader} {r : List G × Reader},
    readAdvice codec phase l advice t = .ok r →
    Used (32 * (l.filter fun p => p.1 = phase).length) t r.2 (fun a b => readAdvice codec phase l advice a = .ok (r.1, b)) := by
  intro l
  induction l with
  | nil =>
    intro advice t r h
    obtain rfl := Except.ok.inj h
    exact (Used.nothing t).mono rfl fun a b hab => by rw [hab]; rfl
  | cons p l ih =>
    intro advice t r h
    obtain ⟨p, i⟩ := p
    unfold readAdvice at h
    rw [List.filter_cons]
    split at h
    · rename_i hp
      obtain ⟨a, h1, h⟩ := bind_ok.1 h
      rw [if_pos (by simpa using hp)]
      refine ((point_used h1).trans (ih h)).mono (by rw [List.length_cons]; omega) ?_
      rintro x z ⟨y, g1, g2⟩
      unfold readAdvice
      rw [if_pos hp]
      exact bind_ok.2 ⟨_, g1, g2⟩
    · rename_i hp
      rw [if_neg (by simpa using hp)]
      refine (ih h).mono rfl fun a b g => ?_
      unfold readAdvice
      rw [if_neg hp]
      exact g

/-- The number of commitments read in the given phases. -/
def phasePoints (cs : CS) (l : List Nat) : Nat :=
  (l.map fun p => (cs.advicePhase.zipIdx.filter fun q => q.1 = p).length).sum

theorem phases_used {cs : CS} : ∀ (l : List Nat) {advice : List G} {user : List Fr} {t : Reader} {r : List G × List Fr × Reader},
    readPhases codec hash cs l advice user t = .ok r →
    Used (32 * phasePoints cs l) t r.2.2 (fun a b => readPhases codec hash cs l advice user a = .ok (r.1, r.2.1, b)) := by
  intro l
  induction l with
  | nil =>
    intro advice user t r h
    obtain rfl := Except.ok.inj h
    exact (Used.nothing t).mono rfl fun a b hab => by rw [hab]; rfl
  | cons p l ih =>
    intro advice user t r h
    unfold readPhases at h
    obtain ⟨a, h1, h⟩ := bind_ok.1 h
    obtain ⟨u1, a1, a2, a3⟩ := advice_used _ h1
    obtain ⟨u2, b1, b2, b3⟩ := ih h
    refine ⟨u1 ++ u2, ?_, ?_, fun rest => ?_⟩
    · rw [List.length_append, a1, b1]
      unfold phasePoints
      rw [List.map_cons, List.sum_cons]
      omega
    · rw [a2, List.append_assoc, ← b2]
    · unfold readPhases
      rw [List.append_assoc]
      exact bind_ok.2 ⟨_, a3 _, b3 rest⟩

/-- The number of points read before the opening, and of scalars. -/
def readCount (cs : CS) (sets pieces sigma : Nat) : Nat :=
  phasePoints cs cs.phases + 2 * cs.lookups.length + sets + cs.lookups.length + 1 + pieces +
    (cs.adviceQueries.length + cs.fixedQueries.length + 1 + sigma + (3 * sets - 1) + 5 * cs.lookups.length)

theorem points_length : ∀ (n : Nat) {t : Reader} {r : List G × Reader}, readPoints codec n t = .ok r → r.1.length = n := by
  intro n
  induction n with
  | zero =>
    intro t r h
    obtain rfl := Except.ok.inj h
    rfl
  | succ n ih =>
    intro t r h
    obtain ⟨a, h1, h⟩ := bind_ok.1 h
    obtain ⟨b, h2, h⟩ := bind_ok.1 h
    obtain rfl := Except.ok.inj h
    rw [List.length_cons, ih h2]

theorem commitments_used [Zero G] {key : Key G} {repr : Fr} {instances : List (List Fr)} {proof : List UInt8}
    {r : Commitments G × Challenges × Reader} (h : readCommitments codec hash key repr instances proof = .ok r) :
    r.1.products.length = (chunks (key.cs.degree - 2) key.cs.permutation).length ∧
    r.1.lookupProducts.length = key.cs.lookups.length ∧
    ∃ used, used.length = 32 * (phasePoints key.cs key.cs.phases + 2 * key.cs.lookups.length +
        (chunks (key.cs.degree - 2) key.cs.permutation).length + key.cs.lookups.length + 1 + key.domain.quotientPolyDegree) ∧
      proof = used ++ r.2.2.input ∧
      ∀ rest, readCommitments codec hash key repr instances (used ++ rest) = .ok (r.1, r.2.1, ⟨r.2.2.absorbed, rest⟩) := by
  unfold readCommitments at h
  split at h
  · cases h
  · rename_i hn
    obtain ⟨a, h1, h⟩ := bind_ok.1 h
    obtain ⟨b, h2, h⟩ := bind_ok.1 h
    obtain ⟨c, h3, h⟩ := bind_ok.1 h
    obtain ⟨d, h4, h⟩ := bind_ok.1 h
    obtain ⟨e, h5, h⟩ := bind_ok.1 h
    obtain ⟨f, h6, h⟩ := bind_ok.1 h
    obtain rfl := Except.ok.inj h
    obtain ⟨u1, a1, b1, c1⟩ := phases_used _ h1
    obtain ⟨u2, a2, b2, c2⟩ := pairs_used _ h2
    obtain ⟨u3, a3, b3, c3⟩ := points_used _ h3
    obtain ⟨u4, a4, b4, c4⟩ := points_used _ h4
    obtain ⟨u5, a5, b5, c5⟩ := point_used h5
    obtain ⟨u6, a6, b6, c6⟩ := points_used _ h6
    refine ⟨points_length _ h3, points_length _ h4, u1 ++ (u2 ++ (u3 ++ (u4 ++ (u5 ++ u6)))), ?_, ?_, fun rest => ?_⟩
    · simp only [List.length_append, a1, a2, a3, a4, a5, a6]
      omega
    · replace b1 : proof = u1 ++ a.2.2.input := b1
      replace b2 : a.2.2.input = u2 ++ b.2.input := b2
      replace b3 : b.2.input = u3 ++ c.2.input := b3
      replace b4 : c.2.input = u4 ++ d.2.input := b4
      replace b5 : d.2.input = u5 ++ e.2.input := b5
      replace b6 : e.2.input = u6 ++ f.2.input := b6
      rw [b1, b2, b3, b4, b5, b6]
      simp only [List.append_assoc]
    · have e : u1 ++ (u2 ++ (u3 ++ (u4 ++ (u5 ++ u6)))) ++ rest = u1 ++ (u2 ++ (u3 ++ (u4 ++ (u5 ++ (u6 ++ rest))))) := by
        simp only [List.append_assoc]
      rw [e]
      unfold readCommitments
      rw [if_neg hn]
      refine bind_ok.2 ⟨_, c1 _, ?_⟩
      refine bind_ok.2 ⟨_, c2 _, ?_⟩
      refine bind_ok.2 ⟨_, c3 _, ?_⟩
      refine bind_ok.2 ⟨_, c4 _, ?_⟩
      refine bind_ok.2 ⟨_, c5 _, ?_⟩
      exact bind_ok.2 ⟨_, c6 _, rfl⟩

theorem evals_used {key : Key G} {com : Commitments G} {t : Reader} {r : Evals × Reader}
    (h : readEvals key com t = .ok r) :
    Used (32 * (key.cs.adviceQueries.length + key.cs.fixedQueries.length + 1 + key.sigma.length +
      (3 * com.products.length - 1) + 5 * com.lookupProducts.length)) t r.2
      (fun a b => readEvals key com a = .ok (r.1, b)) := by
  unfold readEvals at h
  obtain ⟨a, h1, h⟩ := bind_ok.1 h
  obtain ⟨b, h2, h⟩ := bind_ok.1 h
  obtain ⟨c, h3, h⟩ := bind_ok.1 h
  obtain ⟨d, h4, h⟩ := bind_ok.1 h
  obtain ⟨e, h5, h⟩ := bind_ok.1 h
  obtain ⟨f, h6, h⟩ := bind_ok.1 h
  obtain rfl := Except.ok.inj h
  refine ((((((scalars_used _ h1).trans (scalars_used _ h2)).trans (scalar_used h3)).trans (scalars_used _ h4)).trans
      (sets_used _ h5)).trans (lookups_used _ h6)).mono (by omega) ?_
  rintro x v ⟨t6, ⟨t5, ⟨t4, ⟨t3, ⟨t2, g1, g2⟩, g3⟩, g4⟩, g5⟩, g6⟩
  unfold readEvals
  exact bind_ok.2 ⟨_, g1, bind_ok.2 ⟨_, g2, bind_ok.2 ⟨_, g3, bind_ok.2 ⟨_, g4, bind_ok.2 ⟨_, g5,
      bind_ok.2 ⟨_, g6, rfl⟩⟩⟩⟩⟩⟩

theorem opening_used {t : Reader} {r : Fr × Fr × G × Fr × G × Reader} (h : readOpening codec hash t = .ok r) :
    Used 64 t r.2.2.2.2.2 (fun a b => readOpening codec hash a = .ok (r.1, r.2.1, r.2.2.1, r.2.2.2.1, r.2.2.2.2.1, b)) := by
  unfold readOpening at h
  obtain ⟨a, h1, h⟩ := bind_ok.1 h
  obtain ⟨b, h2, h⟩ := bind_ok.1 h
  obtain rfl := Except.ok.inj h
  obtain ⟨u1, a1, b1, c1⟩ := point_used h1
  obtain ⟨u2, a2, b2, c2⟩ := point_used h2
  refine ⟨u1 ++ u2, by rw [List.length_append, a1, a2], ?_, fun rest => ?_⟩
  · replace b1 : t.input = u1 ++ a.2.input := b1
    replace b2 : a.2.input = u2 ++ b.2.input := b2
    rw [b1, b2, List.append_assoc]
  · have e : u1 ++ u2 ++ rest = u1 ++ (u2 ++ rest) := List.append_assoc _ _ _
    rw [e]
    unfold readOpening
    refine bind_ok.2 ⟨_, c1 _, ?_⟩
    exact bind_ok.2 ⟨_, c2 _, rfl⟩

end Verif.Transcript

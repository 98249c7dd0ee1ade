import Verif.Spec.Binding
import Verif.Spec.Transcript
import Verif.Lemmas.TrailingBytes

/-! The verifier's transcript is the encoded conversation. -/

namespace Verif.Binding

open Spec Plonk Transcript Verify

variable {G : Type} {codec : Codec G} {hash : Hash}

theorem encode_append (codec : Codec G) (a b : List (Item G)) : encode codec (a ++ b) = encode codec a ++ encode codec b := by
  unfold encode
  rw [List.flatMap_append]

theorem drawn_append (codec : Codec G) (hash : Hash) : ∀ (l : List (Item G)) (a : List UInt8) (m : List (Item G)),
    drawn codec hash a (l ++ m) = drawn codec hash a l ++ drawn codec hash (a ++ encode codec l) m
  | [], a, m => by simp [drawn, encode]
  | .draw :: l, a, m => by
    rw [List.cons_append]
    rw [show drawn codec hash a (.draw :: (l ++ m)) = ((leNat (hash (a ++ [0])) : Nat) : Fr) :: drawn codec hash (a ++ [0]) (l ++ m) from rfl,
      drawn_append codec hash l (a ++ [0]) m, show encode codec (.draw :: l) = [0] ++ encode codec l from rfl, ← List.append_assoc]
    rfl
  | .scalar x :: l, a, m => by
    rw [List.cons_append]
    rw [show drawn codec hash a (.scalar x :: (l ++ m)) = drawn codec hash (a ++ Item.bytes codec (.scalar x)) (l ++ m) from rfl,
      drawn_append codec hash l _ m, show encode codec (.scalar x :: l) = Item.bytes codec (.scalar x) ++ encode codec l from rfl,
      ← List.append_assoc]
    rfl
  | .point p :: l, a, m => by
    rw [List.cons_append]
    rw [show drawn codec hash a (.point p :: (l ++ m)) = drawn codec hash (a ++ Item.bytes codec (.point p)) (l ++ m) from rfl,
      drawn_append codec hash l _ m, show encode codec (.point p :: l) = Item.bytes codec (.point p) ++ encode codec l from rfl,
      ← List.append_assoc]
    rfl

/-- Between two states of the reader this was said, and these challenges were drawn. -/
structure Said (codec : Codec G) (hash : Hash) (t t' : Reader) (items : List (Item G)) (cs : List Fr) : Prop where
  absorbed : t'.absorbed = t.absorbed ++ encode codec items
  drawn : drawn codec hash t.absorbed items = cs

theorem Said.trans {t t' t'' : Reader} {i j : List (Item G)} {c d : List Fr} (h : Said codec hash t t' i c)
    (h' : Said codec hash t' t'' j d) : Said codec hash t t'' (i ++ j) (c ++ d) := by
  refine ⟨?_, ?_⟩
  · rw [h'.absorbed, h.absorbed, encode_append, List.append_assoc]
  · rw [drawn_append, h.drawn, ← h.absorbed, h'.drawn]

theorem Said.nothing (t : Reader) : Said codec hash t t [] [] := ⟨by simp [encode], rfl⟩

theorem Said.cast {t t' : Reader} {i j : List (Item G)} {c d : List Fr} (h : Said codec hash t t' i c) (hi : i = j) (hc : c = d) :
    Said codec hash t t' j d := by
  subst hi hc
  exact h

theorem said_draw (t : Reader) : Said codec hash t (Verify.draw hash t).2 [.draw] [(Verify.draw hash t).1] :=
  ⟨by simp [encode, Item.bytes, Verify.draw, squeeze], by simp [drawn, Verify.draw, squeeze]⟩

theorem said_point {e : Err} {t : Reader} {r : G × Reader} (h : orErr e (readPoint codec t) = .ok r) :
    Said codec hash t r.2 [.point r.1] [] := by
  cases hr : readPoint codec t with
  | none => rw [hr] at h; cases h
  | some q =>
    rw [hr] at h
    obtain rfl := Except.ok.inj h
    unfold readPoint at hr
    obtain ⟨⟨b, rest⟩, -, hr⟩ := Option.bind_eq_some_iff.1 hr
    obtain ⟨p, -, hr⟩ := Option.bind_eq_some_iff.1 hr
    obtain ⟨ab, hab, hr⟩ := Option.bind_eq_some_iff.1 hr
    obtain rfl := Option.some.inj hr
    refine ⟨?_, rfl⟩
    unfold commonPoint at hab
    cases hc : codec.coords p with
    | none => rw [hc] at hab; cases hab
    | some xy =>
      rw [hc] at hab
      obtain ⟨x, y⟩ := xy
      have := Option.some.inj hab
      simp [encode, Item.bytes, hc, ← this]

theorem said_scalar {e : Err} {t : Reader} {r : Fr × Reader} (h : orErr e (readScalar t) = .ok r) :
    Said codec hash t r.2 [.scalar r.1] [] := by
  cases hr : readScalar t with
  | none => rw [hr] at h; cases h
  | some q =>
    rw [hr] at h
    obtain rfl := Except.ok.inj h
    unfold readScalar at hr
    obtain ⟨⟨b, rest⟩, -, hr⟩ := Option.bind_eq_some_iff.1 hr
    dsimp only at hr
    split at hr
    · obtain rfl := Option.some.inj hr
      exact ⟨by simp [encode, Item.bytes, commonScalar, scalarBytes], rfl⟩
    · cases hr

theorem said_points : ∀ (n : Nat) {t : Reader} {r : List G × Reader}, readPoints codec n t = .ok r →
    Said codec hash t r.2 (r.1.map .point) []
  | 0, t, r, h => by
    obtain rfl := Except.ok.inj h
    exact Said.nothing t
  | n + 1, t, r, h => by
    unfold readPoints at h
    obtain ⟨⟨p, t1⟩, h1, h⟩ := bind_ok.1 h
    obtain ⟨⟨ps, t2⟩, h2, h⟩ := bind_ok.1 h
    obtain rfl := Except.ok.inj h
    exact ((said_point h1).trans (said_points n h2)).cast rfl rfl

theorem said_scalars : ∀ (n : Nat) {t : Reader} {r : List Fr × Reader}, readScalars n t = .ok r →
    Said codec hash t r.2 (r.1.map .scalar) []
  | 0, t, r, h => by
    obtain rfl := Except.ok.inj h
    exact Said.nothing t
  | n + 1, t, r, h => by
    unfold readScalars at h
    obtain ⟨⟨p, t1⟩, h1, h⟩ := bind_ok.1 h
    obtain ⟨⟨ps, t2⟩, h2, h⟩ := bind_ok.1 h
    obtain rfl := Except.ok.inj h
    exact ((said_scalar h1).trans (said_scalars n h2)).cast rfl rfl

theorem said_pairs : ∀ (n : Nat) {t : Reader} {r : List (G × G) × Reader}, readPairs codec n t = .ok r →
    Said codec hash t r.2 (r.1.flatMap fun p => [.point p.1, .point p.2]) []
  | 0, t, r, h => by
    obtain rfl := Except.ok.inj h
    exact Said.nothing t
  | n + 1, t, r, h => by
    unfold readPairs at h
    obtain ⟨⟨p, t1⟩, h1, h⟩ := bind_ok.1 h
    obtain ⟨⟨q, t2⟩, h2, h⟩ := bind_ok.1 h
    obtain ⟨⟨ps, t3⟩, h3, h⟩ := bind_ok.1 h
    obtain rfl := Except.ok.inj h
    exact (((said_point h1).trans (said_point h2)).trans (said_pairs n h3)).cast rfl rfl

theorem said_last {n : Nat} {t : Reader} {r : Option Fr × Reader} (h : readLast n t = .ok r) :
    Said codec hash t r.2 (r.1.toList.map .scalar) [] ∧ (r.1.isSome = decide (0 < n)) := by
  unfold readLast at h
  split at h
  · rename_i hn
    obtain ⟨⟨v, t1⟩, h1, h⟩ := bind_ok.1 h
    obtain rfl := Except.ok.inj h
    exact ⟨said_scalar h1, by simp [hn]⟩
  · rename_i hn
    obtain rfl := Except.ok.inj h
    exact ⟨Said.nothing t, by simp [hn]⟩

theorem said_sets : ∀ (n : Nat) {t : Reader} {r : List SetEval × Reader}, readSets n t = .ok r →
    Said codec hash t r.2 ((r.1.flatMap fun s => s.product :: s.next :: s.last.toList).map .scalar) []
  | 0, t, r, h => by
    obtain rfl := Except.ok.inj h
    exact Said.nothing t
  | n + 1, t, r, h => by
    unfold readSets at h
    obtain ⟨⟨p, t1⟩, h1, h⟩ := bind_ok.1 h
    obtain ⟨⟨q, t2⟩, h2, h⟩ := bind_ok.1 h
    obtain ⟨⟨l, t3⟩, h3, h⟩ := bind_ok.1 h
    obtain ⟨⟨ps, t4⟩, h4, h⟩ := bind_ok.1 h
    obtain rfl := Except.ok.inj h
    exact ((((said_scalar h1).trans (said_scalar h2)).trans (said_last h3).1).trans (said_sets n h4)).cast (by simp) rfl

theorem said_lookups : ∀ (n : Nat) {t : Reader} {r : List LookupEval × Reader}, readLookups n t = .ok r →
    Said codec hash t r.2 ((r.1.flatMap fun l => [l.product, l.next, l.input, l.inputInv, l.table]).map .scalar) []
  | 0, t, r, h => by
    obtain rfl := Except.ok.inj h
    exact Said.nothing t
  | n + 1, t, r, h => by
    unfold readLookups at h
    obtain ⟨⟨a, t1⟩, h1, h⟩ := bind_ok.1 h
    obtain ⟨⟨b, t2⟩, h2, h⟩ := bind_ok.1 h
    obtain ⟨⟨c, t3⟩, h3, h⟩ := bind_ok.1 h
    obtain ⟨⟨d, t4⟩, h4, h⟩ := bind_ok.1 h
    obtain ⟨⟨e, t5⟩, h5, h⟩ := bind_ok.1 h
    obtain ⟨⟨ps, t6⟩, h6, h⟩ := bind_ok.1 h
    obtain rfl := Except.ok.inj h
    exact ((((((said_scalar h1).trans (said_scalar h2)).trans (said_scalar h3)).trans (said_scalar h4)).trans
      (said_scalar h5)).trans (said_lookups n h6)).cast (by simp) rfl

/-- The entries of a list with the given first component. -/
theorem picked_cons {q : Nat × Nat} {l : List (Nat × Nat)} {p : Nat} :
    (((q :: l).filter fun q => q.1 = p).map (·.2)) =
      if q.1 = p then q.2 :: ((l.filter fun q => q.1 = p).map (·.2)) else (l.filter fun q => q.1 = p).map (·.2) := by
  by_cases h : q.1 = p <;> simp [h]

theorem said_advice [Zero G] {phase : Nat} : ∀ (l : List (Nat × Nat)) {advice : List G} {t : Reader} {r : List G × Reader},
    readAdvice codec phase l advice t = .ok r → (l.map (·.2)).Nodup → (∀ q ∈ l, q.2 < advice.length) →
    r.1.length = advice.length ∧
    (∀ i, i ∉ ((l.filter fun q => q.1 = phase).map (·.2)) → r.1.getD i 0 = advice.getD i 0) ∧
    Said codec hash t r.2 (((l.filter fun q => q.1 = phase).map (·.2)).map fun i => .point (r.1.getD i 0)) []
  | [], advice, t, r, h, _, _ => by
    obtain rfl := Except.ok.inj h
    exact ⟨rfl, fun _ _ => rfl, Said.nothing t⟩
  | (p, i) :: l, advice, t, r, h, hn, hl => by
    rw [List.map_cons, List.nodup_cons] at hn
    rw [picked_cons]
    unfold readAdvice at h
    by_cases hp : p = phase
    · rw [if_pos hp] at h
      obtain ⟨⟨c, t1⟩, h1, h⟩ := bind_ok.1 h
      obtain ⟨e1, e2, e3⟩ := said_advice l h hn.2 (by
        intro q hq
        rw [List.length_set]
        exact hl q (List.mem_cons_of_mem _ hq))
      rw [List.length_set] at e1
      have hi : i ∉ ((l.filter fun q => q.1 = phase).map (·.2)) := by
        intro hmem
        obtain ⟨q, hq, rfl⟩ := List.mem_map.1 hmem
        exact hn.1 (List.mem_map.2 ⟨q, (List.mem_filter.1 hq).1, rfl⟩)
      have hlt : i < advice.length := hl (p, i) (List.mem_cons_self ..)
      have hv : r.1.getD i 0 = c := by
        rw [e2 i hi, List.getD_eq_getElem?_getD, List.getElem?_set_self hlt]
        rfl
      refine ⟨e1, ?_, ?_⟩
      · intro j hj
        rw [if_pos hp] at hj
        rw [e2 j (fun h => hj (List.mem_cons_of_mem _ h)), List.getD_eq_getElem?_getD, List.getElem?_set_ne (fun h => hj (by
          rw [← h]; exact List.mem_cons_self ..)), ← List.getD_eq_getElem?_getD]
      · rw [if_pos hp, List.map_cons, hv]
        exact (said_point h1).trans e3
    · rw [if_neg hp] at h
      rw [if_neg hp]
      exact said_advice l h hn.2 (fun q hq => hl q (List.mem_cons_of_mem _ hq))

theorem said_squeeze {phase : Nat} : ∀ (l : List (Nat × Nat)) (user : List Fr) (t : Reader), (l.map (·.2)).Nodup →
    (∀ q ∈ l, q.2 < user.length) →
    (squeezePhase hash phase l user t.absorbed).1.length = user.length ∧
    (∀ i, i ∉ ((l.filter fun q => q.1 = phase).map (·.2)) →
      (squeezePhase hash phase l user t.absorbed).1.getD i 0 = user.getD i 0) ∧
    Said codec hash t ⟨(squeezePhase hash phase l user t.absorbed).2, t.input⟩
      (((l.filter fun q => q.1 = phase).map (·.2)).map fun _ => .draw)
      (((l.filter fun q => q.1 = phase).map (·.2)).map fun i => (squeezePhase hash phase l user t.absorbed).1.getD i 0)
  | [], user, t, _, _ => ⟨rfl, fun _ _ => rfl, Said.nothing t⟩
  | (p, i) :: l, user, t, hn, hl => by
    rw [List.map_cons, List.nodup_cons] at hn
    rw [picked_cons]
    by_cases hp : p = phase
    · have he : squeezePhase hash phase ((p, i) :: l) user t.absorbed =
          squeezePhase hash phase l (user.set i (Verify.draw hash t).1) (Verify.draw hash t).2.absorbed := by
        conv_lhs => unfold squeezePhase
        rw [if_pos hp]
        rfl
      rw [he]
      obtain ⟨e1, e2, e3⟩ := said_squeeze (phase := phase) l (user.set i (Verify.draw hash t).1) (Verify.draw hash t).2 hn.2 (by
        intro q hq
        rw [List.length_set]
        exact hl q (List.mem_cons_of_mem _ hq))
      rw [List.length_set] at e1
      have hi : i ∉ ((l.filter fun q => q.1 = phase).map (·.2)) := by
        intro hmem
        obtain ⟨q, hq, rfl⟩ := List.mem_map.1 hmem
        exact hn.1 (List.mem_map.2 ⟨q, (List.mem_filter.1 hq).1, rfl⟩)
      have hlt : i < user.length := hl (p, i) (List.mem_cons_self ..)
      have hv : (squeezePhase hash phase l (user.set i (Verify.draw hash t).1) (Verify.draw hash t).2.absorbed).1.getD i 0 =
          (Verify.draw hash t).1 := by
        rw [e2 i hi, List.getD_eq_getElem?_getD, List.getElem?_set_self hlt]
        rfl
      refine ⟨e1, ?_, ?_⟩
      · intro j hj
        rw [if_pos hp] at hj
        rw [e2 j (fun h => hj (List.mem_cons_of_mem _ h)), List.getD_eq_getElem?_getD, List.getElem?_set_ne (fun h => hj (by
          rw [← h]; exact List.mem_cons_self ..)), ← List.getD_eq_getElem?_getD]
      · rw [if_pos hp, List.map_cons, List.map_cons, hv]
        exact (said_draw t).trans e3
    · have he : squeezePhase hash phase ((p, i) :: l) user t.absorbed = squeezePhase hash phase l user t.absorbed := by
        conv_lhs => unfold squeezePhase
        rw [if_neg hp]
      rw [he, if_neg hp]
      exact said_squeeze l user t hn.2 (fun q hq => hl q (List.mem_cons_of_mem _ hq))

theorem zipIdx_seconds (l : List Nat) : (l.zipIdx.map (·.2)).Nodup ∧ ∀ q ∈ l.zipIdx, q.2 < l.length := by
  refine ⟨?_, fun q hq => ?_⟩
  · rw [List.zipIdx_map_snd]
    exact List.nodup_range'
  · obtain ⟨-, h, -⟩ := List.mem_zipIdx hq
    omega

/-- Different phases have different columns. -/
theorem ofPhase_disjoint {l : List Nat} {p q i : Nat} (h : i ∈ ofPhase l p) (h' : i ∈ ofPhase l q) : p = q := by
  obtain ⟨a, ha, rfl⟩ := List.mem_map.1 h
  obtain ⟨b, hb, he⟩ := List.mem_map.1 h'
  obtain ⟨ha, hap⟩ := List.mem_filter.1 ha
  obtain ⟨hb, hbq⟩ := List.mem_filter.1 hb
  have := List.mem_zipIdx ha
  have := List.mem_zipIdx hb
  have e : a.1 = b.1 := by grind
  simp only [decide_eq_true_eq] at hap hbq
  omega

theorem said_phases [Zero G] {cs : CS} : ∀ (l : List Nat) {advice : List G} {user : List Fr} {t : Reader}
    {r : List G × List Fr × Reader}, l.Nodup → cs.advicePhase.length = advice.length → cs.challengePhase.length = user.length →
    readPhases codec hash cs l advice user t = .ok r →
    r.1.length = advice.length ∧ r.2.1.length = user.length ∧
    (∀ i, (∀ p ∈ l, i ∉ ofPhase cs.advicePhase p) → r.1.getD i 0 = advice.getD i 0) ∧
    (∀ i, (∀ p ∈ l, i ∉ ofPhase cs.challengePhase p) → r.2.1.getD i 0 = user.getD i 0) ∧
    Said codec hash t r.2.2 (l.flatMap (phaseItems cs r.1))
      (l.flatMap fun p => (ofPhase cs.challengePhase p).map fun i => r.2.1.getD i 0)
  | [], advice, user, t, r, _, _, _, h => by
    obtain rfl := Except.ok.inj h
    exact ⟨rfl, rfl, fun _ _ => rfl, fun _ _ => rfl, Said.nothing t⟩
  | p :: l, advice, user, t, r, hn, ha, hu, h => by
    rw [List.nodup_cons] at hn
    unfold readPhases at h
    obtain ⟨⟨advice', t1⟩, h1, h⟩ := bind_ok.1 h
    dsimp only at h
    obtain ⟨n1, n2⟩ := zipIdx_seconds cs.advicePhase
    obtain ⟨n3, n4⟩ := zipIdx_seconds cs.challengePhase
    obtain ⟨a1, a2, a3⟩ := said_advice (hash := hash) _ h1 n1 (by rw [← ha]; exact n2)
    obtain ⟨b1, b2, b3⟩ := said_squeeze (codec := codec) (hash := hash) (phase := p) _ user t1 n3 (by rw [← hu]; exact n4)
    generalize hsq : squeezePhase hash p cs.challengePhase.zipIdx user t1.absorbed = sq at h b1 b2 b3
    dsimp only at a1 a2 a3
    obtain ⟨e1, e2, e3, e4, e5⟩ := said_phases l hn.2 (by rw [a1]; exact ha) (by rw [b1]; exact hu) h
    refine ⟨e1.trans a1, e2.trans b1, ?_, ?_, ?_⟩
    · intro i hi
      rw [e3 i (fun q hq => hi q (List.mem_cons_of_mem _ hq))]
      exact a2 i (hi p (List.mem_cons_self ..))
    · intro i hi
      rw [e4 i (fun q hq => hi q (List.mem_cons_of_mem _ hq))]
      exact b2 i (hi p (List.mem_cons_self ..))
    · have hadv : ((ofPhase cs.advicePhase p).map fun i => (Item.point (advice'.getD i 0) : Item G)) =
          (ofPhase cs.advicePhase p).map fun i => .point (r.1.getD i 0) := by
        refine List.map_congr_left fun i hi => ?_
        rw [e3 i (fun q hq hiq => hn.1 (by rw [ofPhase_disjoint hi hiq]; exact hq))]
      have husr : ((ofPhase cs.challengePhase p).map fun i => sq.1.getD i 0) =
          (ofPhase cs.challengePhase p).map fun i => r.2.1.getD i 0 := by
        refine List.map_congr_left fun i hi => ?_
        rw [e4 i (fun q hq hiq => hn.1 (by rw [ofPhase_disjoint hi hiq]; exact hq))]
      refine ((a3.trans b3).trans e5).cast ?_ ?_
      · rw [List.flatMap_cons]
        unfold phaseItems
        rw [← hadv]
        rfl
      · rw [List.flatMap_cons, ← husr]
        rfl

theorem phases_nodup (cs : CS) : cs.phases.Nodup := List.nodup_range

theorem foldl_commonScalar : ∀ (l : List Fr) (a : List UInt8),
    l.foldl commonScalar a = a ++ encode codec ((l.map .scalar : List (Item G)))
  | [], a => by simp [encode]
  | x :: l, a => by
    rw [List.foldl_cons, foldl_commonScalar l]
    simp [encode, Item.bytes, commonScalar, scalarBytes]

theorem drawn_scalars : ∀ (l : List Fr) (a : List UInt8), drawn codec hash a ((l.map .scalar : List (Item G))) = []
  | [], _ => rfl
  | _ :: l, a => by
    rw [List.map_cons]
    unfold drawn
    exact drawn_scalars l _

/-- The conversation up to x. -/
theorem said_commitments [Zero G] {key : Key G} (ha : key.cs.advicePhase.length = key.cs.numAdvice)
    (hc : key.cs.challengePhase.length = key.cs.numChallenges) {repr : Fr} {instances : List (List Fr)} {proof : List UInt8}
    {com : Commitments G} {ch : Challenges} {t : Reader}
    (h : readCommitments codec hash key repr instances proof = .ok (com, ch, t)) :
    com.advice.length = key.cs.numAdvice ∧
    Said codec hash ⟨[], proof⟩ t (untilX key.cs repr instances com)
      (inOrder key.cs ch.user ++ [ch.theta, ch.beta, ch.gamma, ch.y, ch.x]) := by
  unfold readCommitments at h
  split at h
  · cases h
  obtain ⟨⟨advice, user, t1⟩, h1, h⟩ := bind_ok.1 h
  obtain ⟨⟨permuted, t2⟩, h2, h⟩ := bind_ok.1 h
  obtain ⟨⟨products, t3⟩, h3, h⟩ := bind_ok.1 h
  obtain ⟨⟨lookupProducts, t4⟩, h4, h⟩ := bind_ok.1 h
  obtain ⟨⟨random, t5⟩, h5, h⟩ := bind_ok.1 h
  obtain ⟨⟨pieces, t6⟩, h6, h⟩ := bind_ok.1 h
  have h := Except.ok.inj h
  simp only [Prod.mk.injEq] at h
  obtain ⟨rfl, rfl, rfl⟩ := h
  have hstart : Said codec hash ⟨[], proof⟩ ⟨instances.flatten.foldl commonScalar (commonScalar [] repr), proof⟩
      (.scalar repr :: instances.flatten.map .scalar) [] := by
    refine ⟨?_, ?_⟩
    · rw [foldl_commonScalar (codec := codec)]
      simp [encode, Item.bytes, commonScalar, scalarBytes]
    · exact drawn_scalars (repr :: instances.flatten) []
  obtain ⟨p1, -, -, -, p2⟩ := said_phases _ (phases_nodup key.cs) (by simp [ha]) (by simp [hc]) h1
  refine ⟨by simpa using p1, ?_⟩
  refine ((((((((((hstart.trans p2).trans (said_draw t1)).trans (said_pairs _ h2)).trans
    ((said_draw t2).trans (said_draw _))).trans (said_points _ h3)).trans (said_points _ h4)).trans
    ((said_point h5).trans (said_draw t5))).trans (said_points _ h6)).trans (said_draw t6))).cast ?_ ?_
  · simp [untilX]
  · simp [inOrder, Verify.draw, squeeze]

theorem said_evals {key : Key G} {com : Commitments G} {t t' : Reader} {e : Evals} (h : readEvals key com t = .ok (e, t')) :
    Said codec hash t t' ((scalarList e).map .scalar) [] := by
  unfold readEvals at h
  obtain ⟨⟨a, t1⟩, h1, h⟩ := bind_ok.1 h
  obtain ⟨⟨f, t2⟩, h2, h⟩ := bind_ok.1 h
  obtain ⟨⟨r, t3⟩, h3, h⟩ := bind_ok.1 h
  obtain ⟨⟨s, t4⟩, h4, h⟩ := bind_ok.1 h
  obtain ⟨⟨ss, t5⟩, h5, h⟩ := bind_ok.1 h
  obtain ⟨⟨ls, t6⟩, h6, h⟩ := bind_ok.1 h
  obtain ⟨rfl, rfl⟩ := Prod.mk.inj (Except.ok.inj h)
  exact ((((((said_scalars _ h1).trans (said_scalars _ h2)).trans (said_scalar h3)).trans (said_scalars _ h4)).trans
    (said_sets _ h5)).trans (said_lookups _ h6)).cast (by simp [scalarList]) rfl

/-- The conversation up to u. -/
theorem said_opening {t t' : Reader} {y v u : Fr} {h1 h2 : G} (h : readOpening codec hash t = .ok (y, v, h1, u, h2, t')) :
    ∃ t1, Said codec hash t t1 [.draw, .draw, .point h1, .draw] [y, v, u] := by
  unfold readOpening at h
  obtain ⟨⟨p, t1⟩, e1, h⟩ := bind_ok.1 h
  obtain ⟨⟨q, t2⟩, e2, h⟩ := bind_ok.1 h
  have h := Except.ok.inj h
  simp only [Prod.mk.injEq] at h
  obtain ⟨rfl, rfl, rfl, rfl, rfl, rfl⟩ := h
  exact ⟨_, ((((said_draw t).trans (said_draw _)).trans (said_point e1)).trans (said_draw t1)).cast rfl rfl⟩

/-! ### Different conversations have different bytes -/

theorem bytes_ne_nil (hc : CoordsTell codec) (i : Item G) : i.bytes codec ≠ [] := by
  cases i with
  | scalar x => simp [Item.bytes]
  | draw => simp [Item.bytes]
  | point p =>
    obtain ⟨⟨x, y⟩, h⟩ := Option.ne_none_iff_exists'.1 (hc.some p)
    simp [Item.bytes, h]

theorem bytes_split (hl : Lawful codec) (hc : CoordsTell codec) {i j : Item G} {a b : List UInt8}
    (h : i.bytes codec ++ a = j.bytes codec ++ b) : i = j ∧ a = b := by
  have hp : ∀ p, ∃ x y, codec.coords p = some (x, y) ∧ x.length = 32 ∧ y.length = 32 := by
    intro p
    obtain ⟨⟨x, y⟩, h⟩ := Option.ne_none_iff_exists'.1 (hc.some p)
    exact ⟨x, y, h, hl.coords p x y h⟩
  cases i with
  | draw =>
    cases j with
    | draw => exact ⟨rfl, by simpa [Item.bytes] using h⟩
    | scalar y => simp [Item.bytes] at h
    | point q =>
      obtain ⟨x, y, hq, -⟩ := hp q
      simp [Item.bytes, hq] at h
  | scalar x =>
    cases j with
    | draw => simp [Item.bytes] at h
    | scalar y =>
      simp only [Item.bytes, List.cons_append, List.cons.injEq, true_and] at h
      obtain ⟨h1, h2⟩ := List.append_inj h (by rw [leBytes_length, leBytes_length])
      have := congrArg leNat h1
      have lt : ∀ z : Fr, z.val < 256 ^ 32 := fun z => lt_trans (ZMod.val_lt z) (by decide +kernel)
      rw [leNat_leBytes _ _ (lt x), leNat_leBytes _ _ (lt y)] at this
      exact ⟨by rw [ZMod.val_injective P this], h2⟩
    | point q =>
      obtain ⟨x', y, hq, -⟩ := hp q
      simp [Item.bytes, hq] at h
  | point p =>
    obtain ⟨x, y, hp', hx, hy⟩ := hp p
    cases j with
    | draw => simp [Item.bytes, hp'] at h
    | scalar z => simp [Item.bytes, hp'] at h
    | point q =>
      obtain ⟨x', y', hq, hx', hy'⟩ := hp q
      simp only [Item.bytes, hp', hq, List.cons_append, List.cons.injEq, true_and] at h
      obtain ⟨h1, h2⟩ := List.append_inj h (by simp [hx, hy, hx', hy'])
      obtain ⟨rfl, rfl⟩ := List.append_inj h1 (by rw [hx, hx'])
      exact ⟨by rw [hc.inj p q (hp'.trans hq.symm)], h2⟩

/-- Different conversations have different bytes. -/
theorem encode_inj (hl : Lawful codec) (hc : CoordsTell codec) : ∀ {l m : List (Item G)}, encode codec l = encode codec m → l = m
  | [], [], _ => rfl
  | [], j :: m, h => by
    have : j.bytes codec ++ encode codec m = [] := h.symm
    exact absurd (List.append_eq_nil_iff.1 this).1 (bytes_ne_nil hc j)
  | i :: l, [], h => by
    have : i.bytes codec ++ encode codec l = [] := h
    exact absurd (List.append_eq_nil_iff.1 this).1 (bytes_ne_nil hc i)
  | i :: l, j :: m, h => by
    obtain ⟨rfl, h'⟩ := bytes_split hl hc (show i.bytes codec ++ encode codec l = j.bytes codec ++ encode codec m from h)
    rw [encode_inj hl hc h']

/-! ### What is said determines the proof -/

/-- The scalar that was sent. -/
def sent? : Item G → Option Fr
  | .scalar x => some x
  | _ => none

/-- The point that was sent. -/
def point? : Item G → Option G
  | .point p => some p
  | _ => none

theorem sent_scalars (l : List Fr) : ((l.map .scalar : List (Item G))).filterMap sent? = l := by
  induction l with
  | nil => rfl
  | cons x l ih => simp [sent?, ih]

theorem point_scalars (l : List Fr) : ((l.map .scalar : List (Item G))).filterMap point? = [] := by
  induction l with
  | nil => rfl
  | cons x l ih => simp [point?, ih]

theorem sent_points (l : List G) : ((l.map .point : List (Item G))).filterMap sent? = [] := by
  induction l with
  | nil => rfl
  | cons x l ih => simp [sent?, ih]

theorem point_points (l : List G) : ((l.map .point : List (Item G))).filterMap point? = l := by
  induction l with
  | nil => rfl
  | cons x l ih => simp [point?, ih]

theorem sent_pairs (l : List (G × G)) : ((l.flatMap fun p => [Item.point p.1, Item.point p.2])).filterMap sent? = [] := by
  induction l with
  | nil => rfl
  | cons x l ih =>
    rw [List.flatMap_cons, List.filterMap_append, ih]
    rfl

theorem point_pairs (l : List (G × G)) :
    ((l.flatMap fun p => [Item.point p.1, Item.point p.2])).filterMap point? = l.flatMap fun p => [p.1, p.2] := by
  induction l with
  | nil => rfl
  | cons x l ih => simp [point?, ih]

theorem sent_phase [Zero G] (cs : CS) (advice : List G) (p : Nat) : (phaseItems cs advice p).filterMap sent? = [] := by
  rw [List.filterMap_eq_nil_iff]
  intro i hi
  unfold phaseItems at hi
  rcases List.mem_append.1 hi with h | h <;> obtain ⟨j, -, rfl⟩ := List.mem_map.1 h <;> rfl

theorem point_phase [Zero G] (cs : CS) (advice : List G) (p : Nat) :
    (phaseItems cs advice p).filterMap point? = (ofPhase cs.advicePhase p).map fun i => advice.getD i 0 := by
  unfold phaseItems
  rw [List.filterMap_append]
  have h1 : (((ofPhase cs.challengePhase p).map fun _ => (Item.draw : Item G))).filterMap point? = [] := by
    rw [List.filterMap_eq_nil_iff]
    intro i hi
    obtain ⟨j, -, rfl⟩ := List.mem_map.1 hi
    rfl
  rw [h1, List.append_nil, List.filterMap_map]
  induction ofPhase cs.advicePhase p with
  | nil => rfl
  | cons x l ih =>
    rw [List.filterMap_cons, List.map_cons, ih]
    rfl

theorem sent_phases [Zero G] (cs : CS) (advice : List G) (l : List Nat) :
    (l.flatMap (phaseItems cs advice)).filterMap sent? = [] := by
  induction l with
  | nil => rfl
  | cons x l ih => rw [List.flatMap_cons, List.filterMap_append, sent_phase, ih]; rfl

theorem point_phases [Zero G] (cs : CS) (advice : List G) (l : List Nat) :
    (l.flatMap (phaseItems cs advice)).filterMap point? =
      l.flatMap fun p => (ofPhase cs.advicePhase p).map fun i => advice.getD i 0 := by
  induction l with
  | nil => rfl
  | cons x l ih => rw [List.flatMap_cons, List.filterMap_append, point_phase, ih]; rfl

theorem sent_untilX [Zero G] (cs : CS) (repr : Fr) (instances : List (List Fr)) (com : Commitments G) :
    (untilX cs repr instances com).filterMap sent? = repr :: instances.flatten := by
  unfold untilX
  simp only [List.cons_append, List.filterMap_append, List.filterMap_cons, sent?, sent_scalars, sent_phases, sent_pairs,
    sent_points, List.filterMap_nil, List.append_nil]

theorem point_untilX [Zero G] (cs : CS) (repr : Fr) (instances : List (List Fr)) (com : Commitments G) :
    (untilX cs repr instances com).filterMap point? =
      (cs.phases.flatMap fun p => (ofPhase cs.advicePhase p).map fun i => com.advice.getD i 0) ++
        ((com.permuted.flatMap fun p => [p.1, p.2]) ++ (com.products ++ (com.lookupProducts ++ (com.random :: com.pieces)))) := by
  unfold untilX
  simp only [List.cons_append, List.filterMap_append, List.filterMap_cons, point?, point_scalars, point_phases, point_pairs,
    point_points, List.filterMap_nil, List.append_nil, List.append_assoc, List.nil_append]

theorem pairs_inj : ∀ {l m : List (G × G)}, ((l.flatMap fun p => [p.1, p.2])) = (m.flatMap fun p => [p.1, p.2]) → l = m
  | [], [], _ => rfl
  | [], _ :: _, h => by simp at h
  | _ :: _, [], h => by simp at h
  | (a, b) :: l, (c, d) :: m, h => by
    simp only [List.flatMap_cons, List.cons_append, List.nil_append, List.cons.injEq] at h
    obtain ⟨rfl, rfl, h⟩ := h
    rw [pairs_inj h]

theorem pairs_length (l : List (G × G)) : ((l.flatMap fun p => [p.1, p.2])).length = 2 * l.length := by
  induction l with
  | nil => rfl
  | cons x l ih => simp only [List.flatMap_cons, List.length_append, ih, List.length_cons, List.length_nil]; omega

theorem flatMap_inj {α : Type} {ls : Nat → List Nat} {f g : Nat → α} : ∀ {l : List Nat},
    (l.flatMap fun p => (ls p).map f) = (l.flatMap fun p => (ls p).map g) → ∀ p ∈ l, ∀ i ∈ ls p, f i = g i
  | [], _, p, hp => by simp at hp
  | q :: l, h, p, hp => by
    rw [List.flatMap_cons, List.flatMap_cons] at h
    obtain ⟨h1, h2⟩ := List.append_inj h (by simp)
    rcases List.mem_cons.1 hp with rfl | hp
    · exact fun i hi => List.map_inj_left.1 h1 i hi
    · exact flatMap_inj h2 p hp

theorem foldl_max_ge : ∀ (l : List Nat) (a : Nat), a ≤ l.foldl max a ∧ ∀ x ∈ l, x ≤ l.foldl max a
  | [], a => ⟨le_refl _, by simp⟩
  | y :: l, a => by
    obtain ⟨h1, h2⟩ := foldl_max_ge l (max a y)
    rw [List.foldl_cons]
    refine ⟨le_trans (le_max_left _ _) h1, ?_⟩
    intro x hx
    rcases List.mem_cons.1 hx with rfl | hx
    · exact le_trans (le_max_right _ _) h1
    · exact h2 x hx

theorem advice_inj [Zero G] {cs : CS} {a b : List G} (ha : a.length = cs.advicePhase.length) (hb : b.length = cs.advicePhase.length)
    (h : (cs.phases.flatMap fun p => (ofPhase cs.advicePhase p).map fun i => a.getD i 0) =
      cs.phases.flatMap fun p => (ofPhase cs.advicePhase p).map fun i => b.getD i 0) : a = b := by
  have key := flatMap_inj h
  refine List.ext_getElem (ha.trans hb.symm) ?_
  intro i h1 h2
  have hi : i < cs.advicePhase.length := ha ▸ h1
  have := key cs.advicePhase[i] (by
      unfold CS.phases
      rw [List.mem_range]
      have := (foldl_max_ge cs.advicePhase 0).2 _ (List.getElem_mem hi)
      omega) i (by
      unfold ofPhase
      rw [List.mem_map]
      refine ⟨(cs.advicePhase[i], i), List.mem_filter.2 ⟨?_, by simp⟩, rfl⟩
      rw [List.mem_zipIdx_iff_getElem?]
      simp [hi])
  rw [List.getD_eq_getElem?_getD, List.getD_eq_getElem?_getD, List.getElem?_eq_getElem h1, List.getElem?_eq_getElem h2] at this
  exact this

theorem points_counted : ∀ (n : Nat) {t : Reader} {r : List G × Reader}, readPoints codec n t = .ok r → r.1.length = n
  | 0, t, r, h => by
    obtain rfl := Except.ok.inj h
    rfl
  | n + 1, t, r, h => by
    unfold readPoints at h
    obtain ⟨⟨p, t1⟩, h1, h⟩ := bind_ok.1 h
    obtain ⟨⟨ps, t2⟩, h2, h⟩ := bind_ok.1 h
    obtain rfl := Except.ok.inj h
    simpa using points_counted n h2

theorem pairs_count : ∀ (n : Nat) {t : Reader} {r : List (G × G) × Reader}, readPairs codec n t = .ok r → r.1.length = n
  | 0, t, r, h => by
    obtain rfl := Except.ok.inj h
    rfl
  | n + 1, t, r, h => by
    unfold readPairs at h
    obtain ⟨⟨p, t1⟩, h1, h⟩ := bind_ok.1 h
    obtain ⟨⟨q, t2⟩, h2, h⟩ := bind_ok.1 h
    obtain ⟨⟨ps, t3⟩, h3, h⟩ := bind_ok.1 h
    obtain rfl := Except.ok.inj h
    simpa using pairs_count n h3

/-- How many commitments of each kind there are is fixed by the key. -/
structure Counted (key : Key G) (com : Commitments G) : Prop where
  advice : com.advice.length = key.cs.numAdvice
  permuted : com.permuted.length = key.cs.lookups.length
  products : com.products.length = (chunks (key.cs.degree - 2) key.cs.permutation).length
  lookupProducts : com.lookupProducts.length = key.cs.lookups.length

theorem counted [Zero G] {key : Key G} (ha : key.cs.advicePhase.length = key.cs.numAdvice)
    (hc : key.cs.challengePhase.length = key.cs.numChallenges) {repr : Fr} {instances : List (List Fr)} {proof : List UInt8}
    {com : Commitments G} {ch : Challenges} {t : Reader}
    (h : readCommitments codec hash key repr instances proof = .ok (com, ch, t)) : Counted key com := by
  have h0 := (said_commitments ha hc h).1
  unfold readCommitments at h
  split at h
  · cases h
  obtain ⟨⟨advice, user, t1⟩, h1, h⟩ := bind_ok.1 h
  obtain ⟨⟨permuted, t2⟩, h2, h⟩ := bind_ok.1 h
  obtain ⟨⟨products, t3⟩, h3, h⟩ := bind_ok.1 h
  obtain ⟨⟨lookupProducts, t4⟩, h4, h⟩ := bind_ok.1 h
  obtain ⟨⟨random, t5⟩, h5, h⟩ := bind_ok.1 h
  obtain ⟨⟨pieces, t6⟩, h6, h⟩ := bind_ok.1 h
  have h := Except.ok.inj h
  simp only [Prod.mk.injEq] at h
  obtain ⟨rfl, rfl, rfl⟩ := h
  exact ⟨h0, pairs_count _ h2, points_counted _ h3, points_counted _ h4⟩

theorem untilX_inj [Zero G] {key : Key G} (ha : key.cs.advicePhase.length = key.cs.numAdvice) {repr repr' : Fr}
    {instances instances' : List (List Fr)} {com com' : Commitments G} (hc : Counted key com) (hc' : Counted key com')
    (h : untilX key.cs repr instances com = untilX key.cs repr' instances' com') :
    repr = repr' ∧ instances.flatten = instances'.flatten ∧ com = com' := by
  have h1 := congrArg (List.filterMap sent?) h
  have h2 := congrArg (List.filterMap point?) h
  rw [sent_untilX, sent_untilX, List.cons.injEq] at h1
  rw [point_untilX, point_untilX] at h2
  obtain ⟨p1, h2⟩ := List.append_inj h2 (by simp)
  obtain ⟨p2, h2⟩ := List.append_inj h2 (by rw [pairs_length, pairs_length, hc.permuted, hc'.permuted])
  obtain ⟨p3, h2⟩ := List.append_inj h2 (by rw [hc.products, hc'.products])
  obtain ⟨p4, h2⟩ := List.append_inj h2 (by rw [hc.lookupProducts, hc'.lookupProducts])
  rw [List.cons.injEq] at h2
  refine ⟨h1.1, h1.2, ?_⟩
  have p1 := advice_inj (hc.advice.trans ha.symm) (hc'.advice.trans ha.symm) p1
  have p2 := pairs_inj p2
  cases com
  cases com'
  simp only at p1 p2 p3 p4 h2
  rw [p1, p2, p3, p4, h2.1, h2.2]

/-- The public inputs begin with their lengths, so that one list for both is enough. -/
theorem publicInputs_inj {code code' input input' : List Fr} (h1 : code.length < P) (h2 : code'.length < P)
    (h : [publicInputs code input 0, publicInputs code input 1].flatten =
      [publicInputs code' input' 0, publicInputs code' input' 1].flatten) : code = code' ∧ input = input' := by
  simp only [publicInputs, List.flatten_cons, List.flatten_nil, List.append_nil, List.cons_append, List.cons.injEq] at h
  obtain ⟨e, h⟩ := h
  have e' := congrArg ZMod.val e
  rw [ZMod.val_natCast_of_lt h1, ZMod.val_natCast_of_lt h2] at e'
  obtain ⟨f1, f2⟩ := List.append_inj h e'
  exact ⟨f1, (List.cons.inj f2).2⟩

theorem scalars_length : ∀ (n : Nat) {t : Reader} {r : List Fr × Reader}, readScalars n t = .ok r → r.1.length = n
  | 0, t, r, h => by
    obtain rfl := Except.ok.inj h
    rfl
  | n + 1, t, r, h => by
    unfold readScalars at h
    obtain ⟨⟨p, t1⟩, h1, h⟩ := bind_ok.1 h
    obtain ⟨⟨ps, t2⟩, h2, h⟩ := bind_ok.1 h
    obtain rfl := Except.ok.inj h
    simpa using scalars_length n h2

/-- The scalars of sets that were read tell the sets. -/
theorem sets_inj : ∀ (n : Nat) {t t' : Reader} {r r' : List SetEval × Reader}, readSets n t = .ok r → readSets n t' = .ok r' →
    (r.1.flatMap fun s => s.product :: s.next :: s.last.toList).length =
      (r'.1.flatMap fun s => s.product :: s.next :: s.last.toList).length ∧
    ((r.1.flatMap fun s => s.product :: s.next :: s.last.toList) =
      (r'.1.flatMap fun s => s.product :: s.next :: s.last.toList) → r.1 = r'.1)
  | 0, t, t', r, r', h, h' => by
    obtain rfl := Except.ok.inj h
    obtain rfl := Except.ok.inj h'
    exact ⟨rfl, fun _ => rfl⟩
  | n + 1, t, t', r, r', h, h' => by
    unfold readSets at h h'
    obtain ⟨⟨p, t1⟩, h1, h⟩ := bind_ok.1 h
    obtain ⟨⟨q, t2⟩, h2, h⟩ := bind_ok.1 h
    obtain ⟨⟨l, t3⟩, h3, h⟩ := bind_ok.1 h
    obtain ⟨⟨ps, t4⟩, h4, h⟩ := bind_ok.1 h
    obtain ⟨⟨p', t1'⟩, h1', h'⟩ := bind_ok.1 h'
    obtain ⟨⟨q', t2'⟩, h2', h'⟩ := bind_ok.1 h'
    obtain ⟨⟨l', t3'⟩, h3', h'⟩ := bind_ok.1 h'
    obtain ⟨⟨ps', t4'⟩, h4', h'⟩ := bind_ok.1 h'
    obtain rfl := Except.ok.inj h
    obtain rfl := Except.ok.inj h'
    obtain ⟨e1, e2⟩ := sets_inj n h4 h4'
    have l1 := (said_last (codec := (⟨fun _ => [], fun _ => none, fun _ => none⟩ : Codec Unit)) (hash := fun _ => []) h3).2
    have l2 := (said_last (codec := (⟨fun _ => [], fun _ => none, fun _ => none⟩ : Codec Unit)) (hash := fun _ => []) h3').2
    have l3 : l.isSome = l'.isSome := l1.trans l2.symm
    have l4 : l.toList.length = l'.toList.length := by
      cases l <;> cases l' <;> simp_all
    refine ⟨?_, ?_⟩
    · simp only [List.flatMap_cons, List.length_append, List.length_cons, e1, l4]
    · intro heq
      simp only [List.flatMap_cons, List.cons_append, List.cons.injEq] at heq
      obtain ⟨rfl, rfl, heq⟩ := heq
      obtain ⟨f1, f2⟩ := List.append_inj heq l4
      have : l = l' := by
        cases l <;> cases l' <;> simp_all
      have f2 : ps = ps' := e2 f2
      rw [this, f2]

theorem lookups_inj : ∀ (n : Nat) {t t' : Reader} {r r' : List LookupEval × Reader}, readLookups n t = .ok r →
    readLookups n t' = .ok r' →
    (r.1.flatMap fun l => [l.product, l.next, l.input, l.inputInv, l.table]).length =
      (r'.1.flatMap fun l => [l.product, l.next, l.input, l.inputInv, l.table]).length ∧
    ((r.1.flatMap fun l => [l.product, l.next, l.input, l.inputInv, l.table]) =
      (r'.1.flatMap fun l => [l.product, l.next, l.input, l.inputInv, l.table]) → r.1 = r'.1)
  | 0, t, t', r, r', h, h' => by
    obtain rfl := Except.ok.inj h
    obtain rfl := Except.ok.inj h'
    exact ⟨rfl, fun _ => rfl⟩
  | n + 1, t, t', r, r', h, h' => by
    unfold readLookups at h h'
    obtain ⟨⟨a, t1⟩, h1, h⟩ := bind_ok.1 h
    obtain ⟨⟨b, t2⟩, h2, h⟩ := bind_ok.1 h
    obtain ⟨⟨c, t3⟩, h3, h⟩ := bind_ok.1 h
    obtain ⟨⟨d, t4⟩, h4, h⟩ := bind_ok.1 h
    obtain ⟨⟨e, t5⟩, h5, h⟩ := bind_ok.1 h
    obtain ⟨⟨ps, t6⟩, h6, h⟩ := bind_ok.1 h
    obtain ⟨⟨a', t1'⟩, h1', h'⟩ := bind_ok.1 h'
    obtain ⟨⟨b', t2'⟩, h2', h'⟩ := bind_ok.1 h'
    obtain ⟨⟨c', t3'⟩, h3', h'⟩ := bind_ok.1 h'
    obtain ⟨⟨d', t4'⟩, h4', h'⟩ := bind_ok.1 h'
    obtain ⟨⟨e', t5'⟩, h5', h'⟩ := bind_ok.1 h'
    obtain ⟨⟨ps', t6'⟩, h6', h'⟩ := bind_ok.1 h'
    obtain rfl := Except.ok.inj h
    obtain rfl := Except.ok.inj h'
    obtain ⟨e1, e2⟩ := lookups_inj n h6 h6'
    refine ⟨?_, ?_⟩
    · simp only [List.flatMap_cons, List.length_append, List.length_cons, e1]
    · intro heq
      simp only [List.flatMap_cons, List.cons_append, List.nil_append, List.cons.injEq] at heq
      obtain ⟨rfl, rfl, rfl, rfl, rfl, heq⟩ := heq
      have f2 : ps = ps' := e2 heq
      rw [f2]

theorem evals_inj {key : Key G} {com com' : Commitments G} (hp : com.products.length = com'.products.length)
    (hl : com.lookupProducts.length = com'.lookupProducts.length) {t t' s s' : Reader} {e e' : Evals}
    (h : readEvals key com t = .ok (e, s)) (h' : readEvals key com' t' = .ok (e', s')) :
    (scalarList e).length = (scalarList e').length ∧ (scalarList e = scalarList e' → e = e') := by
  unfold readEvals at h h'
  rw [← hp, ← hl] at h'
  obtain ⟨⟨a, t1⟩, h1, h⟩ := bind_ok.1 h
  obtain ⟨⟨f, t2⟩, h2, h⟩ := bind_ok.1 h
  obtain ⟨⟨r, t3⟩, h3, h⟩ := bind_ok.1 h
  obtain ⟨⟨sg, t4⟩, h4, h⟩ := bind_ok.1 h
  obtain ⟨⟨ss, t5⟩, h5, h⟩ := bind_ok.1 h
  obtain ⟨⟨ls, t6⟩, h6, h⟩ := bind_ok.1 h
  obtain ⟨⟨a', t1'⟩, h1', h'⟩ := bind_ok.1 h'
  obtain ⟨⟨f', t2'⟩, h2', h'⟩ := bind_ok.1 h'
  obtain ⟨⟨r', t3'⟩, h3', h'⟩ := bind_ok.1 h'
  obtain ⟨⟨sg', t4'⟩, h4', h'⟩ := bind_ok.1 h'
  obtain ⟨⟨ss', t5'⟩, h5', h'⟩ := bind_ok.1 h'
  obtain ⟨⟨ls', t6'⟩, h6', h'⟩ := bind_ok.1 h'
  obtain ⟨rfl, rfl⟩ := Prod.mk.inj (Except.ok.inj h)
  obtain ⟨rfl, rfl⟩ := Prod.mk.inj (Except.ok.inj h')
  have l1 : a.length = a'.length := (scalars_length _ h1).trans (scalars_length _ h1').symm
  have l2 : f.length = f'.length := (scalars_length _ h2).trans (scalars_length _ h2').symm
  have l3 : sg.length = sg'.length := (scalars_length _ h4).trans (scalars_length _ h4').symm
  obtain ⟨l4, i4⟩ := sets_inj _ h5 h5'
  obtain ⟨l5, i5⟩ := lookups_inj _ h6 h6'
  unfold scalarList
  dsimp only at l4 i4 l5 i5 ⊢
  refine ⟨?_, ?_⟩
  · simp only [List.length_append, List.length_cons, l1, l2, l3, l4, l5]
  · intro heq
    obtain ⟨f1, heq1⟩ := List.append_inj heq l1
    obtain ⟨f2, heq2⟩ := List.append_inj heq1 l2
    obtain ⟨f3, heq3⟩ := List.cons.inj heq2
    obtain ⟨f4, heq4⟩ := List.append_inj heq3 l3
    obtain ⟨e4, e5⟩ := List.append_inj heq4 l4
    rw [f1, f2, f3, f4, i4 e4, i5 e5]

theorem untilU_split [Zero G] {cs : CS} {repr repr' : Fr} {instances instances' : List (List Fr)} {com com' : Commitments G}
    {e e' : Evals} {h1 h1' : G} (he : (scalarList e).length = (scalarList e').length)
    (h : untilU cs repr instances com e h1 = untilU cs repr' instances' com' e' h1') :
    untilX cs repr instances com = untilX cs repr' instances' com' ∧ scalarList e = scalarList e' ∧ h1 = h1' := by
  unfold untilU at h
  obtain ⟨h, h2⟩ := List.append_inj' h rfl
  obtain ⟨h, h3⟩ := List.append_inj' h (by simp [he])
  refine ⟨h, ?_, ?_⟩
  · have := congrArg (List.filterMap sent?) h3
    rwa [sent_scalars, sent_scalars] at this
  · simpa using h2

end Verif.Binding

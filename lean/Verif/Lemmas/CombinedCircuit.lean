import Verif.Lemmas.Combined
import Verif.Lemmas.PiopCircuit
import Verif.Lemmas.TrailingBytes

/-! Counting challenges, the queries of the circuit, and the numbers of messages the verifier reads. -/

namespace Verif.Transcript

open Plonk Spec Keygen PlonkProver Shplonk Verify

/-- A set of pairs, each of which has a bad first part, or a second part that is bad for the first. -/
theorem count_split {A B : Type} [Fintype A] [Fintype B] (S : Set (A × B)) (S1 : Set A) (R : A → Set B) (m n : Nat)
    (h : ∀ t ∈ S, t.1 ∈ S1 ∨ t.2 ∈ R t.1) (h1 : S1.ncard ≤ m) (h2 : ∀ a, (R a).ncard ≤ n) :
    S.ncard ≤ m * Fintype.card B + Fintype.card A * n := by
  classical
  have sub : S ⊆ (S1 ×ˢ (Set.univ : Set B)) ∪ {t | t.2 ∈ R t.1} := by
    intro t ht
    rcases h t ht with h | h
    · exact .inl ⟨h, trivial⟩
    · exact .inr h
  refine le_trans (Set.ncard_le_ncard sub (Set.toFinite _)) (le_trans (Set.ncard_union_le _ _) (Nat.add_le_add ?_ ?_))
  · rw [Set.ncard_prod, Set.ncard_univ, Nat.card_eq_fintype_card]
    exact Nat.mul_le_mul_right _ h1
  · have hfin : {t : A × B | t.2 ∈ R t.1}.Finite := Set.toFinite _
    rw [Set.ncard_eq_toFinset_card _ hfin]
    have hc := Finset.card_le_mul_card_image_of_maps_to (s := hfin.toFinset) (t := Finset.univ) (f := fun t => t.1)
      (fun _ _ => Finset.mem_univ _) n (fun b _ => by
        refine le_trans ?_ (h2 b)
        rw [Set.ncard_eq_toFinset_card _ (Set.toFinite (R b))]
        apply Finset.card_le_card_of_injOn (fun t => t.2)
        · intro a ha
          rw [Finset.mem_coe, Finset.mem_filter, Set.Finite.mem_toFinset] at ha
          rw [Finset.mem_coe, Set.Finite.mem_toFinset]
          have : a.2 ∈ R a.1 := ha.1
          rwa [ha.2] at this
        · intro a ha a' ha' he
          rw [Finset.mem_coe, Finset.mem_filter] at ha ha'
          exact Prod.ext (by rw [ha.2, ha'.2]) he)
    rw [Finset.card_univ, Nat.mul_comm] at hc
    exact hc

theorem count_opening {F : Type} [Fintype F] (S : Set (F × F × F × F)) (By : Finset F) (Bv : F → Finset F)
    (Bu : F → F → Finset F) (Bs : F → F → F → Finset F) (b1 b2 b3 b4 : Nat) (h1 : By.card ≤ b1)
    (h2 : ∀ y, (Bv y).card ≤ b2) (h3 : ∀ y v, (Bu y v).card ≤ b3) (h4 : ∀ y v u, (Bs y v u).card ≤ b4)
    (hs : ∀ t ∈ S, t.1 ∈ By ∨ t.2.1 ∈ Bv t.1 ∨ t.2.2.1 ∈ Bu t.1 t.2.1 ∨ t.2.2.2 ∈ Bs t.1 t.2.1 t.2.2.1) :
    S.ncard ≤ (b1 + b2 + b3 + b4) * Fintype.card F ^ 3 := by
  have nc : ∀ (B : Finset F) (b : Nat), B.card ≤ b → (B : Set F).ncard ≤ b := fun B b h => by
    rwa [Set.ncard_coe_finset]
  have c3 : ∀ y v, {t : F × F | t.1 ∈ Bu y v ∨ t.2 ∈ Bs y v t.1}.ncard ≤ (b3 + b4) * Fintype.card F := by
    intro y v
    refine le_trans (count_split _ (Bu y v : Set F) (fun u => (Bs y v u : Set F)) b3 b4 (fun t ht => ht)
      (nc _ _ (h3 y v)) fun u => nc _ _ (h4 y v u)) (le_of_eq (by ring))
  have c2 : ∀ y, {t : F × F × F | t.1 ∈ Bv y ∨ t.2.1 ∈ Bu y t.1 ∨ t.2.2 ∈ Bs y t.1 t.2.1}.ncard ≤
      (b2 + b3 + b4) * Fintype.card F ^ 2 := by
    intro y
    refine le_trans (count_split _ (Bv y : Set F) (fun v => {t : F × F | t.1 ∈ Bu y v ∨ t.2 ∈ Bs y v t.1}) b2
      ((b3 + b4) * Fintype.card F) (fun t ht => ht) (nc _ _ (h2 y)) (c3 y)) (le_of_eq ?_)
    rw [Fintype.card_prod]
    ring
  refine le_trans (count_split S (By : Set F)
    (fun y => {t : F × F × F | t.1 ∈ Bv y ∨ t.2.1 ∈ Bu y t.1 ∨ t.2.2 ∈ Bs y t.1 t.2.1}) b1 _ hs (nc _ _ h1) c2) (le_of_eq ?_)
  rw [Fintype.card_prod, Fintype.card_prod]
  ring

theorem addQuery_nodup {qs : List (Nat × Int)} (h : qs.Nodup) (q : Nat × Int) : (CS.addQuery qs q).Nodup := by
  unfold CS.addQuery
  split
  · exact h
  · rename_i hq
    rw [List.nodup_append]
    exact ⟨h, by simp, by
      intro a ha b hb he
      rw [List.mem_singleton] at hb
      subst hb he
      exact hq ha⟩

theorem allocMany_nodup {cs : CS} (h : cs.fixedQueries.Nodup) (m : Nat) : (cs.allocMany m).fixedQueries.Nodup := by
  induction m with
  | zero => exact h
  | succ m ih => exact addQuery_nodup ih _

theorem allocMany_rotation {cs : CS} (h : ∀ q ∈ cs.fixedQueries, q.2 = 0) (m : Nat) :
    ∀ q ∈ (cs.allocMany m).fixedQueries, q.2 = 0 := by
  induction m with
  | zero => exact h
  | succ m ih =>
    intro q hq
    replace hq : q ∈ CS.addQuery (cs.allocMany m).fixedQueries ((cs.allocMany m).numFixed, 0) := hq
    unfold CS.addQuery at hq
    split at hq
    · exact ih q hq
    · rw [List.mem_append, List.mem_singleton] at hq
      rcases hq with hq | rfl
      · exact ih q hq
      · rfl

/-- The queries of the circuit, with its selectors compressed. -/
theorem circuit_queries {acts : List (List Bool)} {c : CS.Compressed} {cols : List (List Fr)}
    {as : List SelectorAssignment} (hc : mainCS.compressSelectors acts = .ok (c, cols, as)) :
    c.cs.adviceQueries.Nodup ∧ c.cs.fixedQueries.Nodup ∧
    (∀ q ∈ c.cs.adviceQueries ++ c.cs.fixedQueries, -(6 : Int) ≤ q.2 ∧ q.2 ≤ 1) := by
  have h9 := (compressed_permutation mainCS_sane hc).2.2.2.2.2.2.2.2.1
  obtain ⟨degrees, combos, n', rs, -, -, -, -, -, e⟩ := compression_facts mainCS_sane hc
  have a1 : mainCS.adviceQueries.Nodup := by decide +kernel
  have a2 : mainCS.fixedQueries.Nodup := by decide +kernel
  have a3 : ∀ q ∈ mainCS.adviceQueries, -(6 : Int) ≤ q.2 ∧ q.2 ≤ 1 := by decide +kernel
  have a4 : ∀ q ∈ mainCS.fixedQueries, q.2 = 0 := by decide +kernel
  have ef : c.cs.fixedQueries = (mainCS.allocMany cols.length).fixedQueries := by rw [e]; rfl
  refine ⟨by rw [h9]; exact a1, by rw [ef]; exact allocMany_nodup a2 _, ?_⟩
  intro q hq
  rw [List.mem_append, h9, ef] at hq
  rcases hq with hq | hq
  · exact a3 q hq
  · rw [allocMany_rotation a4 _ q hq]
    omega

section reading

variable {G : Type} {codec : Codec G} {hash : Hash}

theorem scalars_length : ∀ (n : Nat) {t : Reader} {r : List Fr × Reader}, readScalars n t = .ok r → r.1.length = n := by
  intro n
  induction n with
  | zero =>
    intro t r h
    obtain rfl := Except.ok.inj h
    rfl
  | succ n ih =>
    intro t r h
    obtain ⟨a, h1, h⟩ := bind_ok.1 h
    obtain ⟨b, h2, h⟩ := bind_ok.1 h
    obtain rfl := Except.ok.inj h
    rw [List.length_cons, ih h2]

theorem pairs_length : ∀ (n : Nat) {t : Reader} {r : List (G × G) × Reader}, readPairs codec n t = .ok r →
    r.1.length = n := by
  intro n
  induction n with
  | zero =>
    intro t r h
    obtain rfl := Except.ok.inj h
    rfl
  | succ n ih =>
    intro t r h
    obtain ⟨a, h1, h⟩ := bind_ok.1 h
    obtain ⟨b, h2, h⟩ := bind_ok.1 h
    obtain ⟨c, h3, h⟩ := bind_ok.1 h
    obtain rfl := Except.ok.inj h
    rw [List.length_cons, ih h3]

theorem lookups_length : ∀ (n : Nat) {t : Reader} {r : List LookupEval × Reader}, readLookups n t = .ok r →
    r.1.length = n := by
  intro n
  induction n with
  | zero =>
    intro t r h
    obtain rfl := Except.ok.inj h
    rfl
  | succ n ih =>
    intro t r h
    obtain ⟨a, h1, h⟩ := bind_ok.1 h
    obtain ⟨b, h2, h⟩ := bind_ok.1 h
    obtain ⟨c, h3, h⟩ := bind_ok.1 h
    obtain ⟨d, h4, h⟩ := bind_ok.1 h
    obtain ⟨e, h5, h⟩ := bind_ok.1 h
    obtain ⟨f, h6, h⟩ := bind_ok.1 h
    obtain rfl := Except.ok.inj h
    rw [List.length_cons, ih h6]

theorem sets_shape : ∀ (n : Nat) {t : Reader} {r : List SetEval × Reader}, readSets n t = .ok r →
    r.1.length = n ∧ ∀ (i : Nat) (h : i < r.1.length), r.1[i].last.isSome = true ↔ i + 1 < r.1.length := by
  intro n
  induction n with
  | zero =>
    intro t r h
    obtain rfl := Except.ok.inj h
    exact ⟨rfl, fun i h => absurd h (by simp)⟩
  | succ n ih =>
    intro t r h
    obtain ⟨a, h1, h⟩ := bind_ok.1 h
    obtain ⟨b, h2, h⟩ := bind_ok.1 h
    obtain ⟨c, h3, h⟩ := bind_ok.1 h
    obtain ⟨d, h4, h⟩ := bind_ok.1 h
    obtain rfl := Except.ok.inj h
    obtain ⟨l, hl⟩ := ih h4
    refine ⟨by rw [List.length_cons, l], fun i hi => ?_⟩
    cases i with
    | zero =>
      show c.1.isSome = true ↔ _
      rw [List.length_cons, l]
      unfold readLast at h3
      split at h3
      · obtain ⟨v, -, h3⟩ := bind_ok.1 h3
        obtain rfl := Except.ok.inj h3
        simp
        omega
      · obtain rfl := Except.ok.inj h3
        simp
        omega
    | succ i =>
      simp only [List.getElem_cons_succ, List.length_cons]
      rw [hl i]
      omega

theorem advice_length {phase : Nat} : ∀ (l : List (Nat × Nat)) {advice : List G} {t : Reader} {r : List G × Reader},
    readAdvice codec phase l advice t = .ok r → r.1.length = advice.length := by
  intro l
  induction l with
  | nil =>
    intro advice t r h
    obtain rfl := Except.ok.inj h
    rfl
  | cons p l ih =>
    intro advice t r h
    obtain ⟨p, i⟩ := p
    unfold readAdvice at h
    split at h
    · obtain ⟨a, h1, h⟩ := bind_ok.1 h
      rw [ih h, List.length_set]
    · exact ih h

theorem squeezePhase_length {phase : Nat} : ∀ (l : List (Nat × Nat)) (user : List Fr) (a : List UInt8),
    (squeezePhase hash phase l user a).1.length = user.length := by
  intro l
  induction l with
  | nil => intro user a; rfl
  | cons p l ih =>
    intro user a
    obtain ⟨p, i⟩ := p
    unfold squeezePhase
    split
    · dsimp only
      rw [ih, List.length_set]
    · exact ih _ _

theorem phases_length {cs : CS} : ∀ (l : List Nat) {advice : List G} {user : List Fr} {t : Reader}
    {r : List G × List Fr × Reader}, readPhases codec hash cs l advice user t = .ok r →
    r.1.length = advice.length ∧ r.2.1.length = user.length := by
  intro l
  induction l with
  | nil =>
    intro advice user t r h
    obtain rfl := Except.ok.inj h
    exact ⟨rfl, rfl⟩
  | cons p l ih =>
    intro advice user t r h
    unfold readPhases at h
    obtain ⟨a, h1, h⟩ := bind_ok.1 h
    obtain ⟨e1, e2⟩ := ih h
    exact ⟨by rw [e1, advice_length _ h1], by rw [e2, squeezePhase_length]⟩

theorem read_shaped [Zero G] {key : Key G} {repr : Fr} {instances : List (List Fr)} {proof : List UInt8}
    {r : Commitments G × Challenges × Reader} {r' : Evals × Reader}
    (hf : key.fixed.length = key.cs.numFixed) (hs : key.sigma.length = key.cs.permutation.length)
    (h : readCommitments codec hash key repr instances proof = .ok r) (h' : readEvals key r.1 r.2.2 = .ok r') :
    Shaped key r.1 r'.1 ∧ r.2.1.user.length = key.cs.numChallenges ∧ instances.length = key.cs.numInstance := by
  unfold readCommitments at h
  split at h
  · cases h
  rename_i hn
  obtain ⟨a, h1, h⟩ := bind_ok.1 h
  obtain ⟨b, h2, h⟩ := bind_ok.1 h
  obtain ⟨c, h3, h⟩ := bind_ok.1 h
  obtain ⟨d, h4, h⟩ := bind_ok.1 h
  obtain ⟨e, h5, h⟩ := bind_ok.1 h
  obtain ⟨f, h6, h⟩ := bind_ok.1 h
  obtain rfl := Except.ok.inj h
  unfold readEvals at h'
  obtain ⟨a', g1, h'⟩ := bind_ok.1 h'
  obtain ⟨b', g2, h'⟩ := bind_ok.1 h'
  obtain ⟨c', g3, h'⟩ := bind_ok.1 h'
  obtain ⟨d', g4, h'⟩ := bind_ok.1 h'
  obtain ⟨e', g5, h'⟩ := bind_ok.1 h'
  obtain ⟨f', g6, h'⟩ := bind_ok.1 h'
  obtain rfl := Except.ok.inj h'
  obtain ⟨s1, s2⟩ := sets_shape _ g5
  obtain ⟨p1, p2⟩ := phases_length _ h1
  refine ⟨⟨hf, hs, by simpa using p1, pairs_length _ h2, points_length _ h3, points_length _ h4, points_length _ h6,
    scalars_length _ g1, scalars_length _ g2, scalars_length _ g4, s1, s2, ?_⟩, by simpa using p2, not_not.1 hn⟩
  rw [lookups_length _ g6]
  exact points_length _ h4

end reading

end Verif.Transcript

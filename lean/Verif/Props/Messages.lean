import Verif.Lemmas.CombinedCircuit
import Verif.Lemmas.ProveTotal
import Verif.Props.Piop

/-! Property C54: soundness of the whole verifier, for a prover that commits to polynomials. -/

namespace Verif.Props

open Spec Plonk Keygen Shplonk Transcript

variable {G G₂ GT : Type} [AddCommGroup G] [Module Fr G]
variable [AddCommGroup G₂] [Module Fr G₂] [AddCommGroup GT] [Module Fr GT] [DecidableEq GT]

/-- C54, the step from bytes to messages. The verifier accepts a proof if and only if it can read the
messages from it and they pass; the numbers of messages are right then. -/
theorem C54_bytes (codec : Codec G) (hash : Hash) (pairing : G →ₗ[Fr] G₂ →ₗ[Fr] GT)
    (params : VerifierParams G G₂) (key : Key G) (hf : key.fixed.length = key.cs.numFixed)
    (hs : key.sigma.length = key.cs.permutation.length) (repr : Fr) (instances : List (List Fr))
    (proof : List UInt8) :
    verifyProof codec hash pairing params key repr instances proof = .ok () ↔
      ∃ com ch t e t' y v h1 u h2 t'',
        Verify.readCommitments codec hash key repr instances proof = .ok (com, ch, t) ∧
        Verify.readEvals key com t = .ok (e, t') ∧
        Verify.readOpening codec hash t' = .ok (y, v, h1, u, h2, t'') ∧
        Passes pairing params key instances com ch e y v h1 u h2 := by
  have total_iff : ∀ {α : Type} {x : Except Panic α} {a : α}, Verify.total x = .ok a ↔ x = .ok a := by
    intro α x a
    cases x <;> simp [Verify.total]
  constructor
  · intro h
    unfold verifyProof at h
    obtain ⟨a, h1, h⟩ := Transcript.bind_ok.1 h
    obtain ⟨b, h2, h⟩ := Transcript.bind_ok.1 h
    obtain ⟨c, h3, h⟩ := Transcript.bind_ok.1 h
    obtain ⟨d, h4, h⟩ := Transcript.bind_ok.1 h
    obtain ⟨e, h5, h⟩ := Transcript.bind_ok.1 h
    split at h
    · rename_i he
      subst he
      exact ⟨a.1, a.2.1, a.2.2, b.1, b.2, d.1, d.2.1, d.2.2.1, d.2.2.2.1, d.2.2.2.2.1, d.2.2.2.2.2, h1, h2, h4,
        (read_shaped hf hs h1 h2).1, c, total_iff.1 h3, total_iff.1 h5⟩
    · exact absurd h (by simp)
  · rintro ⟨com, ch, t, e, t', y, v, h1, u, h2, t'', r1, r2, r3, -, queries, q1, q2⟩
    unfold verifyProof
    exact Transcript.bind_ok.2 ⟨_, r1, Transcript.bind_ok.2 ⟨_, r2, Transcript.bind_ok.2 ⟨_, total_iff.2 q1, Transcript.bind_ok.2 ⟨_, r3,
      Transcript.bind_ok.2 ⟨_, total_iff.2 q2, rfl⟩⟩⟩⟩⟩

/-- C54. Soundness of the verifier for any constraint system, with real commitments. The prover sends
commitments to polynomials of at most `N` coefficients, chosen after each challenge, and any scalars. If
its advice columns do not satisfy the constraint system with the given public inputs and user
challenges, the verifier accepts only if one of the challenges, or the secret of the parameters (which
counts as drawn last), falls in a small set fixed before it is drawn. `M` is the number of queries. -/
theorem C54_rounds (key : Key Poly) (k : Nat) (hd : IsDomain key.domain key.cs.degree k)
    (hc : Closed key.cs) (n1 : key.cs.adviceQueries.Nodup) (n2 : key.cs.fixedQueries.Nodup)
    (w1 w2 : Nat) (hw1 : key.cs.blindingFactors + 1 ≤ w1) (hw2 : 1 ≤ w2) (hw12 : w1 + w2 < 2 ^ k)
    (hrot : ∀ q ∈ key.cs.adviceQueries ++ key.cs.fixedQueries, -(w1 : Int) ≤ q.2 ∧ q.2 ≤ w2)
    (hodd : key.cs.permutation.length ≤ (P - 1) / 2 ^ 28)
    (fuel : Nat) (hf : key.cs.permutation.length * 2 ^ k ≤ fuel)
    (copies : List ((Col × Nat) × (Col × Nat)))
    (hrows : ∀ p ∈ copies, p.1.2 < key.cs.usableRows (2 ^ k) ∧ p.2.2 < key.cs.usableRows (2 ^ k))
    (a : PermAssembly)
    (ha : PermAssembly.copyAll fuel copies (PermAssembly.new (2 ^ k) key.cs.permutation) = .ok (.ok a))
    (hsig : SigmaOf key.domain key.cs.permutation.length (2 ^ k) key.sigma a.mapping)
    (w : Nat) (hw : ∀ l ∈ key.cs.lookups, l.input.length ≤ w + 1)
    (advice : List Poly) (s : Strategy) (N : Nat) (hN : 2 ^ k ≤ N) (hb : Bounded N key advice s)
    (hb' : ∀ θ β γ, (s.random θ β γ).length ≤ N) (o : Opener)
    (l1 : ∀ ch y v, (o.first ch y v).length ≤ N) (l2 : ∀ ch y v u, (o.second ch y v u).length ≤ N)
    (instances : List (List Fr)) (user : List Fr)
    (hi : instances.length = key.cs.numInstance) (hu : user.length = key.cs.numChallenges)
    (hnot : ¬ Satisfied key.cs (2 ^ k) (gridOf key.domain (2 ^ k) instances key.fixed advice user) copies) :
    ∃ (Bθ : Finset Fr) (Bβ : Fr → Finset Fr) (Bγ : Fr → Fr → Finset Fr)
      (By : Fr → Fr → Fr → Finset Fr) (Bx : Fr → Fr → Fr → Fr → Finset Fr)
      (By' : Challenges → Finset Fr) (Bv : Challenges → Fr → Finset Fr)
      (Bu : Challenges → Fr → Fr → Finset Fr) (Bs : Challenges → Fr → Fr → Fr → Finset Fr),
      Bθ.card ≤ w * 2 ^ k ∧
      (∀ θ, (Bβ θ).card ≤ (key.cs.permutation.length + 2) * 2 ^ k) ∧
      (∀ θ β, (Bγ θ β).card ≤ 2 * ((key.cs.permutation.length + 1) * 2 ^ k)) ∧
      (∀ θ β γ, (By θ β γ).card ≤
        key.cs.gates.flatten.length + 3 * key.cs.permutation.length + 5 * key.cs.lookups.length) ∧
      (∀ θ β γ y, (Bx θ β γ y).card ≤ key.cs.degree * N + 1) ∧
      (∀ ch, (By' ch).card ≤ queryCount key.cs) ∧ (∀ ch y', (Bv ch y').card ≤ queryCount key.cs) ∧
      (∀ ch y' v, (Bu ch y' v).card ≤ queryCount key.cs + N) ∧ (∀ ch y' v u, (Bs ch y' v u).card ≤ N) ∧
      ∀ (pairing : G →ₗ[Fr] G₂ →ₗ[Fr] GT) (g : G) (g2 : G₂), pairing g g2 ≠ 0 →
        ∀ θ β γ y x y' v u secret,
        Fooled pairing g g2 key k instances advice user s o ((θ, β, γ, y, x), y', v, u, secret) →
        θ ∈ Bθ ∨ β ∈ Bβ θ ∨ γ ∈ Bγ θ β ∨ y ∈ By θ β γ ∨ x ∈ Bx θ β γ y ∨
        y' ∈ By' ⟨user, θ, β, γ, y, x⟩ ∨ v ∈ Bv ⟨user, θ, β, γ, y, x⟩ y' ∨
        u ∈ Bu ⟨user, θ, β, γ, y, x⟩ y' v ∨ secret ∈ Bs ⟨user, θ, β, γ, y, x⟩ y' v u := by
  classical
  obtain ⟨Bθ, Bβ, Bγ, By, Bx, b1, b2, b3, b4, b5, hall⟩ := C46_rounds key k hd hc (by omega) hodd fuel hf copies hrows a
    ha hsig w hw advice s N hN hb instances user hi hu hnot
  have open_ : ∀ ch : Challenges, ∃ (By : Finset Fr) (Bv : Fr → Finset Fr) (Bu : Fr → Fr → Finset Fr)
      (Bs : Fr → Fr → Fr → Finset Fr), By.card ≤ queryCount key.cs ∧ (∀ y, (Bv y).card ≤ queryCount key.cs) ∧
      (∀ y v, (Bu y v).card ≤ queryCount key.cs + N) ∧ (∀ y v u, (Bs y v u).card ≤ N) ∧
      (ch.x ≠ 0 → ¬ Convinces key (2 ^ k) instances (s.commitments advice ch.theta ch.beta ch.gamma ch.y) ch →
        ∀ y v u secret, ∀ (pairing : G →ₗ[Fr] G₂ →ₗ[Fr] GT) (g : G) (g2 : G₂), pairing g g2 ≠ 0 →
        Passes pairing ⟨2 ^ k, g, g2, secret • g2⟩ (mapKey (commitTo secret g) key) instances
          (mapCommitments (commitTo secret g) (s.commitments advice ch.theta ch.beta ch.gamma ch.y)) ch (o.evals ch) y v
          (commitTo secret g (o.first ch y v)) u (commitTo secret g (o.second ch y v u)) →
        y ∈ By ∨ v ∈ Bv y ∨ u ∈ Bu y v ∨ secret ∈ Bs y v u) := by
    intro ch
    by_cases hgood : ch.x ≠ 0 ∧ ¬ Convinces key (2 ^ k) instances (s.commitments advice ch.theta ch.beta ch.gamma ch.y) ch
    · obtain ⟨hx, hno⟩ := hgood
      obtain ⟨By, Bv, Bu, Bs, c1, c2, c3, c4, c5⟩ := passes_sound (G := G) (G₂ := G₂) (GT := GT) (ch := ch)
        (e := o.evals ch) (n := 2 ^ k) (instances := instances)
        (com := s.commitments advice ch.theta ch.beta ch.gamma ch.y) hd n1 n2 w1 w2 hw1 hw2 hw12 hrot hx (N := N)
        ⟨hb.fixed, hb.sigma, hb.advice, hb.permuted _, hb.products _ _ _, hb.lookupProducts _ _ _, hb' _ _ _,
          hb.pieces _ _ _ _⟩
        (fun ⟨queries, h1, h2, h3⟩ => hno ⟨_, queries, h1, h2, h3⟩) (o.first ch) (l1 ch) (o.second ch) (l2 ch)
      exact ⟨By, Bv, Bu, Bs, c1, c2, c3, c4, fun _ _ => c5⟩
    · refine ⟨∅, fun _ => ∅, fun _ _ => ∅, fun _ _ _ => ∅, by simp, by simp, by simp, by simp, fun h1 h2 => ?_⟩
      exact absurd ⟨h1, h2⟩ hgood
  choose By' Bv Bu Bs c1 c2 c3 c4 c5 using open_
  refine ⟨Bθ, Bβ, Bγ, By, fun θ β γ y => insert 0 (Bx θ β γ y), By', Bv, Bu, Bs, b1, b2, b3, b4, ?_, c1, c2, c3, c4, ?_⟩
  · intro θ β γ y
    exact le_trans (Finset.card_insert_le _ _) (Nat.add_le_add_right (b5 θ β γ y) 1)
  · intro pairing g g2 hp θ β γ y x y' v u secret hfool
    rw [Finset.mem_insert]
    by_cases hx : x = 0
    · exact .inr (.inr (.inr (.inr (.inl (.inl hx)))))
    by_cases hconv : Convinces key (2 ^ k) instances (s.commitments advice θ β γ y) ⟨user, θ, β, γ, y, x⟩
    · rcases hall _ _ _ _ _ hconv with h | h | h | h | h
      · exact .inl h
      · exact .inr (.inl h)
      · exact .inr (.inr (.inl h))
      · exact .inr (.inr (.inr (.inl h)))
      · exact .inr (.inr (.inr (.inr (.inl (.inr h)))))
    · exact .inr (.inr (.inr (.inr (.inr (c5 ⟨user, θ, β, γ, y, x⟩ hx hconv y' v u secret pairing g g2 hp hfool)))))

/-- C54 for the brainfuck circuit. Take the key generated for some trace, a program and an input as
public inputs, and advice polynomials that are not those of an accepted assignment with the given
user challenges. Whatever the prover commits to (polynomials of at most `N` coefficients) and whatever
scalars it sends, of all `P^9` ways to draw the challenges θ, β, γ, y, x, those of the opening, and
the secret of the parameters, at most `(52·2^k + 13·N + 372) · P^8` let the verifier accept. -/
theorem C54_circuit (checks : Bool) (fuel fuel' k : Nat) (hk : k ≤ 24) (hf : 48 ≤ fuel)
    (hf' : 16 * 2 ^ k ≤ fuel') (mx : Matrix) (ch : Nat → Fr) (inst : Nat → List Fr) (key : Key Poly)
    (hkey : keygenVk key.domain.lagrangeToCoeff checks fuel fuel' k mx ch inst = .ok (.ok key))
    (code input user : List Fr) (hu : user.length = 11) (a : Assembly)
    (ha : synthesize (2 ^ k) mx (fun i => user.getD i 0) (publicInputs code input) = .ok a)
    (advice : List Poly) (s : Strategy) (N : Nat) (hN : 2 ^ k ≤ N) (hb : Bounded N key advice s)
    (hb' : ∀ θ β γ, (s.random θ β γ).length ≤ N) (o : Opener)
    (l1 : ∀ ch y v, (o.first ch y v).length ≤ N) (l2 : ∀ ch y v u, (o.second ch y v u).length ≤ N)
    (hnot : ¬ ∃ g, Accepts (2 ^ k) mx (publicInputs code input) g ∧
      (∀ i, g.challenge i = user.getD i 0) ∧
      ∀ i r, g.advice i r = polyAt (advice.getD i []) (key.domain.omega ^ r))
    (pairing : G →ₗ[Fr] G₂ →ₗ[Fr] GT) (g : G) (g2 : G₂) (hp : pairing g g2 ≠ 0) :
    {t : Draws | Fooled pairing g g2 key k [publicInputs code input 0, publicInputs code input 1]
      advice user s o t}.ncard ≤ (52 * 2 ^ k + 13 * N + 372) * P ^ 8 := by
  classical
  obtain ⟨a0, asm, c, cols, as, ha0, h2, h3, h4, h5, h6, h7, h8, h9, h10, h11, h12⟩ :=
    keygen_facts hk hf hf' hkey
  obtain ⟨g1, g2', g3, g4, g5, g6⟩ := gates_count
  obtain ⟨c1, c2, c3, c4, c5, c6, c7, c8, c9, c10⟩ := compressed_permutation mainCS_sane h4
  obtain ⟨hnd, h16⟩ := C33_circuit
  have hdeg : c.cs.degree = 11 := by rw [C32_degree _ _ mainCS_sane _ _ _ _ h4, degree_11]
  obtain ⟨h8n, -, -, -⟩ := (synthesize_ok_iff _ _ _ _ _).1 ha0
  have hus : c.cs.usableRows (2 ^ k) = 2 ^ k - 6 := by
    unfold CS.usableRows; rw [c10, g6]
  have hcl := compressed_closed mainCS_sane mainCS_closed h4
  obtain ⟨q1, q2, q3⟩ := circuit_queries h4
  obtain ⟨Bθ, Bβ, Bγ, By, Bx, By', Bv, Bu, Bs, b1, b2, b3, b4, b5, b6, b7, b8, b9, hall⟩ := C54_rounds (G := G) (G₂ := G₂)
    (GT := GT) key k
    (by rw [h5, hdeg]; exact h2) (by rw [h5]; exact hcl) (by rw [h5]; exact q1) (by rw [h5]; exact q2) 6 1
    (by rw [h5, c10, g6]) le_rfl (by omega) (by rw [h5]; exact q3)
    (by rw [h5, c1, h16]; decide +kernel) fuel' (by rw [h5, c1, h16]; exact hf') a0.copies
    (by intro p hp; rw [h5, hus]; exact (Keygen.copies_rows ha0 p hp).1) asm
    (by rw [h5, c1]; exact h3) (by rw [h5, c1, h16]; exact h12) 0 (by rw [h5]; exact c8 _ g3)
    advice s N hN hb hb' o l1 l2 [publicInputs code input 0, publicInputs code input 1] user
    (by rw [h5, c3, g4]; rfl) (by rw [h5, c4, g5]; exact hu)
    (fun hs => hnot (by
      rw [h5] at hs
      exact accepts_of_satisfied ha0 h4 h10 h11 ha hs))
  have hM : queryCount key.cs ≤ 97 := by
    have hq := compressed_queries mainCS_sane h4
    have hcols := assignments_inRange h4
    have hsets : (chunks (key.cs.degree - 2) key.cs.permutation).length = 2 := by
      rw [h5, hdeg, c1]
      simp [chunks, h16]
    have haq : mainCS.adviceQueries.length = 52 := by decide +kernel
    have hfq : mainCS.fixedQueries.length = 1 := by decide +kernel
    unfold queryCount
    rw [hsets, h5, c9, haq, c1, h16, c6, g2']
    omega
  rw [h5, c1, h16] at b2 b3
  rw [h5, c1, h16, c6, c7, g1, g2'] at b4
  rw [h5, hdeg] at b5
  have hcard : Fintype.card Fr = P := ZMod.card P
  let S1 : Set (Fr × Fr × Fr × Fr × Fr) := {t | t.1 ∈ Bθ ∨ t.2.1 ∈ Bβ t.1 ∨ t.2.2.1 ∈ Bγ t.1 t.2.1 ∨
    t.2.2.2.1 ∈ By t.1 t.2.1 t.2.2.1 ∨ t.2.2.2.2 ∈ Bx t.1 t.2.1 t.2.2.1 t.2.2.2.1}
  let chOf : Fr × Fr × Fr × Fr × Fr → Challenges := fun t => ⟨user, t.1, t.2.1, t.2.2.1, t.2.2.2.1, t.2.2.2.2⟩
  let R : Fr × Fr × Fr × Fr × Fr → Set (Fr × Fr × Fr × Fr) := fun t => {t' | t'.1 ∈ By' (chOf t) ∨
    t'.2.1 ∈ Bv (chOf t) t'.1 ∨ t'.2.2.1 ∈ Bu (chOf t) t'.1 t'.2.1 ∨ t'.2.2.2 ∈ Bs (chOf t) t'.1 t'.2.1 t'.2.2.1}
  have e1 : S1.ncard ≤ (52 * 2 ^ k + 11 * N + 81) * P ^ 4 := by
    have hfin : S1.Finite := Set.toFinite _
    rw [Set.ncard_eq_toFinset_card _ hfin]
    have := count_rounds hfin.toFinset Bθ Bβ Bγ By Bx _ _ _ _ _ b1 b2 b3 b4 b5 (fun t ht => by
      rw [Set.Finite.mem_toFinset] at ht
      exact ht)
    rw [hcard] at this
    refine le_trans this (Nat.mul_le_mul_right _ ?_)
    omega
  have e2 : ∀ t, (R t).ncard ≤ (291 + 2 * N) * P ^ 3 := by
    intro t
    have := count_opening (R t) _ _ _ _ _ _ _ _ (b6 (chOf t)) (b7 (chOf t)) (b8 (chOf t)) (b9 (chOf t)) (fun t' ht => ht)
    rw [hcard] at this
    refine le_trans this (Nat.mul_le_mul_right _ ?_)
    omega
  refine le_trans (count_split _ S1 R _ _ (fun t ht => ?_) e1 e2) (le_of_eq ?_)
  · have := hall pairing g g2 hp _ _ _ _ _ _ _ _ _ ht
    rcases this with h | h | h | h | h | h
    · exact .inl (.inl h)
    · exact .inl (.inr (.inl h))
    · exact .inl (.inr (.inr (.inl h)))
    · exact .inl (.inr (.inr (.inr (.inl h))))
    · exact .inl (.inr (.inr (.inr (.inr h))))
    · exact .inr h
  · simp only [Fintype.card_prod, hcard]
    ring

/-- A prover that sends only zero scalars and zero polynomials. -/
def silentOpener : Opener where
  evals _ := ⟨List.replicate 52 0, [], 0, List.replicate 16 0, [⟨0, 0, some 0⟩, ⟨0, 0, none⟩], [⟨0, 0, 0, 0, 0⟩]⟩
  first _ _ _ := []
  second _ _ _ _ := []

/-- The demo program with zero columns, and a pairing of numbers. -/
example : ∃ key : Key Poly, {t : Draws | Fooled (LinearMap.mul Fr Fr) (1 : Fr) (1 : Fr) key 9
    [publicInputs demoCode (toFr [2]) 0, publicInputs demoCode (toFr [2]) 1] [] (List.replicate 11 0) silent
    silentOpener t}.ncard ≤ (52 * 2 ^ 9 + 13 * 512 + 372) * P ^ 8 := by
  obtain ⟨mx, key, h1, ⟨a, h2⟩, h3, h4⟩ := silent_case
  exact ⟨key, C54_circuit false 48 8192 9 (by norm_num) (by norm_num) (by norm_num) mx _ _ key h1 demoCode (toFr [2])
    (List.replicate 11 0) (by simp) a h2 [] silent 512 (by norm_num) h3 (by simp [silent]) silentOpener
    (by simp [silentOpener]) (by simp [silentOpener]) h4 _ _ _ (by simp)⟩

#print axioms C54_bytes
#print axioms C54_rounds
#print axioms C54_circuit

end Verif.Props

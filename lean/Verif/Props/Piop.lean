import Verif.Lemmas.PiopCircuit
import Verif.Lemmas.Labels

/-! Properties C45 and C46: key generation, and soundness of the verifier's equations. -/

namespace Verif.Props

open Spec Plonk Keygen

/-- C45. The labels `δ^i · ω^j` of the cells in the permutation argument are all different: column
`i`, row `j`, in any domain, for up to `(P - 1) / 2^28` columns. -/
theorem C45_labels {d : Domain} {m k : Nat} (hd : IsDomain d m k) (i i' j j' : Nat)
    (hi : i < (P - 1) / 2 ^ 28) (hi' : i' < (P - 1) / 2 ^ 28) (hj : j < 2 ^ k) (hj' : j' < 2 ^ k)
    (h : deltaFr ^ i * d.omega ^ j = deltaFr ^ i' * d.omega ^ j') : i = i' ∧ j = j' :=
  labels_injective hd.omega (primitive_le hd.omega) hi hi' hj hj' h

/-- C45. Whenever the circuit of a trace can be laid out in `2^k` rows, `k ≤ 24`, key generation
succeeds. Its polynomials have `2^k` coefficients. The first fixed polynomial takes the values of the
fixed column, the others those of the columns made of the selectors. The permutation polynomials
take, in each cell, the label of some cell; two cells lead to each other in this way exactly if they
are tied by the copy constraints. -/
theorem C45_keygen (checks : Bool) (fuel fuel' k : Nat) (hk : k ≤ 24) (hf : 48 ≤ fuel)
    (hf' : 16 * 2 ^ k ≤ fuel') (mx : Matrix) (ch : Nat → Fr) (inst : Nat → List Fr) (a : Assembly)
    (ha : synthesize (2 ^ k) mx ch inst = .ok a) :
    ∃ (key : Key Poly) (c : CS.Compressed) (cols : List (List Fr)) (as : List SelectorAssignment)
      (mapping : List (List (Nat × Nat))),
      keygenVk key.domain.lagrangeToCoeff checks fuel fuel' k mx ch inst = .ok (.ok key) ∧
      IsDomain key.domain 11 k ∧
      mainCS.compressSelectors (selectorTable (2 ^ k) a) = .ok (c, cols, as) ∧ key.cs = c.cs ∧
      key.fixed.length = 1 + cols.length ∧ key.sigma.length = 16 ∧
      (∀ p ∈ key.fixed ++ key.sigma, p.length = 2 ^ k) ∧
      (∀ r < 2 ^ k, polyAt (key.fixed.getD 0 []) (key.domain.omega ^ r) = a.fixed 0 r) ∧
      (∀ (i : Nat) (col : List Fr), cols[i]? = some col → ∀ r < 2 ^ k,
        some (polyAt (key.fixed.getD (1 + i) []) (key.domain.omega ^ r)) = col[r]?) ∧
      IsPermutation 16 (2 ^ k) mapping ∧
      (∀ i < 16, ∀ j < 2 ^ k, ∀ i' < 16, ∀ j' < 2 ^ k, entry mapping (i, j) = some (i', j') ↔
        polyAt (key.sigma.getD i []) (key.domain.omega ^ j) = deltaFr ^ i' * key.domain.omega ^ j') ∧
      ∀ x y z t, CellAt mainCS.permutation x z → CellAt mainCS.permutation y t → z.2 < 2 ^ k →
        t.2 < 2 ^ k → (SameLoop mapping x y ↔ Tied a.copies z t) := by
  obtain ⟨key, asm, c, cols, as, h1, h2, h3, h4, h5, h6, h7, h8, h9, h10, h11, h12⟩ :=
    keygen_ok checks fuel fuel' k hk hf hf' mx ch inst a ha
  obtain ⟨hnd, h16⟩ := C33_circuit
  obtain ⟨asm', h3', hp, hl⟩ := C33_cycles fuel' (2 ^ k) mainCS.permutation hnd
    (by rw [h16]; exact hf') a.copies (fun p hp => by
      obtain ⟨⟨h1, h2⟩, h3, h4, -⟩ := Keygen.copies_rows ha p hp
      exact ⟨⟨h3, by omega⟩, h4, by omega⟩)
  rw [h3] at h3'
  obtain rfl := Except.ok.inj (Except.ok.inj h3')
  rw [h16] at hp
  refine ⟨key, c, cols, as, asm.mapping, h1, h2, h4, h5, h6, h7, ?_, h10, h11, hp, ?_, hl⟩
  · intro p hp
    rcases List.mem_append.1 hp with hp | hp
    · exact h8 p hp
    · exact h9 p hp
  · intro i hi j hj i' hi' j' hj'
    constructor
    · exact h12 i hi j hj i' j'
    · intro he
      obtain ⟨⟨i1, j1⟩, h⟩ := Option.isSome_iff_exists.1 ((hp.defined (i, j)).2 ⟨hi, hj⟩)
      have hin := hp.inside _ _ h
      have h16 : (16 : Nat) < (P - 1) / 2 ^ 28 := by decide +kernel
      have hin1 : i1 < 16 := hin.1
      obtain ⟨rfl, rfl⟩ := C45_labels h2 i1 i' j1 j' (by omega) (by omega) hin.2 hj'
        (by rw [← h12 i hi j hj i1 j1 h]; exact he)
      exact h

/-- C46. Soundness of the verifier's equations, for any constraint system. A prover that answers
with polynomials of at most `N` coefficients (ideal commitments), whose advice columns do not satisfy
the constraint system with the given public inputs and user challenges, can make all queries true
only if one of the challenges θ, β, γ, y, x falls in a small set that is fixed before the challenge is
drawn. -/
theorem C46_rounds (key : Key Poly) (k : Nat) (hd : IsDomain key.domain key.cs.degree k)
    (hc : Closed key.cs) (hbf : key.cs.blindingFactors + 1 < 2 ^ k)
    (hodd : key.cs.permutation.length ≤ (P - 1) / 2 ^ 28)
    (fuel : Nat) (hf : key.cs.permutation.length * 2 ^ k ≤ fuel)
    (copies : List ((Col × Nat) × (Col × Nat)))
    (hrows : ∀ p ∈ copies, p.1.2 < key.cs.usableRows (2 ^ k) ∧ p.2.2 < key.cs.usableRows (2 ^ k))
    (a : PermAssembly)
    (ha : PermAssembly.copyAll fuel copies (PermAssembly.new (2 ^ k) key.cs.permutation) = .ok (.ok a))
    (hsig : SigmaOf key.domain key.cs.permutation.length (2 ^ k) key.sigma a.mapping)
    (w : Nat) (hw : ∀ l ∈ key.cs.lookups, l.input.length ≤ w + 1)
    (advice : List Poly) (s : Strategy) (N : Nat) (hN : 2 ^ k ≤ N) (hb : Bounded N key advice s)
    (instances : List (List Fr)) (user : List Fr)
    (hi : instances.length = key.cs.numInstance) (hu : user.length = key.cs.numChallenges)
    (hnot : ¬ Satisfied key.cs (2 ^ k) (gridOf key.domain (2 ^ k) instances key.fixed advice user) copies) :
    ∃ (Bθ : Finset Fr) (Bβ : Fr → Finset Fr) (Bγ : Fr → Fr → Finset Fr)
      (By : Fr → Fr → Fr → Finset Fr) (Bx : Fr → Fr → Fr → Fr → Finset Fr),
      Bθ.card ≤ w * 2 ^ k ∧
      (∀ θ, (Bβ θ).card ≤ (key.cs.permutation.length + 2) * 2 ^ k) ∧
      (∀ θ β, (Bγ θ β).card ≤ 2 * ((key.cs.permutation.length + 1) * 2 ^ k)) ∧
      (∀ θ β γ, (By θ β γ).card ≤
        key.cs.gates.flatten.length + 3 * key.cs.permutation.length + 5 * key.cs.lookups.length) ∧
      (∀ θ β γ y, (Bx θ β γ y).card ≤ key.cs.degree * N) ∧
      ∀ θ β γ y x,
        Convinces key (2 ^ k) instances (s.commitments advice θ β γ y) ⟨user, θ, β, γ, y, x⟩ →
        θ ∈ Bθ ∨ β ∈ Bβ θ ∨ γ ∈ Bγ θ β ∨ y ∈ By θ β γ ∨ x ∈ Bx θ β γ y :=
  soundness hd hc hbf hodd fuel hf copies hrows a ha hsig w hw N hN hb hi hu hnot

/-- C46 for the brainfuck circuit. Take the key generated for some trace, a program and an input as
public inputs, and advice polynomials that are not those of an accepted assignment with the given
user challenges. Then of all `P^5` ways to draw θ, β, γ, y, x, at most
`(52·2^k + 80 + 11·N) · P^4` let the prover make all queries true, whatever it answers with
polynomials of at most `N` coefficients. -/
theorem C46_circuit (checks : Bool) (fuel fuel' k : Nat) (hk : k ≤ 24) (hf : 48 ≤ fuel)
    (hf' : 16 * 2 ^ k ≤ fuel') (mx : Matrix) (ch : Nat → Fr) (inst : Nat → List Fr) (key : Key Poly)
    (hkey : keygenVk key.domain.lagrangeToCoeff checks fuel fuel' k mx ch inst = .ok (.ok key))
    (code input user : List Fr) (hu : user.length = 11) (a : Assembly)
    (ha : synthesize (2 ^ k) mx (fun i => user.getD i 0) (publicInputs code input) = .ok a)
    (advice : List Poly) (s : Strategy) (N : Nat) (hN : 2 ^ k ≤ N) (hb : Bounded N key advice s)
    (hnot : ¬ ∃ g, Accepts (2 ^ k) mx (publicInputs code input) g ∧
      (∀ i, g.challenge i = user.getD i 0) ∧
      ∀ i r, g.advice i r = polyAt (advice.getD i []) (key.domain.omega ^ r)) :
    {t : Fr × Fr × Fr × Fr × Fr | Convinces key (2 ^ k)
      [publicInputs code input 0, publicInputs code input 1]
      (s.commitments advice t.1 t.2.1 t.2.2.1 t.2.2.2.1)
      ⟨user, t.1, t.2.1, t.2.2.1, t.2.2.2.1, t.2.2.2.2⟩}.ncard ≤ (52 * 2 ^ k + 80 + 11 * N) * P ^ 4 := by
  classical
  obtain ⟨a0, asm, c, cols, as, ha0, h2, h3, h4, h5, h6, h7, h8, h9, h10, h11, h12⟩ :=
    keygen_facts hk hf hf' hkey
  obtain ⟨g1, g2, g3, g4, g5, g6⟩ := gates_count
  obtain ⟨c1, c2, c3, c4, c5, c6, c7, c8, c9, c10⟩ := compressed_permutation mainCS_sane h4
  obtain ⟨hnd, h16⟩ := C33_circuit
  have hdeg : c.cs.degree = 11 := by rw [C32_degree _ _ mainCS_sane _ _ _ _ h4, degree_11]
  obtain ⟨h8n, -, -, -⟩ := (synthesize_ok_iff _ _ _ _ _).1 ha0
  have hus : c.cs.usableRows (2 ^ k) = 2 ^ k - 6 := by
    unfold CS.usableRows; rw [c10, g6]
  have hcl := compressed_closed mainCS_sane mainCS_closed h4
  obtain ⟨Bθ, Bβ, Bγ, By, Bx, b1, b2, b3, b4, b5, hall⟩ := C46_rounds key k
    (by rw [h5, hdeg]; exact h2) (by rw [h5]; exact hcl) (by rw [h5, c10, g6]; omega)
    (by rw [h5, c1, h16]; decide +kernel) fuel' (by rw [h5, c1, h16]; exact hf') a0.copies
    (by intro p hp; rw [h5, hus]; exact (Keygen.copies_rows ha0 p hp).1) asm
    (by rw [h5, c1]; exact h3) (by rw [h5, c1, h16]; exact h12) 0 (by rw [h5]; exact c8 _ g3)
    advice s N hN hb [publicInputs code input 0, publicInputs code input 1] user
    (by rw [h5, c3, g4]; rfl) (by rw [h5, c4, g5]; exact hu)
    (fun hs => hnot (by
      rw [h5] at hs
      exact accepts_of_satisfied ha0 h4 h10 h11 ha hs))
  rw [h5, c1, h16] at b2 b3
  rw [h5, c1, h16, c6, c7, g1, g2] at b4
  rw [h5, hdeg] at b5
  have hfin : {t : Fr × Fr × Fr × Fr × Fr | Convinces key (2 ^ k)
      [publicInputs code input 0, publicInputs code input 1]
      (s.commitments advice t.1 t.2.1 t.2.2.1 t.2.2.2.1)
      ⟨user, t.1, t.2.1, t.2.2.1, t.2.2.2.1, t.2.2.2.2⟩}.Finite := Set.toFinite _
  rw [Set.ncard_eq_toFinset_card _ hfin]
  have := count_rounds hfin.toFinset Bθ Bβ Bγ By Bx _ _ _ _ _ b1 b2 b3 b4 b5 (fun t ht => by
    rw [Set.Finite.mem_toFinset] at ht
    exact hall _ _ _ _ _ ht)
  have hcard : Fintype.card Fr = P := ZMod.card P
  rw [hcard] at this
  refine le_trans this (Nat.mul_le_mul_right _ ?_)
  omega

/-- A prover that sends only zero polynomials. -/
def silent : Strategy where
  permuted _ := [([], [])]
  products _ _ _ := [[], []]
  lookupProducts _ _ _ := [[]]
  random _ _ _ := []
  pieces _ _ _ _ := List.replicate 10 []

/-- The key of the demo program `,+[->+<]>.` on input 2 exists, and zero columns are not those of an
accepted assignment. So the hypotheses of C45 and C46 are met. -/
theorem silent_case : ∃ (mx : Matrix) (key : Key Poly),
    keygenVk key.domain.lagrangeToCoeff false 48 8192 9 mx (fun _ => 0)
      (publicInputs demoCode (toFr [2])) = .ok (.ok key) ∧
    (∃ a, synthesize (2 ^ 9) mx (fun i => (List.replicate 11 (0 : Fr)).getD i 0)
      (publicInputs demoCode (toFr [2])) = .ok a) ∧
    Bounded 512 key [] silent ∧
    ¬ ∃ g, Accepts (2 ^ 9) mx (publicInputs demoCode (toFr [2])) g ∧
      (∀ i, g.challenge i = (List.replicate 11 (0 : Fr)).getD i 0) ∧
      ∀ i r, g.advice i r = polyAt (([] : List Poly).getD i []) (key.domain.omega ^ r) := by
  obtain ⟨s, a, g, hs, -, ha, -, -⟩ := demo_accepted (fun _ => 0)
  obtain ⟨s', a', g', hs', -, ha', -, -⟩ := demo_accepted
    (fun i => (List.replicate 11 (0 : Fr)).getD i 0)
  rw [hs] at hs'
  obtain rfl := Except.ok.inj (Option.some.inj hs')
  have hp1 : ((runOn 100 8 demoCode [2]).map (fun r => r.map (fun s =>
      s.matrix.processor.length))) = some (.ok 21) := by decide +kernel
  rw [hs] at hp1
  have hp1 : s.matrix.processor.length = 21 := Except.ok.inj (Option.some.inj hp1)
  have l1 := (honest_lengths demo_good demo_input (by norm_num) hs).1
  have l3 : s.matrix.instruction.length = 33 := by rw [l1, hp1]; rfl
  have hlen : chooseK s.matrix.instruction.length = 9 := by rw [l3]; decide +kernel
  rw [hlen] at ha ha'
  obtain ⟨key, asm, c, cols, as, h1, h2, h3, h4, h5, h6, h7, h8, h9, -⟩ :=
    keygen_ok false 48 8192 9 (by norm_num) (by norm_num) (by norm_num) s.matrix _ _ a ha
  refine ⟨s.matrix, key, h1, ⟨a', ha'⟩, ?_, ?_⟩
  · refine ⟨fun p hp => by rw [h8 p hp]; norm_num, fun p hp => by rw [h9 p hp]; norm_num, ?_, ?_, ?_, ?_, ?_⟩
    · simp
    · intro t p hp; simp [silent] at hp; subst hp; simp
    · intro t b g p hp; simp [silent] at hp; subst hp; simp
    · intro t b g p hp; simp [silent] at hp; subst hp; simp
    · intro t b g y p hp; simp [silent] at hp; subst hp; simp
  · rintro ⟨g, ⟨b, hb, -, -, hi, hsat⟩, -, hadv⟩
    have := hsat.copies ((.advice 26, 0), (.instance_ 0, 0)) (by
      rw [synthesize_copies hb]; unfold copyList; simp)
    have h0 : g.cell (.advice 26, 0) = 0 := by
      show g.advice 26 0 = 0
      rw [hadv]
      rfl
    have h1 : g.cell (.instance_ 0, 0) = (demoCode.length : Fr) := by
      show g.instance_ 0 0 = _
      rw [hi]
      rfl
    rw [h0, h1] at this
    exact absurd this (by decide +kernel)

#print axioms C45_labels
#print axioms C45_keygen
#print axioms C46_rounds
#print axioms C46_circuit

end Verif.Props

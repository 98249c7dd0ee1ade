import Verif.Model.Keygen
import Verif.Spec.Piop
import Verif.Spec.Key
import Verif.Lemmas.PolyLemmas
import Verif.Lemmas.VkLemmas
import Verif.Lemmas.PermLemmas
import Verif.Lemmas.Filled
import Verif.Lemmas.PiopModel
import Verif.Props.Domain
import Verif.Props.Compress
import Verif.Props.Permutation
import Verif.Props.Shape

/-! Key generation in closed form. -/

namespace Verif.Keygen

open Plonk Spec Compress

theorem geometric_eq (w : Fr) : ∀ (n : Nat) (c : Fr),
    geometric w n c = (List.range n).map fun i => c * w ^ i
  | 0, c => rfl
  | n + 1, c => by
    rw [geometric, geometric_eq w n, List.range_succ_eq_map, List.map_cons, List.map_map]
    simp only [pow_zero, mul_one, List.cons.injEq, true_and]
    apply List.map_congr_left
    intro i _
    simp only [Function.comp]
    rw [pow_succ]; ring

theorem deltaOmega_eq (w : Fr) (m n : Nat) : deltaOmega w m n =
    (List.range m).map fun i => (List.range n).map fun j => deltaFr ^ i * w ^ j := by
  unfold deltaOmega
  rw [geometric_eq, geometric_eq, List.map_map]
  apply List.map_congr_left
  intro i _
  simp only [Function.comp, List.map_map, one_mul]
  apply List.map_congr_left
  intro j _
  simp only [Function.comp]; ring

theorem deltaOmega_entry (w : Fr) {m n i j : Nat} (hi : i < m) (hj : j < n) :
    (do at_ (← at_ (deltaOmega w m n) i) j) = .ok (deltaFr ^ i * w ^ j) := by
  rw [deltaOmega_eq]
  unfold at_
  simp [hi, hj, bind, Except.bind]

/-- The label of the image of a cell. -/
def labelOf (w : Fr) (mapping : List (List (Nat × Nat))) (i j : Nat) : Fr :=
  match entry mapping (i, j) with
  | some p => deltaFr ^ p.1 * w ^ p.2
  | none => 0

theorem permutationValues_eq (w : Fr) {m n : Nat} {mapping : List (List (Nat × Nat))}
    (h : IsPermutation m n mapping) : permutationValues w m n mapping =
      .ok ((List.range m).map fun i => (List.range n).map fun j => labelOf w mapping i j) := by
  unfold permutationValues
  apply mapM_ok
  intro i hi
  apply mapM_ok
  intro j hj
  rw [List.mem_range] at hi hj
  have hs := (h.defined (i, j)).2 ⟨hi, hj⟩
  obtain ⟨p, hp⟩ := Option.isSome_iff_exists.1 hs
  have hin := h.inside _ _ hp
  have hl : labelOf w mapping i j = deltaFr ^ p.1 * w ^ p.2 := by unfold labelOf; rw [hp]
  rw [hl]
  unfold entry at hp
  cases h1 : mapping[i]? with
  | none => rw [h1] at hp; cases hp
  | some row =>
    rw [h1] at hp
    have hp : row[j]? = some p := hp
    have e1 : at_ mapping i = .ok row := by unfold at_; rw [h1]
    have e2 : at_ row j = .ok p := by unfold at_; rw [hp]
    rw [e1]
    show (at_ row j >>= fun p => _) = _
    rw [e2]
    exact deltaOmega_entry w hin.1 hin.2

/-- Interpolation of several columns. -/
theorem interpolate_all {d : Domain} {j k : Nat} (hd : IsDomain d j k) (cols : List (List Fr))
    (hc : ∀ c ∈ cols, c.length = 2 ^ k) : ∃ ps : List Poly, cols.mapM d.lagrangeToCoeff = .ok ps ∧
      ps.length = cols.length ∧ (∀ p ∈ ps, p.length = 2 ^ k) ∧
      ∀ i col, cols[i]? = some col → ∀ r < 2 ^ k,
        some (polyAt (ps.getD i []) (d.omega ^ r)) = col[r]? := by
  have h : ∀ c : List Fr, ∃ p : Poly, c.length = 2 ^ k → d.lagrangeToCoeff c = .ok p ∧ p.length = 2 ^ k ∧
      ∀ i (hi : i < c.length), polyAt p (d.omega ^ i) = c[i] := by
    intro c
    by_cases hl : c.length = 2 ^ k
    · obtain ⟨p, hp⟩ := hd.lagrangeToCoeff_values c hl
      exact ⟨p, fun _ => hp⟩
    · exact ⟨[], fun h => absurd h hl⟩
  choose f hf using h
  refine ⟨cols.map f, mapM_ok fun c hm => (hf c (hc c hm)).1, by simp, ?_, ?_⟩
  · intro p hp
    obtain ⟨c, hm, rfl⟩ := List.mem_map.1 hp
    exact (hf c (hc c hm)).2.1
  · intro i col hi r hr
    have hm := List.mem_of_getElem? hi
    have hl := hc col hm
    rw [List.getD_eq_getElem?_getD, List.getElem?_map, hi]
    simp only [Option.map_some, Option.getD_some]
    rw [(hf col hl).2.2 r (by omega), List.getElem?_eq_getElem (by omega)]

theorem activations_eq (n : Nat) (a : Assembly) : activations mainCS n a = selectorTable n a := rfl

theorem selectorTable_length (n : Nat) (a : Assembly) :
    (selectorTable n a).length = 15 ∧ ∀ act ∈ selectorTable n a, act.length = n := by
  have hns : mainCS.numSelectors = 15 := by decide +kernel
  unfold selectorTable
  constructor
  · simp [hns]
  · intro act h
    obtain ⟨i, -, rfl⟩ := List.mem_map.1 h
    simp

/-- The rows of copied cells. -/
theorem copies_rows {n : Nat} {mx : Matrix} {ch : Nat → Fr} {inst : Nat → List Fr} {a : Assembly}
    (h : synthesize n mx ch inst = .ok a) : ∀ p ∈ a.copies,
      (p.1.2 < n - 6 ∧ p.2.2 < n - 6) ∧ p.1.1 ∈ mainCS.permutation ∧ p.2.1 ∈ mainCS.permutation ∧
      (∀ i, p.1.1 ≠ .fixed i ∧ p.2.1 ≠ .fixed i) := by
  obtain ⟨g, hg⟩ := completion n a ch inst
  obtain ⟨as, vin, vc, f⟩ := filled h hg
  have hc : ∀ c : Col, c ∈ [Col.advice 22, .instance_ 1, .advice 25, .instance_ 0, .advice 26, .advice 23,
      .advice 7, .advice 14, .advice 21, .advice 9, .advice 24, .advice 10, .advice 8, .advice 18, .advice 27,
      .advice 19] → c ∈ mainCS.permutation := by decide +kernel
  have r1 := f.roomP
  have r2 := f.roomM
  have r3 := f.roomI
  have r4 := f.roomO
  have r5 := f.roomN
  have r6 := f.roomG
  rw [synthesize_copies h]
  unfold copyList
  intro p hp
  simp only [List.mem_append, List.mem_map, List.mem_range, List.mem_cons, List.not_mem_nil,
    or_false] at hp
  rcases hp with (⟨i, hi, rfl⟩ | ⟨i, hi, rfl⟩) | rfl | rfl | rfl | rfl | rfl | rfl | rfl <;>
    refine ⟨⟨by dsimp only; omega, by dsimp only; omega⟩, hc _ (by simp), hc _ (by simp), fun i => ⟨by simp, by simp⟩⟩

theorem compressed_permutation {cs : CS} {simple : Nat → Bool} (hs : Sane cs simple)
    {acts : List (List Bool)} {c : CS.Compressed} {cols : List (List Fr)} {as : List SelectorAssignment}
    (hc : cs.compressSelectors acts = .ok (c, cols, as)) :
    c.cs.permutation = cs.permutation ∧ c.cs.numFixed = cs.numFixed + cols.length ∧
      c.cs.numInstance = cs.numInstance ∧ c.cs.numChallenges = cs.numChallenges ∧
      c.cs.numAdvice = cs.numAdvice ∧ c.cs.lookups.length = cs.lookups.length ∧
      c.cs.gates.flatten.length = cs.gates.flatten.length ∧
      (∀ w, (∀ l ∈ cs.lookups, l.input.length ≤ w) → ∀ l ∈ c.cs.lookups, l.input.length ≤ w) ∧
      c.cs.adviceQueries = cs.adviceQueries ∧ c.cs.blindingFactors = cs.blindingFactors := by
  obtain ⟨degrees, combos, n', rs, -, -, -, -, -, e⟩ := compression_facts hs hc
  obtain ⟨qs, hq⟩ := allocMany_same cs cols.length
  rw [e, hq]
  refine ⟨rfl, rfl, rfl, rfl, rfl, by simp [CS.replaced], ?_, ?_, rfl, ?_⟩
  · simp [CS.replaced, List.length_flatten, Function.comp_def]
  · intro w hw l hl
    simp only [CS.replaced, List.mem_map] at hl
    obtain ⟨l', hl', rfl⟩ := hl
    simpa using hw l' hl'
  · rfl

theorem assemble_eq {C : Type} {commit : List Fr → Except Panic C} {fuel : Nat} {cs : CS} {n : Nat}
    {d : Domain} {a : Assembly} {asm : PermAssembly}
    (h1 : PermAssembly.copyAll fuel a.copies (PermAssembly.new n cs.permutation) = .ok (.ok asm))
    {c : CS.Compressed} {cols : List (List Fr)} {as : List SelectorAssignment}
    (h2 : cs.compressSelectors (activations cs n a) = .ok (c, cols, as)) {vs : List (List Fr)}
    (h3 : permutationValues d.omega c.cs.permutation.length n asm.mapping = .ok vs)
    {sigma fixed : List C} (h4 : vs.mapM commit = .ok sigma)
    (h5 : (fixedValues cs n a cols).mapM commit = .ok fixed) :
    assemble commit fuel cs n d a = .ok (.ok ⟨d, c.cs, fixed, sigma⟩) := by
  unfold assemble
  rw [h1]
  show (cs.compressSelectors (activations cs n a) >>= _) = _
  rw [h2]
  show (permutationValues d.omega c.cs.permutation.length n asm.mapping >>= _) = _
  rw [h3]
  show (List.mapM commit _ >>= _) = _
  rw [h4]
  show (List.mapM commit _ >>= _) = _
  rw [h5]
  rfl

theorem degree_11 : mainCS.degree = 11 := by decide +kernel

/-- Everything about a generated key. -/
theorem keygen_ok (checks : Bool) (fuel fuel' k : Nat) (hk : k ≤ 24) (hf : 48 ≤ fuel)
    (hf' : 16 * 2 ^ k ≤ fuel') (mx : Matrix) (ch : Nat → Fr) (inst : Nat → List Fr) (a : Assembly)
    (ha : synthesize (2 ^ k) mx ch inst = .ok a) :
    ∃ (key : Key Poly) (asm : PermAssembly) (c : CS.Compressed) (cols : List (List Fr))
      (as : List SelectorAssignment),
      keygenVk key.domain.lagrangeToCoeff checks fuel fuel' k mx ch inst = .ok (.ok key) ∧
      IsDomain key.domain 11 k ∧
      PermAssembly.copyAll fuel' a.copies (PermAssembly.new (2 ^ k) mainCS.permutation) = .ok (.ok asm) ∧
      mainCS.compressSelectors (selectorTable (2 ^ k) a) = .ok (c, cols, as) ∧
      key.cs = c.cs ∧
      key.fixed.length = 1 + cols.length ∧ key.sigma.length = 16 ∧
      (∀ p ∈ key.fixed, p.length = 2 ^ k) ∧ (∀ p ∈ key.sigma, p.length = 2 ^ k) ∧
      (∀ r < 2 ^ k, polyAt (key.fixed.getD 0 []) (key.domain.omega ^ r) = a.fixed 0 r) ∧
      (∀ (i : Nat) (col : List Fr), cols[i]? = some col → ∀ r < 2 ^ k,
        some (polyAt (key.fixed.getD (1 + i) []) (key.domain.omega ^ r)) = col[r]?) ∧
      SigmaOf key.domain 16 (2 ^ k) key.sigma asm.mapping := by
  obtain ⟨d, hd1, hd⟩ := Props.C40_circuit_partial checks k hk fuel hf
  obtain ⟨hl, hn⟩ := selectorTable_length (2 ^ k) a
  have hns : mainCS.numSelectors = 15 := by decide +kernel
  have hnf : mainCS.numFixed = 1 := by decide +kernel
  obtain ⟨c, cols, as, hc, hcols⟩ := Props.C32_no_panic mainCS _ mainCS_sane (selectorTable (2 ^ k) a)
    (by rw [hl, hns]) (2 ^ k) hn
  obtain ⟨hnd, h16⟩ := Props.C33_circuit
  have hcr := copies_rows ha
  obtain ⟨asm, hasm, hperm, -⟩ := Props.C33_cycles fuel' (2 ^ k) mainCS.permutation hnd
    (by rw [h16]; exact hf') a.copies (fun p hp => by
      obtain ⟨⟨h1, h2⟩, h3, h4, -⟩ := hcr p hp
      exact ⟨⟨h3, by omega⟩, h4, by omega⟩)
  have hpl : c.cs.permutation.length = 16 := by
    rw [(compressed_permutation mainCS_sane hc).1, h16]
  rw [h16] at hperm
  obtain ⟨sigma, hs1, hs2, hs3, hs4⟩ := interpolate_all hd
    ((List.range 16).map fun i => (List.range (2 ^ k)).map fun j => labelOf d.omega asm.mapping i j)
    (fun c hc => by obtain ⟨i, -, rfl⟩ := List.mem_map.1 hc; simp)
  obtain ⟨fixed, hx1, hx2, hx3, hx4⟩ := interpolate_all hd (fixedValues mainCS (2 ^ k) a cols)
    (fun c hc => by
      unfold fixedValues at hc
      rcases List.mem_append.1 hc with hc | hc
      · obtain ⟨i, -, rfl⟩ := List.mem_map.1 hc; simp
      · exact hcols c hc)
  have hfl : (fixedValues mainCS (2 ^ k) a cols).length = 1 + cols.length := by
    unfold fixedValues; simp [hnf, Nat.add_comm]
  refine ⟨⟨d, c.cs, fixed, sigma⟩, asm, c, cols, as, ?_, hd, hasm, hc, rfl, by rw [hx2, hfl], by simpa using hs2,
    hx3, hs3, ?_, ?_, ?_⟩
  · unfold keygenVk
    rw [degree_11, hd1]
    have := assemble_eq (d := d) hasm hc (by rw [hpl, permutationValues_eq _ hperm]) hs1 hx1
    simp only [bind, Except.bind, ha]
    exact this
  · intro r hr
    have := hx4 0 ((List.range (2 ^ k)).map fun r => a.fixed 0 r) (by
      unfold fixedValues; rw [hnf]; rfl) r hr
    rw [List.getElem?_map, List.getElem?_range hr] at this
    exact Option.some.inj this
  · intro i col hi r hr
    refine hx4 (1 + i) col ?_ r hr
    unfold fixedValues
    rw [List.getElem?_append_right (by simp [hnf])]
    simp [hnf, hi]
  · intro i hi j hj i' j' he
    have := hs4 i ((List.range (2 ^ k)).map fun j => labelOf d.omega asm.mapping i j) (by
      rw [List.getElem?_map, List.getElem?_range hi]; rfl) j hj
    rw [List.getElem?_map, List.getElem?_range hj] at this
    rw [Option.some.inj this]
    show labelOf d.omega asm.mapping i j = _
    unfold labelOf
    rw [he]

end Verif.Keygen

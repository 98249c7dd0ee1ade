import Verif.Lemmas.KeygenLemmas
import Verif.Lemmas.PiopSound
import Verif.Lemmas.PiopClosed
import Verif.Props.Circuit
import Verif.Spec.Accepts

/-! Counting challenges; the key of the brainfuck circuit. -/

namespace Verif.Plonk

open Spec Compress Keygen

section Count

variable {F : Type} [Fintype F]

theorem count_one {A : Type} [Fintype A] (s : Finset A) (B : F × F × F × F → Finset F) (n : Nat)
    (hB : ∀ t, (B t).card ≤ n) (f : A → F × F × F × F) (g : A → F)
    (hinj : ∀ a b, f a = f b → g a = g b → a = b) (hs : ∀ a ∈ s, g a ∈ B (f a)) :
    s.card ≤ n * Fintype.card F ^ 4 := by
  classical
  have h := Finset.card_le_mul_card_image_of_maps_to (s := s) (t := Finset.univ) (f := f)
    (fun _ _ => Finset.mem_univ _) n (fun b _ => by
      refine le_trans ?_ (hB b)
      apply Finset.card_le_card_of_injOn g
      · intro a ha
        rw [Finset.mem_coe, Finset.mem_filter] at ha
        rw [← ha.2]
        exact hs a ha.1
      · intro a ha a' ha' he
        rw [Finset.mem_coe, Finset.mem_filter] at ha ha'
        exact hinj a a' (by rw [ha.2, ha'.2]) he)
  have hc : (Finset.univ : Finset (F × F × F × F)).card = Fintype.card F ^ 4 := by
    rw [Finset.card_univ]
    simp only [Fintype.card_prod]
    ring
  rw [hc] at h
  exact h

theorem count_rounds (s : Finset (F × F × F × F × F)) (Bθ : Finset F) (Bβ : F → Finset F)
    (Bγ : F → F → Finset F) (By : F → F → F → Finset F) (Bx : F → F → F → F → Finset F)
    (b1 b2 b3 b4 b5 : Nat) (h1 : Bθ.card ≤ b1) (h2 : ∀ θ, (Bβ θ).card ≤ b2)
    (h3 : ∀ θ β, (Bγ θ β).card ≤ b3) (h4 : ∀ θ β γ, (By θ β γ).card ≤ b4)
    (h5 : ∀ θ β γ y, (Bx θ β γ y).card ≤ b5)
    (hs : ∀ t ∈ s, t.1 ∈ Bθ ∨ t.2.1 ∈ Bβ t.1 ∨ t.2.2.1 ∈ Bγ t.1 t.2.1 ∨
      t.2.2.2.1 ∈ By t.1 t.2.1 t.2.2.1 ∨ t.2.2.2.2 ∈ Bx t.1 t.2.1 t.2.2.1 t.2.2.2.1) :
    s.card ≤ (b1 + b2 + b3 + b4 + b5) * Fintype.card F ^ 4 := by
  classical
  have hsub : s ⊆ s.filter (fun t => t.1 ∈ Bθ) ∪ (s.filter (fun t => t.2.1 ∈ Bβ t.1) ∪
      (s.filter (fun t => t.2.2.1 ∈ Bγ t.1 t.2.1) ∪
      (s.filter (fun t => t.2.2.2.1 ∈ By t.1 t.2.1 t.2.2.1) ∪
      s.filter (fun t => t.2.2.2.2 ∈ Bx t.1 t.2.1 t.2.2.1 t.2.2.2.1)))) := by
    intro t ht
    simp only [Finset.mem_union, Finset.mem_filter, ht, true_and]
    exact hs t ht
  have e1 := count_one (s.filter (fun t => t.1 ∈ Bθ)) (fun _ => Bθ) b1 (fun _ => h1)
    (fun t => t.2) (fun t => t.1) (fun a b hab he => Prod.ext he hab)
    (fun t ht => (Finset.mem_filter.1 ht).2)
  have e2 := count_one (s.filter (fun t => t.2.1 ∈ Bβ t.1)) (fun t => Bβ t.1) b2 (fun _ => h2 _)
    (fun t => (t.1, t.2.2)) (fun t => t.2.1) (fun a b hab he => by
      obtain ⟨h, h'⟩ := Prod.mk.inj hab
      exact Prod.ext h (Prod.ext he h'))
    (fun t ht => (Finset.mem_filter.1 ht).2)
  have e3 := count_one (s.filter (fun t => t.2.2.1 ∈ Bγ t.1 t.2.1)) (fun t => Bγ t.1 t.2.1) b3
    (fun _ => h3 _ _)
    (fun t => (t.1, t.2.1, t.2.2.2)) (fun t => t.2.2.1) (fun a b hab he => by
      obtain ⟨h, h'⟩ := Prod.mk.inj hab
      obtain ⟨h', h''⟩ := Prod.mk.inj h'
      exact Prod.ext h (Prod.ext h' (Prod.ext he h'')))
    (fun t ht => (Finset.mem_filter.1 ht).2)
  have e4 := count_one (s.filter (fun t => t.2.2.2.1 ∈ By t.1 t.2.1 t.2.2.1))
    (fun t => By t.1 t.2.1 t.2.2.1) b4 (fun _ => h4 _ _ _)
    (fun t => (t.1, t.2.1, t.2.2.1, t.2.2.2.2)) (fun t => t.2.2.2.1) (fun a b hab he => by
      obtain ⟨h, h'⟩ := Prod.mk.inj hab
      obtain ⟨h', h''⟩ := Prod.mk.inj h'
      obtain ⟨h'', h3⟩ := Prod.mk.inj h''
      exact Prod.ext h (Prod.ext h' (Prod.ext h'' (Prod.ext he h3))))
    (fun t ht => (Finset.mem_filter.1 ht).2)
  have e5 := count_one (s.filter (fun t => t.2.2.2.2 ∈ Bx t.1 t.2.1 t.2.2.1 t.2.2.2.1))
    (fun t => Bx t.1 t.2.1 t.2.2.1 t.2.2.2) b5 (fun _ => h5 _ _ _ _)
    (fun t => (t.1, t.2.1, t.2.2.1, t.2.2.2.1)) (fun t => t.2.2.2.2) (fun a b hab he => by
      obtain ⟨h, h'⟩ := Prod.mk.inj hab
      obtain ⟨h', h''⟩ := Prod.mk.inj h'
      obtain ⟨h'', h3⟩ := Prod.mk.inj h''
      exact Prod.ext h (Prod.ext h' (Prod.ext h'' (Prod.ext h3 he))))
    (fun t ht => (Finset.mem_filter.1 ht).2)
  refine le_trans (Finset.card_le_card hsub) ?_
  refine le_trans (Finset.card_union_le _ _) ?_
  refine le_trans (Nat.add_le_add_left (Finset.card_union_le _ _) _) ?_
  refine le_trans (Nat.add_le_add_left (Nat.add_le_add_left (Finset.card_union_le _ _) _) _) ?_
  refine le_trans (Nat.add_le_add_left (Nat.add_le_add_left (Nat.add_le_add_left
    (Finset.card_union_le _ _) _) _) _) ?_
  simp only [Nat.add_mul]
  omega

end Count

theorem assemble_domain {C : Type} {commit : List Fr → Except Panic C} {fuel : Nat} {cs : CS} {n : Nat}
    {d : Domain} {a : Assembly} {key : Key C}
    (h : assemble commit fuel cs n d a = .ok (.ok key)) : key.domain = d := by
  unfold assemble at h
  rw [except_bind] at h
  obtain ⟨r, -, h⟩ := h
  cases r with
  | error e => cases h
  | ok p =>
    dsimp only at h
    rw [except_bind] at h
    obtain ⟨⟨c, cols, as⟩, -, h⟩ := h
    dsimp only at h
    rw [except_bind] at h
    obtain ⟨vs, -, h⟩ := h
    rw [except_bind] at h
    obtain ⟨sigma, -, h⟩ := h
    rw [except_bind] at h
    obtain ⟨fixed, -, h⟩ := h
    cases h
    rfl

theorem keygen_inv {C : Type} {commit : List Fr → Except Panic C} {checks : Bool} {fuel fuel' k : Nat}
    {mx : Matrix} {ch : Nat → Fr} {inst : Nat → List Fr} {key : Key C}
    (h : keygenVk commit checks fuel fuel' k mx ch inst = .ok (.ok key)) :
    ∃ d a, Domain.new checks fuel 11 k = .ok d ∧ synthesize (2 ^ k) mx ch inst = .ok a ∧ key.domain = d := by
  unfold keygenVk at h
  rw [except_bind, degree_11] at h
  obtain ⟨d, hd, h⟩ := h
  cases hs : synthesize (2 ^ k) mx ch inst with
  | error e => simp only [hs] at h; cases h
  | ok a =>
    simp only [hs] at h
    exact ⟨d, a, hd, rfl, assemble_domain h⟩

/-- The facts about a key that has been generated. -/
theorem keygen_facts {checks : Bool} {fuel fuel' k : Nat} (hk : k ≤ 24) (hf : 48 ≤ fuel)
    (hf' : 16 * 2 ^ k ≤ fuel') {mx : Matrix} {ch : Nat → Fr} {inst : Nat → List Fr} {key : Key Poly}
    (h : keygenVk key.domain.lagrangeToCoeff checks fuel fuel' k mx ch inst = .ok (.ok key)) :
    ∃ (a : Assembly) (asm : PermAssembly) (c : CS.Compressed) (cols : List (List Fr))
      (as : List SelectorAssignment), synthesize (2 ^ k) mx ch inst = .ok a ∧
      IsDomain key.domain 11 k ∧
      PermAssembly.copyAll fuel' a.copies (PermAssembly.new (2 ^ k) mainCS.permutation) = .ok (.ok asm) ∧
      mainCS.compressSelectors (selectorTable (2 ^ k) a) = .ok (c, cols, as) ∧
      key.cs = c.cs ∧
      key.fixed.length = 1 + cols.length ∧ key.sigma.length = 16 ∧
      (∀ p ∈ key.fixed, p.length = 2 ^ k) ∧ (∀ p ∈ key.sigma, p.length = 2 ^ k) ∧
      (∀ r < 2 ^ k, polyAt (key.fixed.getD 0 []) (key.domain.omega ^ r) = a.fixed 0 r) ∧
      (∀ (i : Nat) (col : List Fr), cols[i]? = some col → ∀ r < 2 ^ k,
        some (polyAt (key.fixed.getD (1 + i) []) (key.domain.omega ^ r)) = col[r]?) ∧
      SigmaOf key.domain 16 (2 ^ k) key.sigma asm.mapping := by
  obtain ⟨d, a, hd, ha, hkd⟩ := keygen_inv h
  obtain ⟨key', asm, c, cols, as, h1, h2⟩ := keygen_ok checks fuel fuel' k hk hf hf' mx ch inst a ha
  obtain ⟨d', a', hd', -, hkd'⟩ := keygen_inv h1
  rw [hd] at hd'
  cases hd'
  rw [hkd', ← hkd, h] at h1
  have e : key = key' := Except.ok.inj (Except.ok.inj h1)
  subst e
  exact ⟨a, asm, c, cols, as, ha, h2⟩

theorem foldedColumn_short {n : Nat} {col : List Fr} (h : col.length ≤ n) (r : Nat) :
    foldedColumn n col r = col.getD r 0 := by
  unfold foldedColumn
  have : ∀ i ∈ Finset.range col.length, (if i % n = r then col.getD i 0 else 0) =
      if i = r then col.getD i 0 else 0 := by
    intro i hi
    rw [Nat.mod_eq_of_lt (by have := Finset.mem_range.1 hi; omega)]
  rw [Finset.sum_congr rfl this, Finset.sum_ite_eq' (Finset.range col.length) r]
  split
  · rfl
  · next h => rw [Finset.mem_range, not_lt] at h; rw [List.getD_eq_getElem?_getD, List.getElem?_eq_none h]; rfl

/-- A satisfied compressed circuit comes from an accepted assignment. -/
theorem accepts_of_satisfied {k : Nat} {mx : Matrix} {ch : Nat → Fr} {inst : Nat → List Fr}
    {key : Key Poly} {a0 a : Assembly} {c : CS.Compressed} {cols : List (List Fr)}
    {as : List SelectorAssignment} (ha0 : synthesize (2 ^ k) mx ch inst = .ok a0)
    (hc : mainCS.compressSelectors (selectorTable (2 ^ k) a0) = .ok (c, cols, as))
    (hfix : ∀ r < 2 ^ k, polyAt (key.fixed.getD 0 []) (key.domain.omega ^ r) = a0.fixed 0 r)
    (hcols : ∀ (i : Nat) (col : List Fr), cols[i]? = some col → ∀ r < 2 ^ k,
        some (polyAt (key.fixed.getD (1 + i) []) (key.domain.omega ^ r)) = col[r]?)
    {user : List Fr} {advice : List Poly} {code input : List Fr}
    (ha : synthesize (2 ^ k) mx (fun i => user.getD i 0) (publicInputs code input) = .ok a)
    (hs : Satisfied c.cs (2 ^ k) (gridOf key.domain (2 ^ k)
      [publicInputs code input 0, publicInputs code input 1] key.fixed advice user) a0.copies) :
    ∃ g, Accepts (2 ^ k) mx (publicInputs code input) g ∧ (∀ i, g.challenge i = user.getD i 0) ∧
      ∀ i r, g.advice i r = polyAt (advice.getD i []) (key.domain.omega ^ r) := by
  have hnf : mainCS.numFixed = 1 := by decide +kernel
  have hns : mainCS.numSelectors = 15 := by decide +kernel
  obtain ⟨h8, hl0, hl1, -⟩ := (synthesize_ok_iff _ _ _ _ _).1 ha
  have hsame := (Props.C30_shape_iff_lengths_partial _ _ _ _ _ _ _ _ _ ha0 ha).2
    ⟨rfl, rfl, rfl, rfl, rfl, rfl⟩
  set g' := gridOf key.domain (2 ^ k) [publicInputs code input 0, publicInputs code input 1]
    key.fixed advice user with hg'
  let g : Grid :=
    { g' with
      fixed := fun i r => if i < 1 then g'.fixed i r else a.fixed i r
      selector := a.selector }
  have hrep : Replaced mainCS (2 ^ k) (selectorTable (2 ^ k) a0) cols g g' := by
    refine ⟨rfl, rfl, rfl, ?_, ?_, ?_⟩
    · intro i hi
      rw [hnf] at hi
      funext r
      show _ = if i < 1 then g'.fixed i r else a.fixed i r
      rw [if_pos hi]
    · intro i act hact r hr
      unfold selectorTable at hact
      rw [List.getElem?_map] at hact
      cases hi : (List.range mainCS.numSelectors)[i]? with
      | none => rw [hi] at hact; cases hact
      | some i' =>
        rw [hi] at hact
        obtain ⟨hlt, e⟩ := List.getElem?_eq_some_iff.1 hi
        rw [List.getElem_range] at e
        subst e
        cases hact
        rw [List.length_range] at hlt
        show a.selector i r = true ↔ _
        rw [List.getElem?_map, List.getElem?_range hr, ← hsame.selector i hlt r]
        simp
    · intro i col hi r hr
      rw [hnf]
      exact hcols i col hi r hr
  have hP : mainCS.degree < P := by rw [degree_11]; decide
  have hsat : Satisfied mainCS (2 ^ k) g a.copies := by
    rw [← hsame.copies]
    refine (Props.C32_same_meaning mainCS _ mainCS_sane hP (selectorTable (2 ^ k) a0) (2 ^ k)
      (selectorTable_length _ _).2 c cols as hc g g' hrep a0.copies ?_).2 hs
    intro p hp q hq i hi
    obtain ⟨-, -, -, hno⟩ := Keygen.copies_rows ha0 p hp
    rcases hq with rfl | rfl
    · exact absurd hi (hno i).1
    · exact absurd hi (hno i).2
  refine ⟨g, ⟨a, ha, ?_, fun _ _ => rfl, ?_, hsat⟩, fun _ => rfl, fun _ _ => rfl⟩
  · intro i r hr
    show (if i < 1 then g'.fixed i r else a.fixed i r) = _
    split
    · next hi =>
      obtain rfl : i = 0 := by omega
      rw [← hsame.fixed 0 (by rw [hnf]; omega) r hr]
      exact hfix r (lt_of_lt_of_le hr (by rw [mainCS_usable]; omega))
    · rfl
  · intro i r
    show foldedColumn (2 ^ k) ([publicInputs code input 0, publicInputs code input 1].getD i []) r = _
    match i with
    | 0 => exact foldedColumn_short (by show (publicInputs code input 0).length ≤ _; omega) r
    | 1 => exact foldedColumn_short (by show (publicInputs code input 1).length ≤ _; omega) r
    | (i + 2) => exact foldedColumn_short (by show 0 ≤ _; omega) r

theorem gates_count : mainCS.gates.flatten.length = 27 ∧ mainCS.lookups.length = 1 ∧
    (∀ l ∈ mainCS.lookups, l.input.length ≤ 0 + 1) ∧ mainCS.numInstance = 2 ∧
    mainCS.numChallenges = 11 ∧ mainCS.blindingFactors = 5 := by decide +kernel

end Verif.Plonk

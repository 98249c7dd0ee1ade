import Verif.Lemmas.MerkleShown
import Verif.Lemmas.MerkleHonest
import Verif.Lemmas.SinsemillaKeys

/-!
C120 and C121 (Merkle paths with the Sinsemilla hash in circuits, and children with two encodings).
-/

namespace Verif.Props

open Verif.Gadget Verif.Spec.Gadget Verif.Spec Verif.Spec.Ecc Verif.Spec.Pow5 Verif.Spec.Sinsemilla Verif.Spec.Merkle
open Verif.Lemmas.Ecc Verif.Lemmas.Gadget Verif.Lemmas.Sinsemilla Verif.Lemmas.Merkle

/-! ## C120 -/

/-- **C120 (one layer).** Whatever the prover puts into the cells: if the constraints of `hash_layer` hold, the layer has 10
bits and the cell returned contains the hash of 10 bits for the layer, 255 bits for the left child and 255 bits for the
right one. -/
theorem C120_layer_sound (c : Merkle) (hd : RangeCheckDistinct c.lookup) (S : List (Fp × Fp)) (G : Nat → Pt (5 : Fp)) (hS : Generators S G)
    (Q : Pt (5 : Fp)) (start l : Nat) (hl : l < 2 ^ 64) (left right out : Assigned Fp) (regions : List (Calls Fp))
    (h : c.hashLayer S start (affine Q) l left right = .ok (regions, out)) (table : Nat → List Fp)
    (ht : IsTable 10 (table c.lookup.tableIdx)) (w : Content Fp) (hs : SatAll c.chip table w start regions)
    (hlk : ∀ i (h : i < regions.length), LooksUp (c.sins.lookup S) (Sinsemilla.load S) w (start + i) regions[i]) :
    LayerHash G Q l (w.at left.cell) (w.at right.cell) (w.at out.cell) :=
  layer_sound hd hS hl h ht hs hlk

/-- **C120 (paths).** Whatever the prover puts into the cells, and whichever chip is used for which layer: if the constraints
of the loop of `calculate_root` hold, there are siblings with which the cell returned is the root over the node. -/
theorem C120_path_sound (S : List (Fp × Fp)) (G : Nat → Pt (5 : Fp)) (hS : Generators S G) (Q : Pt (5 : Fp)) (chip : Chip Fp)
    (lookups : List (Verif.Gadget.Expr Fp × Verif.Gadget.Expr Fp × Verif.Gadget.Expr Fp)) (table : Nat → List Fp) (w : Content Fp)
    (steps : List (Merkle × Option Fp × Option Bool))
    (hchips : ∀ s ∈ steps, RangeCheckDistinct s.1.lookup ∧ IsTable 10 (table s.1.lookup.tableIdx) ∧
      (∀ g ∈ (s.1.chip : Chip Fp).gates, g ∈ chip.gates) ∧ (∀ g ∈ (s.1.chip : Chip Fp).lookups, g ∈ chip.lookups) ∧
      s.1.sins.lookup S ∈ lookups) (hlen : steps.length ≤ 2 ^ 64)
    (start : Nat) (node root : Assigned Fp) (regions : List (Calls Fp))
    (h : Merkle.layers S (affine Q) start 0 node steps = .ok (regions, root)) (hs : SatAll chip table w start regions)
    (hlk : ∀ i (h : i < regions.length), ∀ k ∈ lookups, LooksUp k (Sinsemilla.load S) w (start + i) regions[i]) :
    Path G Q 0 steps.length (w.at node.cell) (w.at root.cell) :=
  layers_sound hS le_rfl steps hchips start 0 node root regions (by omega) h hs hlk

/-- **C120 (completeness of one layer).** For every layer number of 10 bits and all children, if the words of the children's own
bits have a hash, `hash_layer` succeeds, and a prover who writes what it assigns meets the constraints and gets the hash. -/
theorem C120_layer_complete (c : Merkle) (hd : RangeCheckDistinct c.lookup) (hsel : MerkleDistinct c) (S : List (Fp × Fp))
    (G : Nat → Pt (5 : Fp)) (hS : Generators S G) (Q P : Pt (5 : Fp)) (hQ : Q ≠ 0) (start l : Nat) (hl : l < 2 ^ 10)
    (left right : Assigned Fp) (x y : Fp) (hx : left.value = some x) (hy : right.value = some y) (ms : List Nat)
    (hms : LayerWords l x.val y.val ms) (hP : hashOf G Q ms = some P) (table : Nat → List Fp)
    (ht : IsTable 10 (table c.lookup.tableIdx)) :
    ∃ regions out, c.hashLayer S start (affine Q) l left right = .ok (regions, out) ∧
      ∀ w : Content Fp, FollowsAll w start regions → Known w left → Known w right →
        SatAll c.chip table w start regions ∧
        (∀ i (h : i < regions.length), LooksUp (c.sins.lookup S) (Sinsemilla.load S) w (start + i) regions[i]) ∧
        Known w out ∧ w.at out.cell = (coords P).1 :=
  layer_complete hd hsel hS hQ hl hx hy hms hP ht

/-- **C120 (keys).** While the children are not known `hash_layer` succeeds. -/
theorem C120_runs (c : Merkle) (S : List (Fp × Fp)) (Q : Pt (5 : Fp)) (hQ : Q ≠ 0) (start l : Nat) (left right : Assigned Fp)
    (hx : left.value = none) (hy : right.value = none) :
    ∃ regions out, c.hashLayer S start (affine Q) l left right = .ok (regions, out) := by
  obtain ⟨ch, pt, zss, hh⟩ := hashToPoint_total (c := c.sins) (S := S) (region := start + 5) hQ
    (pieces := [unknownPiece c start 25, unknownPiece c (start + 3) 2, unknownPiece c (start + 4) 25]) (List.cons_ne_nil _ _)
    (fun q hq => by
      simp only [List.mem_cons, List.not_mem_nil, or_false] at hq
      rcases hq with rfl | rfl | rfl <;> exact ⟨by norm_num [unknownPiece], rfl⟩)
  obtain ⟨-, -, hzl⟩ := hashToPoint_parts hh
  obtain ⟨za, rest, lza, hzl2, rfl⟩ := List.forall₂_cons_left_iff.1 hzl
  obtain ⟨zb, more, lzb, hzl3, rfl⟩ := List.forall₂_cons_left_iff.1 hzl2
  match za, lza, zb, lzb with
  | _ :: _ :: _, _, _ :: _ :: _, _ => exact ⟨_, _, layer_unknown hx hy hh⟩

theorem demoMerkle_distinct : RangeCheckDistinct demoMerkle.lookup := by constructor <;> decide

theorem wordsOf_spec {l L R : Nat} (h : l + 2 ^ 10 * L + 2 ^ 265 * R < 1024 ^ 52) : LayerWords l L R (wordsOf l L R) := by
  refine ⟨by simp [wordsOf], fun m hm => ?_, ?_⟩
  · obtain ⟨i, -, rfl⟩ := List.mem_map.1 hm
    exact Nat.mod_lt _ (by norm_num)
  · have key : ∀ n x : Nat, Nat.ofDigits 1024 ((List.range n).map fun i => x / 1024 ^ i % 1024) = x % 1024 ^ n := by
      intro n
      induction n with
      | zero => intro x; simp [Nat.mod_one]
      | succ n ih =>
        intro x
        rw [List.range_succ_eq_map, List.map_cons, Nat.ofDigits_cons, List.map_map]
        have : ((fun i => x / 1024 ^ i % 1024) ∘ Nat.succ) = fun i => (x / 1024) / 1024 ^ i % 1024 := by
          funext i
          simp only [Function.comp, Nat.succ_eq_add_one, pow_succ', Nat.div_div_eq_div_mul]
        rw [this, ih, pow_zero, Nat.div_one, pow_succ', Nat.mod_mul]
    rw [wordsOf, key, Nat.mod_eq_of_lt h]

/-- The hypotheses of `C120_layer_sound` can be met: the hash of 5 and 7 in layer 3, cell by cell. -/
example : ∃ regions r, demoMerkle.hashLayer generatorTable 0 (affine pallasGen) 3 ⟨leftCell, none⟩ ⟨rightCell, none⟩ = .ok (regions, r) ∧
    canonical.at leftCell = 5 ∧ canonical.at rightCell = 7 ∧ canonical.at r.cell = (canonicalOut : Fp) ∧
    LayerHash gen pallasGen 3 5 7 (canonicalOut : Fp) := by
  obtain ⟨regions, r, h1, h2, h3, h4⟩ := checkLayer_sat canonical_check
  have hl : canonical.at leftCell = 5 := by decide +kernel
  have hr : canonical.at rightCell = 7 := by decide +kernel
  have h5 := C120_layer_sound demoMerkle demoMerkle_distinct generatorTable gen gen_table pallasGen 0 3 (by norm_num) _ _ _ _ h1
    (fun _ => RangeCheck.load 10) (C103_table 10) canonical h2 h3
  rw [hl, hr, h4] at h5
  exact ⟨regions, r, h1, hl, hr, h4, h5⟩

/-- The hypotheses of `C120_layer_complete` can be met: the hash of 5 and 7 in layer 3. -/
example : ∃ regions out, demoMerkle.hashLayer generatorTable 0 (affine pallasGen) 3 ⟨leftCell, some 5⟩ ⟨rightCell, some 7⟩ =
      .ok (regions, out) ∧ ∀ w : Content Fp, FollowsAll w 0 regions → w.at leftCell = 5 → w.at rightCell = 7 →
        w.at out.cell = (canonicalOut : Fp) := by
  obtain ⟨P, p1, p2⟩ := hash_of_chain canonical_chain
  have e5 : (5 : Fp).val = 5 := by decide +kernel
  have e7 : (7 : Fp).val = 7 := by decide +kernel
  obtain ⟨regions, out, h1, h2⟩ := C120_layer_complete demoMerkle demoMerkle_distinct (by unfold MerkleDistinct; decide) generatorTable
    gen gen_table pallasGen P pallasGen_ne 0 3 (by norm_num) ⟨leftCell, some 5⟩ ⟨rightCell, some 7⟩ 5 7 rfl rfl (wordsOf 3 5 7)
    (by rw [e5, e7]; exact wordsOf_spec (by decide +kernel)) p1 (fun _ => RangeCheck.load 10) (C103_table 10)
  refine ⟨regions, out, h1, fun w hf hl hr => ?_⟩
  rw [(h2 w hf (congrArg some hl.symm) (congrArg some hr.symm)).2.2.2, p2]

/-- The hypotheses of `C120_path_sound` can be met: a path of one layer over 5 with the sibling 7. -/
example : ∃ regions r, Merkle.layers generatorTable (affine pallasGen) 0 0 ⟨⟨8, 0, .advice 0⟩, none⟩ [(demoMerkle, none, none)] =
      .ok (regions, r) ∧ stepped.at ⟨8, 0, .advice 0⟩ = 5 ∧ stepped.at r.cell = (steppedOut : Fp) ∧
    Path gen pallasGen 0 1 5 (steppedOut : Fp) := by
  obtain ⟨regions, r, h1, h2, h3, h4⟩ := checkStep_sat stepped_check
  have hn : stepped.at ⟨8, 0, .advice 0⟩ = 5 := by decide +kernel
  have h5 := C120_path_sound generatorTable gen gen_table pallasGen demoMerkle.chip [demoMerkle.sins.lookup generatorTable]
    (fun _ => RangeCheck.load 10) stepped [(demoMerkle, none, none)] (fun s hs => by
      obtain rfl := List.mem_singleton.1 hs
      exact ⟨demoMerkle_distinct, C103_table 10, fun _ h => h, fun _ h => h, List.mem_singleton.2 rfl⟩) (by norm_num) 0 _ _ _ h1 h2
    (fun i h k hk => by
      obtain rfl := List.mem_singleton.1 hk
      exact h3 i h)
  rw [hn, h4] at h5
  exact ⟨regions, r, h1, hn, h4, h5⟩

/-! ## C121 -/

/-- **C121 (not so).** Two ways to fill the cells that meet all constraints of `hash_layer` and agree on the layer and both
children, with different hashes: of the bits of 5 and 7, and of the bits of 5 plus the modulus and 7. No addition is
exceptional in either. -/
theorem C121_ambiguous : ∃ (c : Merkle) (left right : Assigned Fp) (regions : List (Calls Fp)) (r : Assigned Fp) (w w' : Content Fp)
    (P P' : Pt (5 : Fp)) (ms ms' : List Nat), RangeCheckDistinct c.lookup ∧
    c.hashLayer generatorTable 0 (affine pallasGen) 3 left right = .ok (regions, r) ∧
    (SatAll c.chip (fun _ => RangeCheck.load 10) w 0 regions ∧ SatAll c.chip (fun _ => RangeCheck.load 10) w' 0 regions) ∧
    (∀ i (h : i < regions.length), LooksUp (c.sins.lookup generatorTable) (Sinsemilla.load generatorTable) w (0 + i) regions[i] ∧
      LooksUp (c.sins.lookup generatorTable) (Sinsemilla.load generatorTable) w' (0 + i) regions[i]) ∧
    (w.at left.cell = 5 ∧ w'.at left.cell = 5) ∧ (w.at right.cell = 7 ∧ w'.at right.cell = 7) ∧
    (LayerWords 3 5 7 ms ∧ hashOf gen pallasGen ms = some P ∧ w.at r.cell = (coords P).1) ∧
    (LayerWords 3 (5 + pallasBase) 7 ms' ∧ hashOf gen pallasGen ms' = some P' ∧ w'.at r.cell = (coords P').1) ∧
    w.at r.cell ≠ w'.at r.cell := by
  obtain ⟨regions, r, h1, h2, h3, h4⟩ := checkLayer_sat canonical_check
  obtain ⟨regions', r', h1', h2', h3', h4'⟩ := checkLayer_sat other_check
  obtain ⟨rfl, rfl⟩ := Prod.mk.inj (Except.ok.inj (h1.symm.trans h1'))
  obtain ⟨P, p1, p2⟩ := hash_of_chain canonical_chain
  obtain ⟨P', p1', p2'⟩ := hash_of_chain other_chain
  refine ⟨demoMerkle, ⟨leftCell, none⟩, ⟨rightCell, none⟩, regions, r, canonical, other, P, P', _, _, demoMerkle_distinct, h1, ⟨h2, h2'⟩,
    fun i h => ⟨h3 i h, h3' i h⟩, ⟨by decide +kernel, by decide +kernel⟩, ⟨by decide +kernel, by decide +kernel⟩,
    ⟨wordsOf_spec (by decide +kernel), p1, by rw [h4, p2]⟩, ⟨wordsOf_spec (by decide +kernel), p1', by rw [h4', p2']⟩, ?_⟩
  rw [h4, h4']
  decide +kernel

/-- A number of 255 bits that stands for an element not below 2^255 - p is that element. -/
theorem canonical_of_large {x : Fp} {L : Nat} (hL : L < 2 ^ 255) (h : (L : Fp) = x) (hx : 2 ^ 255 ≤ x.val + pallasBase) : L = x.val := by
  have h1 : x.val = L % pallasBase := by rw [← h, ZMod.val_natCast]
  have h2 : L / pallasBase = 0 := by
    by_contra h0
    have := Nat.div_add_mod L pallasBase
    have := Nat.le_mul_of_pos_right pallasBase (Nat.pos_of_ne_zero h0)
    omega
  have := Nat.div_add_mod L pallasBase
  rw [h2] at this
  omega

/-- **C121 (what holds).** If neither child is below 2^255 - p, each has one encoding only, and the cell returned contains
the hash of these, if there is one. -/
theorem C121_partial (c : Merkle) (hd : RangeCheckDistinct c.lookup) (S : List (Fp × Fp)) (G : Nat → Pt (5 : Fp)) (hS : Generators S G)
    (Q : Pt (5 : Fp)) (start l : Nat) (hl : l < 2 ^ 64) (left right out : Assigned Fp) (regions : List (Calls Fp))
    (h : c.hashLayer S start (affine Q) l left right = .ok (regions, out)) (table : Nat → List Fp)
    (ht : IsTable 10 (table c.lookup.tableIdx)) (w : Content Fp) (hs : SatAll c.chip table w start regions)
    (hlk : ∀ i (h : i < regions.length), LooksUp (c.sins.lookup S) (Sinsemilla.load S) w (start + i) regions[i])
    (hx : 2 ^ 255 ≤ (w.at left.cell).val + pallasBase) (hy : 2 ^ 255 ≤ (w.at right.cell).val + pallasBase) (ms : List Nat)
    (hms : LayerWords l (w.at left.cell).val (w.at right.cell).val ms) (P : Pt (5 : Fp)) (hP : hashOf G Q ms = some P) :
    w.at out.cell = (coords P).1 := by
  obtain ⟨-, L, R, ms', hL, hR, eL, eR, hw, hh⟩ := layer_sound hd hS hl h ht hs hlk
  rw [canonical_of_large hL eL hx, canonical_of_large hR eR hy] at hw
  have : ms' = ms := Nat.ofDigits_inj_of_len_eq (b := 1024) (by norm_num) (hw.1.trans hms.1.symm) hw.2.1 hms.2.1 (hw.2.2.trans hms.2.2.symm)
  exact hh P (this ▸ hP)

/-- There are such children: all but 2^255 - p of the elements, here the last one. -/
example : 2 ^ 255 ≤ (-1 : Fp).val + pallasBase := by decide +kernel

end Verif.Props

open Verif.Props
#print axioms C120_layer_sound
#print axioms C120_path_sound
#print axioms C120_layer_complete
#print axioms C120_runs
#print axioms C121_ambiguous
#print axioms C121_partial

import Verif.Lemmas.SinsemillaCommit

/-!
C122 and C123 (Sinsemilla commitments in circuits, and what blinds them).
-/

namespace Verif.Props

open Verif.Gadget Verif.Spec.Gadget Verif.Spec Verif.Spec.Ecc Verif.Spec.EccFixed Verif.Spec.Sinsemilla Verif.Spec.SinsemillaCommit
open Verif.Lemmas.Gadget Verif.Lemmas.Ecc Verif.Lemmas.Sinsemilla Verif.Lemmas.SinsemillaCommit
open Verif.FloorPlanner (Call)
open Verif.Spec.Pow5 (FollowsAll)

/-- No two of the selectors of the gates are the same. -/
def CommitDistinct (c : CommitDomain pallasBase) : Prop :=
  [c.hash.qS1, c.hash.qS4, c.mul.qFull, c.mul.sup.runningSum.qRangeCheck, c.mul.sup.add.qAdd,
    c.mul.sup.addIncomplete.qAddIncomplete].Nodup

/-! ## C122 -/

/-- **C122 (soundness).** Whatever the prover puts into the cells: if the constraints hold, the number in the cell of each
piece has the words that were hashed, and the cells returned contain the commitment to these words with some number of 255
bits, if the words have a hash. -/
theorem C122_sound (c : CommitDomain pallasBase) (mul : Chip Fp) (hchip : c.mul.chip (5 : Fp) = .ok mul) (G : Nat → Pt (5 : Fp))
    (hS : Generators c.S G) (Q R : Pt (5 : Fp)) (hQ : c.Q = affine Q) (hR : R ≠ 0) (t : TableOf 85 R c.R)
    (pieces : List (Piece pallasBase)) (hne : pieces ≠ []) (hp : ∀ piece ∈ pieces, Made piece) (start : Nat)
    (r : MulFull.ScalarFixed pallasBase vestaBase) (regions : List (Calls Fp)) (out : EccPoint Fp)
    (zss : List (List (Assigned Fp))) (h : c.commit start pieces r = .ok (regions, out, zss)) (table : Nat → List Fp)
    (w : Content Fp) (hs : Meets c mul table w start regions) :
    ∃ mss : List (List Nat), ∃ k < 2 ^ 255, List.Forall₂ (WordsOf w) pieces mss ∧ List.Forall₂ (SumsOf w) zss mss ∧
      ∀ P, commitOf G Q R mss.flatten k = some P → Holds w out P := by
  obtain ⟨mss, k, hk, h⟩ := commit_sound hchip hS hQ hR t hne hp h hs
  exact ⟨mss, k, hk.trans_eq (by norm_num), h⟩

/-- **C122 (soundness of the short one).** The same for the first coordinate. -/
theorem C122_short_sound (c : CommitDomain pallasBase) (mul : Chip Fp) (hchip : c.mul.chip (5 : Fp) = .ok mul)
    (G : Nat → Pt (5 : Fp)) (hS : Generators c.S G) (Q R : Pt (5 : Fp)) (hQ : c.Q = affine Q) (hR : R ≠ 0) (t : TableOf 85 R c.R)
    (pieces : List (Piece pallasBase)) (hne : pieces ≠ []) (hp : ∀ piece ∈ pieces, Made piece) (start : Nat)
    (r : MulFull.ScalarFixed pallasBase vestaBase) (regions : List (Calls Fp)) (out : Assigned Fp)
    (zss : List (List (Assigned Fp))) (h : c.shortCommit start pieces r = .ok (regions, out, zss)) (table : Nat → List Fp)
    (w : Content Fp) (hs : Meets c mul table w start regions) :
    ∃ mss : List (List Nat), ∃ k < 2 ^ 255, List.Forall₂ (WordsOf w) pieces mss ∧ List.Forall₂ (SumsOf w) zss mss ∧
      ∀ P, commitOf G Q R mss.flatten k = some P → w.at out.cell = (coords P).1 := by
  unfold CommitDomain.shortCommit at h
  obtain ⟨⟨regions', point, zs⟩, h1, h⟩ := bind_ok h
  simp only [pure, Except.pure, Except.ok.injEq, Prod.mk.injEq] at h
  obtain ⟨rfl, rfl, rfl⟩ := h
  obtain ⟨mss, k, hk, m1, m2, m3⟩ := C122_sound c mul hchip G hS Q R hQ hR t pieces hne hp start r _ _ _ h1 table w hs
  exact ⟨mss, k, hk, m1, m2, fun P hP => congrArg Prod.fst (m3 P hP)⟩

/-- **C122 (completeness).** For every message of words that has a hash and every scalar, the chip succeeds, and a prover who
writes what it assigns meets the constraints and gets the commitment. -/
theorem C122_complete (c : CommitDomain pallasBase) (mul : Chip Fp) (hchip : c.mul.chip (5 : Fp) = .ok mul)
    (hd : CommitDistinct c) (G : Nat → Pt (5 : Fp)) (hS : Generators c.S G) (Q R P : Pt (5 : Fp)) (hQ : c.Q = affine Q)
    (hQ0 : Q ≠ 0) (hR : R ≠ 0) (t : TableOf 85 R c.R) (pieces : List (Piece pallasBase)) (mss : List (List Nat)) (hne : pieces ≠ [])
    (hp : ∀ piece ∈ pieces, Made piece ∧ 0 < piece.numWords)
    (hw : List.Forall₂ (fun piece ms => ms.length = piece.numWords ∧ (∀ m ∈ ms, m < 1024) ∧
      ∃ x, piece.value.value = some x ∧ x.val = Nat.ofDigits 1024 ms) pieces mss) (r : ZMod vestaBase)
    (h : commitOf G Q R mss.flatten r.val = some P) (start : Nat) (table : Nat → List Fp) :
    ∃ regions out zss, c.commit start pieces (.new (some r)) = .ok (regions, out, zss) ∧
      c.shortCommit start pieces (.new (some r)) = .ok (regions, out.x, zss) ∧ ∀ w, FollowsAll w start regions →
      (∀ piece ∈ pieces, Known w piece.value) → Meets c mul table w start regions ∧ KnownPoint w out ∧ Holds w out P := by
  obtain ⟨regions, out, zss, h1, h2⟩ := commit_complete (start := start) hchip hd hS hQ hQ0 hR t hne hp hw r h table
  refine ⟨regions, out, zss, h1, ?_, h2⟩
  unfold CommitDomain.shortCommit
  rw [h1]
  rfl

/-- **C122 (keys).** While nothing is known the chip succeeds. -/
theorem C122_runs (c : CommitDomain pallasBase) (Q R : Pt (5 : Fp)) (hQ : c.Q = affine Q) (hQ0 : Q ≠ 0) (t : TableOf 85 R c.R)
    (pieces : List (Piece pallasBase)) (hne : pieces ≠ []) (hp : ∀ piece ∈ pieces, 0 < piece.numWords ∧ piece.value.value = none)
    (start : Nat) : ∃ regions out zss, c.commit (q := vestaBase) start pieces (.new none) = .ok (regions, out, zss) :=
  commit_total hQ hQ0 t hne hp

/-- **C122 (used scalars).** With a scalar that a multiplication has returned, a commitment panics. -/
theorem C122_used (c : CommitDomain pallasBase) (start : Nat) (pieces : List (Piece pallasBase)) (value : Option (ZMod vestaBase))
    (windows : List (Assigned Fp)) : c.commit start pieces ⟨value, some windows⟩ = .error .panic := rfl

/-! ## C123 -/

/-- **C123.** Every point is a commitment to every message that has a hash, with exactly one scalar: a commitment says nothing
about the message. -/
theorem C123_hiding (G : Nat → Pt (5 : Fp)) (Q R : Pt (5 : Fp)) (hR : R ≠ 0) (words : List Nat) (h : hashOf G Q words ≠ none)
    (P : Pt (5 : Fp)) : ∃! r : ZMod vestaBase, commitOf G Q R words r.val = some P := by
  obtain ⟨H, hH⟩ := Option.ne_none_iff_exists'.1 h
  have ho : addOrderOf R = vestaBase := addOrderOf_eq_prime (pallas_order R) hR
  obtain ⟨z, hz⟩ := AddSubgroup.mem_zmultiples_iff.1 (mem_zmultiples_of_prime_card (g' := P - H) pallas_card hR)
  have key : ∀ r : ZMod vestaBase, commitOf G Q R words r.val = some P ↔ r.val • R = P - H := fun r => by
    rw [commitOf, hH, Option.map_some, Option.some.injEq, eq_sub_iff_add_eq, add_comm]
  refine ⟨(z : ZMod vestaBase), (key _).2 ?_, fun r hr => ?_⟩
  · rw [← hz, ← natCast_zsmul, ZMod.val_intCast, ← ho, mod_addOrderOf_zsmul]
  · have hr' := (key r).1 hr
    rw [← hz] at hr'
    have hm : (r.val : Int) • R = z • R := by rw [natCast_zsmul]; exact hr'
    rw [zsmul_eq_zsmul_iff_modEq, ho] at hm
    have := (ZMod.intCast_eq_intCast_iff _ _ _).2 hm
    rw [← this, Int.cast_natCast, ZMod.natCast_zmod_val]

/-- **C123 (in the circuit).** For every message of words that has a hash and every point there is a scalar with which an honest
prover meets the constraints and gets the point. -/
theorem C123_any (c : CommitDomain pallasBase) (mul : Chip Fp) (hchip : c.mul.chip (5 : Fp) = .ok mul)
    (hd : CommitDistinct c) (G : Nat → Pt (5 : Fp)) (hS : Generators c.S G) (Q R P : Pt (5 : Fp)) (hQ : c.Q = affine Q)
    (hQ0 : Q ≠ 0) (hR : R ≠ 0) (t : TableOf 85 R c.R) (pieces : List (Piece pallasBase)) (mss : List (List Nat)) (hne : pieces ≠ [])
    (hp : ∀ piece ∈ pieces, Made piece ∧ 0 < piece.numWords)
    (hw : List.Forall₂ (fun piece ms => ms.length = piece.numWords ∧ (∀ m ∈ ms, m < 1024) ∧
      ∃ x, piece.value.value = some x ∧ x.val = Nat.ofDigits 1024 ms) pieces mss)
    (h : hashOf G Q mss.flatten ≠ none) (start : Nat) (table : Nat → List Fp) :
    ∃ (r : ZMod vestaBase) (regions : List (Calls Fp)) (out : EccPoint Fp) (zss : List (List (Assigned Fp))),
      c.commit start pieces (.new (some r)) = .ok (regions, out, zss) ∧ ∀ w, FollowsAll w start regions →
      (∀ piece ∈ pieces, Known w piece.value) → Meets c mul table w start regions ∧ Holds w out P := by
  obtain ⟨r, hr, -⟩ := C123_hiding G Q R hR mss.flatten h P
  obtain ⟨regions, out, zss, h1, -, h2⟩ := C122_complete c mul hchip hd G hS Q R P hQ hQ0 hR t pieces mss hne hp hw r hr start table
  exact ⟨r, regions, out, zss, h1, fun w hf hk => ⟨(h2 w hf hk).1, (h2 w hf hk).2.2⟩⟩

/-! ## Examples -/

theorem commit_made (a b : Option Fp) : ∀ piece ∈ commitPieces a b, Made piece := by
  intro piece h
  simp only [commitPieces, List.mem_cons, List.not_mem_nil, or_false] at h
  have : assert (2 * 10 < pallasBase.size) = .ok () := assert_ok.2 (by rw [pallas_size]; decide)
  have h' : assert (1 * 10 < pallasBase.size) = .ok () := assert_ok.2 (by rw [pallas_size]; decide)
  rcases h with rfl | rfl <;> unfold Made Piece.new <;> simp only
  · rw [this]; rfl
  · rw [h']; rfl

/-- Cells that meet the constraints: the words 3, 700 and 1023, with the scalar 5, computed independently, with the generators
of the code. -/
example : ∃ chip regions out zss, demoFull.chip (5 : Fp) = .ok chip ∧
    demoCommit.commit (q := vestaBase) 0 (commitPieces none none) (.new none) = .ok (regions, out, zss) ∧
    Meets demoCommit chip (fun _ => []) commitCells 0 regions ∧
    ∃ mss, ∃ k < 2 ^ 255, List.Forall₂ (WordsOf commitCells) (commitPieces none none) mss ∧
      ∀ P, commitOf gen pallasGen pallasGen mss.flatten k = some P → Holds commitCells out P := by
  obtain ⟨chip, regions, out, zss, h1, h2, h3⟩ := commit_meets (table := fun _ => [])
  obtain ⟨mss, k, hk, m1, -, m2⟩ := C122_sound demoCommit chip h1 gen gen_table pallasGen pallasGen rfl pallasGen_ne fullBase_table _
    (by simp [commitPieces]) (commit_made none none) 0 _ regions out zss h2 (fun _ => []) commitCells h3
  exact ⟨chip, regions, out, zss, h1, h2, h3, mss, k, hk, m1, m2⟩

/-- The same message with every scalar, by an honest prover. -/
example (r : ZMod vestaBase) : ∃ P, commitOf gen pallasGen pallasGen [3, 700, 1023] r.val = some P ∧ ∃ regions out zss,
    demoCommit.commit 0 (commitPieces (some ((3 + 700 * 1024 : Nat) : Fp)) (some ((1023 : Nat) : Fp))) (.new (some r)) =
      .ok (regions, out, zss) := by
  obtain ⟨H, h, -⟩ := sample_hash
  obtain ⟨chip, hc⟩ : ∃ chip, demoFull.chip (5 : Fp) = .ok chip := ⟨_, rfl⟩
  have hP : commitOf gen pallasGen pallasGen [[3, 700], [1023]].flatten r.val = some (H + r.val • pallasGen) := by
    unfold commitOf
    rw [show [[3, 700], [1023]].flatten = [3, 700, 1023] from rfl, h]
    rfl
  obtain ⟨regions, out, zss, h1, -⟩ := C122_complete demoCommit chip hc (by unfold CommitDistinct; decide) gen gen_table pallasGen
    pallasGen _ rfl pallasGen_ne pallasGen_ne fullBase_table
    (commitPieces (some ((3 + 700 * 1024 : Nat) : Fp)) (some ((1023 : Nat) : Fp))) [[3, 700], [1023]] (by simp [commitPieces])
    (fun piece hm => ⟨commit_made _ _ piece hm, by
      simp only [commitPieces, List.mem_cons, List.not_mem_nil, or_false] at hm
      rcases hm with rfl | rfl <;> decide⟩)
    (.cons ⟨rfl, by decide, _, rfl, by decide +kernel⟩ (.cons ⟨rfl, by decide, _, rfl, by decide +kernel⟩ .nil)) r hP 0 (fun _ => [])
  exact ⟨_, hP, regions, out, zss, h1⟩

/-- The words 3, 700 and 1023 can be committed to as the identity. -/
example : ∃! r : ZMod vestaBase, commitOf gen pallasGen pallasGen [3, 700, 1023] r.val = some 0 := by
  obtain ⟨H, h, -⟩ := sample_hash
  exact C123_hiding gen pallasGen pallasGen pallasGen_ne _ (by rw [h]; simp) 0

/-- In the circuit too. -/
example : ∃ (r : ZMod vestaBase) (regions : List (Calls Fp)) (out : EccPoint Fp) (zss : List (List (Assigned Fp))),
    demoCommit.commit 0 (commitPieces (some ((3 + 700 * 1024 : Nat) : Fp)) (some ((1023 : Nat) : Fp))) (.new (some r)) =
      .ok (regions, out, zss) ∧ ∀ w, FollowsAll w 0 regions →
      (∀ piece ∈ commitPieces (some ((3 + 700 * 1024 : Nat) : Fp)) (some ((1023 : Nat) : Fp)), Known w piece.value) → Holds w out (0 : Pt (5 : Fp)) := by
  obtain ⟨H, h, -⟩ := sample_hash
  obtain ⟨chip, hc⟩ : ∃ chip, demoFull.chip (5 : Fp) = .ok chip := ⟨_, rfl⟩
  obtain ⟨r, regions, out, zss, h1, h2⟩ := C123_any demoCommit chip hc (by unfold CommitDistinct; decide) gen gen_table pallasGen
    pallasGen 0 rfl pallasGen_ne pallasGen_ne fullBase_table
    (commitPieces (some ((3 + 700 * 1024 : Nat) : Fp)) (some ((1023 : Nat) : Fp))) [[3, 700], [1023]] (by simp [commitPieces])
    (fun piece hm => ⟨commit_made _ _ piece hm, by
      simp only [commitPieces, List.mem_cons, List.not_mem_nil, or_false] at hm
      rcases hm with rfl | rfl <;> decide⟩)
    (.cons ⟨rfl, by decide, _, rfl, by decide +kernel⟩ (.cons ⟨rfl, by decide, _, rfl, by decide +kernel⟩ .nil))
    (by rw [show [[3, 700], [1023]].flatten = [3, 700, 1023] from rfl, h]; simp) 0 (fun _ => [])
  exact ⟨r, regions, out, zss, h1, fun w hf hk => (h2 w hf hk).2⟩

end Verif.Props

#print axioms Verif.Props.C122_sound
#print axioms Verif.Props.C122_short_sound
#print axioms Verif.Props.C122_complete
#print axioms Verif.Props.C122_runs
#print axioms Verif.Props.C122_used
#print axioms Verif.Props.C123_hiding
#print axioms Verif.Props.C123_any

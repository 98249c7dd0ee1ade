import Verif.Lemmas.SinsemillaShown
import Verif.Lemmas.SinsemillaKeys

/-!
C118 and C119 (the Sinsemilla hash in circuits, and messages it is not right for).
-/

namespace Verif.Props

open Verif.Gadget Verif.Spec.Gadget Verif.Spec Verif.Spec.Ecc Verif.Spec.Sinsemilla Verif.Lemmas.Ecc Verif.Lemmas.Gadget
open Verif.Lemmas.Sinsemilla
open Verif.FloorPlanner (Call)

/-- What `MessagePiece::new` makes. -/
def Made (piece : Piece pallasBase) : Prop := Piece.new piece.value piece.numWords = .ok piece

theorem Made.size {piece : Piece pallasBase} (h : Made piece) : piece.numWords * 10 < pallasBase.size := by
  obtain ⟨_, h1, -⟩ := bind_ok h
  simpa using assert_ok.1 h1

theorem pallas_size : pallasBase.size = 255 := by
  have h1 : pallasBase.size ≤ 255 := Nat.size_le.2 (by decide +kernel)
  have h2 : 254 < pallasBase.size := Nat.lt_size.2 (by decide +kernel)
  omega

/-! ## C118 -/

/-- **C118 (soundness).** Whatever the prover puts into the cells: if the constraints hold, the number in the cell of each
piece has the digits that were hashed, the running sums contain what is left of them, and if these words have a hash, the
cells returned contain it. -/
theorem C118_sound (c : Sinsemilla) (S : List (Fp × Fp)) (G : Nat → Pt (5 : Fp)) (hS : Generators S G) (Q : Pt (5 : Fp))
    (pieces : List (Piece pallasBase)) (hne : pieces ≠ []) (hp : ∀ piece ∈ pieces, Made piece) (region : Nat) (calls : Calls Fp)
    (out : EccPoint Fp) (zss : List (List (Assigned Fp))) (h : c.hashToPoint S region (affine Q) pieces = .ok (calls, out, zss))
    (table : Nat → List Fp) (w : Content Fp) (hs : Sat c.chip table w region calls)
    (hl : LooksUp (c.lookup S) (Sinsemilla.load S) w region calls) :
    ∃ mss : List (List Nat), List.Forall₂ (WordsOf w) pieces mss ∧ List.Forall₂ (SumsOf w) zss mss ∧
      ∀ P, hashOf G Q mss.flatten = some P → Holds w out P :=
  hashToPoint_sound smooth_five.two hS hne (fun piece hm => (hp piece hm).size) h (fun _ h => h) (fun _ h => h) hs hl

/-- **C118 (completeness).** For every message of words that has a hash, the chip succeeds, and a prover who writes what it
assigns meets the constraints and gets the hash. -/
theorem C118_complete (c : Sinsemilla) (hsel : c.qS1 ≠ c.qS4) (S : List (Fp × Fp)) (G : Nat → Pt (5 : Fp)) (hS : Generators S G)
    (Q P : Pt (5 : Fp)) (hQ : Q ≠ 0) (pieces : List (Piece pallasBase)) (mss : List (List Nat)) (hne : pieces ≠ [])
    (hp : ∀ piece ∈ pieces, Made piece ∧ 0 < piece.numWords)
    (hw : List.Forall₂ (fun piece ms => ms.length = piece.numWords ∧ (∀ m ∈ ms, m < 1024) ∧
      ∃ x, piece.value.value = some x ∧ x.val = Nat.ofDigits 1024 ms) pieces mss)
    (h : hashOf G Q mss.flatten = some P) (region : Nat) (table : Nat → List Fp) :
    ∃ calls out zss, c.hashToPoint S region (affine Q) pieces = .ok (calls, out, zss) ∧
      ∀ w : Content Fp, Follows w region calls → (∀ piece ∈ pieces, Known w piece.value) →
        Sat c.chip table w region calls ∧ LooksUp (c.lookup S) (Sinsemilla.load S) w region calls ∧ KnownPoint w out ∧ Holds w out P :=
  hashToPoint_complete usable_pallas (by decide +kernel) hS hsel hne hw (fun piece hm => ⟨(hp piece hm).2, by
    have := (hp piece hm).1.size
    rw [pallas_size] at this
    omega⟩) hQ h region table

/-- **C118 (keys).** While no piece is known the chip succeeds. -/
theorem C118_runs (c : Sinsemilla) (S : List (Fp × Fp)) (Q : Pt (5 : Fp)) (hQ : Q ≠ 0) (pieces : List (Piece pallasBase))
    (hne : pieces ≠ []) (hp : ∀ piece ∈ pieces, 0 < piece.numWords ∧ piece.value.value = none) (region : Nat) :
    ∃ calls out zss, c.hashToPoint S region (affine Q) pieces = .ok (calls, out, zss) :=
  hashToPoint_total hQ hne hp

/-- **C118 (keys).** What is called depends on the cells of the pieces and the numbers of their words only. -/
theorem C118_keys (c : Sinsemilla) (S : List (Fp × Fp)) (Q : Pt (5 : Fp)) (pieces pieces' : List (Piece pallasBase))
    (hp : List.Forall₂ (fun a a' => a.value.cell = a'.value.cell ∧ a.numWords = a'.numWords) pieces pieces') (region : Nat)
    (calls calls' : Calls Fp) (out out' : EccPoint Fp) (zss zss' : List (List (Assigned Fp)))
    (h : c.hashToPoint S region (affine Q) pieces = .ok (calls, out, zss))
    (h' : c.hashToPoint S region (affine Q) pieces' = .ok (calls', out', zss')) :
    List.Forall₂ SameCall calls calls' ∧ SameCells out out' ∧ List.Forall₂ (List.Forall₂ fun a a' => a.cell = a'.cell) zss zss' :=
  hashToPoint_same hp h h'

/-- **C118 (generators).** The 1024 constants are points of the curve, and no two of them are the same up to sign: different
words are looked up as different points. -/
theorem C118_generators : ∃ G : Nat → Pt (5 : Fp), Generators (Sinsemilla.table.map fun (s : Nat × Nat) => ((s.1 : Fp), (s.2 : Fp))) G ∧
    ∀ i j, i < 1024 → j < 1024 → G i = G j ∨ G i = -G j → i = j :=
  ⟨gen, gen_table, fun _ _ hi hj h => gen_apart hi hj h⟩

/-! ## C119 -/

/-- **C119 (not so).** The empty message is accepted, its hash is the point started from, and yet the cells returned can
contain any second coordinate at all. -/
theorem C119_empty (c : Sinsemilla) (hsel : c.qS1 ≠ c.qS4) (hcol : [c.da.xA, c.da.xP, c.da.lambda1, c.da.lambda2].Nodup)
    (S : List (Fp × Fp)) (G : Nat → Pt (5 : Fp)) (hS : Generators S G) (Q : Pt (5 : Fp)) (hQ : Q ≠ 0) (region : Nat) (y : Fp)
    (table : Nat → List Fp) : message ([] : List (Piece pallasBase)) = .ok [] ∧ hashOf G Q [] = some Q ∧
    ∃ calls out zss w, c.hashToPoint S region (affine Q) [] = .ok (calls, out, zss) ∧ Sat c.chip table w region calls ∧
      LooksUp (c.lookup S) (Sinsemilla.load S) w region calls ∧ (w.at out.x.cell, w.at out.y.cell) = ((coords Q).1, y) :=
  ⟨rfl, rfl, empty_any usable_pallas hS hsel hcol hQ region y table⟩

/-- **C119 (not so).** An honest prover meets the constraints for the empty message only if the point started from has
y² = 2x - 2. -/
theorem C119_honest (c : Sinsemilla) (S : List (Fp × Fp)) (Q : Pt (5 : Fp)) (hQ : Q ≠ 0) (region : Nat) (calls : Calls Fp)
    (out : EccPoint Fp) (zss : List (List (Assigned Fp))) (table : Nat → List Fp)
    (h : c.hashToPoint S region (affine Q) [] = .ok (calls, out, zss)) (w : Content Fp) (hf : Follows w region calls)
    (hs : Sat c.chip table w region calls) : (coords Q).2 ^ 2 = 2 * (coords Q).1 - 2 :=
  empty_honest usable_pallas hQ h hf hs

/-- **C119 (not so).** A message of 253 words, the most that the hash outside of circuits takes, panics. -/
theorem C119_longest (pieces : List (Piece pallasBase)) (h : (pieces.map Piece.numWords).sum = 253) :
    message pieces = .error .panic := by
  unfold message
  rw [h]
  rfl

/-- **C119 (not so).** A message that begins with a piece without words panics. -/
theorem C119_wordless (c : Sinsemilla) (S : List (Fp × Fp)) (Q : Pt (5 : Fp)) (hQ : Q ≠ 0) (a : Piece pallasBase)
    (h0 : a.numWords = 0) (pieces : List (Piece pallasBase)) (region : Nat) :
    c.hashToPoint S region (affine Q) (a :: pieces) = .error .panic :=
  hashToPoint_wordless hQ h0 pieces

/-- **C119 (what holds).** For a message with a piece and of fewer than 253 words in all, the pieces are taken, and what the
cells returned contain is determined by the cells of the pieces: two ways to fill the cells that agree on the pieces agree on
the result, if the words have a hash. -/
theorem C119_partial (c : Sinsemilla) (S : List (Fp × Fp)) (G : Nat → Pt (5 : Fp)) (hS : Generators S G) (Q : Pt (5 : Fp))
    (pieces : List (Piece pallasBase)) (hne : pieces ≠ []) (hp : ∀ piece ∈ pieces, Made piece)
    (hlt : (pieces.map Piece.numWords).sum < 253) (region : Nat) (calls : Calls Fp)
    (out : EccPoint Fp) (zss : List (List (Assigned Fp))) (h : c.hashToPoint S region (affine Q) pieces = .ok (calls, out, zss))
    (table : Nat → List Fp) (w w' : Content Fp) (hs : Sat c.chip table w region calls) (hs' : Sat c.chip table w' region calls)
    (hl : LooksUp (c.lookup S) (Sinsemilla.load S) w region calls) (hl' : LooksUp (c.lookup S) (Sinsemilla.load S) w' region calls)
    (hsame : ∀ piece ∈ pieces, w.at piece.value.cell = w'.at piece.value.cell) :
    message pieces = .ok pieces ∧ ∃ mss : List (List Nat), List.Forall₂ (WordsOf w) pieces mss ∧
      (hashOf G Q mss.flatten ≠ none → (w.at out.x.cell, w.at out.y.cell) = (w'.at out.x.cell, w'.at out.y.cell)) := by
  refine ⟨?_, ?_⟩
  · unfold message
    rw [assert_ok.2 (by simpa using hlt)]
    rfl
  · obtain ⟨mss, h1, -, h3⟩ := C118_sound c S G hS Q pieces hne hp region calls out zss h table w hs hl
    obtain ⟨mss', h1', -, h3'⟩ := C118_sound c S G hS Q pieces hne hp region calls out zss h table w' hs' hl'
    have key : ∀ (ps : List (Piece pallasBase)) (ms ms' : List (List Nat)), List.Forall₂ (WordsOf w) ps ms →
        List.Forall₂ (WordsOf w') ps ms' → (∀ piece ∈ ps, w.at piece.value.cell = w'.at piece.value.cell) → ms = ms' := by
      intro ps ms ms' a a' e
      induction a generalizing ms' with
      | nil => cases a'; rfl
      | cons hd _ ih =>
        cases a' with
        | cons hd' tl' =>
          rw [ih _ tl' fun q hq => e q (List.mem_cons_of_mem _ hq)]
          congr 1
          refine Nat.ofDigits_inj_of_len_eq (b := 1024) (by norm_num) (hd.1.trans hd'.1.symm) hd.2.1 hd'.2.1 ?_
          rw [← hd.2.2, ← hd'.2.2, e _ List.mem_cons_self]
    obtain rfl := key pieces mss mss' h1 h1' hsame
    refine ⟨mss, h1, fun hn => ?_⟩
    obtain ⟨P, hP⟩ := Option.ne_none_iff_exists'.1 hn
    exact (h3 P hP).trans (h3' P hP).symm

/-! ## Examples -/

theorem sample_made (a b : Option Fp) : ∀ piece ∈ samplePieces a b, Made piece := by
  intro piece h
  simp only [samplePieces, List.mem_cons, List.not_mem_nil, or_false] at h
  have : assert (2 * 10 < pallasBase.size) = .ok () := assert_ok.2 (by rw [pallas_size]; decide)
  have h' : assert (1 * 10 < pallasBase.size) = .ok () := assert_ok.2 (by rw [pallas_size]; decide)
  rcases h with rfl | rfl <;> unfold Made Piece.new <;> simp only
  · rw [this]; rfl
  · rw [h']; rfl

/-- Cells that meet the constraints: the hash of the words 3, 700 and 1023, computed independently, with the constants of the
code. -/
example : ∃ calls out zss, demo.hashToPoint generatorTable 0 (affine pallasGen) (samplePieces none none) = .ok (calls, out, zss) ∧
    Sat demo.chip (fun _ => []) sampleCells 0 calls ∧
    LooksUp (demo.lookup generatorTable) (Sinsemilla.load generatorTable) sampleCells 0 calls ∧
    ∃ mss, List.Forall₂ (WordsOf sampleCells) (samplePieces none none) mss := by
  obtain ⟨calls, out, zss, h, hs, hl⟩ := sample_sat (table := fun _ => [])
  obtain ⟨mss, h1, -⟩ := C118_sound demo generatorTable gen gen_table pallasGen _ (by simp [samplePieces]) (sample_made none none) 0 calls out zss h
    (fun _ => []) sampleCells hs hl
  exact ⟨calls, out, zss, h, hs, hl, mss, h1⟩

/-- The same message by an honest prover. -/
example : ∃ P : Pt (5 : Fp), coords P = ((sampleOut.1 : Fp), (sampleOut.2 : Fp)) ∧ ∃ calls out zss,
    demo.hashToPoint generatorTable 0 (affine pallasGen) (samplePieces (some ((3 + 700 * 1024 : Nat) : Fp)) (some ((1023 : Nat) : Fp))) =
      .ok (calls, out, zss) ∧ ∀ w : Content Fp, Follows w 0 calls →
        (∀ piece ∈ samplePieces (some ((3 + 700 * 1024 : Nat) : Fp)) (some ((1023 : Nat) : Fp)), Known w piece.value) → Holds w out P := by
  obtain ⟨P, h, hc⟩ := sample_hash
  obtain ⟨calls, out, zss, h1, h2⟩ := C118_complete demo (by decide) generatorTable gen gen_table pallasGen P pallasGen_ne
    (samplePieces (some ((3 + 700 * 1024 : Nat) : Fp)) (some ((1023 : Nat) : Fp))) [[3, 700], [1023]] (by simp [samplePieces])
    (fun piece hm => ⟨sample_made _ _ piece hm, by
      simp only [samplePieces, List.mem_cons, List.not_mem_nil, or_false] at hm
      rcases hm with rfl | rfl <;> decide⟩)
    (.cons ⟨rfl, by decide, _, rfl, by decide +kernel⟩ (.cons ⟨rfl, by decide, _, rfl, by decide +kernel⟩ .nil)) h 0 (fun _ => [])
  exact ⟨P, hc, calls, out, zss, h1, fun w hf hk => (h2 w hf hk).2.2.2⟩

/-- The empty message, with the second coordinate 7. -/
example : ∃ calls out zss w, demo.hashToPoint generatorTable 0 (affine pallasGen) [] = .ok (calls, out, zss) ∧
    Sat demo.chip (fun _ => []) w 0 calls ∧ (w.at out.x.cell, w.at out.y.cell) = (-1, 7) := by
  obtain ⟨-, -, calls, out, zss, w, h1, h2, -, h3⟩ := C119_empty demo (by decide) (by decide) generatorTable gen gen_table pallasGen
    pallasGen_ne 0 7 (fun _ => [])
  exact ⟨calls, out, zss, w, h1, h2, h3⟩

/-- No honest prover meets the constraints for it, if the point is (-1, 2). -/
example : (coords pallasGen).2 ^ 2 ≠ 2 * (coords pallasGen).1 - 2 := by decide +kernel

/-- Pieces of 253 words in all that `MessagePiece::new` makes. -/
example (a : Assigned Fp) : ∃ pieces : List (Piece pallasBase), (∀ piece ∈ pieces, Made piece) ∧
    (pieces.map Piece.numWords).sum = 253 := by
  refine ⟨List.replicate 23 ⟨a, 11⟩, fun piece h => ?_, by simp⟩
  rw [List.eq_of_mem_replicate h]
  unfold Made Piece.new
  simp only
  rw [assert_ok.2 (by rw [pallas_size]; norm_num)]
  rfl

end Verif.Props

#print axioms Verif.Props.C118_sound
#print axioms Verif.Props.C118_complete
#print axioms Verif.Props.C118_runs
#print axioms Verif.Props.C118_keys
#print axioms Verif.Props.C118_generators
#print axioms Verif.Props.C119_empty
#print axioms Verif.Props.C119_honest
#print axioms Verif.Props.C119_longest
#print axioms Verif.Props.C119_wordless
#print axioms Verif.Props.C119_partial

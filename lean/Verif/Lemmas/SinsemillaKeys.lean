import Verif.Lemmas.SinsemillaHonest

/-! What hashing with Sinsemilla calls does not depend on values. -/

namespace Verif.Lemmas.Sinsemilla

open Verif.Gadget Verif.Spec.Gadget Verif.Spec Verif.Spec.Ecc Verif.Spec.Sinsemilla Verif.Lemmas.Gadget Verif.Lemmas.Ecc
open Verif.FloorPlanner (Call)

variable {p : Nat} [Fact p.Prime] {b : ZMod p} {region : Nat} {c : Sinsemilla}

/-- The same cell and the same number of words. -/
def SamePiece (a a' : Piece p) : Prop := a.value.cell = a'.value.cell ∧ a.numWords = a'.numWords

theorem steps_same : ∀ (gs gs' : List (Option (ZMod p × ZMod p))) (row : Nat) (x y x' y' : Option (ZMod p)), gs.length = gs'.length →
    List.Forall₂ SameCall (c.steps row x y gs).1 (c.steps row x' y' gs').1
  | [], [], _, _, _, _, _, _ => .nil
  | _ :: gs, _ :: gs', row, _, _, _, _, h =>
    .cons (.advice ..) (.cons (.advice ..) (.cons (.advice ..) (.cons (.advice ..)
      (steps_same gs gs' (row + 1) _ _ _ _ (by simpa using h)))))

theorem hashPiece_same {S : List (ZMod p × ZMod p)} {offset : Nat} {a a' : Piece p} (ha : SamePiece a a') {xA yA x y xA' yA' x' y' : Option (ZMod p)}
    {final : Bool} {calls calls' : Calls (ZMod p)} {zs zs' : List (Assigned (ZMod p))}
    (h : c.hashPiece S region offset a xA yA final = .ok (calls, x, y, zs))
    (h' : c.hashPiece S region offset a' xA' yA' final = .ok (calls', x', y', zs')) :
    List.Forall₂ SameCall calls calls' ∧ List.Forall₂ (fun a a' => a.cell = a'.cell) zs zs' := by
  obtain ⟨-, -, -, -, -, l1, c1⟩ := hashPiece_split h
  obtain ⟨-, -, -, -, -, l2, c2⟩ := hashPiece_split h'
  unfold Sinsemilla.hashPiece at h h'
  obtain ⟨_, _, h⟩ := bind_ok h
  obtain ⟨_, _, h'⟩ := bind_ok h'
  obtain ⟨gens, _, h⟩ := bind_ok h
  obtain ⟨gens', _, h'⟩ := bind_ok h'
  obtain ⟨ws, h3, h⟩ := bind_ok h
  obtain ⟨ws', h3', h'⟩ := bind_ok h'
  obtain ⟨gs, h4, h⟩ := bind_ok h
  obtain ⟨gs', h4', h'⟩ := bind_ok h'
  simp only [pure, Except.pure, Except.ok.injEq, Prod.mk.injEq] at h h'
  obtain ⟨rfl, -, -, rfl⟩ := h
  obtain ⟨rfl, -, -, rfl⟩ := h'
  have e := ha.2
  refine ⟨?_, List.forall₂_iff_get.2 ⟨by rw [l1, l2, e], fun i hi hi' => ?_⟩⟩
  · rw [e]
    refine List.rel_append (List.rel_append (List.rel_append ?_ ?_) ?_) ?_
    · exact List.forall₂_same.2 fun x _ => .refl x
    · refine .cons (.advice ..) (.cons ?_ .nil)
      rw [ha.1]
      exact .refl _
    · rw [List.forall₂_map_left_iff, List.forall₂_map_right_iff, List.forall₂_iff_get]
      refine ⟨by simp only [sumCells_length, List.length_map, List.length_dropLast, transposeVec_length h3, transposeVec_length h3', e],
        fun i hi hi' => ?_⟩
      simp only [List.get_eq_getElem, sumCells_cell]
      exact .advice ..
    · exact steps_same _ _ _ _ _ _ _ (by rw [transposeVec_length h4, transposeVec_length h4', e])
  · show (_ : List (Assigned (ZMod p)))[i].cell = (_ : List (Assigned (ZMod p)))[i].cell
    exact (c1 i hi).trans (c2 i hi').symm

theorem hashPieces_same {S : List (ZMod p × ZMod p)} : ∀ (pieces pieces' : List (Piece p)), List.Forall₂ SamePiece pieces pieces' →
    ∀ (offset : Nat) {xA yA x y xA' yA' x' y' : Option (ZMod p)} {o o' : Nat} {calls calls' : Calls (ZMod p)}
    {zss zss' : List (List (Assigned (ZMod p)))}, c.hashPieces S region offset xA yA pieces = .ok (calls, o, x, y, zss) →
    c.hashPieces S region offset xA' yA' pieces' = .ok (calls', o', x', y', zss') →
    List.Forall₂ SameCall calls calls' ∧ o = o' ∧ List.Forall₂ (List.Forall₂ fun a a' => a.cell = a'.cell) zss zss'
  | [], _, .nil, offset, _, _, _, _, _, _, _, _, _, _, _, _, _, _, h, h' => by
    simp only [Sinsemilla.hashPieces, Except.ok.injEq, Prod.mk.injEq] at h h'
    obtain ⟨rfl, rfl, -, -, rfl⟩ := h
    obtain ⟨rfl, rfl, -, -, rfl⟩ := h'
    exact ⟨.nil, rfl, .nil⟩
  | a :: as, a' :: as', .cons ha has, offset, _, _, _, _, _, _, _, _, _, _, _, _, _, _, h, h' => by
    unfold Sinsemilla.hashPieces at h h'
    obtain ⟨⟨calls1, x1, y1, zs⟩, h1, h⟩ := bind_ok h
    obtain ⟨⟨calls1', x1', y1', zs'⟩, h1', h'⟩ := bind_ok h'
    obtain ⟨⟨calls2, o2, x2, y2, zss2⟩, h2, h⟩ := bind_ok h
    obtain ⟨⟨calls2', o2', x2', y2', zss2'⟩, h2', h'⟩ := bind_ok h'
    simp only [pure, Except.pure, Except.ok.injEq, Prod.mk.injEq] at h h'
    obtain ⟨rfl, rfl, -, -, rfl⟩ := h
    obtain ⟨rfl, rfl, -, -, rfl⟩ := h'
    have he : as.isEmpty = as'.isEmpty := by cases has <;> rfl
    rw [he] at h1
    rw [ha.2] at h2
    obtain ⟨i1, i2⟩ := hashPiece_same ha h1 h1'
    obtain ⟨j1, j2, j3⟩ := hashPieces_same as as' has _ h2 h2'
    exact ⟨List.rel_append i1 j1, j2, .cons i2 j3⟩

theorem hashToPoint_same {S : List (ZMod p × ZMod p)} {Q : AffinePoint (ZMod p)} {pieces pieces' : List (Piece p)}
    (hp : List.Forall₂ SamePiece pieces pieces') {calls calls' : Calls (ZMod p)} {out out' : EccPoint (ZMod p)}
    {zss zss' : List (List (Assigned (ZMod p)))} (h : c.hashToPoint S region Q pieces = .ok (calls, out, zss))
    (h' : c.hashToPoint S region Q pieces' = .ok (calls', out', zss')) :
    List.Forall₂ SameCall calls calls' ∧ SameCells out out' ∧ List.Forall₂ (List.Forall₂ fun a a' => a.cell = a'.cell) zss zss' := by
  unfold Sinsemilla.hashToPoint at h h'
  match Q, h, h' with
  | some (xQ, yQ), h, h' =>
    simp only at h h'
    obtain ⟨⟨calls1, o, x, y, zss1⟩, h1, h⟩ := bind_ok h
    obtain ⟨⟨calls1', o', x', y', zss1'⟩, h1', h'⟩ := bind_ok h'
    dsimp only at h h'
    split at h
    · cases h
    split at h'
    · cases h'
    simp only [pure, Except.pure, Except.ok.injEq, Prod.mk.injEq] at h h'
    obtain ⟨rfl, rfl, rfl⟩ := h
    obtain ⟨rfl, rfl, rfl⟩ := h'
    obtain ⟨i1, rfl, i3⟩ := hashPieces_same _ _ hp 0 h1 h1'
    exact ⟨List.rel_append (.cons (.refl _) (.cons (.refl _) (.cons (.refl _) i1)))
      (.cons (.advice ..) (.cons (.advice ..) (.cons (.advice ..) .nil))), ⟨rfl, rfl⟩, i3⟩

theorem steps_unknown : ∀ (n row : Nat) (x y : Option (ZMod p)), 0 < n → (c.steps row x y (List.replicate n none)).2 = (none, none)
  | 1, row, x, y, _ => by
    cases x <;> cases y <;> rfl
  | n + 2, row, x, y, _ => by
    rw [List.replicate_succ]
    exact steps_unknown (n + 1) (row + 1) _ _ (by omega)

theorem hashPiece_total {S : List (ZMod p × ZMod p)} {offset : Nat} {a : Piece p} (h0 : 0 < a.numWords) (hv : a.value.value = none)
    {xA yA : Option (ZMod p)} {final : Bool} : ∃ calls zs, c.hashPiece S region offset a xA yA final = .ok (calls, none, none, zs) := by
  unfold Sinsemilla.hashPiece
  dsimp only
  rw [assert_ok.2 (by simpa using h0), hv]
  simp only [Option.map_none, onKnown, ok_then, transposeVec]
  have := steps_unknown (c := c) a.numWords offset xA yA h0
  generalize hs : c.steps offset xA yA (List.replicate a.numWords none) = s at this ⊢
  obtain ⟨calls, x, y⟩ := s
  simp only [Prod.mk.injEq] at this
  obtain ⟨rfl, rfl⟩ := this
  exact ⟨_, _, rfl⟩

theorem hashPieces_total {S : List (ZMod p × ZMod p)} : ∀ (pieces : List (Piece p)) (offset : Nat) (xA yA : Option (ZMod p)),
    (∀ a ∈ pieces, 0 < a.numWords ∧ a.value.value = none) → pieces ≠ [] →
    ∃ calls o zss, c.hashPieces S region offset xA yA pieces = .ok (calls, o, none, none, zss)
  | [], _, _, _, _, h => absurd rfl h
  | [a], offset, xA, yA, h, _ => by
    obtain ⟨calls, zs, h1⟩ := hashPiece_total (c := c) (S := S) (region := region) (offset := offset) (xA := xA) (yA := yA) (final := true)
      (h a (by simp)).1 (h a (by simp)).2
    refine ⟨calls ++ [], offset + a.numWords, [zs], ?_⟩
    unfold Sinsemilla.hashPieces
    rw [show ([] : List (Piece p)).isEmpty = true from rfl, h1]
    rfl
  | a :: a' :: as, offset, xA, yA, h, _ => by
    obtain ⟨calls, zs, h1⟩ := hashPiece_total (c := c) (S := S) (region := region) (offset := offset) (xA := xA) (yA := yA)
      (final := (a' :: as).isEmpty) (h a (by simp)).1 (h a (by simp)).2
    obtain ⟨more, o, zss, h2⟩ := hashPieces_total (a' :: as) (offset + a.numWords) none none
      (fun q hq => h q (List.mem_cons_of_mem _ hq)) (by simp)
    refine ⟨calls ++ more, o, zs :: zss, ?_⟩
    unfold Sinsemilla.hashPieces
    rw [h1, ok_then]
    dsimp only
    rw [h2]
    rfl

/-- The chip succeeds while no piece is known. -/
theorem hashToPoint_total {S : List (ZMod p × ZMod p)} {Q : Pt b} (hQ : Q ≠ 0) {pieces : List (Piece p)} (hne : pieces ≠ [])
    (h : ∀ a ∈ pieces, 0 < a.numWords ∧ a.value.value = none) :
    ∃ calls out zss, c.hashToPoint S region (affine Q) pieces = .ok (calls, out, zss) := by
  match Q, hQ with
  | .some xQ yQ hc, _ =>
    obtain ⟨calls, o, zss, h1⟩ := hashPieces_total (c := c) (S := S) (region := region) pieces 0 (some xQ) (some yQ) h hne
    unfold Sinsemilla.hashToPoint
    simp only [affine]
    rw [h1, ok_then]
    exact ⟨_, _, _, rfl⟩

/-- A piece without words panics. -/
theorem hashToPoint_wordless {S : List (ZMod p × ZMod p)} {Q : Pt b} (hQ : Q ≠ 0) {a : Piece p} (h0 : a.numWords = 0)
    (pieces : List (Piece p)) : c.hashToPoint S region (affine Q) (a :: pieces) = .error .panic := by
  match Q, hQ with
  | .some xQ yQ hc, _ =>
    unfold Sinsemilla.hashToPoint
    simp only [affine]
    unfold Sinsemilla.hashPieces Sinsemilla.hashPiece
    simp only [h0]
    rfl

end Verif.Lemmas.Sinsemilla

import Verif.Spec.Transcript

/-! The queries of the verifier are the same whatever the commitments are. -/

namespace Verif.Plonk

open Spec

variable {C D ε : Type} (f : C → D)

theorem emap_bind {α β γ : Type} (g : β → γ) (x : Except ε α) (k : α → Except ε β) :
    Except.map g (x >>= k) = x >>= fun a => Except.map g (k a) := by
  cases x <;> rfl

theorem bind_emap {α β γ : Type} (g : α → β) (x : Except ε α) (k : β → Except ε γ) :
    (Except.map g x >>= k) = x >>= fun a => k (g a) := by
  cases x <;> rfl

theorem bind_of_map {α β γ : Type} {x : Except ε β} {y : Except ε α} {k : β → Except ε γ} {k' : α → Except ε γ}
    (g : α → β) (h : x = Except.map g y) (hk : ∀ a, k (g a) = k' a) : (x >>= k) = y >>= k' := by
  rw [h, bind_emap]
  congr 1
  funext a
  exact hk a

theorem emap_ok {α β : Type} (g : α → β) (a : α) : Except.map g (.ok a : Except ε α) = .ok (g a) := rfl

theorem emap_error {α β : Type} (g : α → β) (e : ε) : Except.map g (.error e : Except ε α) = .error e := rfl

theorem emap_ite {α β : Type} (g : α → β) (p : Prop) [Decidable p] (x y : Except ε α) :
    Except.map g (if p then x else y) = if p then Except.map g x else Except.map g y := by
  split <;> rfl

theorem mapM_emap {α β γ : Type} (g : β → γ) (h : α → Except ε β) : ∀ l : List α,
    (l.mapM fun a => Except.map g (h a)) = Except.map (List.map g) (l.mapM h) := by
  intro l
  induction l with
  | nil => rfl
  | cons a l ih =>
    rw [List.mapM_cons, List.mapM_cons, ih]
    cases h a with
    | error e => rfl
    | ok b => cases l.mapM h <;> rfl

theorem mapM_of_map {α β γ : Type} (g : α → β) (h : β → Except ε γ) : ∀ l : List α,
    (l.map g).mapM h = l.mapM fun a => h (g a) := by
  intro l
  induction l with
  | nil => rfl
  | cons a l ih => rw [List.map_cons, List.mapM_cons, List.mapM_cons, ih]

theorem at_map (l : List C) (i : Nat) : at_ (l.map f) i = Except.map f (at_ l i) := by
  unfold at_
  rw [List.getElem?_map]
  cases l[i]? <;> rfl

theorem columnQueries_map (d : Domain) (x : Fr) (qs : List (Nat × Int)) (cs : List C) (evals : List Fr) :
    columnQueries d x qs (cs.map f) evals = Except.map (List.map (mapQuery f)) (columnQueries d x qs cs evals) := by
  unfold columnQueries
  rw [← mapM_emap]
  congr 1
  funext q
  rw [at_map, bind_emap, emap_bind]
  congr 1
  funext c
  rw [emap_bind]
  rfl

theorem permQueries_map (d : Domain) (bf : Nat) (x : Fr) (sets : List (C × SetEval)) :
    permQueries d bf x (sets.map fun s => (f s.1, s.2)) =
      Except.map (List.map (mapQuery f)) (permQueries d bf x sets) := by
  unfold permQueries
  dsimp only
  rw [emap_bind, ← List.map_reverse, ← List.map_drop, mapM_of_map]
  dsimp only
  refine bind_of_map (List.map (mapQuery f)) ?_ fun lasts => ?_
  · rw [← mapM_emap]
    congr 1
    funext a
    cases a.2.last <;> rfl
  rw [emap_ok, List.map_append, List.flatMap_map, List.map_flatMap]
  rfl

theorem combinePieces_map (xn : Fr) (pieces : List C) :
    combinePieces xn (pieces.map f) = (combinePieces xn pieces).map fun t => (t.1, f t.2) := by
  unfold combinePieces
  rw [← List.map_reverse]
  suffices ∀ (l : List C) (acc : List (Fr × C)),
      (l.map f).foldl (fun acc c => acc.map (fun (t : Fr × D) => (t.1 * xn, t.2)) ++ [(1, c)])
        (acc.map fun t => (t.1, f t.2)) =
      (l.foldl (fun acc c => acc.map (fun (t : Fr × C) => (t.1 * xn, t.2)) ++ [(1, c)]) acc).map
        fun t => (t.1, f t.2) from this _ []
  intro l
  induction l with
  | nil => intro acc; rfl
  | cons c l ih =>
    intro acc
    rw [List.map_cons, List.foldl_cons, List.foldl_cons, ← ih]
    congr 1
    simp [List.map_map, Function.comp_def]

theorem zip_map_left {α : Type} (l : List C) (m : List α) :
    (l.map f).zip m = (l.zip m).map fun p => (f p.1, p.2) := by
  rw [List.zip_map_left]
  rfl

theorem claims_map (key : Key C) (n : Nat) (instances : List (List Fr)) (com : Commitments C) (ch : Challenges)
    (e : Evals) : claims (mapKey f key) n instances (mapCommitments f com) ch e =
      Except.map (List.map (mapQuery f)) (claims key n instances com ch e) := by
  unfold claims
  dsimp only [mapKey, mapCommitments]
  rw [emap_bind]
  congr 1
  funext inst
  rw [emap_ite]
  congr 1
  rw [emap_bind]
  congr 1
  funext lLast
  rw [emap_bind]
  congr 1
  funext l0
  rw [emap_bind]
  congr 1
  funext exprs
  rw [emap_ite]
  congr 1
  rw [columnQueries_map, bind_emap, emap_bind]
  congr 1
  funext adv
  rw [zip_map_left, permQueries_map, bind_emap, emap_bind]
  congr 1
  funext perm
  rw [columnQueries_map, bind_emap, emap_bind]
  congr 1
  funext fx
  rw [emap_ok, zip_map_left f key.sigma, combinePieces_map]
  congr 1
  simp only [List.map_append, List.map_cons, List.map_nil, List.map_map]
  congr 1
  congr 1
  congr 1
  congr 1
  have e1 : ((com.permuted.map fun p => (f p.1, f p.2)).zip (com.lookupProducts.map f)).zip e.lookups =
      ((com.permuted.zip com.lookupProducts).zip e.lookups).map fun p => (((f p.1.1.1, f p.1.1.2), f p.1.2), p.2) := by
    rw [List.zip_map, List.zip_map_left]
    rfl
  rw [e1, List.flatMap_map, List.map_flatMap]
  rfl

/-- The references can be left out. -/
theorem mapKey_ofKey (key : Key C) : mapKey Prod.snd (Ref.ofKey key) = key := by
  obtain ⟨d, cs, fx, sg⟩ := key
  simp only [mapKey, Ref.ofKey, Ref.number, List.map_map]
  congr 1 <;> exact List.zipIdx_map_fst 0 _

theorem mapCommitments_ofCommitments (com : Commitments C) :
    mapCommitments Prod.snd (Ref.ofCommitments com) = com := by
  obtain ⟨a, p, z, l, r, h⟩ := com
  simp only [mapCommitments, Ref.ofCommitments, Ref.number, List.map_map]
  congr 1
  · exact List.zipIdx_map_fst 0 _
  · exact List.zipIdx_map_fst 0 _
  · exact List.zipIdx_map_fst 0 _
  · exact List.zipIdx_map_fst 0 _
  · exact List.map_id h

theorem number_map (r : Nat → Ref) (l : List C) :
    Ref.number r (l.map f) = (Ref.number r l).map fun p => (p.1, f p.2) := by
  unfold Ref.number
  rw [List.zipIdx_map, List.map_map, List.map_map]
  rfl

theorem ofKey_map (key : Key C) : Ref.ofKey (mapKey f key) = mapKey (fun p => (p.1, f p.2)) (Ref.ofKey key) := by
  unfold Ref.ofKey mapKey
  simp only [number_map]

theorem ofCommitments_map (com : Commitments C) :
    Ref.ofCommitments (mapCommitments f com) = mapCommitments (fun p => (p.1, f p.2)) (Ref.ofCommitments com) := by
  unfold Ref.ofCommitments mapCommitments
  simp only [number_map]
  congr 1
  · rw [List.zipIdx_map, List.map_map, List.map_map]
    rfl
  · simp [List.map_map, Function.comp_def]

end Verif.Plonk

import Verif.Lemmas.PoseidonCauchy
import Verif.Lemmas.PoseidonSponge
import Verif.Model.Fr
import Mathlib.Tactic.FinCases
import Mathlib.Tactic.IntervalCases
import Mathlib.LinearAlgebra.Matrix.Notation

/-! The Poseidon permutation, its parameters and the sponge. -/

namespace Verif.Props

open Matrix Pos Spec.Poseidon

section General

variable {F : Type} [Field F] [DecidableEq F] {n t : Nat}

/-- **C81.** Whatever the field, the width, the numbers of rounds, the constants and the matrix: if parameters are made,
then permuting with them never fails and gives what the rounds of the paper give, one after the other, with the original
constants and the original matrix. -/
theorem C81_permutation (rf rp : Nat) (cs : List (Fin (t + 1) → F)) (M : Matrix (Fin (t + 1)) (Fin (t + 1)) F)
    (p : Params F t) (h : Params.new rf rp cs M = some p) (v : Fin (t + 1) → F) :
    p.permute v = some (permutation M (rf / 2) rp cs v) :=
  permute_eq h v

/-- **C81.** Parameters are made exactly if the number of full rounds is even and not 0, there are as many constants as
rounds, and no leading minor vanishes: of the matrix, and of the powers of its lower right part up to the number of partial
rounds. -/
theorem C81_parameters (rf rp : Nat) (cs : List (Fin (t + 1) → F)) (M : Matrix (Fin (t + 1)) (Fin (t + 1)) F) :
    (∃ p, Params.new rf rp cs M = some p) ↔
      rf % 2 = 0 ∧ 0 < rf ∧ cs.length = rf + rp ∧ LeadingMinors M ∧
        ∀ k, k < rp → LeadingMinors (lower M ^ (k + 1)) :=
  new_iff rf rp cs M

/-- **C82.** What `invert` returns is the inverse, on both sides. -/
theorem C82_inverse_partial (M R : Matrix (Fin n) (Fin n) F) (h : invert M = some R) : R * M = 1 ∧ M * R = 1 :=
  ⟨(invert_some h).1, mul_eq_one_comm.1 (invert_some h).1⟩

/-- **C82.** It returns exactly if all leading minors differ from 0; otherwise it panics. -/
theorem C82_returns (M : Matrix (Fin n) (Fin n) F) : (∃ R, invert M = some R) ↔ LeadingMinors M := invert_iff

/-- **C82.** For a singular matrix it panics; it never returns something wrong. -/
theorem C82_singular (M : Matrix (Fin n) (Fin n) F) (h : M.det = 0) : invert M = none := by
  cases hi : invert M with
  | none => rfl
  | some R =>
    exfalso
    have := (invert_some hi).2 n (le_refl n)
    unfold leadingMinor at this
    exact this h

/-- **C82.** Not every invertible matrix is inverted: with 0 in the corner it panics. -/
theorem C82_not_all : ∃ M : Matrix (Fin 2) (Fin 2) F, IsUnit M.det ∧ invert M = none := by
  refine ⟨!![0, 1; 1, 0], ?_, ?_⟩
  · rw [Matrix.det_fin_two]
    simp
  · cases hi : invert (!![0, 1; 1, 0] : Matrix (Fin 2) (Fin 2) F) with
    | none => rfl
    | some R =>
      exfalso
      have := (invert_some hi).2 1 (by omega)
      unfold leadingMinor at this
      rw [Matrix.det_fin_one] at this
      exact this rfl

/-- **C82.** A Cauchy matrix of distinct elements is made, is MDS and is inverted. -/
theorem C82_cauchy (xs ys : Fin n → F) (hx : Function.Injective xs) (hy : Function.Injective ys)
    (h : ∀ i j, xs i + ys j ≠ 0) :
    ∃ M : Matrix (Fin n) (Fin n) F, cauchy xs ys = some M ∧ (∀ i j, M i j * (xs i + ys j) = 1) ∧ MDS M ∧
      ∃ R, invert M = some R := by
  refine ⟨Matrix.of fun i j => (xs i + ys j)⁻¹, if_pos h, fun i j => inv_mul_cancel₀ (h i j), ?_, ?_⟩
  · intro k f g hf hg
    exact cauchy_det (fun i => xs (f i)) (fun i => ys (g i)) (hx.comp hf) (hy.comp hg) fun _ _ => h _ _
  · exact invert_iff.2 (cauchy_minors xs ys hx hy h)

end General

section Sponge

variable {F : Type} [Field F] {t : Nat}

/-- **C83.** What a hasher has absorbed does not depend on how the elements were split over calls. -/
theorem C83_split (perm : (Fin (t + 2) → F) → Fin (t + 2) → F) (ls : List (List F)) :
    ls.foldl (Sponge.update perm) Sponge.init = Sponge.update perm Sponge.init ls.flatten := by
  have h : ∀ (ls : List (List F)) (l : List F),
      ls.foldl (Sponge.update perm) (after perm defaultState l) = after perm defaultState (l ++ ls.flatten) := by
    intro ls
    induction ls with
    | nil => intro l; rw [List.flatten_nil, List.append_nil]; rfl
    | cons m ls ih =>
      intro l
      rw [List.foldl_cons, after_append perm _ _ _ _ rfl, ih, List.flatten_cons, List.append_assoc]
  have e : after perm defaultState ([] : List F) = Sponge.init := by
    unfold after
    rw [blocks_short (by simp), rest_short (by simp)]
    rfl
  have := h ls []
  rw [e, List.nil_append] at this
  exact this.trans (update_fresh perm _ _).symm

/-- **C83.** The hash is the sponge of the paper on the padded elements, whose number is a multiple of the rate. -/
theorem C83_hash (perm : (Fin (t + 2) → F) → Fin (t + 2) → F) (l : List F) :
    ((Sponge.update perm Sponge.init l).squeeze perm).1 =
        absorbBlocks perm (fun i => if i = 0 then 2 ^ 64 else 0) (blocks (t + 1) (padded (t + 1) l)) 1 ∧
      (t + 1) ∣ (padded (t + 1) l).length := by
  refine ⟨?_, ⟨l.length / (t + 1) + 1, ?_⟩⟩
  · rw [show Sponge.update perm Sponge.init l = after perm defaultState l from update_fresh perm _ _,
      squeeze_after perm _ _ _ rfl]
    have : (defaultState : Vec F (t + 2)) = fun i => if i = 0 then 2 ^ 64 else 0 := by
      funext i
      unfold defaultState
      rw [Nat.cast_pow, Nat.cast_ofNat]
    rw [this]
  · rw [padded_length (by omega), Nat.mul_comm]

/-- **C83.** Different lists are different after padding. -/
theorem C83_padding (r : Nat) (l m : List F) : padded r l = padded r m ↔ l = m := by
  classical
  exact ⟨padded_inj, fun h => by rw [h]⟩

/-- The hasher after messages with a challenge drawn after each. -/
def drawn (perm : (Fin (t + 2) → F) → Fin (t + 2) → F) (ms : List (List F)) : Sponge F t :=
  ms.foldl (fun s m => ((s.update perm m).squeeze perm).2) Sponge.init

theorem drawn_eq (perm : (Fin (t + 2) → F) → Fin (t + 2) → F) (ms : List (List F)) :
    drawn perm ms = ⟨absorbBlocks perm defaultState (blocks (t + 1) (ms.flatMap (padded (t + 1)))), []⟩ := by
  have h : ∀ (ms : List (List F)) (v : Fin (t + 2) → F),
      ms.foldl (fun s m => ((Sponge.update perm s m).squeeze perm).2) ⟨v, []⟩ =
        ⟨absorbBlocks perm v (blocks (t + 1) (ms.flatMap (padded (t + 1)))), []⟩ := by
    intro ms
    induction ms with
    | nil =>
      intro v
      rw [List.flatMap_nil, blocks_short (by simp)]
      rfl
    | cons m ms ih =>
      intro v
      rw [List.foldl_cons, update_fresh, squeeze_after perm _ _ _ rfl, ih, List.flatMap_cons,
        blocks_append (by omega) _ _ _ (padded_length (by omega) m)]
      unfold absorbBlocks
      rw [List.foldl_append]
  exact h ms defaultState

/-- **C84.** A challenge after several messages with challenges in between is the value of the sponge on all of them, each
padded. -/
theorem C84_challenge_partial (perm : (Fin (t + 2) → F) → Fin (t + 2) → F) (ms : List (List F)) (m : List F) :
    (((drawn perm ms).update perm m).squeeze perm).1 =
      absorbBlocks perm (fun i => if i = 0 then 2 ^ 64 else 0)
        (blocks (t + 1) ((ms ++ [m]).flatMap (padded (t + 1)))) 1 := by
  rw [drawn_eq, update_fresh, squeeze_after perm _ _ _ rfl]
  have : (defaultState : Vec F (t + 2)) = fun i => if i = 0 then 2 ^ 64 else 0 := by
    funext i
    unfold defaultState
    rw [Nat.cast_pow, Nat.cast_ofNat]
  have e : blocks (t + 1) ((ms ++ [m]).flatMap (padded (t + 1))) =
      blocks (t + 1) (ms.flatMap (padded (t + 1))) ++ blocks (t + 1) (padded (t + 1) m) := by
    have : ∃ q, (ms.flatMap (padded (t + 1))).length = q * (t + 1) := by
      induction ms with
      | nil => exact ⟨0, by simp⟩
      | cons a ms ih =>
        obtain ⟨q, hq⟩ := ih
        exact ⟨a.length / (t + 1) + 1 + q, by
          rw [List.flatMap_cons, List.length_append, padded_length (by omega), hq, Nat.add_mul (a.length / (t + 1) + 1)]⟩
    obtain ⟨q, hq⟩ := this
    rw [List.flatMap_append, blocks_append (by omega) q _ _ hq, List.flatMap_cons, List.flatMap_nil, List.append_nil]
  rw [← this, e]
  unfold absorbBlocks
  rw [List.foldl_append]

/-- **C84.** Histories whose messages have the same lengths are told apart by what the sponge is given. -/
theorem C84_same_shape (r : Nat) (ms ms' : List (List F)) (h : ms.map List.length = ms'.map List.length) :
    ms.flatMap (padded r) = ms'.flatMap (padded r) ↔ ms = ms' := by
  classical
  constructor
  swap
  · intro h; rw [h]
  induction ms generalizing ms' with
  | nil =>
    intro _
    cases ms' with
    | nil => rfl
    | cons a b => cases h
  | cons m ms ih =>
    intro e
    cases ms' with
    | nil => cases h
    | cons m' ms' =>
      rw [List.map_cons, List.map_cons, List.cons.injEq] at h
      rw [List.flatMap_cons, List.flatMap_cons] at e
      have hl : (padded r m).length = (padded r m').length := by
        unfold padded
        simp only [List.length_append, List.length_cons, List.length_replicate, h.1]
      obtain ⟨e1, e2⟩ := List.append_inj e hl
      rw [padded_inj e1, ih ms' h.2 e2]

/-- **C84.** Drawing a challenge is not told apart from absorbing: after any elements, drawing twice leaves the hasher in
the state, and gives the challenge, that absorbing the padded elements and drawing once does. -/
theorem C84_not_separated (perm : (Fin (t + 2) → F) → Fin (t + 2) → F) (l : List F) :
    padded (t + 1) l ≠ l ∧ drawn perm [l, []] = drawn perm [padded (t + 1) l] ∧
      (((drawn perm [l]).update perm []).squeeze perm).1 =
        ((Sponge.update perm Sponge.init (padded (t + 1) l)).squeeze perm).1 := by
  have e : [l, []].flatMap (padded (t + 1)) = [padded (t + 1) l].flatMap (padded (t + 1)) := by
    rw [List.flatMap_cons, List.flatMap_cons, List.flatMap_nil, List.flatMap_cons, List.flatMap_nil,
      List.append_nil, List.append_nil]
    conv_rhs => unfold padded
    conv_lhs => rw [show padded (t + 1) ([] : List F) = 1 :: List.replicate (t + 1 - 1 - 0 % (t + 1)) 0 from rfl]
    rw [show (l ++ 1 :: List.replicate (t + 1 - 1 - l.length % (t + 1)) (0 : F)) = padded (t + 1) l from rfl,
      padded_length (by omega), Nat.mul_mod_left, Nat.zero_mod]
  refine ⟨?_, ?_, ?_⟩
  · intro h
    have := congrArg List.length h
    unfold padded at this
    rw [List.length_append, List.length_cons] at this
    omega
  · rw [drawn_eq, drawn_eq, e]
  · rw [C84_challenge_partial, (C83_hash perm _).1]
    show absorbBlocks perm _ (blocks (t + 1) ([l, []].flatMap (padded (t + 1)))) 1 = _
    rw [e, List.flatMap_cons, List.flatMap_nil, List.append_nil]

end Sponge

/-! Instances. -/

/-- Elements for a Cauchy matrix of width 3. -/
def badXs : Fin 3 → Fr := ![10, 0, -6]

/-- Elements for a Cauchy matrix of width 3. -/
def badYs : Fin 3 → Fr := ![20, 2, 1]

theorem bad_ok : Function.Injective badXs ∧ Function.Injective badYs ∧ ∀ i j, badXs i + badYs j ≠ 0 := by
  refine ⟨?_, ?_, ?_⟩
  · unfold Function.Injective badXs
    decide +kernel
  · unfold Function.Injective badYs
    decide +kernel
  · unfold badXs badYs
    decide +kernel

/-- **C82.** Not every MDS matrix that `cauchy` makes gives parameters: for this one making the sparse matrices panics from
two partial rounds on, whatever the constants. -/
theorem C82_new_panics : ∃ M : Matrix (Fin 3) (Fin 3) Fr, cauchy badXs badYs = some M ∧ MDS M ∧
    (∃ R, invert M = some R) ∧ ∀ rf rp cs, 2 ≤ rp → Params.new rf rp cs M = none := by
  obtain ⟨hx, hy, h⟩ := bad_ok
  obtain ⟨M, hM, hinv, hmds, hR⟩ := C82_cauchy badXs badYs hx hy h
  refine ⟨M, hM, hmds, hR, fun rf rp cs hrp => ?_⟩
  cases hp : Params.new rf rp cs M with
  | none => rfl
  | some p =>
    exfalso
    have h2 := ((C81_parameters rf rp cs M).1 ⟨p, hp⟩).2.2.2.2 1 (by omega) 1 (by omega)
    apply h2
    unfold leadingMinor
    rw [Matrix.det_fin_one]
    show (lower M ^ 2) 0 0 = 0
    rw [pow_two, Matrix.mul_apply, Fin.sum_univ_two]
    show M 1 1 * M 1 1 + M 1 2 * M 2 1 = 0
    have h11 : M 1 1 * (0 + 2) = 1 := hinv 1 1
    have h12 : M 1 2 * (0 + 1) = 1 := hinv 1 2
    have h21 : M 2 1 * (-6 + 2) = 1 := hinv 2 1
    have h4 : (4 : Fr) ≠ 0 := by decide +kernel
    refine (mul_eq_zero.1 (?_ : (4 : Fr) * _ = 0)).resolve_left h4
    linear_combination (2 * M 1 1 + 1) * h11 + (4 * M 2 1) * h12 - h21

/-- A width of 2 with parameters. -/
def goodMatrix : Matrix (Fin 2) (Fin 2) Fr := !![2, 1; 1, 2]

example : ∃ p, Params.new 2 3 [![1, 2], ![3, 4], ![5, 6], ![7, 8], ![9, 10]] goodMatrix = some p := by
  rw [C81_parameters]
  refine ⟨rfl, by omega, rfl, ?_, ?_⟩
  · intro k hk
    unfold leadingMinor goodMatrix
    interval_cases k
    · rw [Matrix.det_isEmpty]; exact one_ne_zero
    · rw [Matrix.det_fin_one]
      show (2 : Fr) ≠ 0
      decide +kernel
    · rw [Matrix.det_fin_two]
      show (2 : Fr) * 2 - 1 * 1 ≠ 0
      decide +kernel
  · intro j hj k hk
    unfold leadingMinor
    interval_cases k
    · rw [Matrix.det_isEmpty]; exact one_ne_zero
    · show ((lower goodMatrix ^ (j + 1)).submatrix _ _).det ≠ 0
      rw [show (Fin.castLE hk : Fin 1 → Fin 1) = id from by funext i; exact Subsingleton.elim _ _,
        Matrix.submatrix_id_id, Matrix.det_pow, Matrix.det_fin_one]
      refine pow_ne_zero _ ?_
      show (2 : Fr) ≠ 0
      decide +kernel

example : Function.Injective badXs ∧ Function.Injective badYs ∧ ∀ i j, badXs i + badYs j ≠ 0 := bad_ok

example : LeadingMinors (1 : Matrix (Fin 3) (Fin 3) Fr) := by
  intro k hk
  unfold leadingMinor
  rw [Matrix.submatrix_one _ (Fin.castLE_injective hk), Matrix.det_one]
  exact one_ne_zero

example : padded 2 [(5 : Fr)] = [5, 1] ∧ padded 2 [(5 : Fr), 6] = [5, 6, 1, 0] ∧
    blocks 2 [(5 : Fr), 6, 1, 0] = [[5, 6], [1, 0]] := ⟨rfl, rfl, rfl⟩

example : [[(5 : Fr)], []].flatMap (padded 2) = [[(5 : Fr), 1]].flatMap (padded 2) := rfl

end Verif.Props

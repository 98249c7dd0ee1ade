import Verif.Model.Pow5
import Verif.Lemmas.GadgetSum
import Verif.Spec.Poseidon
import Mathlib.Algebra.BigOperators.Fin

namespace Verif.Lemmas.Pow5

open Verif.FloorPlanner (Call)
open Verif.Gadget Verif.Gadget.Pow5 Verif.Spec.Gadget Verif.Spec Verif.Lemmas.Gadget

variable {F : Type} [Field F] {t : Nat}

theorem foldl_add {α : Type} (g : α → F) : ∀ (l : List α) (a : F), l.foldl (fun acc j => acc + g j) a = a + (l.map g).sum
  | [], a => by simp
  | x :: l, a => by rw [List.foldl_cons, foldl_add g l, List.map_cons, List.sum_cons, add_assoc]

theorem applyMds_eq (m : Fin (t + 1) → Fin (t + 1) → F) (v : Fin (t + 1) → F) :
    applyMds m v = (Matrix.of m).mulVec v := by
  funext i
  unfold applyMds
  rw [foldl_add, zero_add]
  simp [Matrix.mulVec, dotProduct, Fin.sum_univ_def]

section eval

variable {sel : Selector → Int → Bool} {w : Col → Int → F} {row : Int}

theorem eval_foldl {α : Type} (g : α → Verif.Gadget.Expr F) : ∀ (l : List α) (a : Verif.Gadget.Expr F),
    (l.foldl (fun acc j => acc + g j) a).eval sel w row = a.eval sel w row + (l.map fun j => (g j).eval sel w row).sum
  | [], a => by simp
  | x :: l, a => by rw [List.foldl_cons, eval_foldl g l, List.map_cons, List.sum_cons, eval_add, add_assoc]

theorem eval_sumExprs (f : Fin (t + 1) → Verif.Gadget.Expr F) :
    (sumExprs f).eval sel w row = ∑ i, (f i).eval sel w row := by
  unfold sumExprs
  rw [eval_foldl, Fin.sum_univ_succ, Fin.sum_univ_def]

theorem eval_pow5 (e : Verif.Gadget.Expr F) : (pow5Expr e).eval sel w row = (e.eval sel w row) ^ 5 := by
  simp only [pow5Expr, eval_mul]; ring

theorem eval_mid (c : Pow5 F t) (idx : Fin (t + 1)) : (midExpr c idx).eval sel w row =
    w (.advice c.partialSbox) row * c.mReg idx 0 +
      ∑ i : Fin t, (w (.advice (c.state i.succ)) row + w (.fixed (c.rcA i.succ)) row) * c.mReg idx i.succ := by
  unfold midExpr
  rw [eval_foldl, Fin.sum_univ_def]
  simp

theorem eval_next (c : Pow5 F t) (idx : Fin (t + 1)) : (nextExpr c idx).eval sel w row =
    ∑ n, w (.advice (c.state n)) (row + 1) * c.mInv idx n := by
  unfold nextExpr
  rw [eval_sumExprs]
  simp

end eval

/-- The words of the state in a row of the region. -/
def stateRow (c : Pow5 F t) (w : Content F) (region o : Nat) : Fin (t + 1) → F := fun i => w region (.advice (c.state i)) o

/-- The two halves of the S-box layer of a partial round. -/
def halfBox (rc v : Fin (t + 1) → F) : Fin (t + 1) → F := fun i => if i = 0 then (v i + rc i) ^ 5 else v i + rc i

theorem partial_eq (M : Matrix (Fin (t + 1)) (Fin (t + 1)) F) (v rc : Fin (t + 1) → F) :
    Poseidon.partialRound M v rc = M.mulVec (halfBox rc v) := rfl

/-- What the gate of full rounds says in a row. -/
theorem full_gate {c : Pow5 F t} {sel : Selector → Int → Bool} {w : Content F} {region o : Nat} {rc : Fin (t + 1) → F}
    (hrc : ∀ i, w region (.fixed (c.rcA i)) o = rc i) :
    (∀ e ∈ (List.finRange (t + 1)).map fun next =>
        sumExprs (fun idx => .scaled (pow5Expr (Verif.Gadget.Expr.advice (c.state idx) 0 + Verif.Gadget.Expr.fixed (c.rcA idx) 0)) (c.mReg next idx))
          - Verif.Gadget.Expr.advice (c.state next) 1, e.eval sel (w region) o = 0) ↔
      stateRow c w region (o + 1) = Poseidon.fullRound (Matrix.of c.mReg) (stateRow c w region o) rc := by
  simp only [List.mem_map, List.mem_finRange, true_and, forall_exists_index, forall_apply_eq_imp_iff, funext_iff]
  apply forall_congr'
  intro i
  simp only [eval_sub, eval_sumExprs, eval_scaled, eval_pow5, eval_add, eval_advice, eval_fixed, add_zero, hrc, sub_eq_zero]
  unfold Poseidon.fullRound Matrix.mulVec dotProduct stateRow
  simp only [Matrix.of_apply]
  push_cast
  constructor
  · intro h
    rw [← h]
    exact Finset.sum_congr rfl fun j _ => mul_comm _ _
  · intro h
    rw [h]
    exact Finset.sum_congr rfl fun j _ => mul_comm _ _

/-- What the gate of partial rounds says in a row. -/
theorem partial_gate {c : Pow5 F t} {sel : Selector → Int → Bool} {w : Content F} {region o : Nat}
    {rc rc' : Fin (t + 1) → F} (hrc : ∀ i, w region (.fixed (c.rcA i)) o = rc i)
    (hrc' : ∀ i, w region (.fixed (c.rcB i)) o = rc' i) :
    (∀ e ∈ [pow5Expr (Verif.Gadget.Expr.advice (c.state 0) 0 + Verif.Gadget.Expr.fixed (c.rcA 0) 0) - Verif.Gadget.Expr.advice c.partialSbox 0,
         pow5Expr (midExpr c 0 + Verif.Gadget.Expr.fixed (c.rcB 0) 0) - nextExpr c 0] ++
        (List.finRange t).map fun i => midExpr c i.succ + Verif.Gadget.Expr.fixed (c.rcB i.succ) 0 - nextExpr c i.succ,
        e.eval sel (w region) o = 0) ↔
      w region (.advice c.partialSbox) o = (stateRow c w region o 0 + rc 0) ^ 5 ∧
      Matrix.mulVec (Matrix.of c.mInv) (stateRow c w region (o + 1)) =
        halfBox rc' (Poseidon.partialRound (Matrix.of c.mReg) (stateRow c w region o) rc) := by
  have hmid : w region (.advice c.partialSbox) o = (stateRow c w region o 0 + rc 0) ^ 5 →
      ∀ idx, (midExpr c idx).eval sel (w region) o = Poseidon.partialRound (Matrix.of c.mReg) (stateRow c w region o) rc idx := by
    intro h idx
    rw [eval_mid, partial_eq, h]
    unfold Matrix.mulVec dotProduct
    rw [Fin.sum_univ_succ]
    congr 1
    · simp [halfBox, mul_comm]
    · refine Finset.sum_congr rfl fun j _ => ?_
      rw [hrc, mul_comm]
      simp [halfBox, stateRow]
  have hnext : ∀ idx, (nextExpr c idx).eval sel (w region) o = Matrix.mulVec (Matrix.of c.mInv) (stateRow c w region (o + 1)) idx := by
    intro idx
    rw [eval_next]
    unfold Matrix.mulVec dotProduct
    refine Finset.sum_congr rfl fun j _ => ?_
    rw [mul_comm]
    simp [stateRow]
  simp only [List.mem_append, List.mem_cons, List.not_mem_nil, or_false, List.mem_map, List.mem_finRange, true_and,
    or_imp, forall_and, forall_eq, forall_exists_index, forall_apply_eq_imp_iff]
  simp only [eval_sub, eval_pow5, eval_add, eval_advice, eval_fixed, add_zero, hrc, hrc', hnext, sub_eq_zero]
  constructor
  · rintro ⟨⟨h1, h2⟩, h3⟩
    have h1' := h1.symm
    refine ⟨h1', ?_⟩
    funext i
    refine Fin.cases ?_ (fun i => ?_) i
    · rw [← h2, hmid h1']; simp [halfBox]
    · rw [← h3 i, hmid h1']; simp [halfBox]
  · rintro ⟨h1, h2⟩
    refine ⟨⟨h1.symm, ?_⟩, fun i => ?_⟩
    · rw [hmid h1, h2]; simp [halfBox]
    · rw [hmid h1, h2]; simp [halfBox]

omit [Field F] in
/-- Something that holds in the beginning and is kept by every round holds in the end; and what each round makes sure of
its calls holds of all calls. -/
theorem rounds_inv {f : Nat → State F t → Except Stop (Calls F × State F t)} {all : Calls F} (Inv : Nat → State F t → Prop)
    (Q : Call (Option F) → Prop)
    (hstep : ∀ r s k s', Inv r s → f r s = .ok (k, s') → (∀ x ∈ k, x ∈ all) → Inv (r + 1) s' ∧ ∀ x ∈ k, Q x) :
    ∀ n a s k s', Inv a s → rounds f (List.range' a n) s = .ok (k, s') → (∀ x ∈ k, x ∈ all) →
      Inv (a + n) s' ∧ ∀ x ∈ k, Q x
  | 0, a, s, k, s', hi, h, _ => by
    simp only [List.range'_zero, rounds, Except.ok.injEq, Prod.mk.injEq] at h
    obtain ⟨rfl, rfl⟩ := h
    exact ⟨hi, by simp⟩
  | n + 1, a, s, k, s', hi, h, hall => by
    rw [List.range'_succ, rounds] at h
    obtain ⟨⟨k₁, s₁⟩, h1, h⟩ := bind_ok h
    obtain ⟨⟨k₂, s₂⟩, h2, h⟩ := bind_ok h
    simp only [pure, Except.pure, Except.ok.injEq, Prod.mk.injEq] at h
    obtain ⟨rfl, rfl⟩ := h
    obtain ⟨e1, e2⟩ := hstep _ _ _ _ hi h1 fun x hx => hall x (List.mem_append_left _ hx)
    obtain ⟨e3, e4⟩ := rounds_inv Inv Q hstep n (a + 1) _ _ _ e1 h2 fun x hx => hall x (List.mem_append_right _ hx)
    refine ⟨by rw [show a + (n + 1) = a + 1 + n by omega]; exact e3, fun x hx => ?_⟩
    rcases List.mem_append.1 hx with hx | hx
    · exact e2 x hx
    · exact e4 x hx

omit [Field F] in
/-- Two runs of rounds, one of which knows other values. -/
theorem rounds_same {f : Nat → State F t → Except Stop (Calls F × State F t)} (R : State F t → State F t → Prop)
    (hstep : ∀ r s₁ s₂ k₁ s₁', R s₁ s₂ → f r s₁ = .ok (k₁, s₁') →
      ∃ k₂ s₂', f r s₂ = .ok (k₂, s₂') ∧ R s₁' s₂' ∧ List.Forall₂ SameCall k₁ k₂) :
    ∀ l s₁ s₂ k₁ s₁', R s₁ s₂ → rounds f l s₁ = .ok (k₁, s₁') →
      ∃ k₂ s₂', rounds f l s₂ = .ok (k₂, s₂') ∧ R s₁' s₂' ∧ List.Forall₂ SameCall k₁ k₂
  | [], s₁, s₂, k₁, s₁', hR, h => by
    simp only [rounds, Except.ok.injEq, Prod.mk.injEq] at h
    obtain ⟨rfl, rfl⟩ := h
    exact ⟨[], s₂, rfl, hR, .nil⟩
  | r :: l, s₁, s₂, k₁, s₁', hR, h => by
    rw [rounds] at h
    obtain ⟨⟨a₁, b₁⟩, h1, h⟩ := bind_ok h
    obtain ⟨⟨c₁, d₁⟩, h2, h⟩ := bind_ok h
    simp only [pure, Except.pure, Except.ok.injEq, Prod.mk.injEq] at h
    obtain ⟨rfl, rfl⟩ := h
    obtain ⟨a₂, b₂, e1, e2, e3⟩ := hstep _ _ _ _ _ hR h1
    obtain ⟨c₂, d₂, f1, f2, f3⟩ := rounds_same R hstep l _ _ _ _ e2 h2
    refine ⟨a₂ ++ c₂, d₂, ?_, f2, List.rel_append e3 f3⟩
    rw [rounds, e1]
    show (rounds f l b₂ >>= _) = _
    rw [f1]
    rfl

omit [Field F] in
theorem constant_ok {c : Pow5 F t} {r : Nat} {rc : Fin (t + 1) → F} : c.constant r = .ok rc ↔ c.constants[r]? = some rc := by
  unfold constant
  split <;> simp_all

theorem fullRound_ok {c : Pow5 F t} {region rnd o : Nat} {s s' : State F t} {k : Calls F} :
    c.fullRound region rnd o s = .ok (k, s') ↔ ∃ rc, c.constants[rnd]? = some rc ∧
      (k, s') = c.round region o rc c.sFull [] ((values s).map fun p => applyMds c.mReg fun i => pow5 (p i + rc i)) := by
  unfold fullRound
  constructor
  · intro h
    obtain ⟨rc, h1, h⟩ := bind_ok h
    simp only [pure, Except.pure, Except.ok.injEq] at h
    exact ⟨rc, constant_ok.1 h1, h.symm⟩
  · rintro ⟨rc, h1, h2⟩
    rw [constant_ok.2 h1, h2]
    rfl

theorem partialRound_ok {c : Pow5 F t} {region rnd o : Nat} {s s' : State F t} {k : Calls F} :
    c.partialRound region rnd o s = .ok (k, s') ↔ ∃ rc rc', c.constants[rnd]? = some rc ∧ c.constants[rnd + 1]? = some rc' ∧
      (k, s') = c.round region o rc c.sPartial
        ([.advice c.partialSbox o (((values s).map (partialSboxes rc)).map (· 0))] ++
          (List.finRange (t + 1)).map (fun i => .fixed (c.rcB i) o (some (rc' i))))
        (((((values s).map (partialSboxes rc)).map (applyMds c.mReg)).map (partialSboxes rc')).map (applyMds c.mReg)) := by
  unfold partialRound
  constructor
  · intro h
    obtain ⟨rc, h1, h⟩ := bind_ok h
    obtain ⟨rc', h2, h⟩ := bind_ok h
    simp only [pure, Except.pure, Except.ok.injEq] at h
    exact ⟨rc, rc', constant_ok.1 h1, constant_ok.1 h2, h.symm⟩
  · rintro ⟨rc, rc', h1, h2, h3⟩
    rw [constant_ok.2 h1]
    show (c.constant (rnd + 1) >>= _) = _
    rw [constant_ok.2 h2, h3]
    rfl

/-- The cells of a state are those of a row. -/
def CellsAt (c : Pow5 F t) (region o : Nat) (s : State F t) : Prop := ∀ i, (s i).cell = ⟨region, o, .advice (c.state i)⟩

section mem

variable {c : Pow5 F t} {region o : Nat} {rc : Fin (t + 1) → F} {gate : Selector} {inner : Calls F}
  {next : Option (Fin (t + 1) → F)}

omit [Field F] in
theorem mem_round {x : Call (Option F)} : x ∈ (c.round region o rc gate inner next).1 ↔
    x = .enable gate o ∨ (∃ i, x = .fixed (c.rcA i) o (some (rc i))) ∨ x ∈ inner ∨
      ∃ i, x = .advice (c.state i) (o + 1) (next.map (· i)) := by
  simp [Pow5.round, eq_comm]

end mem

/-- Rounds in the specification, for indices that are in the list of constants. -/
theorem foldl_range {α β : Type} (g : α → β → α) (l : List β) (d : β) : ∀ (n a : Nat) (v : α), a + n ≤ l.length →
    (List.range' a n).foldl (fun v r => g v (l[r]?.getD d)) v = ((l.drop a).take n).foldl g v
  | 0, a, v, _ => by simp
  | n + 1, a, v, h => by
    rw [List.range'_succ, List.foldl_cons, foldl_range g l d n (a + 1) _ (by omega)]
    rw [List.drop_eq_getElem_cons (show a < l.length by omega), List.take_succ_cons, List.foldl_cons]
    rw [List.getElem?_eq_getElem (show a < l.length by omega)]
    rfl

end Verif.Lemmas.Pow5

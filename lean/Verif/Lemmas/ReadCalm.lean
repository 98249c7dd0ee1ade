import Verif.Model.Transcript

/-! Reading a proof does not panic. -/

namespace Verif.Transcript

open Plonk

theorem bind_cases {ε α β : Type} {x : Except ε α} {f : α → Except ε β} {e : ε} (h : (x >>= f) = .error e) :
    x = .error e ∨ ∃ a, x = .ok a ∧ f a = .error e := by
  cases x with
  | error e' =>
    have h : (Except.error e' : Except ε β) = .error e := h
    cases h
    exact .inl rfl
  | ok a => exact .inr ⟨a, rfl, h⟩

/-- Reading does not panic. -/
def Calm {α : Type} (x : Except Verify.Stop α) : Prop := ∀ p, x ≠ .error (.panic p)

theorem Calm.bind {α β : Type} {x : Except Verify.Stop α} {f : α → Except Verify.Stop β} (hx : Calm x)
    (hf : ∀ a, Calm (f a)) : Calm (x >>= f) := by
  intro p h
  rcases bind_cases h with h | ⟨a, -, h⟩
  · exact hx p h
  · exact hf a p h

theorem calm_ok {α : Type} (a : α) : Calm (.ok a) := fun p h => by cases h

theorem calm_orErr {α : Type} (e : Verify.Err) (x : Option α) : Calm (Verify.orErr e x) := by
  intro p h
  cases x <;> cases h

section calm

open Verify

variable {H : Type} {codec : Codec H} {hash : Hash}

theorem calm_points : ∀ (n : Nat) (t : Reader), Calm (readPoints codec n t) := by
  intro n
  induction n with
  | zero => intro t; exact calm_ok _
  | succ n ih => intro t; exact (calm_orErr _ _).bind fun a => (ih _).bind fun b => calm_ok _

theorem calm_scalars : ∀ (n : Nat) (t : Reader), Calm (readScalars n t) := by
  intro n
  induction n with
  | zero => intro t; exact calm_ok _
  | succ n ih => intro t; exact (calm_orErr _ _).bind fun a => (ih _).bind fun b => calm_ok _

theorem calm_pairs : ∀ (n : Nat) (t : Reader), Calm (readPairs codec n t) := by
  intro n
  induction n with
  | zero => intro t; exact calm_ok _
  | succ n ih =>
    intro t
    exact (calm_orErr _ _).bind fun a => (calm_orErr _ _).bind fun b => (ih _).bind fun c => calm_ok _

theorem calm_last (n : Nat) (t : Reader) : Calm (readLast n t) := by
  unfold readLast
  split
  · exact (calm_orErr _ _).bind fun a => calm_ok _
  · exact calm_ok _

theorem calm_sets : ∀ (n : Nat) (t : Reader), Calm (readSets n t) := by
  intro n
  induction n with
  | zero => intro t; exact calm_ok _
  | succ n ih =>
    intro t
    exact (calm_orErr _ _).bind fun a => (calm_orErr _ _).bind fun b => (calm_last _ _).bind fun c =>
      (ih _).bind fun d => calm_ok _

theorem calm_lookups : ∀ (n : Nat) (t : Reader), Calm (readLookups n t) := by
  intro n
  induction n with
  | zero => intro t; exact calm_ok _
  | succ n ih =>
    intro t
    exact (calm_orErr _ _).bind fun a => (calm_orErr _ _).bind fun b => (calm_orErr _ _).bind fun c =>
      (calm_orErr _ _).bind fun d => (calm_orErr _ _).bind fun e => (ih _).bind fun f => calm_ok _

theorem calm_advice (phase : Nat) : ∀ (l : List (Nat × Nat)) (advice : List H) (t : Reader),
    Calm (readAdvice codec phase l advice t) := by
  intro l
  induction l with
  | nil => intro advice t; exact calm_ok _
  | cons q l ih =>
    intro advice t
    obtain ⟨q, i⟩ := q
    unfold readAdvice
    split
    · exact (calm_orErr _ _).bind fun a => ih _ _
    · exact ih _ _

theorem calm_phases (cs : CS) : ∀ (l : List Nat) (advice : List H) (user : List Fr) (t : Reader),
    Calm (readPhases codec hash cs l advice user t) := by
  intro l
  induction l with
  | nil => intro advice user t; exact calm_ok _
  | cons q l ih =>
    intro advice user t
    unfold readPhases
    exact (calm_advice _ _ _ _).bind fun a => ih _ _ _

theorem calm_commitments [Zero H] (key : Key H) (repr : Fr) (instances : List (List Fr)) (proof : List UInt8) :
    Calm (readCommitments codec hash key repr instances proof) := by
  unfold readCommitments
  split
  · intro p h; cases h
  · exact (calm_phases _ _ _ _ _).bind fun a => (calm_pairs _ _).bind fun b => (calm_points _ _).bind fun c =>
      (calm_points _ _).bind fun d => (calm_orErr _ _).bind fun e => (calm_points _ _).bind fun f => calm_ok _

theorem calm_evals (key : Key H) (com : Commitments H) (t : Reader) : Calm (readEvals key com t) := by
  unfold readEvals
  exact (calm_scalars _ _).bind fun a => (calm_scalars _ _).bind fun b => (calm_orErr _ _).bind fun c =>
      (calm_scalars _ _).bind fun d => (calm_sets _ _).bind fun e => (calm_lookups _ _).bind fun f => calm_ok _

theorem calm_opening (t : Reader) : Calm (readOpening codec hash t) := by
  unfold readOpening
  exact (calm_orErr _ _).bind fun a => (calm_orErr _ _).bind fun b => calm_ok _

end calm

end Verif.Transcript

import Verif.Lemmas.VerifierLemmas

/-!
The stages of `program_entry`.
-/

namespace Verif

open Spec

variable {VK : Type} {checks : Bool} {readVk : List UInt8 → Except Panic (Option VK)}
  {verify : KzgParams → VK → List (List Fr) → List UInt8 → Except Panic Bool}
  {ws : List (List UInt8)} {params vk proof code input : List UInt8}

/-- The stages after the public inputs are decoded. -/
def entryTail (checks : Bool) (readVk : List UInt8 → Except Panic (Option VK))
    (verify : KzgParams → VK → List (List Fr) → List UInt8 → Except Panic Bool)
    (params vk proof code input : List UInt8) : Except Panic Int :=
  match readVerifierParams checks params with
  | .error e => .error e
  | .ok none => .ok (-1)
  | .ok (some (p, _)) =>
    match readVk vk with
    | .error e => .error e
    | .ok none => .ok (-1)
    | .ok (some key) =>
      match verify p key [codeColumn code, inputColumn input] proof with
      | .error e => .error e
      | .ok false => .ok (-2)
      | .ok true => .ok 0

theorem entry_not_four (h : ¬ ∃ params vk proof code, FourLoad ws params vk proof code) :
    programEntry checks readVk verify ws = .ok (-1) := by
  unfold programEntry
  cases h0 : loadWitness ws 0 1024 with
  | none => rfl
  | some params =>
  cases h1 : loadWitness ws 1 4096 with
  | none => rfl
  | some vk =>
  cases h2 : loadWitness ws 2 8192 with
  | none => rfl
  | some proof =>
  cases h3 : loadWitness ws 3 2048 with
  | none => rfl
  | some code =>
  exact absurd ⟨params, vk, proof, code, loadWitness_eq.mp h0, loadWitness_eq.mp h1,
    loadWitness_eq.mp h2, loadWitness_eq.mp h3⟩ h

theorem entry_odd (h : FourLoad ws params vk proof code) (hc : code.length % 2 ≠ 0) :
    programEntry checks readVk verify ws = .error .assert := by
  obtain ⟨h0, h1, h2, h3⟩ := h
  unfold programEntry
  rw [loadWitness_eq.mpr h0, loadWitness_eq.mpr h1, loadWitness_eq.mpr h2, loadWitness_eq.mpr h3]
  simp only [if_neg hc]

theorem entry_full_code (h : FourLoad ws params vk proof code) (hc : code.length = 2048) :
    programEntry checks readVk verify ws = .error .index := by
  obtain ⟨h0, h1, h2, h3⟩ := h
  unfold programEntry
  rw [loadWitness_eq.mpr h0, loadWitness_eq.mpr h1, loadWitness_eq.mpr h2, loadWitness_eq.mpr h3]
  simp only [if_pos (show code.length % 2 = 0 by omega), decodeCode_full hc]
  rfl

theorem entry_no_input (h : FourLoad ws params vk proof code) (hc : CodeFits code)
    (hi : ¬ ∃ input, Loads ws 4 1024 input) :
    programEntry checks readVk verify ws = .ok (-1) := by
  obtain ⟨h0, h1, h2, h3⟩ := h
  obtain ⟨c, e, -⟩ := decodeCode_fits hc
  unfold programEntry
  rw [loadWitness_eq.mpr h0, loadWitness_eq.mpr h1, loadWitness_eq.mpr h2, loadWitness_eq.mpr h3]
  rw [loadWitness_none.mpr (fun b hb => hi ⟨b, hb⟩)]
  simp only [if_pos hc.1, e]
  rfl

theorem entry_full_input (h : FourLoad ws params vk proof code) (hc : CodeFits code)
    (h4 : Loads ws 4 1024 input) (hi : input.length = 1024) :
    programEntry checks readVk verify ws = .error .index := by
  obtain ⟨h0, h1, h2, h3⟩ := h
  obtain ⟨c, e, -⟩ := decodeCode_fits hc
  unfold programEntry
  rw [loadWitness_eq.mpr h0, loadWitness_eq.mpr h1, loadWitness_eq.mpr h2, loadWitness_eq.mpr h3]
  rw [loadWitness_eq.mpr h4]
  simp only [if_pos hc.1, e, decodeInput_full hi]
  rfl

theorem entry_fits (h : FourLoad ws params vk proof code) (hc : CodeFits code)
    (h4 : Loads ws 4 1024 input) (hi : InputFits input) :
    programEntry checks readVk verify ws =
      entryTail checks readVk verify params vk proof code input := by
  obtain ⟨h0, h1, h2, h3⟩ := h
  obtain ⟨c, e, e'⟩ := decodeCode_fits hc
  obtain ⟨d, f, f'⟩ := decodeInput_fits hi
  unfold programEntry entryTail
  rw [loadWitness_eq.mpr h0, loadWitness_eq.mpr h1, loadWitness_eq.mpr h2, loadWitness_eq.mpr h3]
  rw [loadWitness_eq.mpr h4]
  simp only [if_pos hc.1, e, f, e', f', bind, Except.bind]
  generalize readVerifierParams checks params = x
  rcases x with x | _ | ⟨p, r⟩
  · rfl
  · rfl
  simp only
  generalize readVk vk = y
  rcases y with y | _ | key
  · rfl
  · rfl
  simp only
  generalize verify p key _ proof = z
  rcases z with z | _ | _ <;> rfl

/-- The ways through `program_entry`. -/
theorem entry_cases (checks : Bool) (readVk : List UInt8 → Except Panic (Option VK))
    (verify : KzgParams → VK → List (List Fr) → List UInt8 → Except Panic Bool)
    (ws : List (List UInt8)) :
    ((¬ ∃ params vk proof code, FourLoad ws params vk proof code) ∧
      programEntry checks readVk verify ws = .ok (-1)) ∨
    ∃ params vk proof code, FourLoad ws params vk proof code ∧
      ((code.length % 2 ≠ 0 ∧ programEntry checks readVk verify ws = .error .assert) ∨
       (code.length = 2048 ∧ programEntry checks readVk verify ws = .error .index) ∨
       (CodeFits code ∧
        (((¬ ∃ input, Loads ws 4 1024 input) ∧ programEntry checks readVk verify ws = .ok (-1)) ∨
         ∃ input, Loads ws 4 1024 input ∧
          ((input.length = 1024 ∧ programEntry checks readVk verify ws = .error .index) ∨
           (InputFits input ∧ programEntry checks readVk verify ws =
              entryTail checks readVk verify params vk proof code input))))) := by
  by_cases h : ∃ params vk proof code, FourLoad ws params vk proof code
  · obtain ⟨params, vk, proof, code, h⟩ := h
    refine .inr ⟨params, vk, proof, code, h, ?_⟩
    by_cases h2 : code.length % 2 = 0
    · by_cases h3 : code.length = 2048
      · exact .inr (.inl ⟨h3, entry_full_code h h3⟩)
      · have hc : CodeFits code := ⟨h2, by have := h.2.2.2.2; omega⟩
        refine .inr (.inr ⟨hc, ?_⟩)
        by_cases h4 : ∃ input, Loads ws 4 1024 input
        · obtain ⟨input, h4⟩ := h4
          refine .inr ⟨input, h4, ?_⟩
          by_cases h5 : input.length = 1024
          · exact .inl ⟨h5, entry_full_input h hc h4 h5⟩
          · have hi : InputFits input := by have := h4.2; unfold InputFits; omega
            exact .inr ⟨hi, entry_fits h hc h4 hi⟩
        · exact .inl ⟨h4, entry_no_input h hc h4⟩
    · exact .inl ⟨h2, entry_odd h h2⟩
  · exact .inl ⟨h, entry_not_four h⟩

theorem loads_unique {i cap : Nat} {a b : List UInt8} (h : Loads ws i cap a) (h' : Loads ws i cap b) :
    a = b := by
  have := h.1.symm.trans h'.1
  simpa using this

theorem fourLoad_unique {p v q c p' v' q' c' : List UInt8} (h : FourLoad ws p v q c)
    (h' : FourLoad ws p' v' q' c') : p = p' ∧ v = v' ∧ q = q' ∧ c = c' :=
  ⟨loads_unique h.1 h'.1, loads_unique h.2.1 h'.2.1, loads_unique h.2.2.1 h'.2.2.1,
    loads_unique h.2.2.2 h'.2.2.2⟩

theorem entryTail_ok {n : Int} :
    entryTail checks readVk verify params vk proof code input = .ok n ↔
      (n = -1 ∧ readVerifierParams checks params = .ok none) ∨
      ∃ p rest, readVerifierParams checks params = .ok (some (p, rest)) ∧
        ((n = -1 ∧ readVk vk = .ok none) ∨
          ∃ key, readVk vk = .ok (some key) ∧
            ((n = -2 ∧ verify p key [codeColumn code, inputColumn input] proof = .ok false) ∨
             (n = 0 ∧ verify p key [codeColumn code, inputColumn input] proof = .ok true))) := by
  unfold entryTail
  rcases hx : readVerifierParams checks params with x | _ | ⟨p, r⟩
  · simp
  · simp [eq_comm]
  simp only [Except.ok.injEq, reduceCtorEq, and_false, Option.some.injEq, Prod.mk.injEq, false_or]
  rcases hy : readVk vk with y | _ | key
  · simp
  · simp [eq_comm]
  simp only [Except.ok.injEq, reduceCtorEq, and_false, Option.some.injEq, false_or]
  rcases hz : verify p key [codeColumn code, inputColumn input] proof with z | _ | _
  · simp only [reduceCtorEq, false_iff, not_exists, not_and, not_or]
    rintro p' r' ⟨rfl, rfl⟩ k rfl
    simp [hz]
  · constructor
    · intro h
      refine ⟨p, r, ⟨rfl, rfl⟩, key, rfl, .inl ⟨by simpa using h.symm, hz⟩⟩
    · rintro ⟨p', r', ⟨rfl, rfl⟩, k, rfl, h⟩
      rw [hz] at h; simpa [eq_comm] using h
  · constructor
    · intro h
      refine ⟨p, r, ⟨rfl, rfl⟩, key, rfl, .inr ⟨by simpa using h.symm, hz⟩⟩
    · rintro ⟨p', r', ⟨rfl, rfl⟩, k, rfl, h⟩
      rw [hz] at h; simpa [eq_comm] using h

theorem entryTail_error {e : Panic} :
    entryTail checks readVk verify params vk proof code input = .error e ↔
      readVerifierParams checks params = .error e ∨
      ∃ p rest, readVerifierParams checks params = .ok (some (p, rest)) ∧
        (readVk vk = .error e ∨
          ∃ key, readVk vk = .ok (some key) ∧
            verify p key [codeColumn code, inputColumn input] proof = .error e) := by
  unfold entryTail
  rcases hx : readVerifierParams checks params with x | _ | ⟨p, r⟩
  · simp
  · simp
  simp only [Except.ok.injEq, reduceCtorEq, Option.some.injEq, Prod.mk.injEq, false_or]
  rcases hy : readVk vk with y | _ | key
  · constructor
    · intro h; exact ⟨p, r, ⟨rfl, rfl⟩, .inl (by simpa using h)⟩
    · rintro ⟨p', r', ⟨rfl, rfl⟩, h | ⟨k, h, -⟩⟩
      · simpa using h
      · simp at h
  · simp
  simp only [Except.ok.injEq, reduceCtorEq, Option.some.injEq, false_or]
  rcases hz : verify p key [codeColumn code, inputColumn input] proof with z | _ | _
  · constructor
    · intro h
      exact ⟨p, r, ⟨rfl, rfl⟩, key, rfl, by rw [hz]; simpa using h⟩
    · rintro ⟨p', r', ⟨rfl, rfl⟩, k, rfl, h⟩
      rw [hz] at h; simpa using h
  · simp only [reduceCtorEq, false_iff, not_exists, not_and]
    rintro p' r' ⟨rfl, rfl⟩ k rfl
    simp [hz]
  · simp only [reduceCtorEq, false_iff, not_exists, not_and]
    rintro p' r' ⟨rfl, rfl⟩ k rfl
    simp [hz]

end Verif

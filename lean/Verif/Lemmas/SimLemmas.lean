import Verif.Lemmas.TraceLemmas

/-! Brainfuck runs against runs of the word machine. -/

namespace BF

theorem Step.not_halted {p : List Cmd} {bits : Nat} {s : State} {r : Except Err State}
    (h : Step p bits s r) : ¬ Halted p s := by
  have key : ∀ {c : Cmd}, p[s.pc]? = some c → ¬ Halted p s := by
    intro c hp hh
    have := (List.getElem?_eq_some_iff.1 hp).1
    unfold Halted at hh
    omega
  cases h <;> exact key (by assumption)

/-- The Brainfuck machine is deterministic. -/
theorem Step.det {p : List Cmd} {bits : Nat} {s : State} {r r' : Except Err State}
    (h : Step p bits s r) (h' : Step p bits s r') : r = r' := by
  cases h <;> cases h' <;> (try rfl) <;> (try (simp_all; done))
  · rename_i j hp hz hm j' _ _ hm'
    rw [hm.unique_close hm']
  · rename_i j hp hz hm j' _ _ hm'
    rw [hm.unique_open hm']

theorem Steps.cons {p : List Cmd} {bits n : Nat} {s t u : State} (h : Step p bits s (.ok t))
    (h' : Steps p bits n t u) : Steps p bits (n + 1) s u := by
  induction h' with
  | zero => exact .succ (.zero s) h
  | succ _ h2 ih => exact .succ (ih h) h2

theorem Steps.zero_eq {p : List Cmd} {bits : Nat} {s u : State} (h : Steps p bits 0 s u) : s = u := by
  cases h; rfl

theorem Steps.uncons {p : List Cmd} {bits n : Nat} {s u : State} (h : Steps p bits (n + 1) s u) :
    ∃ t, Step p bits s (.ok t) ∧ Steps p bits n t u := by
  induction n generalizing u with
  | zero =>
    cases h with
    | succ h1 h2 => cases h1; exact ⟨u, h2, .zero u⟩
  | succ n ih =>
    cases h with
    | succ h1 h2 =>
      obtain ⟨t, ht, h3⟩ := ih h1
      exact ⟨t, ht, .succ h3 h2⟩

theorem Steps.split {p : List Cmd} {bits m : Nat} :
    ∀ {n : Nat} {s t u : State}, Steps p bits m s t → Steps p bits n s u → m ≤ n →
      Steps p bits (n - m) t u := by
  induction m with
  | zero => intro n s t u h h' _; rw [← h.zero_eq]; simpa using h'
  | succ m ih =>
    intro n s t u h h' hle
    obtain ⟨k, rfl⟩ : ∃ k, n = k + 1 := ⟨n - 1, by omega⟩
    obtain ⟨a, ha, h1⟩ := h.uncons
    obtain ⟨b, hb, h2⟩ := h'.uncons
    have := ha.det hb
    cases this
    have := ih h1 h2 (by omega)
    rwa [show k + 1 - (m + 1) = k - m by omega]

theorem Steps.halted_le {p : List Cmd} {bits m n : Nat} {s t u : State} (h : Steps p bits m s t)
    (hh : Halted p t) (h' : Steps p bits n s u) : n ≤ m := by
  by_contra hlt
  have := h.split h' (by omega)
  obtain ⟨k, hk⟩ : ∃ k, n - m = k + 1 := ⟨n - m - 1, by omega⟩
  rw [hk] at this
  obtain ⟨a, ha, -⟩ := this.uncons
  exact ha.not_halted hh

theorem Finishes.unique {p : List Cmd} {bits m m' : Nat} {input : List Nat} {t t' : State}
    (h : Finishes p bits input m t) (h' : Finishes p bits input m' t') : m = m' ∧ t = t' := by
  have h1 := h.1.halted_le h.2 h'.1
  have h2 := h'.1.halted_le h'.2 h.1
  have e : m = m' := by omega
  subst e
  have := h.1.split h'.1 (le_refl _)
  rw [Nat.sub_self] at this
  exact ⟨rfl, this.zero_eq⟩

theorem Fails.not_step {p : List Cmd} {bits m n : Nat} {input : List Nat} {e : Err} {u : State}
    (h : Fails p bits input m e) (h' : Steps p bits n (init input) u) : n ≤ m := by
  obtain ⟨t, ht, he⟩ := h
  by_contra hlt
  have := ht.split h' (by omega)
  obtain ⟨k, hk⟩ : ∃ k, n - m = k + 1 := ⟨n - m - 1, by omega⟩
  rw [hk] at this
  obtain ⟨a, ha, -⟩ := this.uncons
  have := ha.det he
  cases this

theorem Fails.not_finishes {p : List Cmd} {bits m n : Nat} {input : List Nat} {e : Err} {u : State}
    (h : Fails p bits input m e) (h' : Finishes p bits input n u) : False := by
  have h1 := h.not_step h'.1
  obtain ⟨t, ht, he⟩ := h
  have h2 := h'.1.halted_le h'.2 ht
  have : n = m := by omega
  subst this
  have := ht.split h'.1 (le_refl _)
  rw [Nat.sub_self] at this
  have := this.zero_eq
  subst this
  exact he.not_halted h'.2

theorem Fails.unique {p : List Cmd} {bits m m' : Nat} {input : List Nat} {e e' : Err}
    (h : Fails p bits input m e) (h' : Fails p bits input m' e') : m = m' ∧ e = e' := by
  obtain ⟨t, ht, he⟩ := h
  obtain ⟨t', ht', he'⟩ := h'
  have h1 := Fails.not_step ⟨t, ht, he⟩ ht'
  have h2 := Fails.not_step ⟨t', ht', he'⟩ ht
  have e1 : m = m' := by omega
  subst e1
  have := ht.split ht' (le_refl _)
  rw [Nat.sub_self] at this
  have := this.zero_eq
  subst this
  have := he.det he'
  cases this
  exact ⟨rfl, rfl⟩

end BF

namespace Verif

namespace BFSim

open BF

/-- The panic corresponding to a Brainfuck error. -/
def panicOf : Err → Panic
  | .leftOfStart => .index
  | .endOfInput => .remove

/-- Outcome of the loop against Brainfuck. -/
theorem loop_sim {p : List Cmd} {code : List Nat} {bits : Nat} (hc : CompiledTo p code)
    (hk : W.CodeOk code) (hb : Balanced p) :
    ∀ (n : Nat) (t : State) (w : W) (hist : List W), Rel p t w → W.Inv code bits w →
      match W.loop code bits n w hist with
      | none => ∃ t', Steps p bits n t t' ∧ ¬ Halted p t'
      | some (.error e) => ∃ m t' e', m < n ∧ Steps p bits m t t' ∧
          Step p bits t' (.error e') ∧ e = panicOf e'
      | some (.ok (w', hist')) => ∃ m t', m ≤ n ∧ Steps p bits m t t' ∧ Halted p t' ∧ Rel p t' w' ∧
          hist'.length = hist.length + m := by
  intro n
  induction n with
  | zero =>
    intro t w hist h _
    unfold W.loop
    cases hh : w.halted code with
    | true => exact ⟨0, t, le_refl _, .zero t, (halted_iff hc h).1 hh, h, by simp⟩
    | false =>
      refine ⟨t, .zero t, fun hcon => ?_⟩
      rw [(halted_iff hc h).2 hcon] at hh
      simp at hh
  | succ n ih =>
    intro t w hist h hi
    unfold W.loop
    cases hh : w.halted code with
    | true => exact ⟨0, t, by omega, .zero t, (halted_iff hc h).1 hh, h, by simp⟩
    | false =>
      have hnh : ¬ Halted p t := by
        intro hcon
        rw [(halted_iff hc h).2 hcon] at hh
        simp at hh
      obtain ⟨r, hr⟩ := progress bits hb t (by unfold Halted at hnh; omega)
      have hsim := step_sim hc h hi hr
      simp only [Bool.false_eq_true, if_false]
      cases r with
      | error e =>
        have : W.step code bits w = .error (panicOf e) := by cases e <;> exact hsim
        rw [this]
        exact ⟨0, t, e, by omega, .zero t, hr, rfl⟩
      | ok t1 =>
        obtain ⟨w1, hw1, hrel⟩ := hsim
        rw [hw1]
        simp only
        have := ih t1 w1 (hist ++ [w]) hrel (W.step_inv hk hi hw1 hh)
        cases hl : W.loop code bits n w1 (hist ++ [w]) with
        | none =>
          rw [hl] at this
          obtain ⟨t', h1, h2⟩ := this
          exact ⟨t', h1.cons hr, h2⟩
        | some r =>
          rw [hl] at this
          cases r with
          | error e =>
            obtain ⟨m, t', e', h1, h2, h3, h4⟩ := this
            exact ⟨m + 1, t', e', by omega, h2.cons hr, h3, h4⟩
          | ok x =>
            obtain ⟨w', hist'⟩ := x
            obtain ⟨m, t', h1, h2, h3, h4, h5⟩ := this
            refine ⟨m + 1, t', by omega, h2.cons hr, h3, h4, ?_⟩
            rw [h5]; simp; omega

/-- Compiled words of a balanced nonempty text fit the machine. -/
theorem codeOk {p : List Cmd} {code : List Nat} (hc : CompiledTo p code) (hb : Balanced p)
    (hne : p ≠ []) (hlen : pos p p.length ≤ 65535) : W.CodeOk code where
  nonempty := by
    rw [hc.length]
    have := le_pos p (le_refl p.length)
    have : 0 < p.length := List.length_pos_of_ne_nil hne
    omega
  len := by rw [hc.length]; omega
  word := by
    intro v hv
    obtain ⟨k, hk, rfl⟩ := List.getElem_of_mem hv
    have hk' := hk
    rw [hc.length] at hk'
    obtain ⟨i, c, hi, hor⟩ := pos_cover p hk'
    have hcase : ∀ x, code[k]? = some x → x < 65536 → code[k] < 65536 := by
      intro x hx hlt
      rw [List.getElem?_eq_getElem hk] at hx
      cases hx; exact hlt
    rcases hor with rfl | ⟨hw, rfl⟩
    · exact hcase _ (hc.opcode i c hi) (by cases c <;> simp [byteOf])
    · have hpl : ∀ j, pos p j ≤ 65535 := by
        intro j
        by_cases hj : j ≤ p.length
        · exact le_trans (pos_mono p hj) hlen
        · rw [pos_all p (by omega)]; exact hlen
      cases c <;> simp [width] at hw
      · obtain ⟨j, hj⟩ := exists_close hb hi
        exact hcase _ (hc.openTarget i j hj) (by have := hpl (j + 1); omega)
      · obtain ⟨j, hj⟩ := exists_open hb.1 hi
        exact hcase _ (hc.closeTarget j i hj) (by have := hpl (j + 1); omega)

end BFSim

end Verif

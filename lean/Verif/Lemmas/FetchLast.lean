import Verif.Lemmas.SoundRun

/-! The instruction table lists the program if it ends after the last word, wherever it starts
(helper for the property theorems). -/

namespace Verif

open BF Spec Props

theorem same_from_end {l l' : List Fr} (h : SameUpToLeadingZeros l l') {k : Nat} (hk : 0 < k)
    (h1 : k ≤ l.length) (h2 : k ≤ l'.length) : l[l.length - k]? = l'[l'.length - k]? := by
  obtain ⟨j, rfl | rfl⟩ := h
  · rw [List.length_append, List.length_replicate] at *
    rw [List.getElem?_append_right (by rw [List.length_replicate]; omega), List.length_replicate]
    congr 1; omega
  · rw [List.length_append, List.length_replicate] at *
    rw [List.getElem?_append_right (l₁ := List.replicate j 0) (by rw [List.length_replicate]; omega),
      List.length_replicate]
    congr 1; omega

/-- An instruction table that ends at `top`. -/
structure InsEnds (len top : Nat) (ip ci ni : Nat → Fr) : Prop where
  pos : 0 < len
  last : ip (len - 1) = (top : Fr)
  step : ∀ k, k + 1 < len →
    (ip (k + 1) = ip k ∧ ci (k + 1) = ci k ∧ ni (k + 1) = ni k) ∨
    (ip (k + 1) = ip k + 1 ∧ ni k = ci (k + 1))

/-- The words at a pointer inside the program are the words of the program. -/
theorem InsEnds.word {len : Nat} {ip ci ni : Nat → Fr} {ws : List Fr}
    (h : InsEnds len ws.length ip ci ni) (hP : len < P) (ht : ws.length < P)
    (hw : SameUpToLeadingZeros (changes ip ci (len - 1)) ws) :
    ∀ k, k < len →
      (∀ v, ws[(ip k).val]? = some v → ci k = v) ∧
      (∀ v, ws[(ip k).val + 1]? = some v → ni k = v) := by
  have back : ∀ d k, k + d + 1 = len → ∃ t : List Fr,
      changes ip ci k ++ t = changes ip ci (len - 1) ∧ ip k + (t.length : Fr) = (ws.length : Fr) ∧
      t.length ≤ d ∧ (∀ v, ws[(ip k).val]? = some v → ci k = v) ∧
      (∀ v, ws[(ip k).val + 1]? = some v → ni k = v) := by
    intro d
    induction d with
    | zero =>
      intro k hk
      have e : k = len - 1 := by omega
      subst e
      have hv : (ip (len - 1)).val = ws.length := by rw [h.last, Fr.val_cast ht]
      refine ⟨[], by simp, by rw [h.last]; simp, le_refl _, ?_, ?_⟩
      · intro v hv'
        rw [hv, List.getElem?_eq_none (by omega)] at hv'; cases hv'
      · intro v hv'
        rw [hv, List.getElem?_eq_none (by omega)] at hv'; cases hv'
    | succ d ih =>
      intro k hk
      obtain ⟨t, i0, i1, i4, i2, i3⟩ := ih (k + 1) (by omega)
      rw [changes_succ] at i0
      rcases h.step k (by omega) with ⟨e, e1, e2⟩ | ⟨e, e1⟩
      · rw [e] at i1 i2 i3
        rw [if_pos e, List.append_nil] at i0
        rw [e1] at i2
        rw [e2] at i3
        exact ⟨t, i0, i1, by omega, i2, i3⟩
      · have hne : ip (k + 1) ≠ ip k := by rw [e]; exact ne_add_one _
        rw [if_neg hne, List.append_assoc] at i0
        have hip : ip k + ((t.length + 1 : Nat) : Fr) = (ws.length : Fr) := by
          rw [← i1, e]; push_cast; ring
        refine ⟨[ci k] ++ t, i0, by simpa using hip, by simp; omega, ?_, ?_⟩
        · intro v hv
          by_cases hc : t.length + 1 ≤ ws.length
          · have hval : (ip k).val = ws.length - (t.length + 1) := by
              have : ip k = ((ws.length - (t.length + 1) : Nat) : Fr) := by
                rw [Nat.cast_sub hc, ← hip]; ring
              rw [this, Fr.val_cast (by omega)]
            have hlen : (changes ip ci (len - 1)).length = (changes ip ci k).length + (t.length + 1) := by
              rw [← i0]; simp
            have := same_from_end hw (k := t.length + 1) (by omega) (by omega) hc
            rw [← hval, hv, hlen, Nat.add_sub_cancel, ← i0] at this
            rw [List.getElem?_append_right (le_refl _)] at this
            simpa using this
          · exfalso
            have hval : (ip k).val = P - (t.length + 1 - ws.length) := by
              have : ip k = ((P - (t.length + 1 - ws.length) : Nat) : Fr) := by
                rw [Nat.cast_sub (by omega), Nat.cast_sub (by omega), ← hip]
                have : ((P : Nat) : Fr) = 0 := ZMod.natCast_self P
                rw [this]; ring
              rw [this, Fr.val_cast (by omega)]
            rw [hval, List.getElem?_eq_none (by omega)] at hv
            cases hv
        · intro v hv
          have hlt := ZMod.val_lt (ip k)
          by_cases hc : (ip k).val + 1 < P
          · have hval : (ip (k + 1)).val = (ip k).val + 1 := by rw [e, Fr.val_add_one hc]
            rw [e1]
            apply i2
            rw [hval]; exact hv
          · rw [List.getElem?_eq_none (by omega)] at hv
            cases hv
  intro k hk
  obtain ⟨t, -, -, -, h1, h2⟩ := back (len - 1 - k) k (by omega)
  exact ⟨h1, h2⟩

section

variable {n : Nat} {mx : Matrix} {ws input : List Nat} {g : Grid} {p : List Cmd}

/-- Every row at a position of the program fetches its words from there. -/
theorem fetch_inside {code inp : List Fr} (F : Facts n mx code inp g) (hn : n < P)
    (hI : 0 < mx.instruction.length) (hc : mx.program.length = code.length)
    (hlast : g.advice 15 (mx.instruction.length - 1) = (code.length : Fr))
    (hnext : ∀ k, k + 1 < mx.instruction.length → g.advice 15 (k + 1) ≠ g.advice 15 k →
      g.advice 17 k = g.advice 16 (k + 1))
    (hperm : (stayTriples g mx.instruction.length).Perm (triples g 2 1 3 mx.processor.length))
    (hprog : SameUpToLeadingZeros
      (changes (g.advice 15) (g.advice 16) (mx.instruction.length - 1)) code) :
    ∀ i, i < mx.processor.length →
      (∀ v, code[(row g i).ip.val]? = some v → (row g i).ci = v) ∧
      (∀ v, code[(row g i).ip.val + 1]? = some v → (row g i).ni = v) := by
  have hIn := F.roomI
  have hGn := F.roomG
  have hs : InsEnds mx.instruction.length code.length (g.advice 15) (g.advice 16) (g.advice 17) :=
    { pos := hI
      last := hlast
      step := by
        intro k hk
        rcases F.insStep k hk with e | e
        · exact Or.inl e
        · exact Or.inr ⟨e, hnext k hk (by rw [e]; exact ne_add_one _)⟩ }
  have hw := hs.word (by omega) (by omega) hprog
  intro i hi
  have hmem : (g.advice 2 i, g.advice 1 i, g.advice 3 i) ∈ triples g 2 1 3 mx.processor.length :=
    triples_get.2 ⟨i, hi, rfl⟩
  obtain ⟨k, hk, e⟩ := stayTriples_mem hI (hperm.symm.subset hmem)
  simp only [Prod.mk.injEq] at e
  have e1 : (row g i).ip = g.advice 15 k := e.1
  have e2 : (row g i).ci = g.advice 16 k := e.2.1
  have e3 : (row g i).ni = g.advice 17 k := e.2.2
  rw [e1, e2, e3]
  exact hw k hk

/-- The last position listed is fetched by some row. -/
theorem last_fetched {code inp : List Fr} (_F : Facts n mx code inp g)
    (hperm : (stayTriples g mx.instruction.length).Perm (triples g 2 1 3 mx.processor.length)) :
    ∃ i, i < mx.processor.length ∧ (row g i).ip = g.advice 15 (mx.instruction.length - 1) := by
  have hmem : (g.advice 15 (mx.instruction.length - 1), g.advice 16 (mx.instruction.length - 1),
      g.advice 17 (mx.instruction.length - 1)) ∈ stayTriples g mx.instruction.length := by
    unfold stayTriples
    simp
  obtain ⟨i, hi, e⟩ := triples_get.1 (hperm.subset hmem)
  simp only [Prod.mk.injEq] at e
  exact ⟨i, hi, e.1⟩

end

end Verif

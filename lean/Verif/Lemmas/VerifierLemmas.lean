import Verif.Lemmas.BytesLemmas
import Verif.Spec.Verifier

/-!
Facts on the verifier's decoding loops and on its parameters.
-/

namespace Verif

open Spec

theorem loadWitness_eq {ws : List (List UInt8)} {i cap : Nat} {b : List UInt8} :
    loadWitness ws i cap = some b ↔ Loads ws i cap b := by
  unfold loadWitness Loads
  cases h : ws[i]? with
  | none => simp
  | some c =>
    simp only [Option.some.injEq]
    split_ifs with hc
    · simp only [Option.some.injEq]
      exact ⟨fun e => ⟨e, e ▸ hc⟩, fun e => e.1⟩
    · simp only [false_iff, not_and]
      rintro rfl; exact hc

theorem loadWitness_none {ws : List (List UInt8)} {i cap : Nat} :
    loadWitness ws i cap = none ↔ ∀ b, ¬ Loads ws i cap b := by
  constructor
  · intro h b hb
    rw [← loadWitness_eq, h] at hb
    exact absurd hb (by simp)
  · intro h
    cases e : loadWitness ws i cap with
    | none => rfl
    | some b => exact absurd (loadWitness_eq.mp e) (h b)

/-- The loop writes the values it gets at the positions after `idx`. -/
theorem fillFrom_ok {get : Nat → Except Panic Fr} {v : Nat → Fr} :
    ∀ (n idx : Nat) (arr : List Fr), idx + n < arr.length →
    (∀ j, idx ≤ j → j < idx + n → get j = .ok (v j)) →
    ∃ arr', fillFrom get n idx arr = .ok arr' ∧ arr'.length = arr.length ∧
      ∀ j, arr'[j]? = if idx + 1 ≤ j ∧ j ≤ idx + n then some (v (j - 1)) else arr[j]? := by
  intro n
  induction n with
  | zero =>
    intro idx arr _ _
    refine ⟨arr, rfl, rfl, fun j => ?_⟩
    rw [if_neg (by omega)]
  | succ n ih =>
    intro idx arr hlen hget
    have hg := hget idx (by omega) (by omega)
    obtain ⟨arr', e, hl, hv⟩ := ih (idx + 1) (arr.set (idx + 1) (v idx))
      (by simp; omega) (fun j h1 h2 => hget j (by omega) (by omega))
    refine ⟨arr', ?_, by simpa using hl, fun j => ?_⟩
    · have : fillFrom get (n + 1) idx arr =
          (do let v ← get idx; let arr ← arrSet arr (idx + 1) v; fillFrom get n (idx + 1) arr) := rfl
      rw [this, hg]
      simp only [bind, Except.bind, arrSet]
      rw [if_pos (by omega)]
      exact e
    · rw [hv j]
      by_cases h1 : j = idx + 1
      · subst h1
        rw [if_neg (by omega), if_pos (by omega)]
        rw [List.getElem?_set_self (by omega)]
        simp
      · by_cases h2 : idx + 1 + 1 ≤ j ∧ j ≤ idx + 1 + n
        · rw [if_pos h2, if_pos (by omega)]
        · rw [if_neg h2, if_neg (by omega), List.getElem?_set_ne (by omega)]

/-- The loop panics when it runs past the end of the array. -/
theorem fillFrom_panic {get : Nat → Except Panic Fr} {v : Nat → Fr} :
    ∀ (n idx : Nat) (arr : List Fr), arr.length ≤ idx + n → idx < arr.length →
    (∀ j, idx ≤ j → j < idx + n → get j = .ok (v j)) →
    fillFrom get n idx arr = .error .index := by
  intro n
  induction n with
  | zero => intro idx arr h1 h2; omega
  | succ n ih =>
    intro idx arr h1 h2 hget
    have hg := hget idx (by omega) (by omega)
    have : fillFrom get (n + 1) idx arr =
        (do let v ← get idx; let arr ← arrSet arr (idx + 1) v; fillFrom get n (idx + 1) arr) := rfl
    rw [this, hg]
    simp only [bind, Except.bind, arrSet]
    by_cases hi : idx + 1 < arr.length
    · rw [if_pos hi]
      exact ih (idx + 1) _ (by simp; omega) (by simpa using hi)
        (fun j h1 h2 => hget j (by omega) (by omega))
    · rw [if_neg hi]

theorem bufferOf_get {cap i : Nat} {b : List UInt8} (hi : i < b.length) :
    arrGet (bufferOf cap b) i = .ok b[i] := by
  unfold arrGet bufferOf
  rw [List.getElem?_append_left hi, List.getElem?_eq_getElem hi]

theorem words_length (l : List UInt8) : (words l).length = l.length / 2 := by
  induction l using words.induct with
  | case1 a b l ih => simp only [words, List.length_cons, ih]; omega
  | case2 l h =>
    match l with
    | [] => rfl
    | [a] => simp [words]
    | a :: b :: l => exact absurd rfl (h a b l)

theorem words_get (l : List UInt8) (i : Nat) (h : 2 * i + 1 < l.length) :
    (words l)[i]? = some (l[2 * i].toNat + 256 * l[2 * i + 1].toNat) := by
  induction l using words.induct generalizing i with
  | case1 a b l ih =>
    cases i with
    | zero => simp [words]
    | succ i =>
      simp only [words, List.getElem?_cons_succ]
      rw [ih i (by simp at h; omega)]
      congr 1
  | case2 l h' =>
    match l with
    | [] => simp at h
    | [a] => simp at h
    | a :: b :: l => exact absurd rfl (h' a b l)

theorem codeWord_eq {cap : Nat} {raw : List UInt8} {j : Nat} (hj : j < raw.length / 2) :
    codeWord (bufferOf cap raw) j = .ok (((words raw).getD j 0 : Nat) : Fr) := by
  unfold codeWord
  rw [bufferOf_get (i := j * 2) (by omega), bufferOf_get (i := j * 2 + 1) (by omega)]
  have hw := words_get raw j (by omega)
  have e : (words raw).getD j 0 = raw[j * 2].toNat + 256 * raw[j * 2 + 1].toNat := by
    rw [List.getD_eq_getElem?_getD, hw]
    simp only [Option.getD_some, Nat.mul_comm]
  rw [e]
  simp [bind, Except.bind, leNat]

theorem getD_of_lt {α : Type} {l : List α} {i : Nat} {d : α} (h : i < l.length) :
    l.getD i d = l[i] := by
  rw [List.getD_eq_getElem?_getD, List.getElem?_eq_getElem h, Option.getD_some]

theorem inputByte_eq {cap : Nat} {raw : List UInt8} {j : Nat} (hj : j < raw.length) :
    inputByte (bufferOf cap raw) j = .ok (((raw.getD j 0).toNat : Nat) : Fr) := by
  unfold inputByte
  rw [bufferOf_get hj, getD_of_lt hj]
  simp [bind, Except.bind]

theorem take_eq_withLength {arr l : List Fr} {n : Nat} (hn : l.length = n)
    (hlen : n < arr.length) (h0 : arr[0]? = some (n : Fr))
    (h : ∀ j, 1 ≤ j → j ≤ n → arr[j]? = some (l.getD (j - 1) 0)) :
    arr.take (n + 1) = withLength l := by
  subst hn
  apply List.ext_getElem?
  intro j
  unfold withLength
  cases j with
  | zero => simpa using h0
  | succ j =>
    by_cases hj : j < l.length
    · rw [List.getElem?_take_of_lt (by omega), h (j + 1) (by omega) (by omega)]
      simp [List.getElem?_eq_getElem hj]
    · rw [List.getElem?_eq_none (by simp; omega), List.getElem?_eq_none (by simp; omega)]

theorem decodeCode_fits {raw : List UInt8} (h : CodeFits raw) :
    ∃ code, decodeCode raw = .ok code ∧
      arrPrefix code (raw.length / 2 + 1) = .ok (codeColumn raw) := by
  obtain ⟨h2, h3⟩ := h
  obtain ⟨arr, e, hl, hv⟩ := fillFrom_ok (get := codeWord (bufferOf 2048 raw))
    (v := fun j => (((words raw).getD j 0 : Nat) : Fr)) (raw.length / 2) 0
    ((List.replicate 1024 (0 : Fr)).set 0 ((raw.length / 2 : Nat) : Fr))
    (by simp only [List.length_set, List.length_replicate]; omega)
    (fun j _ hj => codeWord_eq (by omega))
  refine ⟨arr, ?_, ?_⟩
  · unfold decodeCode
    simp only [bind, Except.bind, arrSet]
    rw [if_pos (by simp only [List.length_replicate]; omega)]
    exact e
  · simp only [List.length_set, List.length_replicate] at hl
    unfold arrPrefix
    rw [if_pos (by omega)]
    congr 1
    apply take_eq_withLength (by simp [words_length]) (by omega)
    · rw [hv 0, if_neg (by omega), List.getElem?_set_self (by rw [List.length_replicate]; omega)]
    · intro j h1 h2
      rw [hv j, if_pos (by omega)]
      have hj : j - 1 < (words raw).length := by rw [words_length]; omega
      rw [getD_of_lt hj, getD_of_lt (by simpa using hj)]
      simp

theorem decodeInput_fits {raw : List UInt8} (h : InputFits raw) :
    ∃ input, decodeInput raw = .ok input ∧
      arrPrefix input (raw.length + 1) = .ok (inputColumn raw) := by
  unfold InputFits at h
  obtain ⟨arr, e, hl, hv⟩ := fillFrom_ok (get := inputByte (bufferOf 1024 raw))
    (v := fun j => (((raw.getD j 0).toNat : Nat) : Fr)) raw.length 0
    ((List.replicate 1024 (0 : Fr)).set 0 ((raw.length : Nat) : Fr))
    (by simp only [List.length_set, List.length_replicate]; omega)
    (fun j _ hj => inputByte_eq (by omega))
  refine ⟨arr, ?_, ?_⟩
  · unfold decodeInput
    simp only [bind, Except.bind, arrSet]
    rw [if_pos (by simp only [List.length_replicate]; omega)]
    exact e
  · simp only [List.length_set, List.length_replicate] at hl
    unfold arrPrefix
    rw [if_pos (by omega)]
    congr 1
    apply take_eq_withLength (by simp) (by omega)
    · rw [hv 0, if_neg (by omega), List.getElem?_set_self (by rw [List.length_replicate]; omega)]
    · intro j h1 h2
      rw [hv j, if_pos (by omega)]
      have hj : j - 1 < raw.length := by omega
      rw [getD_of_lt hj, getD_of_lt (by simpa using hj)]
      simp

theorem decodeCode_full {raw : List UInt8} (h : raw.length = 2048) :
    decodeCode raw = .error .index := by
  unfold decodeCode
  simp only [bind, Except.bind, arrSet]
  rw [if_pos (by simp only [List.length_replicate]; omega)]
  exact fillFrom_panic (v := fun j => (((words raw).getD j 0 : Nat) : Fr)) _ _ _
    (by simp only [List.length_set, List.length_replicate]; omega)
    (by simp only [List.length_set, List.length_replicate]; omega)
    (fun j _ hj => codeWord_eq (by omega))

theorem decodeInput_full {raw : List UInt8} (h : raw.length = 1024) :
    decodeInput raw = .error .index := by
  unfold decodeInput
  simp only [bind, Except.bind, arrSet]
  rw [if_pos (by simp only [List.length_replicate]; omega)]
  exact fillFrom_panic (v := fun j => (((raw.getD j 0).toNat : Nat) : Fr)) _ _ _
    (by simp only [List.length_set, List.length_replicate]; omega)
    (by simp only [List.length_set, List.length_replicate]; omega)
    (fun j _ hj => inputByte_eq (by omega))

/-! ### The words of a compiled program fit 16 bits -/

theorem compileStep_words {checks : Bool} {s s' : CompileState} {b : UInt8}
    (h : compileStep checks s b = .ok s') (hs : (∀ w ∈ s.instrs, w < 65536) ∧
      ∀ t ∈ s.jstack, t < 65536) :
    (∀ w ∈ s'.instrs, w < 65536) ∧ ∀ t ∈ s'.jstack, t < 65536 := by
  obtain ⟨h1, h2⟩ := hs
  have hb : b.toNat < 65536 := by have := b.toNat_lt; omega
  unfold compileStep at h
  split_ifs at h with c1 c2 c3
  · simp only [Except.ok.injEq] at h
    subst h
    exact ⟨h1, h2⟩
  · cases hu : u16SubOne checks ((s.instrs ++ [b.toNat] ++ [0]).length % 65536) with
    | error e => simp only [hu, bind, Except.bind] at h; cases h
    | ok t =>
      simp only [hu, bind, Except.bind, Except.ok.injEq] at h
      subst h
      have ht : t < 65536 := by
        unfold u16SubOne at hu
        split_ifs at hu <;> simp only [Except.ok.injEq] at hu <;> omega
      constructor
      · intro w hw
        simp only [List.mem_append, List.mem_singleton] at hw
        rcases hw with (hw | rfl) | rfl
        · exact h1 w hw
        · exact hb
        · omega
      · intro w hw
        rcases List.mem_cons.mp hw with rfl | hw
        · exact ht
        · exact h2 w hw
  · cases hj : s.jstack with
    | nil => simp [hj] at h
    | cons top rest =>
      simp only [hj] at h
      cases hu : u16AddOne checks top with
      | error e => simp only [hu, bind, Except.bind] at h; cases h
      | ok t =>
        simp only [hu, bind, Except.bind] at h
        have htop : top < 65536 := h2 top (by simp [hj])
        have ht : t < 65536 := by
          unfold u16AddOne at hu
          split_ifs at hu <;> simp only [Except.ok.injEq] at hu <;> omega
        split_ifs at h with c4
        simp only [Except.ok.injEq] at h
        subst h
        constructor
        · intro w hw
          rcases List.mem_or_eq_of_mem_set hw with hw | rfl
          · simp only [List.mem_append, List.mem_singleton] at hw
            rcases hw with (hw | rfl) | rfl
            · exact h1 w hw
            · exact hb
            · exact ht
          · exact Nat.mod_lt _ (by omega)
        · intro w hw
          exact h2 w (by simp [hj, hw])
  · simp only [Except.ok.injEq] at h
    subst h
    refine ⟨?_, h2⟩
    intro w hw
    simp only [List.mem_append, List.mem_singleton] at hw
    rcases hw with hw | rfl
    · exact h1 w hw
    · exact hb

theorem compileToU16_words {checks : Bool} {src : List UInt8} {ws : List Nat}
    (h : compileToU16 checks src = .ok ws) : ∀ w ∈ ws, w < 65536 := by
  have key : ∀ (src : List UInt8) (s s' : CompileState), compileLoop checks src s = .ok s' →
      ((∀ w ∈ s.instrs, w < 65536) ∧ ∀ t ∈ s.jstack, t < 65536) →
      ((∀ w ∈ s'.instrs, w < 65536) ∧ ∀ t ∈ s'.jstack, t < 65536) := by
    intro src
    induction src with
    | nil =>
      intro s s' h hs
      simp only [compileLoop, Except.ok.injEq] at h
      subst h; exact hs
    | cons b src ih =>
      intro s s' h hs
      unfold compileLoop at h
      cases hc : compileStep checks s b with
      | error e => simp only [hc, bind, Except.bind] at h; cases h
      | ok t =>
        simp only [hc, bind, Except.bind] at h
        exact ih t s' h (compileStep_words hc hs)
  unfold compileToU16 at h
  cases hc : compileLoop checks src { instrs := [], jstack := [] } with
  | error e => simp only [hc, bind, Except.bind] at h; cases h
  | ok s =>
    simp only [hc, bind, Except.bind, Except.ok.injEq] at h
    subst h
    exact (key src _ s hc (by simp)).1

theorem words_codeBytes {ws : List Nat} (h : ∀ w ∈ ws, w < 65536) : words (codeBytes ws) = ws := by
  induction ws with
  | nil => rfl
  | cons w ws ih =>
    have hw := h w (by simp)
    have e : codeBytes (w :: ws) = UInt8.ofNat w :: UInt8.ofNat (w / 256) :: codeBytes ws := rfl
    rw [e, words, ih (fun w hw => h w (by simp [hw]))]
    congr 1
    rw [UInt8.toNat_ofNat', UInt8.toNat_ofNat']
    omega

theorem codeBytes_length (ws : List Nat) : (codeBytes ws).length = 2 * ws.length := by
  induction ws with
  | nil => rfl
  | cons w ws ih =>
    have e : codeBytes (w :: ws) = UInt8.ofNat w :: UInt8.ofNat (w / 256) :: codeBytes ws := rfl
    rw [e]; simp [ih]; omega

/-! ### Parameters -/

/-- Stored parameters: the numbers fit their machine words, the points are made of field
elements. -/
structure KzgParams.Stored (p : KzgParams) : Prop where
  k_lt : p.k < 2 ^ 32
  g : ∀ q ∈ p.g, q.Stored
  gLagrange : ∀ q ∈ p.gLagrange, q.Stored
  g2 : p.g2.Stored
  sG2 : p.sG2.Stored

theorem readParamsBody_eq {f1 : List UInt8 → Option (G1Raw × List UInt8)}
    {f2 : List UInt8 → Option (G2Raw × List UInt8)} {count k n : Nat}
    {r0 r1 r2 r3 r4 : List UInt8} {g gl : List G1Raw} {a b : G2Raw}
    (e1 : readMany f1 count r0 = some (g, r1)) (e2 : readMany f1 count r1 = some (gl, r2))
    (e3 : f2 r2 = some (a, r3)) (e4 : f2 r3 = some (b, r4)) :
    readParamsBody f1 f2 count k n r0 = some (⟨k, n, g, gl, a, b⟩, r4) := by
  simp [readParamsBody, e1, e2, e3, e4]

theorem readParamsBody_append {p : KzgParams} (h : p.Stored) {count : Nat}
    (hg : p.g.length = count) (hl : p.gLagrange.length = count) (k n : Nat) (r : List UInt8) :
    readParamsBody readG1 readG2 count k n (p.g.flatMap writeG1 ++ (p.gLagrange.flatMap writeG1 ++
      (writeG2 p.g2 ++ (writeG2 p.sG2 ++ r)))) =
      some (⟨k, n, p.g, p.gLagrange, p.g2, p.sG2⟩, r) := by
  have e1 := readMany_append (w := writeG1) hg (fun q hq r => readG1_append (h.g q hq) r)
    (p.gLagrange.flatMap writeG1 ++ (writeG2 p.g2 ++ (writeG2 p.sG2 ++ r)))
  have e2 := readMany_append (w := writeG1) hl (fun q hq r => readG1_append (h.gLagrange q hq) r)
    (writeG2 p.g2 ++ (writeG2 p.sG2 ++ r))
  have e3 := readG2_append h.g2 (writeG2 p.sG2 ++ r)
  have e4 := readG2_append h.sG2 r
  exact readParamsBody_eq e1 e2 e3 e4

theorem readParamsBody_some {count k n : Nat} {r s : List UInt8} {p : KzgParams}
    (h : readParamsBody readG1 readG2 count k n r = some (p, s)) :
    p.k = k ∧ p.n = n ∧ p.g.length = count ∧ p.gLagrange.length = count ∧
      (∀ q ∈ p.g, q.Stored) ∧ (∀ q ∈ p.gLagrange, q.Stored) ∧ p.g2.Stored ∧ p.sG2.Stored ∧
      r = p.g.flatMap writeG1 ++ (p.gLagrange.flatMap writeG1 ++
        (writeG2 p.g2 ++ (writeG2 p.sG2 ++ s))) := by
  unfold readParamsBody at h
  simp only [Option.bind_eq_bind, Option.bind_eq_some_iff, Prod.exists] at h
  obtain ⟨g, r0, e0, gl, r1, e1, g2, r2, e2, s2, r3, e3, h⟩ := h
  simp only [Option.some.injEq, Prod.mk.injEq] at h
  obtain ⟨rfl, rfl⟩ := h
  obtain ⟨l0, p0, rfl⟩ := readMany_some (w := writeG1) (P := G1Raw.Stored)
    (fun a r s h => readG1_some h) e0
  obtain ⟨l1, p1, rfl⟩ := readMany_some (w := writeG1) (P := G1Raw.Stored)
    (fun a r s h => readG1_some h) e1
  obtain ⟨p2, rfl⟩ := readG2_some e2
  obtain ⟨p3, rfl⟩ := readG2_some e3
  exact ⟨rfl, rfl, l0, l1, p0, p1, p2, p3, rfl⟩

end Verif

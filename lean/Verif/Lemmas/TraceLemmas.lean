import Verif.Lemmas.Run

/-! Facts about complete traces of the word machine. -/

namespace Verif

theorem not_both_orders {α : Type} {a b : α} {l : List α} (hn : l.Nodup) (h1 : List.Sublist [a, b] l)
    (h2 : List.Sublist [b, a] l) : False := by
  induction l with
  | nil => cases h1
  | cons x l ih =>
    rw [List.nodup_cons] at hn
    cases h1 with
    | cons _ h1 =>
      cases h2 with
      | cons _ h2 => exact ih hn.2 h1 h2
      | cons_cons _ h2 => exact hn.1 (h1.subset (by simp))
    | cons_cons _ h1 =>
      cases h2 with
      | cons _ h2 => exact hn.1 (h2.subset (by simp))
      | cons_cons _ h2 => exact hn.1 (h1.subset (by simp))

theorem sublist_pair_or {α : Type} {a b : α} {l : List α} (ha : a ∈ l) (hb : b ∈ l) (hab : a ≠ b) :
    List.Sublist [a, b] l ∨ List.Sublist [b, a] l := by
  induction l with
  | nil => simp at ha
  | cons x l ih =>
    rcases List.mem_cons.1 ha with rfl | ha'
    · rcases List.mem_cons.1 hb with rfl | hb'
      · exact absurd rfl hab
      · left; exact (List.singleton_sublist.2 hb').cons_cons _
    · rcases List.mem_cons.1 hb with rfl | hb'
      · right; exact (List.singleton_sublist.2 ha').cons_cons _
      · rcases ih ha' hb' with h | h
        · left; exact h.cons _
        · right; exact h.cons _

/-- A stable sort by `key` of a list increasing in `ord` is lexicographically increasing. -/
theorem mergeSort_lex {α : Type} (key ord : α → Nat) (l : List α)
    (hl : l.Pairwise (fun a b => ord a < ord b)) :
    (l.mergeSort (fun a b => decide (key a ≤ key b))).Pairwise
      (fun a b => key a < key b ∨ (key a = key b ∧ ord a < ord b)) := by
  have htr : ∀ a b c : α, decide (key a ≤ key b) = true → decide (key b ≤ key c) = true →
      decide (key a ≤ key c) = true := by
    intro a b c; simp only [decide_eq_true_eq]; omega
  have hto : ∀ a b : α, (decide (key a ≤ key b) || decide (key b ≤ key a)) = true := by
    intro a b; simp only [Bool.or_eq_true, decide_eq_true_eq]; omega
  have hp := List.pairwise_mergeSort htr hto l
  have hnd : l.Nodup := hl.imp (fun h e => by subst e; omega)
  have hnd' := (List.mergeSort_perm l (fun a b => decide (key a ≤ key b))).nodup_iff.2 hnd
  rw [List.pairwise_iff_forall_sublist] at hp hl ⊢
  intro a b hab
  have h1 : key a ≤ key b := by simpa using hp hab
  by_cases h2 : key a < key b
  · left; exact h2
  · right
    have he : key a = key b := by omega
    refine ⟨he, ?_⟩
    have hane : a ≠ b := by
      have := hnd'.sublist hab
      simpa using this
    have hmem : ∀ x ∈ [a, b], x ∈ l := fun x hx =>
      (List.mergeSort_perm l _).subset (hab.subset hx)
    rcases sublist_pair_or (hmem a (by simp)) (hmem b (by simp)) hane with h | h
    · exact hl h
    · exfalso
      have := List.pair_sublist_mergeSort htr hto (a := b) (b := a) (by simp; omega) h
      exact not_both_orders hnd' hab this

namespace W

/-- What one step does to pointer and cells. -/
theorem step_mem {code : List Nat} {bits : Nat} {w w' : W} (hs : step code bits w = .ok w') :
    (w'.mp = w.mp ∨ w'.mp = w.mp + 1 ∨ w'.mp + 1 = w.mp) ∧
    (∀ c, c ≠ w.mp → w'.mem.getD c 0 = w.mem.getD c 0) ∧
    (w'.mp ≠ w.mp → ∀ c, w'.mem.getD c 0 = w.mem.getD c 0) := by
  have hset : ∀ (v c : Nat), c ≠ w.mp → (w.mem.set w.mp v).getD c 0 = w.mem.getD c 0 := by
    intro v c hc
    rw [List.getD_eq_getElem?_getD, List.getD_eq_getElem?_getD,
      List.getElem?_set_ne (Ne.symm hc)]
  unfold step at hs
  simp only at hs
  by_cases c1 : w.ci code % 256 = 60
  · rw [if_pos c1] at hs
    split_ifs at hs with h0
    cases hs
    exact ⟨by simp; omega, by simp, by simp⟩
  rw [if_neg c1] at hs
  by_cases c2 : w.ci code % 256 = 62
  · rw [if_pos c2] at hs
    cases hs
    have : ∀ c, (if w.mp + 1 = w.mem.length then w.mem ++ [0] else w.mem).getD c 0 =
        w.mem.getD c 0 := by
      intro c; split_ifs
      · exact BFSim.getD_push _ _
      · rfl
    exact ⟨by simp, fun c _ => this c, fun _ c => this c⟩
  rw [if_neg c2] at hs
  by_cases c3 : w.ci code % 256 = 43
  · rw [if_pos c3] at hs
    cases hs
    exact ⟨by simp, fun c hc => hset _ c hc, fun h => absurd rfl h⟩
  rw [if_neg c3] at hs
  by_cases c4 : w.ci code % 256 = 45
  · rw [if_pos c4] at hs
    cases hs
    exact ⟨by simp, fun c hc => hset _ c hc, fun h => absurd rfl h⟩
  rw [if_neg c4] at hs
  split_ifs at hs
  · cases hi : w.inp with
    | nil => rw [hi] at hs; cases hs
    | cons c rest =>
      rw [hi] at hs; cases hs
      exact ⟨by simp, fun c hc => hset _ c hc, fun h => absurd rfl h⟩
  · cases hs; exact ⟨by simp, by simp, by simp⟩
  · cases hi : code[w.ip + 1]? with
    | none => rw [hi] at hs; cases hs
    | some t => rw [hi] at hs; cases hs; exact ⟨by simp, by simp, by simp⟩
  · cases hs; exact ⟨by simp, by simp, by simp⟩
  · cases hi : code[w.ip + 1]? with
    | none => rw [hi] at hs; cases hs
    | some t => rw [hi] at hs; cases hs; exact ⟨by simp, by simp, by simp⟩
  · cases hs; exact ⟨by simp, by simp, by simp⟩

namespace Trace

variable {code inp : List Nat} {bits : Nat} {ws : List W}

/-- Induction along a trace. -/
theorem induct (h : Trace code bits inp ws) {Q : Nat → W → Prop} (h0 : Q 0 (init inp))
    (hs : ∀ (i : Nat) (a b : W), Q i a → ws[i]? = some a → ws[i + 1]? = some b →
      a.halted code = false → step code bits a = .ok b → Q (i + 1) b) :
    ∀ (i : Nat) (a : W), ws[i]? = some a → Q i a := by
  intro i
  induction i with
  | zero => intro a ha; rw [h.first] at ha; cases ha; exact h0
  | succ i ih =>
    intro b hb
    have hl := (List.getElem?_eq_some_iff.1 hb).1
    have ha : ws[i]? = some ws[i] := List.getElem?_eq_getElem (by omega)
    obtain ⟨h1, h2⟩ := h.next i _ b ha hb
    exact hs i _ b (ih _ ha) ha hb h1 h2

theorem cyc (h : Trace code bits inp ws) {i : Nat} {a : W} (ha : ws[i]? = some a) : a.cyc = i := by
  refine h.induct (Q := fun i a => a.cyc = i) rfl ?_ i a ha
  intro i a b hq _ _ _ hs
  rw [step_cyc hs, hq]

theorem inv (h : Trace code bits inp ws) (hc : CodeOk code) (hi : ∀ v ∈ inp, v < 2 ^ bits) {i : Nat}
    {a : W} (ha : ws[i]? = some a) : Inv code bits a := by
  refine h.induct (Q := fun _ a => Inv code bits a) (init_inv hi) ?_ i a ha
  intro i a b hq _ _ hh hs
  exact step_inv hc hq hs hh

theorem cyc_pairwise (h : Trace code bits inp ws) : ws.Pairwise (fun a b => a.cyc < b.cyc) := by
  rw [List.pairwise_iff_getElem]
  intro i j hi hj hij
  rw [h.cyc (List.getElem?_eq_getElem hi), h.cyc (List.getElem?_eq_getElem hj)]
  exact hij

/-- Input read so far and input left make up the whole input. -/
theorem read (h : Trace code bits inp ws) {i : Nat} {a : W} (ha : ws[i]? = some a) :
    a.read ++ a.inp = inp := by
  refine h.induct (Q := fun _ a => a.read ++ a.inp = inp) rfl ?_ i a ha
  intro i a b hq _ _ _ hs
  unfold step at hs
  simp only at hs
  split_ifs at hs <;> first
    | (cases hs; exact hq)
    | (cases hi : code[a.ip + 1]? with
        | none => rw [hi] at hs; cases hs
        | some t => rw [hi] at hs; cases hs; exact hq)
    | (cases hi : a.inp with
        | nil => rw [hi] at hs; cases hs
        | cons c rest => rw [hi] at hs; cases hs; rw [← hq, hi]; simp)

/-- Every pointer below a visited one was visited before. -/
theorem visited (h : Trace code bits inp ws) {i : Nat} {a : W} (ha : ws[i]? = some a) :
    ∀ c ≤ a.mp, ∃ j b, j ≤ i ∧ ws[j]? = some b ∧ b.mp = c := by
  refine h.induct (Q := fun i a => ∀ c ≤ a.mp, ∃ j b, j ≤ i ∧ ws[j]? = some b ∧ b.mp = c)
    ?_ ?_ i a ha
  · intro c hc
    exact ⟨0, _, le_refl _, h.first, by simp [init] at hc ⊢; omega⟩
  · intro i a b hq ha hb _ hs c hc
    obtain ⟨hm, -, -⟩ := step_mem hs
    by_cases hcb : c = b.mp
    · exact ⟨i + 1, b, le_refl _, hb, hcb.symm⟩
    · obtain ⟨j, d, hj, hd, hdc⟩ := hq c (by omega)
      exact ⟨j, d, by omega, hd, hdc⟩

/-- A cell does not change while the pointer is elsewhere. -/
theorem cell_const (h : Trace code bits inp ws) (c : Nat) {i : Nat} {a : W} (ha : ws[i]? = some a) :
    ∀ (k : Nat) (b : W), ws[i + k]? = some b →
      (∀ (j : Nat) (d : W), i ≤ j → j < i + k → ws[j]? = some d → d.mp ≠ c) →
      b.mem.getD c 0 = a.mem.getD c 0 := by
  intro k
  induction k with
  | zero => intro b hb _; rw [Nat.add_zero, ha] at hb; cases hb; rfl
  | succ k ih =>
    intro b hb hno
    have hl := (List.getElem?_eq_some_iff.1 hb).1
    have hd : ws[i + k]? = some ws[i + k] := List.getElem?_eq_getElem (by omega)
    obtain ⟨-, hs⟩ := h.next _ _ b hd hb
    obtain ⟨-, h2, -⟩ := step_mem hs
    rw [h2 c (Ne.symm (hno _ _ (by omega) (by omega) hd))]
    exact ih _ hd (fun j d h1 h2 h3 => hno j d h1 (by omega) h3)

/-- The sorted memory table, on states. -/
def sorted (ws : List W) : List W := ws.mergeSort (fun a b => decide (a.mp ≤ b.mp))

theorem sorted_lex (h : Trace code bits inp ws) :
    (sorted ws).Pairwise (fun a b => a.mp < b.mp ∨ (a.mp = b.mp ∧ a.cyc < b.cyc)) :=
  mergeSort_lex W.mp W.cyc ws h.cyc_pairwise

theorem mem_sorted (w : W) : w ∈ sorted ws ↔ w ∈ ws :=
  (List.mergeSort_perm ws _).mem_iff

/-- Two neighbours in the sorted table. -/
theorem adjacent (h : Trace code bits inp ws) {k : Nat} {a b : W} (ha : (sorted ws)[k]? = some a)
    (hb : (sorted ws)[k + 1]? = some b) :
    (a.mp = b.mp ∧ a.cyc < b.cyc ∧ (b.cyc ≠ a.cyc + 1 → b.mv = a.mv)) ∨
    (b.mp = a.mp + 1 ∧ b.mv = 0) := by
  have hlex := h.sorted_lex
  have hpw := List.pairwise_iff_getElem.1 hlex
  obtain ⟨hk1, ha'⟩ := List.getElem?_eq_some_iff.1 ha
  obtain ⟨hk2, hb'⟩ := List.getElem?_eq_some_iff.1 hb
  have hab := hpw k (k + 1) hk1 hk2 (by omega)
  rw [ha', hb'] at hab
  -- nothing lies strictly between
  have hbetween : ∀ w ∈ ws, (w.mp < a.mp ∨ (w.mp = a.mp ∧ w.cyc ≤ a.cyc)) ∨
      (b.mp < w.mp ∨ (b.mp = w.mp ∧ b.cyc ≤ w.cyc)) := by
    intro w hw
    obtain ⟨i, hi, rfl⟩ := List.getElem_of_mem ((mem_sorted w).2 hw)
    by_cases h1 : i < k
    · have := hpw i k hi hk1 h1
      rw [ha'] at this
      left; omega
    · by_cases h2 : i = k
      · left; right; subst h2; rw [ha']; exact ⟨rfl, le_refl _⟩
      · by_cases h3 : i = k + 1
        · right; right; subst h3; rw [hb']; exact ⟨rfl, le_refl _⟩
        · have := hpw (k + 1) i hk2 hi (by omega)
          rw [hb'] at this
          right; omega
  have hbmem : b ∈ ws := (mem_sorted b).1 (List.mem_of_getElem? hb)
  have hamem : a ∈ ws := (mem_sorted a).1 (List.mem_of_getElem? ha)
  obtain ⟨ib, hib, hbi⟩ := List.getElem_of_mem hbmem
  obtain ⟨ia, hia, hai⟩ := List.getElem_of_mem hamem
  have hbq : ws[ib]? = some b := by rw [List.getElem?_eq_getElem hib, hbi]
  have haq : ws[ia]? = some a := by rw [List.getElem?_eq_getElem hia, hai]
  have hbc := h.cyc hbq
  have hac := h.cyc haq
  rcases hab with hlt | ⟨heq, hclt⟩
  · right
    -- `b` is the first visit to its cell
    have hfirst : ∀ (j : Nat) (d : W), j < ib → ws[j]? = some d → d.mp ≠ b.mp := by
      intro j d hj hd he
      have hdc := h.cyc hd
      rcases hbetween d (List.mem_of_getElem? hd) with h1 | h1 <;> omega
    refine ⟨?_, ?_⟩
    · by_contra hne
      obtain ⟨j, d, hj, hd, hdm⟩ := h.visited hbq (a.mp + 1) (by omega)
      rcases hbetween d (List.mem_of_getElem? hd) with h1 | h1 <;> omega
    · have := h.cell_const b.mp h.first ib b (by rw [Nat.zero_add]; exact hbq)
        (fun j d _ h2 h3 => hfirst j d (by omega) h3)
      unfold mv
      rw [this]
      simp only [init]
      cases b.mp <;> simp
  · left
    refine ⟨heq, hclt, ?_⟩
    intro hne
    have hnone : ∀ (j : Nat) (d : W), ia + 1 ≤ j → j < ib → ws[j]? = some d → d.mp ≠ b.mp := by
      intro j d hj1 hj2 hd he
      have hdc := h.cyc hd
      rcases hbetween d (List.mem_of_getElem? hd) with h1 | h1 <;> omega
    have hl : ia + 1 < ws.length := by omega
    have hd : ws[ia + 1]? = some ws[ia + 1] := List.getElem?_eq_getElem hl
    obtain ⟨-, hs⟩ := h.next _ _ _ haq hd
    obtain ⟨-, -, h3⟩ := step_mem hs
    have hdm := hnone (ia + 1) _ (le_refl _) (by omega) hd
    have e1 := h3 (by rw [heq]; exact hdm)
    have e2 := h.cell_const b.mp hd (ib - (ia + 1)) b
      (by rw [show ia + 1 + (ib - (ia + 1)) = ib by omega]; exact hbq)
      (fun j d h1 h2 h3 => hnone j d h1 (by omega) h3)
    unfold mv
    rw [e2, e1, heq]

/-- The first row of the sorted table. -/
theorem sorted_first (h : Trace code bits inp ws) : (sorted ws)[0]? = some (init inp) := by
  have hmem : init inp ∈ sorted ws := (mem_sorted _).2 (List.mem_of_getElem? h.first)
  obtain ⟨i, hi, hie⟩ := List.getElem_of_mem hmem
  cases i with
  | zero => rw [List.getElem?_eq_getElem hi, hie]
  | succ i =>
    have := List.pairwise_iff_getElem.1 h.sorted_lex 0 (i + 1) (by omega) hi (by omega)
    rw [hie] at this
    simp [init] at this

end Trace

end W

end Verif

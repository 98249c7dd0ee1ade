import Verif.Spec.Compiled
import Mathlib.Tactic.Linarith
import Mathlib.Data.List.Induction

/-! Helper lemmas on bracket matching. -/

namespace BF

theorem opens_append (a b : List Cmd) : opens (a ++ b) = opens a + opens b := by
  simp [opens]

theorem closes_append (a b : List Cmd) : closes (a ++ b) = closes a + closes b := by
  simp [closes]

theorem NoUnderflow.nil : NoUnderflow [] := by intro n; simp [closes, opens]

theorem NoUnderflow.total {p : List Cmd} (h : NoUnderflow p) : closes p ≤ opens p := by
  have := h p.length; simpa using this

theorem NoUnderflow.prefix {a b : List Cmd} (h : NoUnderflow (a ++ b)) : NoUnderflow a := by
  intro n
  have := h (min n a.length)
  rw [List.take_append_of_le_length (by omega)] at this
  have e : a.take (min n a.length) = a.take n := by
    rw [List.take_eq_take_iff]; omega
  rwa [e] at this

theorem noUnderflow_append {a b : List Cmd} (ha : NoUnderflow a)
    (hb : ∀ n, closes a + closes (b.take n) ≤ opens a + opens (b.take n)) :
    NoUnderflow (a ++ b) := by
  intro n
  rw [List.take_append, closes_append, opens_append]
  by_cases hn : n ≤ a.length
  · have := ha n
    have e : n - a.length = 0 := by omega
    simp [e, closes, opens] at *
    exact this
  · rw [List.take_of_length_le (by omega)]
    exact hb _

theorem Balanced.nil : Balanced [] := ⟨NoUnderflow.nil, rfl⟩

theorem Balanced.append {a b : List Cmd} (ha : Balanced a) (hb : Balanced b) :
    Balanced (a ++ b) := by
  refine ⟨noUnderflow_append ha.1 fun n => ?_, ?_⟩
  · have := hb.1 n; have := ha.2; omega
  · rw [opens_append, closes_append, ha.2, hb.2]

theorem Balanced.single {c : Cmd} (h1 : c ≠ .open_) (h2 : c ≠ .close) : Balanced [c] := by
  have e1 : opens [c] = 0 := by simp [opens, h1]
  have e2 : closes [c] = 0 := by simp [closes, h2]
  refine ⟨fun n => ?_, by rw [e1, e2]⟩
  cases n with
  | zero => simp [closes]
  | succ n => simp [e1, e2]

theorem Balanced.wrap {b : List Cmd} (hb : Balanced b) :
    Balanced (.open_ :: (b ++ [.close])) := by
  have e : (Cmd.open_ :: (b ++ [Cmd.close])) = [Cmd.open_] ++ b ++ [Cmd.close] := by simp
  have ho : opens [Cmd.open_] = 1 := rfl
  have hc : closes [Cmd.open_] = 0 := rfl
  have ho' : opens [Cmd.close] = 0 := rfl
  have hc' : closes [Cmd.close] = 1 := rfl
  have h1 : NoUnderflow ([Cmd.open_] ++ b) := by
    refine noUnderflow_append ?_ fun n => ?_
    · intro n; cases n <;> simp [closes, opens]
    · have := hb.1 n; omega
  rw [e]
  refine ⟨noUnderflow_append h1 fun n => ?_, ?_⟩
  · rw [opens_append, closes_append]
    have := hb.2
    cases n with
    | zero => simp [closes, opens] at *; omega
    | succ n => simp only [List.take_succ_cons, List.take_nil, ho', hc']; omega
  · simp only [opens_append, closes_append, hb.2]; omega

/-- Split `p` at an index. -/
theorem split_at {p : List Cmd} {i : Nat} {c : Cmd} (h : p[i]? = some c) :
    p = p.take i ++ c :: p.drop (i + 1) := by
  obtain ⟨hi, he⟩ := List.getElem?_eq_some_iff.1 h
  rw [← he, List.getElem_cons_drop, List.take_append_drop]

/-- In explicit form: a matching pair splits the text. -/
theorem matches_split {p : List Cmd} {i j : Nat} (h : Matches p i j) :
    ∃ a b c, p = a ++ .open_ :: (b ++ .close :: c) ∧ a.length = i ∧ b.length + i + 1 = j ∧
      Balanced b := by
  obtain ⟨hij, hi, hj, hb⟩ := h
  have hjl : j < p.length := (List.getElem?_eq_some_iff.1 hj).1
  refine ⟨p.take i, (p.take j).drop (i + 1), p.drop (j + 1), ?_, ?_, ?_, hb⟩
  · have h1 := split_at hj
    have hi' : (p.take j)[i]? = some Cmd.open_ := by rw [List.getElem?_take_of_lt hij]; exact hi
    have h2 := split_at hi'
    rw [List.take_take, min_eq_left (by omega)] at h2
    have h3 : p = p.take j ++ Cmd.close :: p.drop (j + 1) := h1
    conv_lhs => rw [h3, h2]
    simp
  · simp; omega
  · simp; omega

theorem matches_of_split (a b c : List Cmd) (hb : Balanced b) :
    Matches (a ++ .open_ :: (b ++ .close :: c)) a.length (a.length + 1 + b.length) := by
  refine ⟨by omega, by simp, ?_, ?_⟩
  · rw [List.getElem?_append_right (by omega)]
    have e : a.length + 1 + b.length - a.length = b.length + 1 := by omega
    rw [e, List.getElem?_cons_succ]; simp
  · have e : a ++ Cmd.open_ :: (b ++ Cmd.close :: c) = (a ++ [Cmd.open_]) ++ b ++ (Cmd.close :: c) := by
      simp
    rw [e, List.take_append_of_le_length (by simp; omega), List.take_of_length_le (by simp; omega),
      List.drop_append_of_le_length (by simp)]
    have : (a ++ [Cmd.open_]).drop (a.length + 1) = [] := by
      apply List.drop_eq_nil_of_le; simp
    rw [this]; simpa using hb

theorem Matches.unique_open {p : List Cmd} {i i' j : Nat} (h : Matches p i j)
    (h' : Matches p i' j) : i = i' := by
  by_contra hne
  wlog hlt : i < i' generalizing i i'
  · exact this h' h (Ne.symm hne) (by omega)
  obtain ⟨hij, hi, hj, hb⟩ := h
  obtain ⟨hij', hi', hj', hb'⟩ := h'
  -- slice after i = s1 ++ open :: s2 with s2 balanced
  set s := (p.take j).drop (i + 1) with hs
  have hk : s[i' - (i + 1)]? = some Cmd.open_ := by
    rw [hs, List.getElem?_drop, List.getElem?_take_of_lt (by omega)]
    have : i + 1 + (i' - (i + 1)) = i' := by omega
    rw [this]; exact hi'
  have hsp := split_at hk
  have hd : s.drop (i' - (i + 1) + 1) = (p.take j).drop (i' + 1) := by
    rw [hs, List.drop_drop]; congr 1; omega
  rw [hd] at hsp
  have h1 := hb.2
  rw [hsp] at h1
  have hc1 : opens (Cmd.open_ :: List.drop (i' + 1) (p.take j)) =
      1 + opens (List.drop (i' + 1) (p.take j)) := by simp [opens]; omega
  have hc2 : closes (Cmd.open_ :: List.drop (i' + 1) (p.take j)) =
      closes (List.drop (i' + 1) (p.take j)) := by simp [closes]
  rw [opens_append, closes_append, hc1, hc2, hb'.2] at h1
  have h2 := hb.1 (i' - (i + 1))
  omega

theorem Matches.unique_close {p : List Cmd} {i j j' : Nat} (h : Matches p i j)
    (h' : Matches p i j') : j = j' := by
  by_contra hne
  wlog hlt : j < j' generalizing j j'
  · exact this h' h (Ne.symm hne) (by omega)
  obtain ⟨hij, hi, hj, hb⟩ := h
  obtain ⟨hij', hi', hj', hb'⟩ := h'
  have h1 := hb'.1 (j - (i + 1) + 1)
  have hlen : j < (p.take j').length := by
    have := (List.getElem?_eq_some_iff.1 hj').1
    simp; omega
  have hk : ((p.take j').drop (i + 1))[j - (i + 1)]? = some Cmd.close := by
    rw [List.getElem?_drop, List.getElem?_take_of_lt (by omega)]
    have : i + 1 + (j - (i + 1)) = j := by omega
    rw [this]; exact hj
  rw [List.take_add_one, hk] at h1
  have e : ((p.take j').drop (i + 1)).take (j - (i + 1)) = (p.take j).drop (i + 1) := by
    rw [List.take_drop, List.take_take]
    congr 2; omega
  rw [e, opens_append, closes_append, hb.2] at h1
  have : opens (Option.toList (some Cmd.close)) = 0 := rfl
  have : closes (Option.toList (some Cmd.close)) = 1 := rfl
  omega

/-- The unclosed brackets of a text, innermost first. -/
inductive Decomp : List Cmd → List Nat → Prop
  | nil {b : List Cmd} : Balanced b → Decomp b []
  | cons {q b : List Cmd} {st : List Nat} : Decomp q st → Balanced b →
      Decomp (q ++ .open_ :: b) (q.length :: st)

theorem Decomp.append_balanced {p b : List Cmd} {st : List Nat} (h : Decomp p st)
    (hb : Balanced b) : Decomp (p ++ b) st := by
  cases h with
  | nil h0 => exact .nil (h0.append hb)
  | cons hq hb0 =>
    rw [List.append_assoc, List.cons_append]
    exact .cons hq (hb0.append hb)

theorem Decomp.push {p : List Cmd} {st : List Nat} (h : Decomp p st) :
    Decomp (p ++ [.open_]) (p.length :: st) := .cons h .nil

theorem Decomp.pop {p : List Cmd} {i : Nat} {st : List Nat} (h : Decomp p (i :: st)) :
    Decomp (p ++ [.close]) st := by
  cases h with
  | cons hq hb =>
    rename_i q b
    have := hq.append_balanced hb.wrap
    simpa using this

theorem Decomp.opens_eq {p : List Cmd} {st : List Nat} (h : Decomp p st) :
    opens p = closes p + st.length := by
  induction h with
  | nil hb => simp [hb.2]
  | cons hq hb ih =>
    rename_i q b st
    rw [opens_append, closes_append]
    have e1 : opens (Cmd.open_ :: b) = opens b + 1 := by simp [opens]
    have e2 : closes (Cmd.open_ :: b) = closes b := by simp [closes]
    rw [e1, e2, hb.2, ih]; simp; omega

theorem Decomp.lt_length {p : List Cmd} {st : List Nat} (h : Decomp p st) :
    ∀ i ∈ st, i < p.length := by
  induction h with
  | nil hb => simp
  | cons hq hb ih =>
    intro i hi
    rcases List.mem_cons.1 hi with rfl | hi
    · simp
    · have := ih i hi; simp; omega

theorem Decomp.sorted {p : List Cmd} {st : List Nat} (h : Decomp p st) :
    st.Pairwise (· > ·) := by
  induction h with
  | nil hb => simp
  | cons hq hb ih => exact List.pairwise_cons.2 ⟨fun a ha => hq.lt_length a ha, ih⟩

theorem Decomp.matches_close {p : List Cmd} {i : Nat} {st : List Nat} (h : Decomp p (i :: st)) :
    Matches (p ++ [.close]) i p.length := by
  cases h with
  | cons hq hb =>
    rename_i q b
    have := matches_of_split q b [] hb
    have e : q ++ Cmd.open_ :: (b ++ [Cmd.close]) = q ++ Cmd.open_ :: b ++ [Cmd.close] := by simp
    rw [e] at this
    have e2 : (q ++ Cmd.open_ :: b).length = q.length + 1 + b.length := by simp; omega
    rw [e2]; exact this

theorem decomp_exists {p : List Cmd} (h : NoUnderflow p) : ∃ st, Decomp p st := by
  induction p using List.reverseRecOn with
  | nil => exact ⟨[], .nil .nil⟩
  | append_singleton p c ih =>
    obtain ⟨st, hst⟩ := ih h.prefix
    by_cases h1 : c = .open_
    · subst h1; exact ⟨_, hst.push⟩
    by_cases h2 : c = .close
    · subst h2
      cases st with
      | nil =>
        have := h.total
        rw [opens_append, closes_append, hst.opens_eq] at this
        simp [opens, closes] at this
      | cons i st => exact ⟨st, hst.pop⟩
    · exact ⟨st, hst.append_balanced (.single h1 h2)⟩

/-- Matching is local: it only depends on the text up to the closing bracket. -/
theorem matches_append {p q : List Cmd} {i j : Nat} (hj : j < p.length) :
    Matches (p ++ q) i j ↔ Matches p i j := by
  unfold Matches
  constructor
  · rintro ⟨h1, h2, h3, h4⟩
    rw [List.getElem?_append_left (by omega)] at h2 h3
    rw [List.take_append_of_le_length (by omega)] at h4
    exact ⟨h1, h2, h3, h4⟩
  · rintro ⟨h1, h2, h3, h4⟩
    rw [List.getElem?_append_left (by omega), List.getElem?_append_left (by omega),
      List.take_append_of_le_length (by omega)]
    exact ⟨h1, h2, h3, h4⟩

theorem Matches.lt {p : List Cmd} {i j : Nat} (h : Matches p i j) : i < j ∧ j < p.length :=
  ⟨h.1, (List.getElem?_eq_some_iff.1 h.2.2.1).1⟩

/-- Every closing bracket of a text without underflow has a partner. -/
theorem exists_open {p : List Cmd} (h : NoUnderflow p) {j : Nat} (hj : p[j]? = some .close) :
    ∃ i, Matches p i j := by
  have hs := split_at hj
  have hl := (List.getElem?_eq_some_iff.1 hj).1
  have e : p = (p.take j ++ [Cmd.close]) ++ p.drop (j + 1) := by
    conv_lhs => rw [hs]
    simp
  have hnu : NoUnderflow (p.take j ++ [Cmd.close]) := by
    rw [e] at h; exact h.prefix
  obtain ⟨st, hst⟩ := decomp_exists hnu.prefix
  cases st with
  | nil =>
    have := hnu.total
    rw [opens_append, closes_append, hst.opens_eq] at this
    simp [opens, closes] at this
  | cons i st =>
    refine ⟨i, ?_⟩
    have hm := hst.matches_close
    have hlen : (p.take j).length = j := by simp; omega
    rw [hlen] at hm
    rw [e, matches_append (by simp; omega)]
    exact hm

/-- Every opening bracket of a balanced text has a partner. -/
theorem exists_close {p : List Cmd} (h : Balanced p) {i : Nat} (hi : p[i]? = some .open_) :
    ∃ j, Matches p i j := by
  classical
  have hs := split_at hi
  have hl := (List.getElem?_eq_some_iff.1 hi).1
  set r := p.drop (i + 1) with hr
  -- some prefix of r closes more than it opens
  have hex : ∃ n, opens (r.take n) < closes (r.take n) := by
    refine ⟨r.length, ?_⟩
    rw [List.take_length]
    have h2 := h.2
    rw [hs, opens_append, closes_append] at h2
    have h3 := h.1 i
    have e1 : opens (Cmd.open_ :: r) = opens r + 1 := by simp [opens]
    have e2 : closes (Cmd.open_ :: r) = closes r := by simp [closes]
    omega
  set n := Nat.find hex with hn
  have hn1 := Nat.find_spec hex
  rw [← hn] at hn1
  have hn2 : ∀ m, m < n → closes (r.take m) ≤ opens (r.take m) := by
    intro m hm
    have := Nat.find_min hex hm
    omega
  obtain ⟨m, hm⟩ : ∃ m, n = m + 1 := by
    cases hnn : n with
    | zero => rw [hnn] at hn1; simp [closes, opens] at hn1
    | succ m => exact ⟨m, rfl⟩
  have hle := hn2 m (by omega)
  rw [hm, List.take_add_one, opens_append, closes_append] at hn1
  have hc : r[m]? = some Cmd.close := by
    cases hrm : r[m]? with
    | none => rw [hrm] at hn1; simp [opens, closes] at hn1; simp [opens, closes] at hle; omega
    | some c =>
      rw [hrm] at hn1
      by_cases hcc : c = .close
      · rw [hcc]
      · have : closes (Option.toList (some c)) = 0 := by
          simp [closes, hcc]
        omega
  have hopen0 : opens (Option.toList r[m]?) = 0 := by rw [hc]; rfl
  have hclose1 : closes (Option.toList r[m]?) = 1 := by rw [hc]; rfl
  have hbal : Balanced (r.take m) := by
    refine ⟨fun k => ?_, by omega⟩
    rw [List.take_take]
    exact hn2 _ (by omega)
  have hsr := split_at hc
  have hmlen : m < r.length := (List.getElem?_eq_some_iff.1 hc).1
  refine ⟨(p.take i).length + 1 + (r.take m).length, ?_⟩
  have := matches_of_split (p.take i) (r.take m) (r.drop (m + 1)) hbal
  rw [← hsr, ← hs] at this
  have hlen : (p.take i).length = i := by simp; omega
  rw [hlen] at this ⊢
  exact this

theorem pos_append_of_le (p q : List Cmd) {i : Nat} (h : i ≤ p.length) :
    pos (p ++ q) i = pos p i := by
  unfold pos; rw [List.take_append_of_le_length h]

theorem pos_succ {p : List Cmd} {i : Nat} {c : Cmd} (h : p[i]? = some c) :
    pos p (i + 1) = pos p i + width c := by
  unfold pos; rw [List.take_add_one, h]; simp

theorem pos_zero (p : List Cmd) : pos p 0 = 0 := by simp [pos]

theorem pos_mono (p : List Cmd) {i j : Nat} (h : i ≤ j) : pos p i ≤ pos p j := by
  obtain ⟨d, rfl⟩ := Nat.exists_eq_add_of_le h
  unfold pos
  rw [List.take_add, List.map_append, List.sum_append]
  omega

theorem width_pos (c : Cmd) : 1 ≤ width c := by cases c <;> simp [width]

theorem pos_lt {p : List Cmd} {i j : Nat} (h : i < j) (hi : i < p.length) : pos p i < pos p j := by
  have hc : p[i]? = some p[i] := List.getElem?_eq_getElem hi
  have h1 := pos_succ hc
  have h2 := pos_mono p (show i + 1 ≤ j from h)
  have := width_pos p[i]
  omega

theorem pos_all (p : List Cmd) {n : Nat} (h : p.length ≤ n) : pos p n = pos p p.length := by
  unfold pos; rw [List.take_of_length_le h, List.take_length]

theorem le_pos (p : List Cmd) {i : Nat} (h : i ≤ p.length) : i ≤ pos p i := by
  induction i with
  | zero => omega
  | succ n ih =>
    have := pos_lt (p := p) (show n < n + 1 by omega) (by omega)
    have := ih (by omega)
    omega

theorem noUnderflow_iff {p : List Cmd} :
    NoUnderflow p ↔ ∀ n, n < p.length + 1 → closes (p.take n) ≤ opens (p.take n) := by
  refine ⟨fun h n _ => h n, fun h n => ?_⟩
  by_cases hn : n < p.length + 1
  · exact h n hn
  · have := h p.length (by omega)
    rw [List.take_length] at this
    rw [List.take_of_length_le (by omega)]
    exact this

instance (p : List Cmd) : Decidable (NoUnderflow p) := decidable_of_iff _ noUnderflow_iff.symm

instance (p : List Cmd) : Decidable (Balanced p) := by unfold Balanced; infer_instance

end BF

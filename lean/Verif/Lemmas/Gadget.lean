import Verif.Spec.Gadget
import Mathlib.Algebra.Field.ZMod
import Mathlib.Algebra.BigOperators.Group.List.Basic
import Mathlib.Algebra.Ring.GeomSum
import Mathlib.Tactic.Ring
import Mathlib.Tactic.LinearCombination

namespace Verif.Lemmas.Gadget

open Verif.FloorPlanner (Call)
open Verif.Gadget Verif.Spec.Gadget

variable {F : Type}

theorem assert_ok {b : Bool} : assert b = .ok () ↔ b = true := by
  unfold assert; cases b <;> simp

theorem enabled_iff {calls : Calls F} {s : Selector} {row : Int} :
    enabled calls s row = true ↔ ∃ o : Nat, Call.enable s o ∈ calls ∧ row = o := by
  unfold enabled
  rw [List.any_eq_true]
  constructor
  · rintro ⟨c, hc, h⟩
    cases c <;> simp_all
    obtain ⟨rfl, rfl⟩ := h
    exact ⟨_, hc, rfl⟩
  · rintro ⟨o, h, rfl⟩
    exact ⟨_, h, by simp⟩

theorem enabled_false {calls : Calls F} {s : Selector} {row : Int}
    (h : ∀ o : Nat, Call.enable s o ∈ calls → row ≠ o) : enabled calls s row = false := by
  rw [Bool.eq_false_iff]
  intro h'
  obtain ⟨o, h1, h2⟩ := enabled_iff.1 h'
  exact h o h1 h2

theorem sat_gate [Ring F] {chip : Chip F} {table : Nat → List F} {w : Content F} {region : Nat} {calls : Calls F}
    (h : Sat chip table w region calls) {s : Selector} {es : List (Verif.Gadget.Expr F)} (hg : (s, es) ∈ chip.gates)
    {e : Verif.Gadget.Expr F} (he : e ∈ es) {o : Nat} (ho : Call.enable s o ∈ calls) :
    e.eval (enabled calls) (w region) o = 0 := by
  have := h.gates _ hg e he o
  have h1 : enabled calls s (o : Int) = true := enabled_iff.2 ⟨o, ho, rfl⟩
  have h2 : (if enabled calls s (o : Int) then (1 : F) else 0) * e.eval (enabled calls) (w region) o = 0 := this
  rwa [if_pos h1, one_mul] at h2

theorem sat_copy [Ring F] {chip : Chip F} {table : Nat → List F} {w : Content F} {region : Nat} {calls : Calls F}
    (h : Sat chip table w region calls) {a b : Cell} (hm : Call.equal a b ∈ calls) : w.at a = w.at b :=
  h.enforced _ hm

/-- The gates hold everywhere if they hold where they are enabled. -/
theorem gates_of [Ring F] {chip : Chip F} {w : Content F} {region : Nat} {calls : Calls F}
    (h : ∀ g ∈ chip.gates, ∀ e ∈ g.2, ∀ o : Nat, Call.enable g.1 o ∈ calls →
      e.eval (enabled calls) (w region) o = 0) :
    ∀ g ∈ chip.gates, ∀ e ∈ g.2, ∀ row : Int,
      (Verif.Gadget.Expr.selector g.1 * e).eval (enabled calls) (w region) row = 0 := by
  intro g hg e he row
  show (if enabled calls g.1 row then (1 : F) else 0) * e.eval (enabled calls) (w region) row = 0
  by_cases h1 : enabled calls g.1 row = true
  · obtain ⟨o, ho, rfl⟩ := enabled_iff.1 h1
    rw [h g hg e he o ho, mul_zero]
  · rw [if_neg h1, zero_mul]

section eval

variable [Ring F] {sel : Selector → Int → Bool} {w : Col → Int → F} {row : Int}

@[simp] theorem eval_add (a b : Verif.Gadget.Expr F) :
    (a + b).eval sel w row = a.eval sel w row + b.eval sel w row := rfl
@[simp] theorem eval_mul (a b : Verif.Gadget.Expr F) :
    (a * b).eval sel w row = a.eval sel w row * b.eval sel w row := rfl
@[simp] theorem eval_sub (a b : Verif.Gadget.Expr F) :
    (a - b).eval sel w row = a.eval sel w row - b.eval sel w row := by
  rw [sub_eq_add_neg]; rfl
@[simp] theorem eval_neg (a : Verif.Gadget.Expr F) : (-a).eval sel w row = - a.eval sel w row := rfl
@[simp] theorem eval_const (c : F) : (Verif.Gadget.Expr.const c).eval sel w row = c := rfl
@[simp] theorem eval_advice (c : Nat) (r : Int) :
    (Verif.Gadget.Expr.advice c r).eval sel w row = w (.advice c) (row + r) := rfl
@[simp] theorem eval_fixed (c : Nat) (r : Int) :
    (Verif.Gadget.Expr.fixed c r).eval sel w row = w (.fixed c) (row + r) := rfl
@[simp] theorem eval_scaled (a : Verif.Gadget.Expr F) (f : F) :
    (Verif.Gadget.Expr.scaled a f).eval sel w row = a.eval sel w row * f := rfl
@[simp] theorem eval_selector (s : Selector) :
    (Verif.Gadget.Expr.selector s).eval sel w row = if sel s row then 1 else 0 := rfl
@[simp] theorem eval_square (a : Verif.Gadget.Expr F) :
    a.square.eval sel w row = a.eval sel w row * a.eval sel w row := rfl

theorem eval_ternary (a b c : Verif.Gadget.Expr F) : (ternary a b c).eval sel w row =
    a.eval sel w row * b.eval sel w row + (1 - a.eval sel w row) * c.eval sel w row := by
  simp [ternary]

end eval

section queries

variable {a b c : Verif.Gadget.Expr F}

@[simp] theorem queries_add : (a + b).queries = a.queries ++ b.queries := rfl
@[simp] theorem queries_mul : (a * b).queries = a.queries ++ b.queries := rfl
@[simp] theorem queries_sub : (a - b).queries = a.queries ++ b.queries := rfl
@[simp] theorem queries_const (x : F) : (Verif.Gadget.Expr.const x).queries = [] := rfl
@[simp] theorem queries_selector (s : Selector) : (Verif.Gadget.Expr.selector s : Verif.Gadget.Expr F).queries = [] := rfl
@[simp] theorem queries_advice (c : Nat) (r : Int) :
    (Verif.Gadget.Expr.advice c r : Verif.Gadget.Expr F).queries = [(.advice c, r)] := rfl
@[simp] theorem queries_fixed (c : Nat) (r : Int) :
    (Verif.Gadget.Expr.fixed c r : Verif.Gadget.Expr F).queries = [(.fixed c, r)] := rfl
@[simp] theorem queries_scaled (x : F) : (Verif.Gadget.Expr.scaled a x).queries = a.queries := rfl
@[simp] theorem queries_square : a.square.queries = a.queries ++ a.queries := rfl

theorem queries_ternary [One F] : (ternary a b c).queries = a.queries ++ b.queries ++ (a.queries ++ c.queries) := by
  simp [ternary]

theorem queries_rangeCheck_aux [NatCast F] {q : Col × Int} (word : Verif.Gadget.Expr F) : ∀ (l : List Nat)
    (acc : Verif.Gadget.Expr F),
    q ∈ (l.foldl (fun acc (i : Nat) => acc * (Verif.Gadget.Expr.const (i : F) - word)) acc).queries →
      q ∈ acc.queries ∨ q ∈ word.queries
  | [], _, h => Or.inl h
  | i :: l, acc, h => by
    rcases queries_rangeCheck_aux word l _ h with h | h
    · simpa using h
    · exact Or.inr h

theorem queries_rangeCheck [NatCast F] {q : Col × Int} {word : Verif.Gadget.Expr F} {n : Nat}
    (h : q ∈ (rangeCheck word n).queries) : q ∈ word.queries :=
  (queries_rangeCheck_aux word _ _ h).elim id id

end queries

theorem eval_rangeCheck_aux [Field F] (sel : Selector → Int → Bool) (w : Col → Int → F) (row : Int)
    (word : Verif.Gadget.Expr F) : ∀ (l : List Nat) (acc : Verif.Gadget.Expr F),
    (l.foldl (fun acc (i : Nat) => acc * (Verif.Gadget.Expr.const (i : F) - word)) acc).eval sel w row = 0 ↔
      acc.eval sel w row = 0 ∨ ∃ i ∈ l, word.eval sel w row = (i : F)
  | [], acc => by simp
  | i :: l, acc => by
    rw [List.foldl_cons, eval_rangeCheck_aux sel w row word l, eval_mul, mul_eq_zero, eval_sub, eval_const, sub_eq_zero,
      or_assoc]
    simp [eq_comm]

theorem eval_rangeCheck [Field F] (sel : Selector → Int → Bool) (w : Col → Int → F) (row : Int)
    (word : Verif.Gadget.Expr F) {range : Nat} (hr : 0 < range) :
    (rangeCheck word range).eval sel w row = 0 ↔ ∃ i : Nat, i < range ∧ word.eval sel w row = i := by
  unfold rangeCheck
  rw [eval_rangeCheck_aux]
  constructor
  · rintro (h | ⟨i, hi, h⟩)
    · exact ⟨0, hr, by simpa using h⟩
    · rw [List.mem_range'_1] at hi
      exact ⟨i, by omega, h⟩
  · rintro ⟨i, hi, h⟩
    rcases Nat.eq_zero_or_pos i with rfl | h0
    · left; simpa using h
    · right
      exact ⟨i, List.mem_range'_1.2 ⟨h0, by omega⟩, h⟩

theorem eval_boolCheck [Field F] (sel : Selector → Int → Bool) (w : Col → Int → F) (row : Int)
    (v : Verif.Gadget.Expr F) :
    (boolCheck v).eval sel w row = 0 ↔ v.eval sel w row = 0 ∨ v.eval sel w row = 1 := by
  unfold boolCheck
  rw [eval_rangeCheck sel w row v (by norm_num)]
  constructor
  · rintro ⟨i, hi, h⟩
    interval_cases i
    · left; simpa using h
    · right; simpa using h
  · rintro (h | h)
    · exact ⟨0, by norm_num, by simpa using h⟩
    · exact ⟨1, by norm_num, by simpa using h⟩

/-! Bits. -/

/-- The number with the given bits, the lowest first. -/
def ofBits : List Bool → Nat
  | [] => 0
  | b :: l => b.toNat + 2 * ofBits l

theorem ofBits_append (l l' : List Bool) : ofBits (l ++ l') = ofBits l + 2 ^ l.length * ofBits l' := by
  induction l with
  | nil => simp [ofBits]
  | cons b l ih => simp only [List.cons_append, ofBits, ih, List.length_cons, pow_succ]; ring

theorem ofBits_lt (l : List Bool) : ofBits l < 2 ^ l.length := by
  induction l with
  | nil => simp [ofBits]
  | cons b l ih =>
    simp only [ofBits, List.length_cons, pow_succ]
    have : b.toNat ≤ 1 := Bool.toNat_le b
    omega

theorem ofBits_replicate (n : Nat) : ofBits (List.replicate n false) = 0 := by
  induction n with
  | zero => rfl
  | succ n ih => simp [List.replicate_succ, ofBits, ih]

theorem ofBits_testBit (x : Nat) : ∀ (n s : Nat),
    ofBits ((List.range' s n).map fun i => x.testBit i) = x / 2 ^ s % 2 ^ n
  | 0, s => by simp [ofBits, Nat.mod_one]
  | n + 1, s => by
    rw [List.range'_succ, List.map_cons, ofBits, ofBits_testBit x n (s + 1)]
    have h1 : (x.testBit s).toNat = x / 2 ^ s % 2 := by
      rw [Nat.toNat_testBit]
    rw [h1, pow_succ, ← Nat.div_div_eq_div_mul, pow_succ' 2 n, Nat.mod_mul]

theorem foldl_nat (l : List Bool) : ∀ a : Nat,
    l.reverse.foldl (fun acc (b : Bool) => acc * 2 + b.toNat) a = a * 2 ^ l.length + ofBits l := by
  induction l with
  | nil => intro a; simp [ofBits]
  | cons b l ih =>
    intro a
    rw [List.reverse_cons, List.foldl_append, ih]
    simp only [List.foldl_cons, List.foldl_nil, List.length_cons, ofBits, pow_succ]
    ring

theorem foldl_field {p : Nat} (l : List Bool) : ∀ a : ZMod p,
    l.reverse.foldl (fun acc (bit : Bool) => if bit then acc + acc + 1 else acc + acc) a =
      a * 2 ^ l.length + (ofBits l : ZMod p) := by
  induction l with
  | nil => intro a; simp [ofBits]
  | cons b l ih =>
    intro a
    rw [List.reverse_cons, List.foldl_append, ih]
    simp only [List.foldl_cons, List.foldl_nil, List.length_cons, ofBits, pow_succ]
    cases b <;> push_cast <;> simp <;> ring

theorem take_toLeBits {p : Nat} (x : ZMod p) {n : Nat} (hn : n ≤ 256) :
    (toLeBits x).take n = (List.range n).map fun i => x.val.testBit i := by
  unfold toLeBits
  rw [← List.map_take, List.take_range, Nat.min_eq_left hn]

theorem drop_take_bits (x : Nat) (n s m : Nat) (h : s + m ≤ n) :
    (((List.range n).map fun i => x.testBit i).drop s).take m =
      (List.range' s m).map fun i => x.testBit i := by
  apply List.ext_getElem
  · simp; omega
  · intro i h1 h2
    simp

theorem length_toLeBits {p : Nat} (x : ZMod p) : (toLeBits x).length = 256 := by simp [toLeBits]

theorem foldl_zipIdx (l : List Bool) : ∀ (i a : Nat),
    (l.zipIdx i).foldl (fun acc (b : Bool × Nat) => acc + if b.1 then 2 ^ b.2 else 0) a = a + 2 ^ i * ofBits l := by
  induction l with
  | nil => intro i a; simp [ofBits]
  | cons b l ih =>
    intro i a
    rw [List.zipIdx_cons, List.foldl_cons, ih]
    simp only [ofBits, pow_succ]
    cases b <;> simp <;> ring

theorem lebs2ip_ok {l : List Bool} (h : l.length ≤ 64) : lebs2ip l = .ok (ofBits l) := by
  unfold lebs2ip
  rw [assert_ok.2 (by simpa using h), foldl_zipIdx]
  simp [pure, Except.pure, bind, Except.bind]

theorem ofBits_inj : ∀ {l l' : List Bool}, l.length = l'.length → ofBits l = ofBits l' → l = l'
  | [], [], _, _ => rfl
  | [], _ :: _, h, _ => by simp at h
  | _ :: _, [], h, _ => by simp at h
  | a :: l, b :: l', h, e => by
    simp only [ofBits] at e
    have ha : a.toNat ≤ 1 := Bool.toNat_le a
    have hb : b.toNat ≤ 1 := Bool.toNat_le b
    have h1 : a.toNat = b.toNat := by omega
    have h2 : ofBits l = ofBits l' := by omega
    rw [ofBits_inj (by simpa using h) h2]
    congr 1
    cases a <;> cases b <;> simp_all

/-- The number put together from chunks of `n` bits. -/
def ofChunks (n : Nat) : List Nat → Nat
  | [] => 0
  | c :: l => c + 2 ^ n * ofChunks n l

theorem chunksExact_cons {A : Type} {n : Nat} (hn : 0 < n) (l : List A) (h : n ≤ l.length) :
    chunksExact n l = l.take n :: chunksExact n (l.drop n) := by
  unfold chunksExact
  have h1 : l.length / n = (l.drop n).length / n + 1 := by
    rw [List.length_drop, ← Nat.sub_add_cancel h, Nat.add_sub_cancel, Nat.add_div_right _ hn]
  rw [h1, List.range_succ_eq_map, List.map_cons, List.map_map]
  congr 1
  · simp
  · apply List.map_congr_left
    intro i _
    simp only [Function.comp, List.drop_drop, Nat.succ_eq_add_one, Nat.add_mul, one_mul]
    congr 2; omega

theorem chunksExact_nil {A : Type} {n : Nat} (l : List A) (h : l.length < n) : chunksExact n l = [] := by
  unfold chunksExact
  rw [Nat.div_eq_of_lt h]; rfl

theorem length_chunksExact {A : Type} (n : Nat) (l : List A) : (chunksExact n l).length = l.length / n := by
  simp [chunksExact]

theorem chunk_length {A : Type} {n : Nat} {l c : List A} (h : c ∈ chunksExact n l) : c.length = n := by
  unfold chunksExact at h
  obtain ⟨i, hi, rfl⟩ := List.mem_map.1 h
  rw [List.mem_range] at hi
  rw [List.length_take, List.length_drop]
  have h1 : (i + 1) * n ≤ l.length := by
    calc (i + 1) * n ≤ l.length / n * n := Nat.mul_le_mul_right _ hi
      _ ≤ l.length := Nat.div_mul_le_self _ _
  rw [Nat.add_mul, one_mul] at h1
  omega

theorem ofChunks_chunks {n : Nat} (hn : 0 < n) : ∀ (m : Nat) (l : List Bool), l.length = m * n →
    ofChunks n ((chunksExact n l).map ofBits) = ofBits l
  | 0, l, h => by
    have : l = [] := List.length_eq_zero_iff.1 (by simpa using h)
    subst this
    rw [chunksExact_nil _ (by simpa using hn)]
    rfl
  | m + 1, l, h => by
    have hl : n ≤ l.length := by rw [h, Nat.add_mul]; omega
    rw [chunksExact_cons hn l hl, List.map_cons, ofChunks,
      ofChunks_chunks hn m (l.drop n) (by rw [List.length_drop, h, Nat.add_mul]; omega)]
    conv_rhs => rw [← List.take_append_drop n l, ofBits_append, List.length_take, Nat.min_eq_left hl]

theorem bitrangeSubset_ok {p : Nat} (hp : p < 2 ^ 256) (x : ZMod p) {start stop : Nat} (h : start ≤ stop)
    (hs : stop ≤ p.size) :
    bitrangeSubset x start stop = .ok ((x.val / 2 ^ start % 2 ^ (stop - start) : Nat) : ZMod p) := by
  unfold bitrangeSubset
  rw [assert_ok.2 (by simpa using hs), assert_ok.2 (by simpa using h), foldl_field]
  have hsz : p.size ≤ 256 := Nat.size_le.2 hp
  simp only [bind, Except.bind, pure, Except.pure, zero_mul, zero_add]
  congr 2
  unfold toLeBits
  rw [drop_take_bits _ _ _ _ (by omega), ofBits_testBit]

theorem decomposeWord_ok {p : Nat} (x : ZMod p) {wordBits windowBits : Nat} (h0 : 0 < windowBits)
    (h8 : windowBits ≤ 8) (hw : wordBits ≤ 256) :
    ∃ ks, decomposeWord x wordBits windowBits = .ok ks ∧ ks.length = (wordBits + windowBits - 1) / windowBits ∧
      (∀ k ∈ ks, k < 2 ^ windowBits) ∧ ofChunks windowBits ks = x.val % 2 ^ wordBits := by
  unfold decomposeWord
  set padding := (windowBits - wordBits % windowBits) % windowBits with hpad
  set bits := (toLeBits x).take wordBits ++ List.replicate padding false with hbits
  have hlen : bits.length = wordBits + padding := by
    rw [hbits, List.length_append, List.length_take, length_toLeBits, List.length_replicate, Nat.min_eq_left hw]
  have hmul : wordBits + padding = (wordBits + windowBits - 1) / windowBits * windowBits := by
    have h1 := Nat.div_add_mod wordBits windowBits
    have h2 := Nat.mod_lt wordBits h0
    rw [hpad]
    rcases Nat.eq_zero_or_pos (wordBits % windowBits) with h3 | h3
    · rw [h3, Nat.sub_zero, Nat.mod_self, add_zero]
      have : wordBits + windowBits - 1 = windowBits - 1 + windowBits * (wordBits / windowBits) := by omega
      rw [this, Nat.add_mul_div_left _ _ h0, Nat.div_eq_of_lt (by omega), zero_add, mul_comm]; omega
    · rw [Nat.mod_eq_of_lt (by omega : windowBits - wordBits % windowBits < windowBits)]
      have : wordBits + windowBits - 1 = wordBits % windowBits - 1 + windowBits * (wordBits / windowBits + 1) := by
        rw [Nat.mul_add]; omega
      rw [this, Nat.add_mul_div_left _ _ h0, Nat.div_eq_of_lt (by omega), zero_add, mul_comm, Nat.mul_add]; omega
  have hmap : (chunksExact windowBits bits).map (fun chunk => chunk.reverse.foldl (fun acc b => acc * 2 + b.toNat) 0) =
      (chunksExact windowBits bits).map ofBits := by
    apply List.map_congr_left
    intro c _
    rw [foldl_nat, zero_mul, zero_add]
  refine ⟨(chunksExact windowBits bits).map ofBits, ?_, ?_, ?_, ?_⟩
  · rw [assert_ok.2 (by simpa using h8), assert_ok.2 (by simpa using h0)]
    show (assert (bits.length == wordBits + padding) >>= fun _ => pure ((chunksExact windowBits bits).map
      (fun chunk => chunk.reverse.foldl (fun acc b => acc * 2 + b.toNat) 0))) = _
    rw [assert_ok.2 (by simpa using hlen), hmap]
    rfl
  · rw [List.length_map, length_chunksExact, hlen, hmul, Nat.mul_div_cancel _ h0]
  · intro k hk
    obtain ⟨c, hc, rfl⟩ := List.mem_map.1 hk
    rw [← chunk_length hc]
    exact ofBits_lt c
  · rw [ofChunks_chunks h0 _ bits (hlen.trans hmul), hbits, ofBits_append, ofBits_replicate, mul_zero, add_zero,
      take_toLeBits x hw, List.range_eq_range', ofBits_testBit]
    simp

theorem decomposeWord_fails {p : Nat} (x : ZMod p) {wordBits windowBits : Nat} (hw : 256 < wordBits) :
    decomposeWord x wordBits windowBits = .error .panic := by
  unfold decomposeWord
  by_cases h8 : windowBits ≤ 8
  · by_cases h0 : 0 < windowBits
    · have h3 : ((List.take wordBits (toLeBits x) ++ List.replicate
          ((windowBits - wordBits % windowBits) % windowBits) false).length ==
          wordBits + (windowBits - wordBits % windowBits) % windowBits) = false := by
        rw [beq_eq_false_iff_ne, List.length_append, List.length_take, length_toLeBits, List.length_replicate]
        omega
      simp only [h8, h0, decide_true, h3]
      rfl
    · simp only [h8, h0, decide_true, decide_false]
      rfl
  · simp only [h8, decide_false]
    rfl

/-! Running sums. -/

/-- If each difference is a word of `k` bits and the last is zero, the sums are the quotients of the first. -/
theorem sum_sound {p : Nat} [NeZero p] {k : Nat} : ∀ (n : Nat) (z : Nat → ZMod p),
    (∀ i < n, ∃ m : Nat, m < 2 ^ k ∧ z i - z (i + 1) * 2 ^ k = m) → z n = 0 → 2 ^ (k * n) ≤ p →
    (z 0).val < 2 ^ (k * n) ∧ ∀ i ≤ n, (z i).val = (z 0).val / 2 ^ (k * i)
  | 0, z, _, h0, _ => by
    rw [h0]
    refine ⟨by simp, fun i hi => ?_⟩
    obtain rfl : i = 0 := by omega
    simp [h0]
  | n + 1, z, h, h0, hp => by
    have hpow : (2 : Nat) ^ (k * (n + 1)) = 2 ^ k * 2 ^ (k * n) := by rw [← pow_add]; ring_nf
    have hk : 0 < 2 ^ k := by positivity
    have ih := sum_sound n (fun i => z (i + 1)) (fun i hi => h (i + 1) (by omega)) h0
      (le_trans (by rw [hpow]; exact Nat.le_mul_of_pos_left _ hk) hp)
    obtain ⟨m, hm, h1⟩ := h 0 (by omega)
    simp only [zero_add] at ih h1
    have hlt : m + 2 ^ k * (z 1).val < 2 ^ (k * (n + 1)) := by
      rw [hpow]
      have := Nat.mul_le_mul_left (2 ^ k) (Nat.succ_le_of_lt ih.1)
      rw [Nat.mul_succ] at this
      omega
    have hz : z 0 = ((m + 2 ^ k * (z 1).val : Nat) : ZMod p) := by
      push_cast
      rw [ZMod.natCast_zmod_val]
      linear_combination h1
    have hv : (z 0).val = m + 2 ^ k * (z 1).val := by
      rw [hz, ZMod.val_natCast_of_lt (lt_of_lt_of_le hlt hp)]
    refine ⟨by rw [hv]; exact hlt, fun i hi => ?_⟩
    rcases i with _ | i
    · simp
    · rw [ih.2 i (by omega), hv, Nat.mul_succ, add_comm (k * i) k, pow_add, ← Nat.div_div_eq_div_mul,
        Nat.add_mul_div_left _ _ hk, Nat.div_eq_of_lt hm, zero_add]

/-- Without a condition on the last sum: the first is made of words and the last. -/
theorem sum_open {p : Nat} {k : Nat} : ∀ (n : Nat) (z : Nat → ZMod p),
    (∀ i < n, ∃ m : Nat, m < 2 ^ k ∧ z i - z (i + 1) * 2 ^ k = m) →
    ∃ m : Nat, m < 2 ^ (k * n) ∧ z 0 = m + 2 ^ (k * n) * z n
  | 0, z, _ => ⟨0, by simp, by simp⟩
  | n + 1, z, h => by
    have hpow : (2 : Nat) ^ (k * (n + 1)) = 2 ^ k * 2 ^ (k * n) := by rw [← pow_add]; ring_nf
    obtain ⟨m, hm, h2⟩ := sum_open n (fun i => z (i + 1)) (fun i hi => h (i + 1) (by omega))
    obtain ⟨m0, hm0, h1⟩ := h 0 (by omega)
    simp only [zero_add] at h1 h2
    refine ⟨m0 + 2 ^ k * m, ?_, ?_⟩
    · rw [hpow]
      have := Nat.mul_le_mul_left (2 ^ k) (Nat.succ_le_of_lt hm)
      rw [Nat.mul_succ] at this
      omega
    · have hpow' : (2 : ZMod p) ^ (k * (n + 1)) = 2 ^ k * 2 ^ (k * n) := by rw [← pow_add]; ring_nf
      push_cast
      rw [hpow']
      linear_combination h1 + 2 ^ k * h2

end Verif.Lemmas.Gadget

import Verif.Model.Circuit
import Mathlib.Tactic.Ring
import Mathlib.Tactic.LinearCombination

/-! The gates of the circuit as equations between cells (helper for the property theorems). -/

namespace Verif

open Expr

variable {n row : Nat} {g : Grid}

theorem rotate_zero (h : row < n) : rotate n row 0 = row := by
  unfold rotate
  rw [add_zero, Int.emod_eq_of_lt (by omega) (by omega)]; simp

theorem rotate_one (h : row + 1 < n) : rotate n row 1 = row + 1 := by
  unfold rotate
  rw [Int.emod_eq_of_lt (by omega) (by omega)]; omega

theorem rotate_neg_one (h : row + 1 < n) : rotate n (row + 1) (-1) = row := by
  unfold rotate
  rw [Int.emod_eq_of_lt (by omega) (by omega)]; omega

theorem rotate_lt (hn : 0 < n) (rot : Int) : rotate n row rot < n := by
  unfold rotate
  have h1 := Int.emod_nonneg ((row : Int) + rot) (by omega : (n : Int) ≠ 0)
  have h2 := Int.emod_lt_of_pos ((row : Int) + rot) (by omega : (0 : Int) < n)
  omega

@[simp] theorem eval_add (a b : Expr) : (a + b).eval n g row = a.eval n g row + b.eval n g row := rfl
@[simp] theorem eval_mul (a b : Expr) : (a * b).eval n g row = a.eval n g row * b.eval n g row := rfl
@[simp] theorem eval_sub (a b : Expr) : (a - b).eval n g row = a.eval n g row - b.eval n g row := by
  show a.eval n g row + - b.eval n g row = _
  ring
@[simp] theorem eval_const (c : Fr) : (Expr.const c).eval n g row = c := rfl
@[simp] theorem eval_challenge (i : Nat) : (Expr.challenge i).eval n g row = g.challenge i := rfl
theorem eval_advice (c : Nat) (r : Int) :
    (Expr.advice c r).eval n g row = g.advice c (rotate n row r) := rfl
theorem eval_fixed (c : Nat) (r : Int) :
    (Expr.fixed c r).eval n g row = g.fixed c (rotate n row r) := rfl
theorem eval_selector (s : Selector) :
    (Expr.selector s).eval n g row = if g.selector s.index row then 1 else 0 := rfl

/-- The deselector as a function of the current instruction. -/
def desel (op : UInt8) (x : Fr) : Fr :=
  OPCODES.foldl (fun e v => if v = op then e else e * (x - frOfByte v)) 1

theorem eval_deselector (ci : Expr) (op : UInt8) :
    (createDeselector ci op).eval n g row = desel op (ci.eval n g row) := by
  unfold createDeselector desel
  have : ∀ (l : List UInt8) (e : Expr),
      (l.foldl (fun e v => if v = op then e else e * (ci - .const (frOfByte v))) e).eval n g row =
      l.foldl (fun e v => if v = op then e else e * (ci.eval n g row - frOfByte v))
        (e.eval n g row) := by
    intro l
    induction l with
    | nil => intro e; rfl
    | cons v l ih =>
      intro e
      simp only [List.foldl_cons]
      rw [ih]
      congr 1
      split_ifs
      · rfl
      · simp
  rw [this]
  rfl

theorem eval_sel (ci : Expr) (op : UInt8) :
    (createSelector ci op).eval n g row = ci.eval n g row - frOfByte op := by
  simp [createSelector]

/-- The successor row, cyclically. -/
abbrev nxt (n row : Nat) : Nat := rotate n row 1
/-- The predecessor row, cyclically. -/
abbrev prv (n row : Nat) : Nat := rotate n row (-1)

/-- All polynomials of a gate vanish in a row. -/
def Holds (n : Nat) (g : Grid) (row : Nat) (ps : List Expr) : Prop :=
  ∀ p ∈ ps, p.eval n g row = 0

theorem holds_single (p : Expr) : Holds n g row [p] ↔ p.eval n g row = 0 := by
  simp [Holds]

theorem sel_mul (b : Bool) (x : Fr) : (if b then (1 : Fr) else 0) * x = 0 ↔ (b = true → x = 0) := by
  cases b <;> simp

variable (cs : CS)

theorem gateB_holds (h : row < n) (s : Selector) (c : Nat) :
    Holds n g row (gateB s c cs).1 ↔ (g.selector s.index row = true → g.advice c row = 0) := by
  show Holds n g row [_] ↔ _
  rw [holds_single]
  simp only [eval_mul, eval_selector, eval_advice, rotate_zero h, sel_mul]

theorem gateP0_holds (h : row < n) (s : Selector) (c : Nat) :
    Holds n g row (gateP0 s c cs).1 ↔
      (g.selector s.index row = true → g.advice c (nxt n row) - g.advice c row - 1 = 0) := by
  show Holds n g row [_] ↔ _
  rw [holds_single]
  simp only [eval_mul, eval_sub, eval_const, eval_selector, eval_advice, rotate_zero h, sel_mul]

theorem gateC0_holds (h : row < n) (s : Selector) (mv mvi : Nat) :
    Holds n g row (gateC0 s mv mvi cs).1 ↔
      (g.selector s.index row = true → g.advice mv row * (g.advice mv row * g.advice mvi row - 1) = 0) := by
  show Holds n g row [_] ↔ _
  rw [holds_single]
  simp only [eval_mul, eval_sub, eval_const, eval_selector, eval_advice, rotate_zero h, mul_assoc,
    sel_mul]

theorem gateC1_holds (h : row < n) (s : Selector) (mv mvi : Nat) :
    Holds n g row (gateC1 s mv mvi cs).1 ↔
      (g.selector s.index row = true → g.advice mvi row * (g.advice mv row * g.advice mvi row - 1) = 0) := by
  show Holds n g row [_] ↔ _
  rw [holds_single]
  simp only [eval_mul, eval_sub, eval_const, eval_selector, eval_advice, rotate_zero h, mul_assoc,
    sel_mul]

/-- The polynomial of gate P_1. -/
def polyP1 (ci ip ip' mv mvi ni : Fr) : Fr :=
  (desel ADD ci + desel SUB ci + desel SHR ci + desel SHL ci + desel GETCHAR ci + desel PUTCHAR ci)
      * (ip' - ip - 1) +
    desel LB ci * (mv * (ip' - ip - 2) + (mv * mvi - 1) * (ip' - ni)) +
    desel RB ci * ((mv * mvi - 1) * (ip' - ip - 2) + mv * (ip' - ni))

theorem gateP1_holds (h : row < n) (s : Selector) (ci ip mv mvi ni : Nat) :
    Holds n g row (gateP1 s ci ip mv mvi ni cs).1 ↔
      (g.selector s.index row = true → polyP1 (g.advice ci row) (g.advice ip row)
        (g.advice ip (nxt n row)) (g.advice mv row) (g.advice mvi row) (g.advice ni row) = 0) := by
  show Holds n g row [_] ↔ _
  rw [holds_single]
  simp only [eval_mul, eval_sub, eval_add, eval_const, eval_selector, eval_advice, eval_deselector,
    rotate_zero h, sel_mul, polyP1]

/-- The polynomial of gate P_2. -/
def polyP2 (ci mp mp' : Fr) : Fr :=
  (desel ADD ci + desel SUB ci + desel LB ci + desel RB ci + desel GETCHAR ci + desel PUTCHAR ci)
      * (mp' - mp) +
    desel SHL ci * (mp' - mp + 1) + desel SHR ci * (mp' - mp - 1)

theorem gateP2_holds (h : row < n) (s : Selector) (ci mp : Nat) :
    Holds n g row (gateP2 s ci mp cs).1 ↔
      (g.selector s.index row = true →
        polyP2 (g.advice ci row) (g.advice mp row) (g.advice mp (nxt n row)) = 0) := by
  show Holds n g row [_] ↔ _
  rw [holds_single]
  simp only [eval_mul, eval_sub, eval_add, eval_const, eval_selector, eval_advice, eval_deselector,
    rotate_zero h, sel_mul, polyP2]

/-- The polynomial of gate P_3. -/
def polyP3 (range : Nat) (ci mv mv' : Fr) : Fr :=
  (desel LB ci + desel RB ci + desel PUTCHAR ci) * (mv' - mv) +
    (desel SHL ci + desel SHR ci + desel GETCHAR ci) * 0 +
    desel ADD ci * (mv' - mv - 1) * (mv' - mv + ((range - 1 : Nat) : Fr)) +
    desel SUB ci * (mv' - mv + 1) * (mv' - mv - ((range - 1 : Nat) : Fr))

theorem gateP3_holds (h : row < n) (s : Selector) (range : Nat) (ci mv : Nat) :
    Holds n g row (gateP3 s range ci mv cs).1 ↔
      (g.selector s.index row = true →
        polyP3 range (g.advice ci row) (g.advice mv row) (g.advice mv (nxt n row)) = 0) := by
  show Holds n g row [_] ↔ _
  rw [holds_single]
  simp only [eval_mul, eval_sub, eval_add, eval_const, eval_selector, eval_advice, eval_deselector,
    rotate_zero h, sel_mul, polyP3]

/-- The factor of a permutation argument. -/
def factor (ch : Nat → Fr) (c : Nat × Nat × Nat × Nat) (x y z : Fr) : Fr :=
  ch c.1 - ch c.2.1 * x - ch c.2.2.1 * y - ch c.2.2.2 * z

theorem gatePrp_holds (h : row < n) (s : Selector) (a b c prp : Nat) (ch : Nat × Nat × Nat × Nat) :
    Holds n g row (gatePrp s a b c prp ch cs).1 ↔
      (g.selector s.index row = true → g.advice prp (nxt n row) - g.advice prp row *
        factor g.challenge ch (g.advice a row) (g.advice b row) (g.advice c row) = 0) := by
  obtain ⟨c1, c2, c3, c4⟩ := ch
  show Holds n g row [_] ↔ _
  rw [holds_single]
  simp only [eval_mul, eval_sub, eval_challenge, eval_selector, eval_advice,
    rotate_zero h, sel_mul, factor]

theorem gateProcRs_holds (h : row < n) (s : Selector) (op : UInt8) (ci mv rs : Nat) (rot : Int)
    (gamma : Nat) :
    Holds n g row (gateProcRs s op ci mv rs rot gamma cs).1 ↔
      (g.selector s.index row = true →
        desel op (g.advice ci row) * (g.advice rs (nxt n row) -
          (g.advice rs row * g.challenge gamma + g.advice mv (rotate n row rot))) +
        (g.advice ci row - frOfByte op) * (g.advice rs (nxt n row) - g.advice rs row) = 0) := by
  show Holds n g row [_] ↔ _
  rw [holds_single]
  simp only [eval_mul, eval_sub, eval_add, eval_challenge, eval_selector, eval_advice,
    eval_deselector, eval_sel, rotate_zero h, sel_mul]

theorem gateM0_holds (h : row < n) (s : Selector) (mp : Nat) :
    Holds n g row (gateM0 s mp cs).1 ↔ (g.selector s.index row = true →
      (g.advice mp (nxt n row) - g.advice mp row - 1) *
        (g.advice mp (nxt n row) - g.advice mp row) = 0) := by
  show Holds n g row [_] ↔ _
  rw [holds_single]
  simp only [eval_mul, eval_sub, eval_const, eval_selector, eval_advice, rotate_zero h, mul_assoc,
    sel_mul]

theorem gateM1_holds (h : row < n) (s : Selector) (mp mv clk : Nat) :
    Holds n g row (gateM1 s mp mv clk cs).1 ↔ (g.selector s.index row = true →
      (g.advice mp (nxt n row) - g.advice mp row - 1) *
        ((g.advice mv row - g.advice mv (nxt n row)) *
          (g.advice clk (nxt n row) - g.advice clk row - 1)) = 0) := by
  show Holds n g row [_] ↔ _
  rw [holds_single]
  simp only [eval_mul, eval_sub, eval_const, eval_selector, eval_advice, rotate_zero h, mul_assoc,
    sel_mul]

theorem gateM2_holds (h : row < n) (s : Selector) (mp mv : Nat) :
    Holds n g row (gateM2 s mp mv cs).1 ↔ (g.selector s.index row = true →
      (g.advice mp (nxt n row) - g.advice mp row) * g.advice mv (nxt n row) = 0) := by
  show Holds n g row [_] ↔ _
  rw [holds_single]
  simp only [eval_mul, eval_sub, eval_selector, eval_advice, rotate_zero h, mul_assoc, sel_mul]

theorem gateI0_holds (h : row < n) (s : Selector) (ip : Nat) :
    Holds n g row (gateI0 s ip cs).1 ↔ (g.selector s.index row = true →
      (g.advice ip (nxt n row) - g.advice ip row) *
        (g.advice ip (nxt n row) - g.advice ip row - 1) = 0) := by
  show Holds n g row [_] ↔ _
  rw [holds_single]
  simp only [eval_mul, eval_sub, eval_const, eval_selector, eval_advice, rotate_zero h, mul_assoc,
    sel_mul]

theorem gateI12_holds (h : row < n) (s : Selector) (ip x : Nat) :
    Holds n g row (gateI12 s ip x cs).1 ↔ (g.selector s.index row = true →
      (g.advice ip (nxt n row) - g.advice ip row - 1) *
        (g.advice x (nxt n row) - g.advice x row) = 0) := by
  show Holds n g row [_] ↔ _
  rw [holds_single]
  simp only [eval_mul, eval_sub, eval_const, eval_selector, eval_advice, rotate_zero h, mul_assoc,
    sel_mul]

theorem gateInstRs_holds (h : row < n) (s : Selector) (ip ci rs gamma : Nat) :
    Holds n g row (gateInstRs s ip ci rs gamma cs).1 ↔ (g.selector s.index row = true →
      (g.advice ip (nxt n row) - g.advice ip row) *
        (g.advice rs (nxt n row) - (g.advice rs row * g.challenge gamma + g.advice ci row)) +
      (g.advice ip (nxt n row) - g.advice ip row - 1) *
        (g.advice rs (nxt n row) - g.advice rs row) = 0) := by
  show Holds n g row [_] ↔ _
  rw [holds_single]
  simp only [eval_mul, eval_sub, eval_add, eval_const, eval_challenge, eval_selector, eval_advice,
    rotate_zero h, sel_mul]

theorem gateInstPrp_holds (h : row < n) (s : Selector) (ip ci ni prp : Nat)
    (ch : Nat × Nat × Nat × Nat) :
    Holds n g row (gateInstPrp s ip ci ni prp ch cs).1 ↔ (g.selector s.index row = true →
      (g.advice ip (nxt n row) - g.advice ip row - 1) *
        (g.advice prp (nxt n row) - g.advice prp row *
          factor g.challenge ch (g.advice ip row) (g.advice ci row) (g.advice ni row)) +
      (g.advice ip row - g.advice ip (nxt n row)) *
        (g.advice prp row - g.advice prp (nxt n row)) = 0) := by
  obtain ⟨c1, c2, c3, c4⟩ := ch
  show Holds n g row [_] ↔ _
  rw [holds_single]
  simp only [eval_mul, eval_sub, eval_add, eval_const, eval_challenge, eval_selector, eval_advice,
    rotate_zero h, sel_mul, factor]

theorem gateInstAdhoc_holds (h : row < n) (s : Selector) (ip ci ni prp : Nat)
    (ch : Nat × Nat × Nat × Nat) :
    Holds n g row (gateInstAdhoc s ip ci ni prp ch cs).1 ↔ (g.selector s.index row = true →
      g.advice prp row - g.advice prp (prv n row) *
        factor g.challenge ch (g.advice ip (prv n row)) (g.advice ci (prv n row))
          (g.advice ni (prv n row)) = 0) := by
  obtain ⟨c1, c2, c3, c4⟩ := ch
  show Holds n g row [_] ↔ _
  rw [holds_single]
  simp only [eval_mul, eval_sub, eval_challenge, eval_selector, eval_advice,
    rotate_zero h, sel_mul, factor]

theorem gateRs_holds (h : row < n) (s : Selector) (val rs gamma : Nat) :
    Holds n g row (gateRs s val rs gamma cs).1 ↔ (g.selector s.index row = true →
      g.advice rs (nxt n row) - (g.advice rs row * g.challenge gamma + g.advice val row) = 0) := by
  show Holds n g row [_] ↔ _
  rw [holds_single]
  simp only [eval_mul, eval_sub, eval_add, eval_challenge, eval_selector, eval_advice,
    rotate_zero h, sel_mul]

/-- The list of all gates. -/
theorem mainCS_gates : mainCS.gates =
    [(gateB ⟨3, true⟩ 0 {}).1, (gateB ⟨3, true⟩ 2 {}).1, (gateB ⟨3, true⟩ 4 {}).1,
     (gateB ⟨3, true⟩ 5 {}).1, (gateP0 ⟨2, true⟩ 0 {}).1, (gateC0 ⟨1, true⟩ 5 6 {}).1,
     (gateC1 ⟨1, true⟩ 5 6 {}).1, (gateP1 ⟨2, true⟩ 1 2 5 6 3 {}).1, (gateP2 ⟨2, true⟩ 1 4 {}).1,
     (gateP3 ⟨2, true⟩ 256 1 5 {}).1,
     (gateM0 ⟨6, true⟩ 12 {}).1, (gateM1 ⟨6, true⟩ 12 13 11 {}).1, (gateM2 ⟨6, true⟩ 12 13 {}).1,
     (gateI0 ⟨11, true⟩ 15 {}).1, (gateI12 ⟨11, true⟩ 15 16 {}).1, (gateI12 ⟨11, true⟩ 15 17 {}).1,
     (gatePrp ⟨7, true⟩ 11 12 13 14 (0, 1, 2, 3) {}).1,
     (gatePrp ⟨4, true⟩ 0 4 5 7 (0, 1, 2, 3) {}).1,
     (gatePrp ⟨4, true⟩ 2 1 3 8 (4, 5, 6, 7) {}).1,
     (gateProcRs ⟨5, true⟩ PUTCHAR 1 5 9 0 9 {}).1,
     (gateProcRs ⟨5, true⟩ GETCHAR 1 5 10 1 10 {}).1,
     (gateInstRs ⟨9, true⟩ 15 16 19 8 {}).1,
     (gateInstPrp ⟨8, true⟩ 15 16 17 18 (4, 5, 6, 7) {}).1,
     (gateInstAdhoc ⟨10, true⟩ 15 16 17 18 (4, 5, 6, 7) {}).1,
     (gateRs ⟨12, true⟩ 20 21 9 {}).1, (gateRs ⟨13, true⟩ 22 24 10 {}).1,
     (gateRs ⟨14, true⟩ 25 27 8 {}).1] := by
  rfl

end Verif

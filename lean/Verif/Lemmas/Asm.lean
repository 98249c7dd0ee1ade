import Mathlib.Tactic.LinearCombination
import Mathlib.Tactic.Ring
import Mathlib.Tactic.Zify
import Verif.Spec.Asm

/-! Helper lemmas for the assembly: what short sequences of instructions do. -/

namespace Verif.Asm

theorem run_nil (e : Env) (s : State) : run e [] s = s := rfl
theorem run_cons (e : Env) (i : Instr) (l : List Instr) (s : State) : run e (i :: l) s = run e l (exec e s i) := rfl
theorem run_append (e : Env) (l k : List Instr) (s : State) : run e (l ++ k) s = run e k (run e l s) :=
  List.foldl_append

theorem keepsCarries_append (e : Env) (l k : List Instr) (s : State) :
    keepsCarries e (l ++ k) s = (keepsCarries e l s && keepsCarries e k (run e l s)) := by
  induction l generalizing s with
  | nil => rfl
  | cons i l ih =>
    rw [List.cons_append, keepsCarries, keepsCarries, ih, run_cons, Bool.and_assoc]

theorem set_same (s : State) (d : Reg) (v : Nat) : (s.set d v).reg d = v := if_pos rfl
theorem set_ne (s : State) {d r : Reg} (v : Nat) (h : r ≠ d) : (s.set d v).reg r = s.reg r := if_neg h
theorem addTo_ne (s : State) {d r : Reg} (v k : Nat) (h : r ≠ d) : (s.addTo d v k).reg r = s.reg r := if_neg h
theorem subFrom_ne (s : State) {d r : Reg} (v k : Nat) (h : r ≠ d) : (s.subFrom d v k).reg r = s.reg r := if_neg h

theorem addTo_spec (s : State) (d : Reg) (v k : Nat) (hs : s.reg d < W64) (hv : v < W64) (hk : k ≤ 1) :
    (s.addTo d v k).reg d + W64 * (s.addTo d v k).cf.toNat = s.reg d + v + k ∧ (s.addTo d v k).reg d < W64 := by
  have e1 : (s.addTo d v k).reg d = (s.reg d + v + k) % W64 := if_pos rfl
  have e2 : (s.addTo d v k).cf = decide (W64 ≤ s.reg d + v + k) := rfl
  rw [e1, e2]
  by_cases h : W64 ≤ s.reg d + v + k
  · rw [decide_eq_true h]
    simp only [W64, Bool.toNat_true] at *
    omega
  · rw [decide_eq_false h]
    simp only [W64, Bool.toNat_false] at *
    omega

theorem subFrom_spec (s : State) (d : Reg) (v k : Nat) (hs : s.reg d < W64) (hv : v < W64) (hk : k ≤ 1) :
    (s.subFrom d v k).reg d + v + k = s.reg d + W64 * (s.subFrom d v k).cf.toNat ∧ (s.subFrom d v k).reg d < W64 := by
  have e1 : (s.subFrom d v k).reg d = (s.reg d + 2 * W64 - v - k) % W64 := if_pos rfl
  have e2 : (s.subFrom d v k).cf = decide (s.reg d < v + k) := rfl
  rw [e1, e2]
  by_cases h : s.reg d < v + k
  · rw [decide_eq_true h]
    simp only [W64, Bool.toNat_true] at *
    omega
  · rw [decide_eq_false h]
    simp only [W64, Bool.toNat_false] at *
    omega

theorem toNat_le (b : Bool) : b.toNat ≤ 1 := by cases b <;> simp

/-! ### Reading only what was written -/

/-- What is known about a state: registers and flags. -/
structure Known where
  regs : List Reg
  cf : Bool
  zf : Bool

def Known.operand (k : Known) : Operand → Bool
  | .reg r => decide (r ∈ k.regs)
  | _ => true

/-- What is known after an instruction, if it reads only what is known. -/
def Known.next (k : Known) : Instr → Option Known
  | .mov d x => if k.operand x then some { k with regs := d :: k.regs } else none
  | .add d x => if k.operand x ∧ d ∈ k.regs then some { k with cf := true } else none
  | .adc d x => if k.operand x ∧ d ∈ k.regs ∧ k.cf = true then some k else none
  | .adcx d x => if k.operand x ∧ d ∈ k.regs ∧ k.cf = true then some k else none
  | .sub d x => if k.operand x ∧ d ∈ k.regs then some { k with cf := true } else none
  | .sbb d x => if k.operand x ∧ d ∈ k.regs ∧ k.cf = true then some k else none
  | .mulx hi lo x => if k.operand x ∧ .rdx ∈ k.regs then some { k with regs := hi :: lo :: k.regs } else none
  | .xor d x => if x = .reg d then some { k with regs := d :: k.regs, cf := true } else none
  | .or d x => if k.operand x ∧ d ∈ k.regs then some { k with cf := true } else none
  | .and d x => if k.operand x ∧ d ∈ k.regs then some { k with cf := true } else none
  | .cmp d x => if k.operand x ∧ d ∈ k.regs then some { k with cf := true, zf := true } else none
  | .cmovc d x => if k.operand x ∧ d ∈ k.regs ∧ k.cf = true then some k else none
  | .cmove d x => if k.operand x ∧ d ∈ k.regs ∧ k.zf = true then some k else none

def Known.after (k : Known) : List Instr → Option Known
  | [] => some k
  | i :: l => (k.next i).bind fun k' => k'.after l

/-- Two states that agree on what is known. -/
structure Agree (k : Known) (s t : State) : Prop where
  regs : ∀ r ∈ k.regs, s.reg r = t.reg r
  cf : k.cf = true → s.cf = t.cf
  zf : k.zf = true → s.zf = t.zf

theorem Agree.reads {k : Known} {s t : State} (h : Agree k s t) (e : Env) {x : Operand} (hx : k.operand x = true) :
    read e s x = read e t x := by
  cases x with
  | reg r => exact h.regs r (by simpa [Known.operand] using hx)
  | mem p i => cases p <;> rfl
  | imm n => rfl
  | inv => rfl

theorem set_agree {k : Known} {s t : State} (h : Agree k s t) (d : Reg) {v w : Nat} (hv : v = w) :
    Agree { k with regs := d :: k.regs } (s.set d v) (t.set d w) := by
  refine ⟨fun r hr => ?_, h.cf, h.zf⟩
  by_cases e : r = d
  · rw [e, set_same, set_same, hv]
  · rw [set_ne _ _ e, set_ne _ _ e]
    exact h.regs r ((List.mem_cons.1 hr).resolve_left e)

theorem Agree.next {k k' : Known} {s t : State} (h : Agree k s t) (e : Env) {i : Instr} (hk : k.next i = some k') :
    Agree k' (exec e s i) (exec e t i) := by
  cases i with
  | mov d x =>
    simp only [Known.next, Option.ite_none_right_eq_some, Option.some.injEq] at hk
    obtain ⟨hx, rfl⟩ := hk
    exact set_agree h d (h.reads e hx)
  | add d x =>
    simp only [Known.next, Option.ite_none_right_eq_some, Option.some.injEq] at hk
    obtain ⟨⟨hx, hd⟩, rfl⟩ := hk
    have e1 := h.reads e hx
    have e2 := h.regs d hd
    have := set_agree h d (v := (s.reg d + read e s x + 0) % W64) (w := (t.reg d + read e t x + 0) % W64) (by rw [e1, e2])
    exact ⟨fun r hr => this.regs r (List.mem_cons_of_mem _ hr), fun _ => by simp only [exec, State.addTo, e1, e2], h.zf⟩
  | adc d x =>
    simp only [Known.next, Option.ite_none_right_eq_some, Option.some.injEq] at hk
    obtain ⟨⟨hx, hd, hc⟩, rfl⟩ := hk
    have e1 := h.reads e hx
    have e2 := h.regs d hd
    have e3 := h.cf hc
    have := set_agree h d (v := (s.reg d + read e s x + s.cf.toNat) % W64) (w := (t.reg d + read e t x + t.cf.toNat) % W64)
      (by rw [e1, e2, e3])
    exact ⟨fun r hr => this.regs r (List.mem_cons_of_mem _ hr), fun _ => by simp only [exec, State.addTo, e1, e2, e3], h.zf⟩
  | adcx d x =>
    simp only [Known.next, Option.ite_none_right_eq_some, Option.some.injEq] at hk
    obtain ⟨⟨hx, hd, hc⟩, rfl⟩ := hk
    have e1 := h.reads e hx
    have e2 := h.regs d hd
    have e3 := h.cf hc
    have := set_agree h d (v := (s.reg d + read e s x + s.cf.toNat) % W64) (w := (t.reg d + read e t x + t.cf.toNat) % W64)
      (by rw [e1, e2, e3])
    exact ⟨fun r hr => this.regs r (List.mem_cons_of_mem _ hr), fun _ => by simp only [exec, State.addTo, e1, e2, e3], h.zf⟩
  | sub d x =>
    simp only [Known.next, Option.ite_none_right_eq_some, Option.some.injEq] at hk
    obtain ⟨⟨hx, hd⟩, rfl⟩ := hk
    have e1 := h.reads e hx
    have e2 := h.regs d hd
    have := set_agree h d (v := (s.reg d + 2 * W64 - read e s x - 0) % W64) (w := (t.reg d + 2 * W64 - read e t x - 0) % W64)
      (by rw [e1, e2])
    exact ⟨fun r hr => this.regs r (List.mem_cons_of_mem _ hr), fun _ => by simp only [exec, State.subFrom, e1, e2], h.zf⟩
  | sbb d x =>
    simp only [Known.next, Option.ite_none_right_eq_some, Option.some.injEq] at hk
    obtain ⟨⟨hx, hd, hc⟩, rfl⟩ := hk
    have e1 := h.reads e hx
    have e2 := h.regs d hd
    have e3 := h.cf hc
    have := set_agree h d (v := (s.reg d + 2 * W64 - read e s x - s.cf.toNat) % W64)
      (w := (t.reg d + 2 * W64 - read e t x - t.cf.toNat) % W64) (by rw [e1, e2, e3])
    exact ⟨fun r hr => this.regs r (List.mem_cons_of_mem _ hr), fun _ => by simp only [exec, State.subFrom, e1, e2, e3], h.zf⟩
  | mulx hi lo x =>
    simp only [Known.next, Option.ite_none_right_eq_some, Option.some.injEq] at hk
    obtain ⟨⟨hx, hd⟩, rfl⟩ := hk
    have e1 := h.reads e hx
    have e2 := h.regs _ hd
    exact set_agree (set_agree h lo (by rw [e1, e2])) hi (by rw [e1, e2])
  | xor d x =>
    simp only [Known.next, Option.ite_none_right_eq_some, Option.some.injEq] at hk
    obtain ⟨rfl, rfl⟩ := hk
    have := set_agree h d (v := s.reg d ^^^ s.reg d) (w := t.reg d ^^^ t.reg d) (by rw [Nat.xor_self, Nat.xor_self])
    exact ⟨this.regs, fun _ => rfl, this.zf⟩
  | or d x =>
    simp only [Known.next, Option.ite_none_right_eq_some, Option.some.injEq] at hk
    obtain ⟨⟨hx, hd⟩, rfl⟩ := hk
    have := set_agree h d (v := s.reg d ||| read e s x) (w := t.reg d ||| read e t x) (by rw [h.reads e hx, h.regs d hd])
    exact ⟨fun r hr => this.regs r (List.mem_cons_of_mem _ hr), fun _ => rfl, h.zf⟩
  | and d x =>
    simp only [Known.next, Option.ite_none_right_eq_some, Option.some.injEq] at hk
    obtain ⟨⟨hx, hd⟩, rfl⟩ := hk
    have := set_agree h d (v := s.reg d &&& read e s x) (w := t.reg d &&& read e t x) (by rw [h.reads e hx, h.regs d hd])
    exact ⟨fun r hr => this.regs r (List.mem_cons_of_mem _ hr), fun _ => rfl, h.zf⟩
  | cmp d x =>
    simp only [Known.next, Option.ite_none_right_eq_some, Option.some.injEq] at hk
    obtain ⟨⟨hx, hd⟩, rfl⟩ := hk
    have e1 := h.reads e hx
    have e2 := h.regs _ hd
    exact ⟨h.regs, fun _ => by simp only [exec, e1, e2], fun _ => by simp only [exec, e1, e2]⟩
  | cmovc d x =>
    simp only [Known.next, Option.ite_none_right_eq_some, Option.some.injEq] at hk
    obtain ⟨⟨hx, hd, hc⟩, rfl⟩ := hk
    have e3 := h.cf hc
    simp only [exec, ← e3]
    split
    · have := set_agree h d (h.reads e hx)
      exact ⟨fun r hr => this.regs r (List.mem_cons_of_mem _ hr), this.cf, this.zf⟩
    · exact h
  | cmove d x =>
    simp only [Known.next, Option.ite_none_right_eq_some, Option.some.injEq] at hk
    obtain ⟨⟨hx, hd, hc⟩, rfl⟩ := hk
    have e3 := h.zf hc
    simp only [exec, ← e3]
    split
    · have := set_agree h d (h.reads e hx)
      exact ⟨fun r hr => this.regs r (List.mem_cons_of_mem _ hr), this.cf, this.zf⟩
    · exact h

theorem Agree.after {l : List Instr} {k k' : Known} {s t : State} (h : Agree k s t) (e : Env) (hk : k.after l = some k') :
    Agree k' (run e l s) (run e l t) := by
  induction l generalizing k s t with
  | nil => obtain rfl := Option.some.inj hk; exact h
  | cons i l ih =>
    obtain ⟨k1, h1, h2⟩ := Option.bind_eq_some_iff.1 hk
    exact ih (h.next e h1) h2

/-- A program that writes registers and flags before it reads them, and what it has written at the end. -/
def writesFirst (l : List Instr) (out : List Reg) : Bool :=
  match Known.after ⟨[], false, false⟩ l with
  | some k => out.all fun r => decide (r ∈ k.regs)
  | none => false

theorem writesFirst_run {l : List Instr} {out : List Reg} (h : writesFirst l out = true) (e : Env) (s t : State) :
    ∀ r ∈ out, (run e l s).reg r = (run e l t).reg r := by
  unfold writesFirst at h
  split at h
  · rename_i k hk
    intro r hr
    have := Agree.after (k := ⟨[], false, false⟩) (s := s) (t := t) ⟨by simp, by simp, by simp⟩ e hk
    exact this.regs r (by simpa using List.all_eq_true.1 h r hr)
  · cases h

end Verif.Asm

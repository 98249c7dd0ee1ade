import Verif.Lemmas.SimLemmas

/-! Common setting of the properties about runs. -/

namespace Verif.Props

open BF

/-- A source that is balanced, has at least one command, fits in 65535 words, and was compiled
to `code` (in build mode `checks`). -/
structure GoodProgram (checks : Bool) (src : List UInt8) (code : List Fr) : Prop where
  balanced : Balanced (commands src)
  nonempty : commands src ≠ []
  short : pos (commands src) (commands src).length ≤ 65535
  compiled : compile checks src = .ok code

/-- Inputs are cell values. With the default `bits = 8` these are the byte strings. -/
def GoodInput (bits : Nat) (input : List Nat) : Prop := ∀ v ∈ input, v < 2 ^ bits

/-- Integers as field elements. -/
def toFr (l : List Nat) : List Fr := l.map fun (n : Nat) => (n : Fr)

/-- The interpreter's `run` on a program and an input, with `n` loop iterations of fuel. -/
def runOn (n bits : Nat) (code : List Fr) (input : List Nat) : Option (Except Panic Interp) :=
  Interp.run n (Interp.prepare bits code (toFr input))

theorem GoodProgram.words {checks : Bool} {src : List UInt8} {code : List Fr}
    (h : GoodProgram checks src code) :
    ∃ ws, code = W.cast ws ∧ CompiledTo (commands src) ws ∧ W.CodeOk ws := by
  obtain ⟨s, st, hs, hi⟩ := compileToU16_ok (checks := checks) h.balanced.1 h.short
  have hc : CompiledTo (commands src) s.instrs := ⟨hi.len, hi.opcode, hi.openT, hi.closeT⟩
  refine ⟨s.instrs, ?_, hc, BFSim.codeOk hc h.balanced h.nonempty h.short⟩
  have := h.compiled
  unfold compile at this
  rw [hs] at this
  cases this
  rfl

/-- Everything known about a finished run. -/
structure Finished (src : List UInt8) (bits : Nat) (input : List Nat) (code : List Fr) (n : Nat)
    (s : Interp) (wcode : List Nat) (hist : List W) (w : W) (m : Nat) (t : State) : Prop where
  code_eq : code = W.cast wcode
  comp : CompiledTo (commands src) wcode
  ok : W.CodeOk wcode
  trace : W.Trace wcode bits input (hist ++ [w])
  result : s = Interp.finish (W.emb wcode bits w hist)
  fin : Finishes (commands src) bits input m t
  rel : BFSim.Rel (commands src) t w
  len : hist.length = m
  le : m ≤ n

theorem run_cases {checks : Bool} {src : List UInt8} {code : List Fr} {bits : Nat}
    {input : List Nat} (hp : GoodProgram checks src code) (hb : bits < 64)
    (hi : GoodInput bits input) {n : Nat} (hn : n ≤ 2 ^ 62) :
    match runOn n bits code input with
    | none => ∃ t, Steps (commands src) bits n (BF.init input) t ∧ ¬ Halted (commands src) t
    | some (.error e) => ∃ m e', m < n ∧ Fails (commands src) bits input m e' ∧
        e = BFSim.panicOf e'
    | some (.ok s) => ∃ wcode hist w m t, Finished src bits input code n s wcode hist w m t := by
  obtain ⟨ws, rfl, hc, hk⟩ := hp.words
  unfold runOn
  have hrun := W.run_eq (inp := input) hk hb hi n hn
  have hcast : toFr input = W.cast input := rfl
  rw [hcast, hrun]
  have hsim := BFSim.loop_sim (bits := bits) hc hk hp.balanced n _ _ [] (BFSim.rel_init (commands src) input)
    (W.init_inv hi)
  cases hl : W.loop ws bits n (W.init input) [] with
  | none => rw [hl] at hsim; exact hsim
  | some r =>
    rw [hl] at hsim
    cases r with
    | error e =>
      obtain ⟨m, t', e', h1, h2, h3, h4⟩ := hsim
      exact ⟨m, e', h1, ⟨t', h2, h3⟩, h4⟩
    | ok x =>
      obtain ⟨w, hist⟩ := x
      obtain ⟨m, t', h1, h2, h3, h4, h5⟩ := hsim
      exact ⟨ws, hist, w, m, t', rfl, hc, hk, (W.loop_trace hl).1, rfl, ⟨h2, h3⟩, h4,
        by simpa using h5, h1⟩

theorem finished_of_run {checks : Bool} {src : List UInt8} {code : List Fr} {bits : Nat}
    {input : List Nat} (hp : GoodProgram checks src code) (hb : bits < 64)
    (hi : GoodInput bits input) {n : Nat} (hn : n ≤ 2 ^ 62) {s : Interp}
    (hr : runOn n bits code input = some (.ok s)) :
    ∃ wcode hist w m t, Finished src bits input code n s wcode hist w m t := by
  have := run_cases hp hb hi hn
  rw [hr] at this
  exact this

end Verif.Props

import Verif.Model.Gadget
import Mathlib.Data.List.FinRange
import Mathlib.Algebra.Field.Defs

/-!
Poseidon in `halo2_gadgets`: the functions on field elements (`poseidon/primitives.rs`, `poseidon/primitives/mds.rs`),
the chip (`poseidon/pow5.rs`) and the hash in a circuit (`poseidon.rs`). Over any field. The width is `t + 1` and the
rate `t`, as `configure` asserts; arrays of that length are functions on `Fin (t + 1)`.
-/

namespace Verif.Gadget

open FloorPlanner (Call)

/-- Models `Spec`, halo2_gadgets/src/poseidon/primitives.rs lines 35-78: numbers of rounds, S-box, and what `constants`
returns. -/
structure PoseidonSpec (F : Type) (t : Nat) where
  fullRounds : Nat
  partialRounds : Nat
  sbox : F → F
  constants : List (Fin (t + 1) → F)
  mds : Fin (t + 1) → Fin (t + 1) → F
  mdsInv : Fin (t + 1) → Fin (t + 1) → F

variable {F : Type}

/-! Functions on field elements. -/

section

variable [Field F] {t : Nat}

/-- Models the closure `apply_mds`, primitives.rs lines 89-99. -/
def applyMds (m : Fin (t + 1) → Fin (t + 1) → F) (v : Fin (t + 1) → F) : Fin (t + 1) → F := fun i =>
  (List.finRange (t + 1)).foldl (fun acc j => acc + m i j * v j) 0

namespace PoseidonSpec

/-- Models the closure `full_round`, primitives.rs lines 101-106. -/
def fullRound (s : PoseidonSpec F t) (v rcs : Fin (t + 1) → F) : Fin (t + 1) → F :=
  applyMds s.mds fun i => s.sbox (v i + rcs i)

/-- Models the closure `part_round`, primitives.rs lines 108-115. -/
def partRound (s : PoseidonSpec F t) (v rcs : Fin (t + 1) → F) : Fin (t + 1) → F :=
  applyMds s.mds fun i => if i = 0 then s.sbox (v i + rcs i) else v i + rcs i

/-- Models `permute`, primitives.rs lines 81-126. The rounds are zipped with the constants. -/
def permute (s : PoseidonSpec F t) (v : Fin (t + 1) → F) : Fin (t + 1) → F :=
  ((List.replicate (s.fullRounds / 2) s.fullRound ++ List.replicate s.partialRounds s.partRound ++
    List.replicate (s.fullRounds / 2) s.fullRound).zip s.constants).foldl (fun v r => r.1 v r.2) v

end PoseidonSpec

end

section

variable {α : Type}

/-- `mode` of a sponge: `[Option<α>; RATE]`. Empty, as in primitives.rs line 205 and poseidon.rs lines 154-160. -/
def emptyMode (t : Nat) : List (Option α) := List.replicate t none

/-- `Absorbing::init_with`, primitives.rs lines 172-180. -/
def initWith (t : Nat) (v : α) : List (Option α) := some v :: List.replicate (t - 1) none

/-- The loop over the entries in `absorb`, primitives.rs lines 220-225 and poseidon.rs lines 172-177: the first entry that
is empty is filled. `none` if there is none. -/
def fill (v : α) : List (Option α) → Option (List (Option α))
  | [] => none
  | none :: l => some (some v :: l)
  | some x :: l => (fill v l).map (some x :: ·)

/-- `absorb`, in terms of what is done with a full mode. Models primitives.rs lines 219-235 and poseidon.rs lines 167-189. -/
def absorbWith {σ : Type} (t : Nat) (process : σ → List (Option α) → Except Stop σ) (st : σ × List (Option α)) (x : α) :
    Except Stop (σ × List (Option α)) :=
  match fill x st.2 with
  | some mode => .ok (st.1, mode)
  | none => do
    let s ← process st.1 st.2
    pure (s, initWith t x)

/-- The loop over the entries in `squeeze`, primitives.rs lines 262-266 and poseidon.rs lines 226-230: the first entry that
is there is taken. `none` if there is none. -/
def takeFirst : List (Option α) → Option (α × List (Option α))
  | [] => none
  | some x :: l => some (x, none :: l)
  | none :: l => (takeFirst l).map fun r => (r.1, none :: r.2)

end

section

variable [Field F] {t : Nat}

namespace PoseidonSpec

/-- Adds the input to the rate part of the state; an entry that is not filled panics. Models primitives.rs lines 134-140. -/
def addInput (v : Fin (t + 1) → F) (input : List (Option F)) : Except Stop (Fin (t + 1) → F) :=
  if input.all Option.isSome then .ok fun i => match input[i.val]? with
    | some (some x) => v i + x
    | _ => v i
  else .error .panic

/-- Models `poseidon_sponge`, primitives.rs lines 128-149: the state and what can be squeezed. -/
def sponge (s : PoseidonSpec F t) (v : Fin (t + 1) → F) (input : Option (List (Option F))) :
    Except Stop ((Fin (t + 1) → F) × List (Option F)) := do
  let v ← match input with
    | some input => addInput v input
    | none => pure v
  let v := s.permute v
  pure (v, (List.finRange t).map fun i => some (v i.castSucc))

/-- What `absorb` does with a full mode. Models primitives.rs lines 227-233. -/
def process (s : PoseidonSpec F t) (v : Fin (t + 1) → F) (mode : List (Option F)) : Except Stop (Fin (t + 1) → F) := do
  let (v, _) ← s.sponge v (some mode)
  pure v

/-- Models `Sponge::squeeze`, primitives.rs lines 260-277. With a rate above 0 the loop ends at the latest in the second
round. -/
def squeeze (s : PoseidonSpec F t) (st : (Fin (t + 1) → F) × List (Option F)) :
    Except Stop (F × (Fin (t + 1) → F) × List (Option F)) :=
  match takeFirst st.2 with
  | some (x, mode) => .ok (x, st.1, mode)
  | none => do
    let (v, mode) ← s.sponge st.1 none
    match takeFirst mode with
    | some (x, mode) => .ok (x, v, mode)
    | none => .error .panic

/-- `ConstantLength::<L>::initial_capacity_element`, primitives.rs lines 307-311. -/
def capacityElement (l : Nat) : F := ((l * 2 ^ 64 : Nat) : F)

/-- `ConstantLength::<L>::padding`: how many zeros. Models primitives.rs lines 313-321. -/
def paddingLength (t l : Nat) : Nat := (l + t - 1) / t * t - l

/-- Models `Hash::init` and `Hash::hash`, primitives.rs lines 354-374, for messages of the length of the domain (as they are
by type) and a rate of at least 1 (else the padding divides by 0). -/
def hash (s : PoseidonSpec F t) (message : List F) : Except Stop F := do
  if t = 0 then .error .panic
  else
    let init : Fin (t + 1) → F := fun i => if i = Fin.last t then capacityElement message.length else 0
    let st ← (message ++ List.replicate (paddingLength t message.length) 0).foldlM (absorbWith t s.process)
      (init, emptyMode t)
    let st ← s.sponge st.1 (some st.2)
    let (x, _) ← s.squeeze st
    pure x

end PoseidonSpec

/-- The Lagrange polynomial for place `j`, at `x`. Models the closure `l`, halo2_gadgets/src/poseidon/primitives/mds.rs lines
79-89. -/
def lagrangeAt {n : Nat} (xs : Fin n → F) (j : Fin n) (x : F) : F :=
  (List.finRange n).foldl (fun acc m => if m = j then acc else acc * (x - xs m) * (xs j - xs m)⁻¹) 1

/-- Models `generate_mds`, mds.rs lines 6-98, from the numbers drawn: the matrix and its inverse. Numbers are drawn again
until all are different; that no sum is 0 is asserted. -/
def mdsOf {n : Nat} [DecidableEq F] (xs ys : Fin n → F) : Except Stop ((Fin n → Fin n → F) × (Fin n → Fin n → F)) := do
  assert (decide (∀ i j, xs i + ys j ≠ 0))
  pure (fun i j => (xs i + ys j)⁻¹,
    fun i j => (xs j - (- ys i)) * lagrangeAt xs j (- ys i) * lagrangeAt (fun k => - ys k) i (xs j))

end

/-! The chip. -/

/-- Models `Pow5Config`, halo2_gadgets/src/poseidon/pow5.rs lines 22-38, without `alpha`, which is 5. -/
structure Pow5 (F : Type) (t : Nat) where
  state : Fin (t + 1) → Nat
  partialSbox : Nat
  rcA : Fin (t + 1) → Nat
  rcB : Fin (t + 1) → Nat
  sFull : Selector
  sPartial : Selector
  sPadAndAdd : Selector
  halfFull : Nat
  halfPartial : Nat
  constants : List (Fin (t + 1) → F)
  mReg : Fin (t + 1) → Fin (t + 1) → F
  mInv : Fin (t + 1) → Fin (t + 1) → F

namespace Pow5

variable {t : Nat}

/-- The columns and selectors of the chip. -/
structure Columns (t : Nat) where
  state : Fin (t + 1) → Nat
  partialSbox : Nat
  rcA : Fin (t + 1) → Nat
  rcB : Fin (t + 1) → Nat
  sFull : Selector
  sPartial : Selector
  sPadAndAdd : Selector

/-- The configuration that `configure` returns. Models pow5.rs lines 59-74 and 191-205. -/
def configure (cols : Columns t) (s : PoseidonSpec F t) : Except Stop (Pow5 F t) := do
  assert (s.fullRounds % 2 == 0)
  assert (s.partialRounds % 2 == 0)
  pure ⟨cols.state, cols.partialSbox, cols.rcA, cols.rcB, cols.sFull, cols.sPartial, cols.sPadAndAdd,
    s.fullRounds / 2, s.partialRounds / 2, s.constants, s.mds, s.mdsInv⟩

/-- The closure `pow_5`, pow5.rs lines 92-95. -/
def pow5Expr (v : Expr F) : Expr F := (v * v) * (v * v) * v

/-- `map` and `reduce` with `+`. -/
def sumExprs (f : Fin (t + 1) → Expr F) : Expr F := (List.finRange t).foldl (fun acc i => acc + f i.succ) (f 0)

/-- The closure `mid`, pow5.rs lines 129-136. -/
def midExpr (c : Pow5 F t) (idx : Fin (t + 1)) : Expr F :=
  (List.finRange t).foldl (fun acc i => acc +
      .scaled (Expr.advice (c.state i.succ) 0 + Expr.fixed (c.rcA i.succ) 0) (c.mReg idx i.succ))
    (.scaled (.advice c.partialSbox 0) (c.mReg idx 0))

/-- The closure `next`, pow5.rs lines 138-146. -/
def nextExpr (c : Pow5 F t) (idx : Fin (t + 1)) : Expr F :=
  sumExprs fun n => .scaled (.advice (c.state n) 1) (c.mInv idx n)

/-- The three gates. Models pow5.rs lines 97-189. -/
def chip (c : Pow5 F t) : Chip F where
  gates :=
    [(c.sFull, (List.finRange (t + 1)).map fun next =>
        sumExprs (fun idx => .scaled (pow5Expr (Expr.advice (c.state idx) 0 + Expr.fixed (c.rcA idx) 0)) (c.mReg next idx))
          - Expr.advice (c.state next) 1),
     (c.sPartial,
        [pow5Expr (Expr.advice (c.state 0) 0 + Expr.fixed (c.rcA 0) 0) - Expr.advice c.partialSbox 0,
         pow5Expr (midExpr c 0 + Expr.fixed (c.rcB 0) 0) - nextExpr c 0] ++
        (List.finRange t).map fun i => midExpr c i.succ + Expr.fixed (c.rcB i.succ) 0 - nextExpr c i.succ),
     (c.sPadAndAdd,
        ((List.finRange t).map fun i => Expr.advice (c.state i.castSucc) (-1) + Expr.advice (c.state i.castSucc) 0
          - Expr.advice (c.state i.castSucc) 1) ++
        [Expr.advice (c.state (Fin.last t)) (-1) - Expr.advice (c.state (Fin.last t)) 1])]

/-- A state: the cells and values of its words. -/
abbrev State (F : Type) (t : Nat) := Fin (t + 1) → Assigned F

/-- `collect` into a `Value<Vec<_>>`: known if all values are. -/
def collect {n : Nat} (v : Fin n → Option F) : Option (Fin n → F) :=
  if h : ∀ i, (v i).isSome then some fun i => (v i).get (h i) else none

/-- The values of a state. -/
def values (s : State F t) : Option (Fin (t + 1) → F) := collect fun i => (s i).value

/-- `pow(&[5, 0, 0, 0])`. -/
def pow5 [Monoid F] (x : F) : F := x ^ 5

/-- Models `Pow5State::round`, pow5.rs lines 554-596, from the selector, what the closure `round_fn` calls, and the values
of the next state. -/
def round (c : Pow5 F t) (region offset : Nat) (rc : Fin (t + 1) → F) (gate : Selector) (inner : Calls F)
    (next : Option (Fin (t + 1) → F)) : Calls F × State F t :=
  ([.enable gate offset] ++ (List.finRange (t + 1)).map (fun i => .fixed (c.rcA i) offset (some (rc i))) ++ inner ++
    (List.finRange (t + 1)).map (fun i => .advice (c.state i) (offset + 1) (next.map (· i))),
   fun i => ⟨⟨region, offset + 1, .advice (c.state i)⟩, next.map (· i)⟩)

/-- `round_constants[round]`; out of range it panics. -/
def constant (c : Pow5 F t) (round : Nat) : Except Stop (Fin (t + 1) → F) :=
  match c.constants[round]? with
  | some rc => .ok rc
  | none => .error .panic

variable [Field F]

/-- Models `Pow5State::full_round`, pow5.rs lines 436-461. -/
def fullRound (c : Pow5 F t) (region rnd offset : Nat) (s : State F t) : Except Stop (Calls F × State F t) := do
  let rc ← c.constant rnd
  pure (c.round region offset rc c.sFull [] ((values s).map fun p => applyMds c.mReg fun i => pow5 (p i + rc i)))

/-- The values `r` and `r_mid`: constants are added, and the first is raised to the fifth power. Models pow5.rs lines
474-481 and 514-521. -/
def partialSboxes (rc p : Fin (t + 1) → F) : Fin (t + 1) → F := fun i => if i = 0 then pow5 (p i + rc i) else p i + rc i

/-- Models `Pow5State::partial_round`, pow5.rs lines 463-536: two rounds. -/
def partialRound (c : Pow5 F t) (region rnd offset : Nat) (s : State F t) : Except Stop (Calls F × State F t) := do
  let rc ← c.constant rnd
  let rc' ← c.constant (rnd + 1)
  let r := (values s).map (partialSboxes rc)
  let mid := r.map (applyMds c.mReg)
  let r' := mid.map (partialSboxes rc')
  pure (c.round region offset rc c.sPartial
    ([.advice c.partialSbox offset (r.map (· 0))] ++
      (List.finRange (t + 1)).map (fun i => .fixed (c.rcB i) offset (some (rc' i))))
    (r'.map (applyMds c.mReg)))

/-- Models `Pow5State::load`, pow5.rs lines 538-552. -/
def load (c : Pow5 F t) (region : Nat) (s : State F t) : Calls F × State F t :=
  ((List.finRange (t + 1)).flatMap fun i => (copyAdvice region (s i) (c.state i) 0).1,
   fun i => (copyAdvice region (s i) (c.state i) 0).2)

/-- `fold` over rounds, each of which may fail. -/
def rounds (f : Nat → State F t → Except Stop (Calls F × State F t)) : List Nat → State F t →
    Except Stop (Calls F × State F t)
  | [], s => .ok ([], s)
  | r :: rs, s => do
    let (a, s) ← f r s
    let (b, s) ← rounds f rs s
    pure (a ++ b, s)

/-- Models `permute`, pow5.rs lines 232-274. -/
def permute (c : Pow5 F t) (region : Nat) (initial : State F t) : Except Stop (Calls F × State F t) := do
  let (k₀, s) := c.load region initial
  let (k₁, s) ← rounds (fun r => c.fullRound region r r) (List.range c.halfFull) s
  let (k₂, s) ← rounds (fun r => c.partialRound region (c.halfFull + 2 * r) (c.halfFull + r)) (List.range c.halfPartial) s
  let (k₃, s) ← rounds (fun r => c.fullRound region (c.halfFull + 2 * c.halfPartial + r) (c.halfFull + c.halfPartial + r))
    (List.range c.halfFull) s
  pure (k₀ ++ k₁ ++ k₂ ++ k₃, s)

/-! The sponge in the circuit. -/

/-- Models `initial_state` for `ConstantLength::<L>`, pow5.rs lines 285-316. -/
def initialState (c : Pow5 F t) (region l : Nat) : Calls F × State F t :=
  let v : Fin (t + 1) → F := fun i => if i = Fin.last t then PoseidonSpec.capacityElement l else 0
  ((List.finRange (t + 1)).map fun i => .constant (c.state i) 0 (some (v i)),
   fun i => ⟨⟨region, 0, .advice (c.state i)⟩, some (v i)⟩)

/-- Models `PaddedWord`, halo2_gadgets/src/poseidon.rs lines 22-29. -/
inductive Word (F : Type)
  | message (a : Assigned F)
  | padding (x : F)

/-- The calls and the assigned cell of the closure `load_input_word`, pow5.rs lines 347-368. -/
def loadInput (c : Pow5 F t) (region : Nat) (i : Fin t) : Word F → Calls F × Assigned F
  | .message a => copyAdvice region a (c.state i.castSucc) 1
  | .padding x =>
    let r := copyAdvice region ⟨⟨region, 1, .fixed (c.rcB i.castSucc)⟩, some x⟩ (c.state i.castSucc) 1
    (.fixed (c.rcB i.castSucc) 1 (some x) :: r.1, r.2)

/-- Models `add_input`, pow5.rs lines 318-392. The entries of `input` are all filled or it panics. -/
def addInput (c : Pow5 F t) (region : Nat) (s : State F t) (input : List (Option (Word F))) :
    Except Stop (Calls F × State F t) := do
  let loaded := c.load region s
  let ins : List (Calls F × Assigned F) ← (List.finRange t).mapM fun i => match input[i.val]? with
    | some (some x) => Except.ok (c.loadInput region i x)
    | _ => .error .panic
  let out : Fin (t + 1) → Option F := fun i => match ins[i.val]? with
    | some x => (s i).value.bind fun a => x.2.value.map fun b => a + b
    | none => (s i).value.map (· + 0)
  pure ([.enable c.sPadAndAdd 1] ++ loaded.1 ++ ins.flatMap (·.1) ++
      (List.finRange (t + 1)).map (fun i => .advice (c.state i) 2 (out i)),
    fun i => ⟨⟨region, 2, .advice (c.state i)⟩, out i⟩)

/-- Models `poseidon_sponge`, halo2_gadgets/src/poseidon.rs lines 104-123, and `get_output`, pow5.rs lines 394-403: the
calls of each region, the state, and what can be squeezed. `region` is the index of the next region. -/
def sponge (c : Pow5 F t) (region : Nat) (s : State F t) (input : Option (List (Option (Word F)))) :
    Except Stop (List (Calls F) × State F t × List (Option (Assigned F))) := do
  let (k, s) ← match input with
    | some input => do
      let (k, s) ← c.addInput region s input
      pure ([k], s)
    | none => pure ([], s)
  let (k', s) ← c.permute (region + k.length) s
  pure (k ++ [k'], s, (List.finRange t).map fun i => some (s i.castSucc))

/-- What `absorb` does with a full mode, to the calls of the regions so far and the state. Models poseidon.rs lines 179-185.
`start` is the index of the first region. -/
def process (c : Pow5 F t) (start : Nat) (st : List (Calls F) × State F t) (mode : List (Option (Word F))) :
    Except Stop (List (Calls F) × State F t) := do
  let (k, s, _) ← c.sponge (start + st.1.length) st.2 (some mode)
  pure (st.1 ++ k, s)

/-- Models `Hash::init` and `Hash::hash`, poseidon.rs lines 151-163, 193-212 and 266-298: `Sponge::new`, `absorb` for each word of the message and
the padding, `finish_absorbing` and `squeeze`, which takes what is there first. -/
def hash (c : Pow5 F t) (start : Nat) (message : List (Assigned F)) : Except Stop (List (Calls F) × Assigned F) := do
  if t = 0 then .error .panic
  else
    let (k, s) := c.initialState start message.length
    let st ← (message.map Word.message ++
      List.replicate (PoseidonSpec.paddingLength t message.length) (Word.padding 0)).foldlM (absorbWith t (c.process start))
        (([k], s), emptyMode t)
    let (k, _, mode) ← c.sponge (start + st.1.1.length) st.1.2 (some st.2)
    match takeFirst mode with
    | some (x, _) => pure (st.1.1 ++ k, x)
    | none => .error .panic

end Pow5

end Verif.Gadget

import Verif.Model.Plonk
import Verif.Model.Compile

/-!
Selector compression (`halo2_proofs/src/plonk/circuit/compress_selectors.rs`), its application to a
constraint system and its re-creation when a verifying key is read
(`halo2_proofs/src/plonk/circuit.rs` lines 1896-2077).
-/

namespace Verif

/-- Models compress_selectors.rs lines 7-21. -/
structure SelectorDescription where
  selector : Nat
  activations : List Bool
  maxDegree : Nat
  deriving DecidableEq

/-- Models compress_selectors.rs lines 23-35. -/
structure SelectorAssignment where
  selector : Nat
  combinationIndex : Nat
  expression : Expr
  deriving DecidableEq

namespace Compress

/-- An entry of the exclusion matrix: both selectors enabled in some row.
Models compress_selectors.rs lines 126-152; the matrix is computed entry by entry on demand. -/
def conflict (a b : SelectorDescription) : Bool :=
  (a.activations.zip b.activations).any fun p => p.1 && p.2

/-- The loop `'try_selectors`: `comb` is the combination so far, `d` its degree, the list the
selectors after the first of the combination that are not in a combination yet. Returns the
combination and the selectors left over. Models compress_selectors.rs lines 167-205; the flags
`added` are replaced by keeping only the selectors not added. -/
def gather (maxDegree : Nat) : Nat → List SelectorDescription → List SelectorDescription →
    List SelectorDescription × List SelectorDescription
  | _, comb, [] => (comb, [])
  | d, comb, s :: rest =>
    if d + comb.length = maxDegree then (comb, s :: rest)
    else if comb.any (conflict s) then
      let r := gather maxDegree d comb rest
      (r.1, s :: r.2)
    else if max d (s.maxDegree - 1) + comb.length + 1 > maxDegree then
      let r := gather maxDegree d comb rest
      (r.1, s :: r.2)
    else gather maxDegree (max d (s.maxDegree - 1)) (comb ++ [s]) rest

/-- The `i`-th root: `F::one()` plus `i` times `F::one()`. Models compress_selectors.rs lines 213,
223, 228 and 243. -/
def root (i : Nat) : Fr := ((i + 1 : Nat) : Fr)

/-- The expression substituted for the selector at position `i` of a combination of `len`
selectors. Models compress_selectors.rs lines 215-229. -/
def replacement (query : Expr) (len i : Nat) : Expr :=
  (List.range len).foldl
    (fun e j => if root j ≠ root i then e * (.const (root j) - query) else e) query

/-- Models compress_selectors.rs lines 231-241. -/
def mark (v : Fr) (col : List Fr) (activations : List Bool) : List Fr :=
  List.zipWith (fun c b => if b then v else c) col activations

/-- The fixed column of a combination. Models compress_selectors.rs lines 208 and 231-243. -/
def column (n : Nat) (comb : List SelectorDescription) : List Fr :=
  comb.zipIdx.foldl (fun col s => mark (root s.2) col s.1.activations) (List.replicate n 0)

/-- The assignments of a combination. Models compress_selectors.rs lines 214-250. -/
def assignments (query : Expr) (idx : Nat) (comb : List SelectorDescription) :
    List SelectorAssignment :=
  comb.zipIdx.map fun s => ⟨s.1.selector, idx, replacement query comb.length s.2⟩

/-- The loop over the simple selectors; `idx` is the number of columns allocated so far and `alloc`
the expression of the column allocated next. Models compress_selectors.rs lines 154-252. The first
argument bounds the number of iterations (the number of selectors suffices). -/
def combine (maxDegree n : Nat) (alloc : Nat → Expr) : Nat → Nat → List SelectorDescription →
    Except Panic (List (List Fr) × List SelectorAssignment)
  | _, _, [] => .ok ([], [])
  | 0, _, _ :: _ => .error .unreachable
  | fuel + 1, idx, s :: rest =>
    if s.maxDegree ≤ maxDegree then
      let g := gather maxDegree (s.maxDegree - 1) [s] rest
      (combine maxDegree n alloc fuel (idx + 1) g.2).map fun r =>
        (column n g.1 :: r.1, assignments (alloc idx) idx g.1 ++ r.2)
    else .error .assert

/-- `process`. Models compress_selectors.rs lines 79-255: selectors of degree 0 get columns of
their own (lines 99-124), then the others are combined. `alloc i` is the expression returned by
the `i`-th call of `allocate_fixed_column`. -/
def process (selectors : List SelectorDescription) (maxDegree : Nat) (alloc : Nat → Expr) :
    Except Panic (List (List Fr) × List SelectorAssignment) :=
  match selectors with
  | [] => .ok ([], [])
  | first :: _ =>
    let n := first.activations.length
    if selectors.all fun s => s.activations.length == n then
      let own := selectors.filter fun s => s.maxDegree == 0
      let simple := selectors.filter fun s => s.maxDegree != 0
      (combine maxDegree n alloc simple.length own.length simple).map fun r =>
        (own.map (fun s => s.activations.map fun b => if b then 1 else 0) ++ r.1,
         own.zipIdx.map (fun s => ⟨s.1.selector, s.2, alloc s.2⟩) ++ r.2)
    else .error .assert

end Compress

/-- `extract_simple_selector`. Models circuit.rs lines 1235-1261. -/
def Expr.extractSimple : Expr → Except Panic (Option Selector)
  | selector s => .ok (if s.simple then some s else none)
  | neg a => a.extractSimple
  | sum a b => do
    match ← a.extractSimple, ← b.extractSimple with
    | some s, none => .ok (some s)
    | none, some s => .ok (some s)
    | some _, some _ => .error .assert
    | none, none => .ok none
  | product a b => do
    match ← a.extractSimple, ← b.extractSimple with
    | some s, none => .ok (some s)
    | none, some s => .ok (some s)
    | some _, some _ => .error .assert
    | none, none => .ok none
  | scaled a _ => a.extractSimple
  | _ => .ok none

/-- The selectors of an expression replaced. Models circuit.rs lines 1918-1944 (= 2032-2058),
including the panics of the assertion, of the index and of the operators `+` and `*`
(lines 1327-1355). -/
def Expr.replaceSelectors (rs : List Expr) (nonsimple : Bool) : Expr → Except Panic Expr
  | selector s =>
    if nonsimple && s.simple then .error .assert
    else match rs[s.index]? with
      | some e => .ok e
      | none => .error .index
  | neg a => do return neg (← a.replaceSelectors rs nonsimple)
  | sum a b => do
    let a ← a.replaceSelectors rs nonsimple
    let b ← b.replaceSelectors rs nonsimple
    if a.containsSimple || b.containsSimple then .error .assert else .ok (sum a b)
  | product a b => do
    let a ← a.replaceSelectors rs nonsimple
    let b ← b.replaceSelectors rs nonsimple
    if a.containsSimple && b.containsSimple then .error .assert else .ok (product a b)
  | scaled a f => do return scaled (← a.replaceSelectors rs nonsimple) f
  | const c => .ok (const c)
  | fixed c r => .ok (fixed c r)
  | advice c r => .ok (advice c r)
  | instance_ c r => .ok (instance_ c r)
  | challenge i => .ok (challenge i)

/-- A vector of `None`s with some entries set to `Some`, all entries unwrapped. Models the vectors
`selector_map` and `selector_replacements`, circuit.rs lines 1901-1916 and 2016-2030. -/
def fillVec {α : Type} (len : Nat) (entries : List (Nat × α)) : Except Panic (List α) := do
  let v ← entries.foldlM (fun (v : List (Option α)) e =>
    if e.1 < v.length then .ok (v.set e.1 (some e.2)) else .error .index) (List.replicate len none)
  v.mapM fun o => match o with
    | some x => .ok x
    | none => .error .unwrap

namespace CS

/-- A constraint system after selectors have been compressed, with its `selector_map` (the fixed
column of each selector). -/
structure Compressed where
  cs : CS
  selectorMap : List Nat
  deriving DecidableEq

/-- The selectors replaced in all gates and lookups. Models circuit.rs lines 1946-1959
(= 2060-2074). -/
def substitute (cs : CS) (rs : List Expr) : Except Panic CS := do
  let gates ← cs.gates.mapM fun g => g.mapM (Expr.replaceSelectors rs false)
  let lookups ← cs.lookups.mapM fun l => do
    let i ← l.input.mapM (Expr.replaceSelectors rs true)
    let t ← l.table.mapM (Expr.replaceSelectors rs true)
    return ⟨i, t⟩
  return { cs with gates, lookups }

/-- A new fixed column, queried in the current row. Models circuit.rs lines 2006-2007 and 2009
(= 1908-1909). -/
def allocFixed (cs : CS) : CS :=
  { cs with numFixed := cs.numFixed + 1
            fixedQueries := CS.addQuery cs.fixedQueries (cs.numFixed, 0) }

/-- `allocFixed` repeated. -/
def allocMany (cs : CS) : Nat → CS
  | 0 => cs
  | k + 1 => (cs.allocMany k).allocFixed

/-- The greatest degree of a gate with each simple selector. Models circuit.rs lines 1979-1984. -/
def selectorDegrees (cs : CS) (len : Nat) : Except Panic (List Nat) :=
  cs.gates.flatten.foldlM (fun (ds : List Nat) e => do
    match ← e.extractSimple with
    | some s => match ds[s.index]? with
      | some d => .ok (ds.set s.index (max d e.degree))
      | none => .error .index
    | none => .ok ds) (List.replicate len 0)

/-- `compress_selectors`. Models circuit.rs lines 1970-2077. Returns the constraint system, the new
fixed columns and the assignments. The `i`-th new column has index `num_fixed_columns + i`. -/
def compressSelectors (cs : CS) (selectors : List (List Bool)) :
    Except Panic (Compressed × List (List Fr) × List SelectorAssignment) := do
  if selectors.length ≠ cs.numSelectors then .error .assert else
  let degrees ← cs.selectorDegrees selectors.length
  let r ← Compress.process
    ((selectors.zip degrees).zipIdx.map fun s => ⟨s.2, s.1.1, s.1.2⟩) cs.degree
    (fun i => .fixed (cs.numFixed + i) 0)
  let new := (List.range r.1.length).map (cs.numFixed + ·)
  let map ← fillVec r.2.length (← r.2.mapM fun a => match new[a.combinationIndex]? with
    | some c => .ok (a.selector, c)
    | none => .error .index)
  let rs ← fillVec r.2.length (r.2.map fun a => (a.selector, a.expression))
  let out ← (cs.allocMany r.1.length).substitute rs
  return (⟨out, map⟩, r.1, r.2)

/-- The loop of `ckb_recreate_side_effect`. Models circuit.rs lines 1901-1913: the constraint
system, the new columns and the entries written to `selector_map`. -/
def recreateLoop : List SelectorAssignment → CS → List Nat → Except Panic (CS × List (Nat × Nat))
  | [], cs, _ => .ok (cs, [])
  | a :: as, cs, new =>
    let cs' := if a.combinationIndex ≥ new.length then cs.allocFixed else cs
    let new' := if a.combinationIndex ≥ new.length then new ++ [cs.numFixed] else new
    match new'[a.combinationIndex]? with
    | none => .error .index
    | some c => (recreateLoop as cs' new').map fun r => (r.1, (a.selector, c) :: r.2)

/-- `ckb_recreate_side_effect`. Models circuit.rs lines 1900-1961. -/
def recreate (cs : CS) (as : List SelectorAssignment) : Except Panic Compressed := do
  let r ← recreateLoop as cs []
  let map ← fillVec as.length r.2
  let rs ← fillVec as.length (as.map fun a => (a.selector, a.expression))
  let out ← r.1.substitute rs
  return ⟨out, map⟩

end CS

end Verif

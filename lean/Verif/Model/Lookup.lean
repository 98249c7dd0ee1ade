import Verif.Model.Fr
import Verif.Model.Compile

/-!
The prover's side of the lookup argument: `halo2_proofs/src/plonk/lookup/prover.rs`.
-/

namespace Verif.Lookup

/-- `*acc.entry(a).or_insert(0) += 1` on a `BTreeMap` (a list sorted by key, keys compared by
canonical value). Models halo2_proofs/src/plonk/lookup/prover.rs lines 414-417. Counts are at most
the number of rows, so the `u32` does not overflow. -/
def bump (a : Fr) : List (Fr × Nat) → List (Fr × Nat)
  | [] => [(a, 1)]
  | (k, c) :: m =>
    if k = a then (k, c + 1) :: m
    else if a.val < k.val then (a, 1) :: (k, c) :: m
    else (k, c) :: bump a m

/-- The table values with their counts. Models halo2_proofs/src/plonk/lookup/prover.rs lines
411-417. -/
def countTable (table : List Fr) : List (Fr × Nat) := table.foldl (fun m a => bump a m) []

/-- `if let Some(count) = map.get_mut(a) { assert!(*count > 0); *count -= 1 }`; `none` if the key is
missing. Models halo2_proofs/src/plonk/lookup/prover.rs lines 429-432. -/
def takeOne (a : Fr) : List (Fr × Nat) → Except Panic (Option (List (Fr × Nat)))
  | [] => .ok none
  | (k, c) :: m =>
    if k = a then (if c > 0 then .ok (some ((k, c - 1) :: m)) else .error .assert)
    else
      match takeOne a m with
      | .ok (some m') => .ok (some ((k, c) :: m'))
      | r => r

/-- The pass over the sorted inputs: the permuted table gets the first of each run of equal inputs,
which is taken from the table; the other rows are pushed on a stack (top first). `prev` is the value
in the row before. `none` is the error `ConstraintSystemFailure`.
Models halo2_proofs/src/plonk/lookup/prover.rs lines 420-442. -/
def scanRows : Option Fr → Nat → List Fr → List Fr → List (Fr × Nat) → List Nat →
    Except Panic (Option (List Fr × List (Fr × Nat) × List Nat))
  | _, _, [], coeffs, map, repeated => .ok (some (coeffs, map, repeated))
  | prev, row, a :: as, coeffs, map, repeated =>
    if prev ≠ some a then
      match takeOne a map with
      | .error e => .error e
      | .ok none => .ok none
      | .ok (some map) => scanRows (some a) (row + 1) as (coeffs.set row a) map repeated
    else scanRows (some a) (row + 1) as coeffs map (row :: repeated)

/-- `for _ in 0..count { coeffs[repeated.pop().unwrap()] = v }`.
Models halo2_proofs/src/plonk/lookup/prover.rs lines 446-448. -/
def fillOne (v : Fr) : Nat → List Fr → List Nat → Except Panic (List Fr × List Nat)
  | 0, coeffs, repeated => .ok (coeffs, repeated)
  | _ + 1, _, [] => .error .unwrap
  | c + 1, coeffs, r :: repeated =>
    if r < coeffs.length then fillOne v c (coeffs.set r v) repeated else .error .index

/-- Models halo2_proofs/src/plonk/lookup/prover.rs lines 444-450. -/
def fillRows : List (Fr × Nat) → List Fr → List Nat → Except Panic (List Fr)
  | [], coeffs, repeated => if repeated = [] then .ok coeffs else .error .assert
  | (v, c) :: m, coeffs, repeated =>
    match fillOne v c coeffs repeated with
    | .error e => .error e
    | .ok (coeffs, repeated) => fillRows m coeffs repeated

/-- `permute_expression_pair`: the permuted input and table columns of `n` rows of which the first
`usable` count; the rest is filled with the values drawn from the random number generator (all for
the input first). The inner `none` is the error `ConstraintSystemFailure`.
Models halo2_proofs/src/plonk/lookup/prover.rs lines 394-477. -/
def permutePair (n usable : Nat) (input table : List Fr) (blindA blindS : List Fr) :
    Except Panic (Option (List Fr × List Fr)) :=
  let sorted := (input.take usable).mergeSort fun a b => decide (a.val ≤ b.val)
  match scanRows none 0 sorted (List.replicate usable 0) (countTable (table.take usable)) [] with
  | .error e => .error e
  | .ok none => .ok none
  | .ok (some (coeffs, map, repeated)) =>
    match fillRows map coeffs repeated with
    | .error e => .error e
    | .ok coeffs =>
      let a := sorted ++ blindA
      let s := coeffs ++ blindS
      if a.length = n ∧ s.length = n then .ok (some (a, s)) else .error .assert

end Verif.Lookup

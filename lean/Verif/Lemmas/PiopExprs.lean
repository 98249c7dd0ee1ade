import Verif.Model.PlonkVerifier
import Mathlib.Algebra.BigOperators.Intervals
import Mathlib.Algebra.Algebra.Hom

/-!
The verifier's expressions as plain formulas over any ring, so that they can be read both at a point
and as polynomials.
-/

namespace Verif.Plonk

open Finset

/-- Everything the verifier's expressions are made of. -/
structure Opened (R : Type) where
  advice : Nat → Int → R
  fixed : Nat → Int → R
  inst : Nat → Int → R
  user : Nat → R
  sigma : Nat → R
  z : Nat → R
  zNext : Nat → R
  zLast : Nat → R
  lz : Nat → R
  lzNext : Nat → R
  la : Nat → R
  laInv : Nat → R
  ls : Nat → R
  l0 : R
  lLast : R
  lBlind : R
  theta : R
  beta : R
  gamma : R
  x : R

variable {R S : Type} [CommRing R] [Algebra Fr R] [CommRing S] [Algebra Fr S]

namespace Opened

/-- Applying a function everywhere. -/
def map {R S : Type} (f : R → S) (o : Opened R) : Opened S where
  advice c r := f (o.advice c r)
  fixed c r := f (o.fixed c r)
  inst c r := f (o.inst c r)
  user i := f (o.user i)
  sigma i := f (o.sigma i)
  z t := f (o.z t)
  zNext t := f (o.zNext t)
  zLast t := f (o.zLast t)
  lz t := f (o.lz t)
  lzNext t := f (o.lzNext t)
  la t := f (o.la t)
  laInv t := f (o.laInv t)
  ls t := f (o.ls t)
  l0 := f o.l0
  lLast := f o.lLast
  lBlind := f o.lBlind
  theta := f o.theta
  beta := f o.beta
  gamma := f o.gamma
  x := f o.x

/-- The value of an expression without selectors. -/
def expr (o : Opened R) : Expr → R
  | .const c => algebraMap Fr R c
  | .selector _ => 0
  | .fixed c r => o.fixed c r
  | .advice c r => o.advice c r
  | .instance_ c r => o.inst c r
  | .challenge i => o.user i
  | .neg a => - o.expr a
  | .sum a b => o.expr a + o.expr b
  | .product a b => o.expr a * o.expr b
  | .scaled a f => o.expr a * algebraMap Fr R f

/-- The value of a column. -/
def col (o : Opened R) : Col → R
  | .advice c => o.advice c 0
  | .fixed c => o.fixed c 0
  | .instance_ c => o.inst c 0

/-- The value of the `i`-th column of the permutation. -/
def perm (o : Opened R) (cs : CS) (i : Nat) : R :=
  match cs.permutation[i]? with
  | some c => o.col c
  | none => 0

/-- The rows on which the arguments are checked. -/
def active (o : Opened R) : R := 1 - (o.lLast + o.lBlind)

/-- Horner's rule. -/
def comp (o : Opened R) (es : List Expr) : R :=
  (es.map o.expr).foldl (fun acc v => acc * o.theta + v) 0

end Opened

/-- The number of columns of a part of the permutation. -/
def partLen (cs : CS) : Nat := cs.degree - 2

/-- The number of parts of the permutation. -/
def numSets (cs : CS) : Nat := (cs.permutation.length + partLen cs - 1) / partLen cs

/-- The columns of a part. -/
def part (cs : CS) (t : Nat) : Finset Nat :=
  Ico (t * partLen cs) (min (t * partLen cs + partLen cs) cs.permutation.length)

/-- The left factors. -/
def leftOf (cs : CS) (o : Opened R) (i : Nat) : R := o.perm cs i + o.beta * o.sigma i + o.gamma

/-- The right factors. -/
def rightOf (cs : CS) (o : Opened R) (i : Nat) : R :=
  o.perm cs i + o.beta * o.x * algebraMap Fr R deltaFr ^ i + o.gamma

/-- The expressions of the permutation argument. -/
def permOf (cs : CS) (o : Opened R) : List R :=
  (if numSets cs = 0 then [] else [o.l0 * (1 - o.z 0),
    (o.z (numSets cs - 1) ^ 2 - o.z (numSets cs - 1)) * o.lLast]) ++
  (List.range (numSets cs - 1)).map (fun t => (o.z (t + 1) - o.zLast t) * o.l0) ++
  (List.range (numSets cs)).map (fun t =>
    (o.zNext t * ∏ i ∈ part cs t, leftOf cs o i - o.z t * ∏ i ∈ part cs t, rightOf cs o i) * o.active)

/-- The expressions of one lookup. -/
def lookupOf (o : Opened R) (l : Lookup) (t : Nat) : List R :=
  [o.l0 * (1 - o.lz t),
    o.lLast * (o.lz t ^ 2 - o.lz t),
    (o.lzNext t * (o.la t + o.beta) * (o.ls t + o.gamma)
      - o.lz t * (o.comp l.input + o.beta) * (o.comp l.table + o.gamma)) * o.active,
    o.l0 * (o.la t - o.ls t),
    (o.la t - o.ls t) * (o.la t - o.laInv t) * o.active]

/-- All expressions. -/
def exprsOf (cs : CS) (o : Opened R) : List R :=
  cs.gates.flatten.map o.expr ++ permOf cs o ++
    (cs.lookups.zipIdx.map fun p => lookupOf o p.1 p.2).flatten

section Hom

variable (f : R →ₐ[Fr] S) (o : Opened R)

theorem map_expr (e : Expr) : (o.map f).expr e = f (o.expr e) := by
  induction e with
  | const c => simp [Opened.expr]
  | selector s => simp [Opened.expr]
  | fixed c r => simp [Opened.expr, Opened.map]
  | advice c r => simp [Opened.expr, Opened.map]
  | instance_ c r => simp [Opened.expr, Opened.map]
  | challenge i => simp [Opened.expr, Opened.map]
  | neg a ih => simp [Opened.expr, ih]
  | sum a b iha ihb => simp [Opened.expr, iha, ihb]
  | product a b iha ihb => simp [Opened.expr, iha, ihb]
  | scaled a g ih => simp [Opened.expr, ih]

theorem map_perm (cs : CS) (i : Nat) : (o.map f).perm cs i = f (o.perm cs i) := by
  unfold Opened.perm
  split
  · next c hc => cases c <;> simp [Opened.col, Opened.map]
  · simp

theorem map_comp (es : List Expr) : (o.map f).comp es = f (o.comp es) := by
  unfold Opened.comp
  have : ∀ (es : List Expr) (a : R), (es.map (o.map f).expr).foldl (fun acc v => acc * f o.theta + v) (f a)
      = f ((es.map o.expr).foldl (fun acc v => acc * o.theta + v) a) := by
    intro es
    induction es with
    | nil => intro a; rfl
    | cons e es ih =>
      intro a
      simp only [List.map_cons, List.foldl_cons]
      rw [← ih, map_expr]
      simp
  have h := this es 0
  rw [map_zero] at h
  exact h

theorem map_permOf (cs : CS) : permOf cs (o.map f) = (permOf cs o).map f := by
  have hl : ∀ i, leftOf cs (o.map f) i = f (leftOf cs o i) := fun i => by
    unfold leftOf; rw [map_perm]; simp [Opened.map]
  have hr : ∀ i, rightOf cs (o.map f) i = f (rightOf cs o i) := fun i => by
    unfold rightOf; rw [map_perm]; simp [Opened.map]
  unfold permOf
  simp only [List.map_append, List.map_map, hl, hr]
  congr 1
  · congr 1
    · split
      · rfl
      · simp [Opened.map]
    · apply List.map_congr_left; intro t _; simp [Opened.map]
  · apply List.map_congr_left; intro t _
    simp [Opened.map, Opened.active]

theorem map_exprsOf (cs : CS) : exprsOf cs (o.map f) = (exprsOf cs o).map f := by
  unfold exprsOf
  rw [map_permOf, List.map_append, List.map_append]
  congr 1
  · congr 1
    rw [List.map_map]
    apply List.map_congr_left; intro e _; exact map_expr f o e
  · rw [List.map_flatten, List.map_map]
    congr 1
    apply List.map_congr_left; intro p _
    simp only [lookupOf, Function.comp, List.map_cons, List.map_nil, map_comp]
    simp [Opened.map, Opened.active]

end Hom

end Verif.Plonk

import Mathlib.Algebra.BigOperators.Group.List.Basic
import Verif.Lemmas.PairGroup

/-! The Miller loop: many pairs at once are many single runs; a single run as a fold. -/

namespace Verif.Tower

open Verif.Spec

/-- What `ell` multiplies by. -/
def lineVal (L : Line Fq) (p : Aff Fq) : Fq12 Fq :=
  ⟨⟨⟨L.1.c0 * p.y, L.1.c1 * p.y⟩, 0, 0⟩, ⟨⟨L.2.1.c0 * p.x, L.2.1.c1 * p.x⟩, L.2.2, 0⟩⟩

theorem ell_eq (f : Fq12 Fq) (L : Line Fq) (p : Aff Fq) : ell f L p = f * lineVal L p := by
  unfold ell
  rw [Fq12.mulBy034_eq]
  rfl

/-- The fields below, in the largest. -/
noncomputable def e2 : Fq2 Fq →+* Fq12 Fq := Fq12.of.comp Fq6.of

noncomputable def e1 : Fq →+* Fq12 Fq := e2.comp Fq2.of

theorem w_six : (Fq12.w : Fq12 Fq) ^ 6 = e2 Fq2.xi := by
  rw [show 6 = 2 * 3 by norm_num, pow_mul, w_sq, ← map_pow, v_cube]
  rfl

/-- The line at the point. -/
theorem lineVal_eq (c l n : Fq2 Fq) (p : Aff Fq) :
    lineVal (c, -(c * l), -(c * n)) p = e2 c * (e1 p.y - e2 l * Fq12.w * e1 p.x - e2 n * Fq12.w ^ 3) := by
  rw [show (3 : Nat) = 2 + 1 by norm_num, pow_succ, w_sq]
  refine Fq12.ext (Fq6.ext ?_ ?_ ?_) (Fq6.ext ?_ ?_ ?_)
  all_goals simp [lineVal, e1, e2, Fq12.w, Fq6.v]
  all_goals ext <;> simp <;> ring

theorem lineVal_ne {L : Line Fq} {p : Aff Fq} (hc : L.1 ≠ 0) (hp : p.y ≠ 0) : lineVal L p ≠ 0 := by
  intro h
  have h0 := congrArg (fun a => a.c0.c0) h
  apply hc
  have h1 : L.1.c0 * p.y = 0 := congrArg Fq2.c0 h0
  have h2 : L.1.c1 * p.y = 0 := congrArg Fq2.c1 h0
  exact Fq2.ext ((mul_eq_zero.1 h1).resolve_right hp) ((mul_eq_zero.1 h2).resolve_right hp)

/-! ### Many pairs at once -/

attribute [local irreducible] doublingStep additionStep frobTwist minusFrobTwist2 lineVal

/-- A run for one pair: the pair, and how far the point and the value are. -/
structure Run where
  p : Aff Fq
  q : Aff (Fq2 Fq)
  r : Jac (Fq2 Fq)
  f : Fq12 Fq

/-- Doubling in a run. -/
def Run.dbl (t : Run) : Run := { t with r := (doublingStep t.r).1, f := t.f * t.f * lineVal (doublingStep t.r).2 t.p }

/-- Adding in a run. -/
def Run.addTo (t : Run) (q : Aff (Fq2 Fq)) : Run :=
  { t with r := (additionStep t.r q).1, f := t.f * lineVal (additionStep t.r q).2 t.p }

@[simp] theorem Run.dbl_p (t : Run) : t.dbl.p = t.p := rfl
@[simp] theorem Run.dbl_q (t : Run) : t.dbl.q = t.q := rfl
@[simp] theorem Run.addTo_p (t : Run) (q : Aff (Fq2 Fq)) : (t.addTo q).p = t.p := rfl
@[simp] theorem Run.addTo_q (t : Run) (q : Aff (Fq2 Fq)) : (t.addTo q).q = t.q := rfl

/-- One digit. -/
def Run.digit (t : Run) (x : Int) : Run :=
  if x = 1 then t.dbl.addTo t.q else if x = -1 then t.dbl.addTo ⟨t.q.x, -t.q.y⟩ else t.dbl

/-- The last two additions. -/
def Run.last (t : Run) : Run := (t.addTo (frobTwist decoded t.q)).addTo (minusFrobTwist2 decoded t.q)

/-- All digits. -/
def Run.digits (t : Run) (xs : List Int) : Run := xs.foldl Run.digit t

theorem Run.digit_p (t : Run) (x : Int) : (t.digit x).p = t.p := by
  unfold Run.digit
  split_ifs <;> simp only [Run.addTo_p, Run.dbl_p]

theorem Run.digit_q (t : Run) (x : Int) : (t.digit x).q = t.q := by
  unfold Run.digit
  split_ifs <;> simp only [Run.addTo_q, Run.dbl_q]

theorem Run.digits_p (xs : List Int) : ∀ t : Run, (t.digits xs).p = t.p := by
  induction xs with
  | nil => intro t; rfl
  | cons x xs ih => intro t; exact (ih _).trans (t.digit_p x)

theorem Run.digits_q (xs : List Int) : ∀ t : Run, (t.digits xs).q = t.q := by
  induction xs with
  | nil => intro t; rfl
  | cons x xs ih => intro t; exact (ih _).trans (t.digit_q x)

/-- The lines of the loop for a run. -/
def Run.lines (t : Run) (xs : List Int) : List (Line Fq) := (prepareLoop t.q ⟨t.q.x, -t.q.y⟩ xs t.r).2

theorem ellAll_eq (l : Run → Line Fq) (r : Run → List (Line Fq)) : ∀ (ts : List Run) (f : Fq12 Fq),
    ellAll (ts.map fun t => (t.p, l t :: r t)) f =
      .ok (f * (ts.map fun t => lineVal (l t) t.p).prod, ts.map fun t => (t.p, r t))
  | [], f => by simp [ellAll]
  | t :: ts, f => by
    rw [List.map_cons, ellAll, ellAll_eq l r ts, ell_eq, List.map_cons, List.prod_cons, mul_assoc]
    rfl

theorem prepareLoop_fst (xs : List Int) : ∀ t : Run, (prepareLoop t.q ⟨t.q.x, -t.q.y⟩ xs t.r).1 = (t.digits xs).r := by
  induction xs with
  | nil => intro t; rfl
  | cons x xs ih =>
    intro t
    have h := ih (t.digit x)
    rw [Run.digit_q] at h
    show _ = ((t.digit x).digits xs).r
    rw [← h]
    conv_lhs => unfold prepareLoop
    unfold Run.digit
    split_ifs <;> rfl

theorem lines_cons (t : Run) (x : Int) (xs : List Int) : t.lines (x :: xs) =
    (doublingStep t.r).2 :: (if x = 1 then (additionStep (doublingStep t.r).1 t.q).2 :: (t.digit x).lines xs
      else if x = -1 then (additionStep (doublingStep t.r).1 ⟨t.q.x, -t.q.y⟩).2 :: (t.digit x).lines xs
      else (t.digit x).lines xs) := by
  unfold Run.lines
  rw [Run.digit_q]
  conv_lhs => unfold prepareLoop
  unfold Run.digit
  split_ifs <;> rfl

theorem prod_sq (f g : Run → Fq12 Fq) (ts : List Run) : (ts.map f).prod * (ts.map f).prod * (ts.map g).prod =
    (ts.map fun t => f t * f t * g t).prod := by
  rw [← List.prod_map_mul, ← List.prod_map_mul]

theorem millerLoop_eq (rest : Run → List (Line Fq)) (hrest : ∀ t x, rest (t.digit x) = rest t) (xs : List Int) :
    ∀ ts : List Run,
      millerLoop xs false (ts.map fun t => (t.p, t.lines xs ++ rest t)) (ts.map Run.f).prod =
        .ok ((ts.map fun t => (t.digits xs).f).prod, ts.map fun t => (t.p, rest t)) := by
  induction xs with
  | nil => intro ts; rfl
  | cons x xs ih =>
    intro ts
    have ih' := ih (ts.map (Run.digit · x))
    rw [List.map_map, List.map_map, List.map_map, List.map_map] at ih'
    have e1 : ((fun t => (t.p, t.lines xs ++ rest t)) ∘ (Run.digit · x) : Run → Pair Fq) =
        fun t => (t.p, (t.digit x).lines xs ++ rest t) := by
      funext t
      rw [Function.comp, Run.digit_p, hrest]
    have e2 : ((fun t => (t.p, rest t)) ∘ (Run.digit · x) : Run → Pair Fq) = fun t => (t.p, rest t) := by
      funext t
      rw [Function.comp, Run.digit_p, hrest]
    rw [e1, e2] at ih'
    simp only [millerLoop, Bool.false_eq_true, if_false]
    rw [Fq12.square_eq]
    have hl : (ts.map fun t => (t.p, t.lines (x :: xs) ++ rest t)) = ts.map fun t => (t.p, (doublingStep t.r).2 ::
        ((if x = 1 then (additionStep (doublingStep t.r).1 t.q).2 :: (t.digit x).lines xs
      else if x = -1 then (additionStep (doublingStep t.r).1 ⟨t.q.x, -t.q.y⟩).2 :: (t.digit x).lines xs
      else (t.digit x).lines xs) ++ rest t)) := by
      refine List.map_congr_left fun t _ => ?_
      rw [lines_cons, List.cons_append]
    rw [hl, ellAll_eq (fun t => (doublingStep t.r).2), prod_sq]
    simp only [bind, Except.bind]
    by_cases h1 : x = 1
    · simp only [h1, if_true, List.cons_append]
      rw [ellAll_eq (fun t => (additionStep (doublingStep t.r).1 t.q).2), ← List.prod_map_mul]
      rw [h1] at ih'
      dsimp only
      exact ih'
    · by_cases h2 : x = -1
      · simp only [h2, if_true, if_false, List.cons_append, show ¬ ((-1 : Int) = 1) by decide]
        rw [ellAll_eq (fun t => (additionStep (doublingStep t.r).1 ⟨t.q.x, -t.q.y⟩).2), ← List.prod_map_mul]
        rw [h2] at ih'
        dsimp only
        exact ih'
      · simp only [h1, h2, if_false]
        have e : ∀ t : Run, (t.digit x).f = t.f * t.f * lineVal (doublingStep t.r).2 t.p := by
          intro t
          unfold Run.digit
          rw [if_neg h1, if_neg h2]
          rfl
        have e' : (Run.f ∘ (Run.digit · x)) = fun t => t.f * t.f * lineVal (doublingStep t.r).2 t.p := funext e
        rw [e'] at ih'
        exact ih'

/-- The start of the run for a pair. -/
def start (p : Aff Fq) (q : Aff (Fq2 Fq)) : Run := ⟨p, q, ⟨q.x, q.y, 1⟩, 1⟩

/-- The value of the loop for a pair. -/
def value (D : List Int) (p : Aff Fq) (q : Aff (Fq2 Fq)) : Fq12 Fq := ((start p q).digits D).last.f

/-- The lines for a pair. -/
def tailLines (D : List Int) (p : Aff Fq) (q : Aff (Fq2 Fq)) : List (Line Fq) :=
  [(additionStep ((start p q).digits D).r (frobTwist decoded q)).2,
    (additionStep (((start p q).digits D).addTo (frobTwist decoded q)).r (minusFrobTwist2 decoded q)).2]

theorem Run.addTo_f (t : Run) (q : Aff (Fq2 Fq)) : (t.addTo q).f = t.f * lineVal (additionStep t.r q).2 t.p := rfl

theorem Run.addTo_r (t : Run) (q : Aff (Fq2 Fq)) : (t.addTo q).r = (additionStep t.r q).1 := rfl

theorem last_eq (t : Run) : t.last.f = t.f * lineVal (additionStep t.r (frobTwist decoded t.q)).2 t.p *
    lineVal (additionStep (t.addTo (frobTwist decoded t.q)).r (minusFrobTwist2 decoded t.q)).2 t.p := by
  unfold Run.last
  rw [Run.addTo_f, Run.addTo_f, Run.addTo_p]

theorem start_p (p : Aff Fq) (q : Aff (Fq2 Fq)) : (start p q).p = p := rfl

theorem start_q (p : Aff Fq) (q : Aff (Fq2 Fq)) : (start p q).q = q := rfl

theorem value_eq (D : List Int) (p : Aff Fq) (q : Aff (Fq2 Fq)) : value D p q = ((start p q).digits D).f *
    lineVal (additionStep ((start p q).digits D).r (frobTwist decoded q)).2 p *
    lineVal (additionStep (((start p q).digits D).addTo (frobTwist decoded q)).r (minusFrobTwist2 decoded q)).2 p := by
  unfold value
  rw [last_eq, Run.digits_p, Run.digits_q, start_p, start_q]

theorem millerLoop_first (xs : List Int) (pairs : List (Pair Fq)) : millerLoop xs true pairs 1 = millerLoop xs false pairs 1 := by
  cases xs with
  | nil => rfl
  | cons x xs =>
    simp only [millerLoop, Bool.false_eq_true, if_false, if_true]
    rw [Fq12.square_eq, mul_one]

/-- Everything after the pairs are put together. -/
def millerRest (D : List Int) (pairs : List (Pair Fq)) : Except Panic (Fq12 Fq) := do
  let (f, pairs) ← millerLoop D true pairs 1
  let (f, pairs) ← ellAll pairs f
  let (f, pairs) ← ellAll pairs f
  if pairs.all fun p => p.2.isEmpty then .ok f else .error .assert

theorem millerRest_eq (D : List Int) (l : List (Aff Fq × Aff (Fq2 Fq))) :
    millerRest D (l.map fun t => (t.1, (start t.1 t.2).lines D ++ tailLines D t.1 t.2)) =
      .ok (l.map fun t => value D t.1 t.2).prod := by
  unfold millerRest
  have hp : (l.map fun t => (t.1, (start t.1 t.2).lines D ++ tailLines D t.1 t.2)) =
      (l.map fun t => start t.1 t.2).map fun t => (t.p, t.lines D ++ tailLines D t.p t.q) := by
    rw [List.map_map]
    rfl
  have hone : (1 : Fq12 Fq) = ((l.map fun t => start t.1 t.2).map Run.f).prod := by
    rw [List.map_map]
    refine (List.prod_eq_one fun x hx => ?_).symm
    obtain ⟨t, -, rfl⟩ := List.mem_map.1 hx
    rfl
  have hm := millerLoop_eq (fun t => tailLines D t.p t.q) (fun t x => by rw [Run.digit_p, Run.digit_q]) D
    (l.map fun t => start t.1 t.2)
  rw [← hone] at hm
  rw [hp, millerLoop_first, hm]
  simp only [bind, Except.bind, tailLines]
  rw [ellAll_eq (fun t => (additionStep ((start t.p t.q).digits D).r (frobTwist decoded t.q)).2)]
  dsimp only
  rw [ellAll_eq (fun t => (additionStep (((start t.p t.q).digits D).addTo (frobTwist decoded t.q)).r (minusFrobTwist2 decoded t.q)).2)
    (fun _ => [])]
  dsimp only
  rw [if_pos (by simp)]
  refine congrArg Except.ok ?_
  rw [List.map_map, List.map_map, List.map_map, ← List.prod_map_mul, ← List.prod_map_mul]
  refine congrArg List.prod ?_
  refine List.map_congr_left fun t _ => ?_
  exact (value_eq D t.1 t.2).symm

/-- Preparing, for any digits. -/
def prepareWith (D : List Int) (q : Aff (Fq2 Fq)) : G2Prepared Fq :=
  if isIdentity2 q then ⟨[], true⟩
  else
    let r : Jac (Fq2 Fq) := ⟨q.x, q.y, 1⟩
    let negq : Aff (Fq2 Fq) := ⟨q.x, -q.y⟩
    let (r, coeffs) := prepareLoop q negq D r
    let (r, l1) := additionStep r (frobTwist decoded q)
    let (_, l2) := additionStep r (minusFrobTwist2 decoded q)
    ⟨coeffs ++ [l1, l2], false⟩

theorem prepareWith_eq (D : List Int) (q : Aff (Fq2 Fq)) (p : Aff Fq) : prepareWith D q =
    if isIdentity2 q then ⟨[], true⟩ else ⟨(start p q).lines D ++ tailLines D p q, false⟩ := by
  have h := prepareLoop_fst D (start p q)
  unfold prepareWith tailLines
  split_ifs
  · rfl
  · unfold Run.addTo
    dsimp only
    rw [← h]
    rfl

/-- Neither point is the one at infinity. -/
def live (t : Aff Fq × Aff (Fq2 Fq)) : Bool := !t.1.isIdentity && !isIdentity2 t.2

theorem multi_with (D : List Int) (terms : List (Aff Fq × Aff (Fq2 Fq))) :
    millerRest D (((terms.map fun t => (t.1, prepareWith D t.2)).filter fun t => !t.1.isIdentity && !t.2.infinity).map
      fun t => (t.1, t.2.coeffs)) = .ok ((terms.filter live).map fun t => value D t.1 t.2).prod := by
  have hf : ((terms.map fun t => (t.1, prepareWith D t.2)).filter fun t => !t.1.isIdentity && !t.2.infinity) =
      (terms.filter live).map fun t => (t.1, prepareWith D t.2) := by
    rw [List.filter_map]
    congr 1
    refine List.filter_congr fun t _ => ?_
    unfold live
    dsimp only [Function.comp]
    rw [prepareWith_eq D t.2 t.1]
    split_ifs with h <;> simp [h]
  rw [hf, List.map_map, ← millerRest_eq]
  congr 1
  refine List.map_congr_left fun t ht => ?_
  have hl : isIdentity2 t.2 = false := by
    have := (List.mem_filter.1 ht).2
    unfold live at this
    simp only [Bool.and_eq_true, Bool.not_eq_true'] at this
    exact this.2
  dsimp only [Function.comp]
  rw [prepareWith_eq D t.2 t.1, hl]
  rfl

/-- The value for a pair. -/
def single (p : Aff Fq) (q : Aff (Fq2 Fq)) : Fq12 Fq := value loopDigits p q

theorem multi_eq (terms : List (Aff Fq × Aff (Fq2 Fq))) :
    multiMillerLoop (terms.map fun t => (t.1, G2Prepared.fromAffine decoded t.2)) =
      .ok ((terms.filter live).map fun t => single t.1 t.2).prod := multi_with loopDigits terms

end Verif.Tower

import Verif.Model.MockProver

/-! Values of expressions in the mock prover (helper for the property theorems). -/

namespace Verif

namespace MValue

theorem key_inj {a b : MValue} (h : a.key = b.key) : a = b := by
  cases a with
  | real a =>
    cases b with
    | real b => exact congrArg _ (ZMod.val_injective P h)
    | poison => exact absurd h (ZMod.val_lt a).ne
  | poison =>
    cases b with
    | real b => exact absurd h.symm (ZMod.val_lt b).ne
    | poison => rfl

theorem mul_comm (a b : MValue) : a.mul b = b.mul a := by
  cases a <;> cases b <;> simp only [mul, _root_.mul_comm]

theorem zero_mul (a : MValue) : (real 0).mul a = real 0 := by
  cases a <;> simp [mul]

theorem mul_assoc (a b c : MValue) : (a.mul b).mul c = a.mul (b.mul c) := by
  cases a with
  | real a =>
    cases b with
    | real b =>
      cases c with
      | real c => simp only [mul, _root_.mul_assoc]
      | poison =>
        by_cases ha : a = 0 <;> by_cases hb : b = 0 <;> simp [mul, ha, hb]
    | poison =>
      by_cases ha : a = 0
      · subst ha; rw [zero_mul, zero_mul, zero_mul]
      · cases c with
        | real c => by_cases hc : c = 0 <;> simp [mul, ha, hc]
        | poison => simp [mul, ha]
  | poison =>
    cases b with
    | real b =>
      cases c with
      | real c => by_cases hb : b = 0 <;> by_cases hc : c = 0 <;> simp [mul, hb, hc]
      | poison => by_cases hb : b = 0 <;> simp [mul, hb]
    | poison =>
      cases c with
      | real c => by_cases hc : c = 0 <;> simp [mul, hc]
      | poison => simp [mul]

theorem scale_eq (a : MValue) (f : Fr) : a.scale f = a.mul (real f) := by
  cases a <;> rfl

end MValue

namespace Mock

/-- Evaluating the cheaper factor first, and the other only if need be, gives the product. -/
theorem lazy_product (m : Mock) (row : Nat) (a b : Expr) :
    m.lazy row (.product a b) = (m.lazy row a).mul (m.lazy row b) := by
  rw [lazy]
  dsimp only
  split_ifs with h1 h2 h3
  · rw [h2, MValue.zero_mul]
  · rfl
  · rw [h3, MValue.mul_comm, MValue.zero_mul]
  · rw [MValue.mul_comm]

/-! Reading an identifier. -/

/-- After a bracket with a minus sign. -/
def closeNeg : Option (MValue × List Token) → Option (MValue × List Token)
  | some (v, .close :: r) => some (v.neg, r)
  | _ => none

/-- After the second summand. -/
def closeSum (v : MValue) : Option (MValue × List Token) → Option (MValue × List Token)
  | some (w, .close :: r) => some (v.add w, r)
  | _ => none

/-- After the first part of a bracket. -/
def afterOpen (next : List Token → Option (MValue × List Token)) :
    Option (MValue × List Token) → Option (MValue × List Token)
  | some (v, .close :: r) => some (v, r)
  | some (v, .plus :: r) => closeSum v (next r)
  | _ => none

/-- A factor; `next` reads factors with multiplication signs between them. -/
def primary (m : Mock) (row : Nat) (next : List Token → Option (MValue × List Token)) :
    List Token → Option (MValue × List Token)
  | .const v :: r => some (.real v, r)
  | .selector _ :: r => some (.poison, r)
  | .fixed c o :: r => some (m.load row (.fixed c, o), r)
  | .advice c o :: r => some (m.load row (.advice c, o), r)
  | .instance_ c o :: r => some (m.load row (.instance_ c, o), r)
  | .challenge i :: r => some (.real (m.challenge i), r)
  | .openNeg :: r => closeNeg (next r)
  | .open_ :: r => afterOpen next (next r)
  | _ => none

/-- After a factor. -/
def afterPrimary (next : List Token → Option (MValue × List Token)) :
    Option (MValue × List Token) → Option (MValue × List Token)
  | some (v, .times :: r) => (next r).map fun w => (v.mul w.1, w.2)
  | x => x

/-- Factors with multiplication signs between them. -/
def chain (m : Mock) (row : Nat) : Nat → List Token → Option (MValue × List Token)
  | 0, _ => none
  | k + 1, r => afterPrimary (chain m row k) (primary m row (chain m row k) r)

/-- With fuel enough, the factor read is `v` and `rest` is left. -/
def ReadsPrimary (m : Mock) (row : Nat) (ts : List Token) (v : MValue) (rest : List Token) : Prop :=
  ∃ K, ∀ k, K ≤ k → primary m row (chain m row k) ts = some (v, rest)

/-- With fuel enough, the product read is `v` and `rest` is left. -/
def ReadsChain (m : Mock) (row : Nat) (ts : List Token) (v : MValue) (rest : List Token) : Prop :=
  ∃ K, ∀ k, K ≤ k → chain m row k ts = some (v, rest)

theorem not_times {t : Token} (h : t ≠ .times) (r : List Token) :
    (t :: r).head? ≠ some .times := by
  rw [List.head?_cons]
  intro e
  injection e with e
  exact h e

/-- What reading the identifier of an expression gives. -/
structure Reads (m : Mock) (row : Nat) (e : Expr) : Prop where
  alone : ∀ rest, rest.head? ≠ some .times → ReadsChain m row (e.identifier ++ rest) (m.lazy row e) rest
  times : ∀ r w rest, ReadsChain m row r w rest →
    ReadsChain m row (e.identifier ++ .times :: r) ((m.lazy row e).mul w) rest

theorem reads_of_primary {m : Mock} {row : Nat} {e : Expr}
    (h : ∀ rest, ReadsPrimary m row (e.identifier ++ rest) (m.lazy row e) rest) : Reads m row e where
  alone := by
    intro rest hr
    obtain ⟨K, hK⟩ := h rest
    refine ⟨K + 1, fun k hk => ?_⟩
    obtain ⟨k, rfl⟩ : ∃ j, k = j + 1 := ⟨k - 1, by omega⟩
    rw [chain, hK k (by omega)]
    cases rest with
    | nil => rfl
    | cons t rest =>
      cases t <;> first | rfl | exact absurd rfl hr
  times := by
    rintro r w rest ⟨K', hK'⟩
    obtain ⟨K, hK⟩ := h (.times :: r)
    refine ⟨max K K' + 1, fun k hk => ?_⟩
    obtain ⟨k, rfl⟩ : ∃ j, k = j + 1 := ⟨k - 1, by omega⟩
    rw [chain, hK k (by omega), afterPrimary, hK' k (by omega)]
    rfl

theorem reads (m : Mock) (row : Nat) (e : Expr) : Reads m row e := by
  induction e with
  | const v => exact reads_of_primary fun rest => ⟨0, fun k _ => rfl⟩
  | selector s => exact reads_of_primary fun rest => ⟨0, fun k _ => rfl⟩
  | fixed c o => exact reads_of_primary fun rest => ⟨0, fun k _ => rfl⟩
  | advice c o => exact reads_of_primary fun rest => ⟨0, fun k _ => rfl⟩
  | instance_ c o => exact reads_of_primary fun rest => ⟨0, fun k _ => rfl⟩
  | challenge i => exact reads_of_primary fun rest => ⟨0, fun k _ => rfl⟩
  | neg a ih =>
    refine reads_of_primary fun rest => ?_
    obtain ⟨K, hK⟩ := ih.alone (.close :: rest) (not_times (by decide) _)
    refine ⟨K, fun k hk => ?_⟩
    have e : (Expr.neg a).identifier ++ rest = .openNeg :: (a.identifier ++ .close :: rest) := by
      simp [Expr.identifier]
    rw [e, primary, hK k hk]
    rfl
  | sum a b iha ihb =>
    refine reads_of_primary fun rest => ?_
    obtain ⟨K, hK⟩ := iha.alone (.plus :: (b.identifier ++ .close :: rest)) (not_times (by decide) _)
    obtain ⟨K', hK'⟩ := ihb.alone (.close :: rest) (not_times (by decide) _)
    refine ⟨max K K', fun k hk => ?_⟩
    have e : (Expr.sum a b).identifier ++ rest =
        .open_ :: (a.identifier ++ .plus :: (b.identifier ++ .close :: rest)) := by
      simp [Expr.identifier]
    rw [e, primary, hK k (by omega), afterOpen, hK' k (by omega)]
    rfl
  | product a b iha ihb =>
    refine reads_of_primary fun rest => ?_
    obtain ⟨K, hK⟩ := iha.times _ _ _ (ihb.alone (.close :: rest) (not_times (by decide) _))
    refine ⟨K, fun k hk => ?_⟩
    have e : (Expr.product a b).identifier ++ rest =
        .open_ :: (a.identifier ++ .times :: (b.identifier ++ .close :: rest)) := by
      simp [Expr.identifier]
    rw [e, primary, hK k hk, lazy_product]
    rfl
  | scaled a f ih =>
    have hc : ∀ rest, ReadsPrimary m row (.const f :: rest) (.real f) rest := fun rest =>
      ⟨0, fun k _ => rfl⟩
    have hr : Reads m row (.const f) := reads_of_primary hc
    have e : ∀ rest, (Expr.scaled a f).identifier ++ rest =
        a.identifier ++ .times :: (.const f :: rest) := by
      intro rest; simp [Expr.identifier]
    have ev : m.lazy row (.scaled a f) = (m.lazy row a).mul (.real f) := by
      rw [lazy, MValue.scale_eq]
    constructor
    · intro rest h
      rw [e, ev]
      exact ih.times _ _ _ (hr.alone rest h)
    · intro r w rest h
      rw [e, ev, MValue.mul_assoc]
      exact ih.times _ _ _ (hr.times r w rest h)

/-- Expressions with the same identifier have the same values. -/
theorem lazy_of_identifier {m : Mock} {a b : Expr} (h : a.identifier = b.identifier) (row : Nat) :
    m.lazy row a = m.lazy row b := by
  obtain ⟨K, hK⟩ := (reads m row a).alone [] (by rw [List.head?_nil]; intro h; cases h)
  obtain ⟨K', hK'⟩ := (reads m row b).alone [] (by rw [List.head?_nil]; intro h; cases h)
  have h1 := hK (max K K') (le_max_left _ _)
  have h2 := hK' (max K K') (le_max_right _ _)
  rw [h] at h1
  rw [h1] at h2
  injection h2 with h2
  injection h2

theorem lazy_of_identifiers {m : Mock} : ∀ {as bs : List Expr},
    as.map Expr.identifier = bs.map Expr.identifier → ∀ row, as.map (m.lazy row) = bs.map (m.lazy row)
  | [], [], _, _ => rfl
  | [], b :: bs, h, _ => by simp at h
  | a :: as, [], h, _ => by simp at h
  | a :: as, b :: bs, h, row => by
    simp only [List.map_cons, List.cons.injEq] at h ⊢
    exact ⟨lazy_of_identifier h.1 row, lazy_of_identifiers h.2 row⟩

end Mock

end Verif

import Verif.Lemmas.Grain

/-! The whole run of the generator (helper for the property theorems). -/

namespace Verif.Pos

open Spec.Grain

theorem foldl_number (l : List Bool) : ∀ v, l.foldl (fun v b => 2 * v + b.toNat) v = v * 2 ^ l.length + number l := by
  induction l with
  | nil => intro v; simp [number]
  | cons x l ih =>
    intro v
    unfold number
    rw [List.foldl_cons, List.foldl_cons, ih, ih (2 * 0 + x.toNat), List.length_cons, pow_succ]
    ring

theorem number_cons (x : Bool) (l : List Bool) : number (x :: l) = x.toNat * 2 ^ l.length + number l := by
  unfold number
  rw [List.foldl_cons, foldl_number, Nat.mul_zero, Nat.zero_add]
  rfl

theorem number_lt (l : List Bool) : number l < 2 ^ l.length := by
  induction l with
  | nil => simp [number]
  | cons x l ih =>
    rw [number_cons, List.length_cons, pow_succ]
    cases x <;> simp <;> omega

theorem number_inj : ∀ {l l' : List Bool}, l.length = l'.length → number l = number l' → l = l'
  | [], [], _, _ => rfl
  | [], _ :: _, h, _ => by simp at h
  | _ :: _, [], h, _ => by simp at h
  | x :: l, y :: l', h, e => by
    have hl : l.length = l'.length := by simpa using h
    rw [number_cons, number_cons, hl] at e
    have h1 := number_lt l
    have h2 := number_lt l'
    rw [hl] at h1
    generalize 2 ^ l'.length = p at *
    cases x <;> cases y <;> simp at e
    · rw [number_inj hl e]
    · omega
    · omega
    · rw [number_inj hl (by omega)]

theorem bitsOf_succ (n v : Nat) : bitsOf (n + 1) v = decide (v / 2 ^ n % 2 ≠ 0) :: bitsOf n v := by
  unfold bitsOf
  rw [List.range_succ, List.reverse_append]
  rfl

theorem number_bitsOf (n v : Nat) : number (bitsOf n v) = v % 2 ^ n := by
  induction n with
  | zero => simp [bitsOf, number, Nat.mod_one]
  | succ n ih =>
    rw [bitsOf_succ, number_cons, ih, bitsOf_length, Nat.mod_pow_succ]
    rcases Nat.mod_two_eq_zero_or_one (v / 2 ^ n) with h | h <;> rw [h] <;> simp <;> ring

theorem field_iff (b : Nat → Bool) (m n v : Nat) :
    field b m n = v % 2 ^ n ↔ ((List.range n).map fun i => b (m + i)) = bitsOf n v := by
  unfold field
  constructor
  · intro h
    exact number_inj (by rw [bitsOf_length, List.length_map, List.length_range]) (by rw [h, number_bitsOf])
  · intro h
    rw [h, number_bitsOf]

theorem window_split (b : Nat → Bool) : window b 0 =
    ((List.range 2).map fun i => b (0 + i)) ++ ((List.range 4).map fun i => b (2 + i)) ++
    ((List.range 12).map fun i => b (6 + i)) ++ ((List.range 12).map fun i => b (18 + i)) ++
    ((List.range 10).map fun i => b (30 + i)) ++ ((List.range 10).map fun i => b (40 + i)) ++
    ((List.range 30).map fun i => b (50 + i)) := rfl

theorem seeded_iff (b : Nat → Bool) (T rf rp : Nat) :
    Seeded b 254 T rf rp ↔ window b 0 = grainStart T rf rp := by
  have h16 : ∀ v, v % 2 ^ 16 % 2 ^ 10 = v % 1024 := fun v => by omega
  have e1 := field_iff b 0 2 1
  have e2 := field_iff b 2 4 0
  have e3 := field_iff b 6 12 254
  have e4 := field_iff b 18 12 T
  have e5 := field_iff b 30 10 (rf % 2 ^ 16)
  have e6 := field_iff b 40 10 (rp % 2 ^ 16)
  have e7 := field_iff b 50 30 0b111111111111111111111111111111
  rw [h16] at e5 e6
  rw [window_split]
  unfold grainStart
  constructor
  · rintro ⟨h1, h2, h3, h4, h5, h6, h7⟩
    rw [e1.1 h1, e2.1 h2, e3.1 h3, e4.1 h4, e5.1 h5, e6.1 h6, e7.1 h7]
  · intro h
    have l : ∀ m n v, ((List.range n).map fun i => b (m + i)).length = (bitsOf n v).length := by
      intro m n v; rw [bitsOf_length, List.length_map, List.length_range]
    have a7 := List.append_inj' h (l _ _ _)
    have a6 := List.append_inj' a7.1 (l _ _ _)
    have a5 := List.append_inj' a6.1 (l _ _ _)
    have a4 := List.append_inj' a5.1 (l _ _ _)
    have a3 := List.append_inj' a4.1 (l _ _ _)
    have a2 := List.append_inj' a3.1 (l _ _ _)
    exact ⟨e1.2 a2.1, e2.2 a2.2, e3.2 a3.2, e4.2 a4.2, e5.2 a5.2, e6.2 a6.2, e7.2 a7.2⟩

theorem bind_some {α β : Type} {x : Option α} {f : α → Option β} {y : β} (h : x.bind f = some y) :
    ∃ a, x = some a ∧ f a = some y := Option.bind_eq_some_iff.1 h

/-- The position after reading is at least that before. -/
theorem Next.le {b : Nat → Bool} {m m' : Nat} {x : Bool} (h : Next b m x m') : m ≤ m' := by
  induction h with
  | take _ => omega
  | skip _ _ ih => omega

theorem Bits.le {b : Nat → Bool} {m m' : Nat} {l : List Bool} (h : Bits b m l m') : m ≤ m' := by
  induction h with
  | nil => exact le_refl _
  | cons h1 _ ih => exact le_trans (Next.le h1) ih

theorem Below.le {b : Nat → Bool} {n p m v m' : Nat} (h : Below b n p m v m') : m ≤ m' := by
  induction h with
  | accept h1 _ _ => exact Bits.le h1
  | reject h1 _ _ _ ih => exact le_trans (Bits.le h1) ih

theorem Group.le {b : Nat → Bool} {n m v m' : Nat} (h : Group b n m v m') : m ≤ m' := by
  obtain ⟨l, h, -⟩ := h
  exact Bits.le h

/-- More attempts change nothing. -/
theorem fieldElement_mono {fuel : Nat} : ∀ {tries more : Nat} {s : List Bool} {r : Fr × List Bool}, tries ≤ more →
    fieldElement fuel tries s = some r → fieldElement fuel more s = some r
  | 0, _, _, _, _, h => by cases h
  | tries + 1, 0, _, _, hle, _ => by omega
  | tries + 1, more + 1, s, r, hle, h => by
    unfold fieldElement at h ⊢
    obtain ⟨⟨v, s'⟩, h1, h2⟩ := bind_some h
    rw [h1]
    show (if v < P then some ((v : Fr), s') else fieldElement fuel more s') = some r
    dsimp only at h2
    by_cases hv : v < P
    · rw [if_pos hv] at h2 ⊢; exact h2
    · rw [if_neg hv] at h2 ⊢; exact fieldElement_mono (by omega) h2

theorem fieldElementAny_iff {b : Nat → Bool} (hb : Feedback b) {m : Nat} (hm : Live b m) (x : Fr) (s : List Bool) :
    fieldElementAny 80 (window b m) = some (x, s) ↔
      ∃ v m', Group b 254 (m + 80) v (m' + 80) ∧ x = (v : Fr) ∧ s = window b m' := by
  obtain ⟨l, m1, h1, hl, hle, e⟩ := takeBits_ok hb 254 0 m hm
  have e' : fieldElementAny 80 (window b m) = some (((number l : Nat) : Fr), window b m1) := by
    unfold fieldElementAny
    rw [e]; rfl
  rw [e']
  constructor
  · intro h
    have := Option.some.inj h
    exact ⟨number l, m1, ⟨l, h1, hl, rfl⟩, (congrArg Prod.fst this).symm, (congrArg Prod.snd this).symm⟩
  · rintro ⟨v, m', ⟨l', h2, hl', rfl⟩, rfl, rfl⟩
    obtain ⟨rfl, h3⟩ := Bits.det h1 h2 (by rw [hl, hl'])
    have : m1 = m' := by omega
    rw [this]

/-- Reading many numbers, from the model to the specification. -/
theorem times_some {b : Nat → Bool} (hb : Feedback b) {gen : List Bool → Option (Fr × List Bool)}
    {R : Nat → Nat → Nat → Prop}
    (hR : ∀ m x s, Live b m → gen (window b m) = some (x, s) →
      ∃ v m', R (m + 80) v (m' + 80) ∧ m ≤ m' ∧ x = (v : Fr) ∧ s = window b m') :
    ∀ (n m : Nat) (xs : List Fr) (s : List Bool), Live b m → times gen n (window b m) = some (xs, s) →
      ∃ vs m', Many R (m + 80) vs (m' + 80) ∧ vs.length = n ∧ m ≤ m' ∧
        xs = vs.map (fun (v : Nat) => (v : Fr)) ∧ s = window b m' := by
  intro n
  induction n with
  | zero =>
    intro m xs s _ h
    have := Option.some.inj h
    exact ⟨[], m, .nil, rfl, le_refl _, (congrArg Prod.fst this).symm, (congrArg Prod.snd this).symm⟩
  | succ n ih =>
    intro m xs s hm h
    unfold times at h
    obtain ⟨⟨x, s1⟩, h1, h⟩ := bind_some h
    obtain ⟨⟨l, s2⟩, h2, h⟩ := bind_some h
    obtain ⟨v, m1, r1, hle, rfl, rfl⟩ := hR m x s1 hm h1
    obtain ⟨vs, m2, r2, hl, hle2, rfl, rfl⟩ := ih m1 l s2 (hm.mono hb hle) h2
    have := Option.some.inj h
    exact ⟨v :: vs, m2, .cons r1 r2, by rw [List.length_cons, hl], by omega, (congrArg Prod.fst this).symm,
      (congrArg Prod.snd this).symm⟩

/-- Reading many numbers, from the specification to the model. -/
theorem times_many {b : Nat → Bool} (hb : Feedback b) {gen : Nat → List Bool → Option (Fr × List Bool)}
    {R : Nat → Nat → Nat → Prop}
    (hR : ∀ m v M', Live b m → R (m + 80) v M' → ∃ t m', M' = m' + 80 ∧ m ≤ m' ∧
      ∀ t', t ≤ t' → gen t' (window b m) = some ((v : Fr), window b m')) :
    ∀ {M vs M'}, Many R M vs M' → ∀ m, M = m + 80 → Live b m → ∃ t m', M' = m' + 80 ∧ m ≤ m' ∧
      ∀ t', t ≤ t' → times (gen t') vs.length (window b m) =
        some (vs.map (fun (v : Nat) => (v : Fr)), window b m') := by
  intro M vs M' h
  induction h with
  | nil => intro m hM _; exact ⟨0, m, hM, le_refl _, fun _ _ => rfl⟩
  | cons h1 _ ih =>
    intro m hM hm
    subst hM
    obtain ⟨t1, m1, rfl, hle, e1⟩ := hR m _ _ hm h1
    obtain ⟨t2, m2, rfl, hle2, e2⟩ := ih m1 rfl (hm.mono hb hle)
    refine ⟨max t1 t2, m2, rfl, by omega, ?_⟩
    intro t' ht
    rw [List.length_cons]
    unfold times
    rw [e1 t' (le_trans (le_max_left _ _) ht)]
    show (times (gen t') _ (window b m1)).bind _ = _
    rw [e2 t' (le_trans (le_max_right _ _) ht)]
    rfl

end Verif.Pos

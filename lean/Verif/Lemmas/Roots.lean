import Mathlib.FieldTheory.Finite.Basic
import Verif.Lemmas.FieldValue
import Verif.Lemmas.TowerFrob
import Verif.Model.Roots

/-! The square roots are roots. -/

namespace Verif

open Tower

theorem powFold {K : Type} [Monoid K] (a : K) : ∀ (bits : List Bool) (e : Nat),
    bits.foldl (fun acc bit => if bit then acc * acc * a else acc * acc) (a ^ e) =
      a ^ bits.foldl (fun n b => 2 * n + b.toNat) e
  | [], e => rfl
  | b :: bits, e => by
    rw [List.foldl_cons, List.foldl_cons, ← powFold a bits]
    congr 1
    cases b
    · simp [two_mul, pow_add]
    · simp [two_mul, pow_add]

theorem powWords_eq {K : Type} [Monoid K] (square : K → K) (hs : ∀ a, square a = a * a) (a : K) {e : Limbs} (he : e.Ok) :
    powWords square a e = a ^ e.val := by
  have := powFold a (FieldConsts.wordBits e.l3 ++ FieldConsts.wordBits e.l2 ++ FieldConsts.wordBits e.l1 ++
    FieldConsts.wordBits e.l0) 0
  rw [List.foldl_append, List.foldl_append, List.foldl_append, List.foldl_append, List.foldl_append, List.foldl_append,
    wordBits_foldl he.2.2.2, wordBits_foldl he.2.2.1,
    wordBits_foldl he.2.1, wordBits_foldl he.1] at this
  unfold powWords
  simp only [hs]
  rw [List.foldl_append, List.foldl_append, List.foldl_append]
  rw [pow_zero] at this
  rw [this]
  congr 1
  unfold Limbs.val
  ring

/-! ### Tonelli and Shanks -/

section tonelli
variable {F : Type} [Field F] [DecidableEq F]

/-- The inner loop if there is nothing left to do. -/
theorem inner_idle (v : Nat) : ∀ (l : List Nat) (s : TsInner F), s.tmp = 1 → s.z * s.z = 1 →
    (l.foldl (TsInner.round v) s).k = s.k ∧ (l.foldl (TsInner.round v) s).z * (l.foldl (TsInner.round v) s).z = 1
  | [], s, _, hz => ⟨rfl, hz⟩
  | j :: l, s, ht, hz => by
    rw [List.foldl_cons]
    have h := inner_idle v l (TsInner.round v s j) (by simp [TsInner.round, ht]) (by
      simp only [TsInner.round, ht, decide_true, if_true]
      split
      · rw [hz, one_mul]
      · exact hz)
    refine ⟨h.1.trans ?_, h.2⟩
    simp [TsInner.round, ht]

/-- What the inner loop has done before its round `J + 1`, where `K` is the exponent looked for. -/
structure InnerAt (b z₀ : F) (v K J : Nat) (s : TsInner F) : Prop where
  k : s.k = min K J
  tmp : s.tmp = b ^ 2 ^ min K J
  z : s.z = z₀ ^ 2 ^ (min J (v - 1) - K)
  less : s.less = !decide (v ≤ J)

theorem InnerAt.round {b z₀ : F} {v K J : Nat} {s : TsInner F} (hK : b ^ 2 ^ K = 1)
    (hmin : ∀ i, 1 ≤ i → i < K → b ^ 2 ^ i ≠ 1) (hJ : 1 ≤ J) (h : InnerAt b z₀ v K J s) :
    InnerAt b z₀ v K (J + 1) (TsInner.round v s (J + 1)) := by
  have hless : (s.less && !decide (J + 1 = v)) = !decide (v ≤ J + 1) := by
    rw [h.less]
    by_cases h1 : v ≤ J
    · simp [h1, show v ≤ J + 1 by omega]
    · by_cases h2 : J + 1 = v
      · simp [h2]
      · simp [h1, h2, show ¬ v ≤ J + 1 by omega]
  by_cases hc : K ≤ J
  · have e1 : min K J = K := by omega
    have e2 : min K (J + 1) = K := by omega
    have ht : s.tmp = 1 := by rw [h.tmp, e1, hK]
    refine ⟨?_, ?_, ?_, ?_⟩
    · simp only [TsInner.round, ht, decide_true, if_true]
      rw [h.k, e1, e2]
    · simp only [TsInner.round, ht, decide_true, if_true]
      rw [e2, hK]
    · simp only [TsInner.round, ht, decide_true, if_true, hless]
      by_cases h2 : v ≤ J + 1
      · simp only [h2, decide_true, Bool.not_true, Bool.false_eq_true, if_false]
        rw [h.z]
        congr 3
        omega
      · simp only [h2, decide_false, Bool.not_false, if_true]
        rw [h.z, ← pow_add, ← two_mul, ← pow_succ']
        congr 2
        omega
    · simp only [TsInner.round]
      exact hless
  · have e1 : min K J = J := by omega
    have e2 : min K (J + 1) = J + 1 := by omega
    have ht : s.tmp ≠ 1 := by
      rw [h.tmp, e1]
      exact hmin J hJ (by omega)
    have hz : s.z = z₀ ^ 2 ^ (min (J + 1) (v - 1) - K) := by
      rw [h.z]
      congr 2
      omega
    refine ⟨?_, ?_, ?_, ?_⟩
    · simp [TsInner.round, ht, e2]
    · simp only [TsInner.round, ht, decide_false, Bool.false_eq_true, if_false]
      rw [h.tmp, e1, e2, ← pow_add, ← two_mul, ← pow_succ']
    · simp only [TsInner.round, ht, decide_false, Bool.false_eq_true, if_false, ite_self]
      exact hz
    · simp only [TsInner.round]
      exact hless

theorem inner_loop {b z₀ : F} {v K : Nat} (hK : b ^ 2 ^ K = 1) (hmin : ∀ i, 1 ≤ i → i < K → b ^ 2 ^ i ≠ 1) :
    ∀ (n J : Nat) (s : TsInner F), 1 ≤ J → InnerAt b z₀ v K J s →
      InnerAt b z₀ v K (J + n) ((List.range' (J + 1) n).foldl (TsInner.round v) s)
  | 0, J, s, _, h => h
  | n + 1, J, s, hJ, h => by
    rw [List.range'_succ, List.foldl_cons]
    have := inner_loop hK hmin n (J + 1) _ (by omega) (h.round hK hmin hJ)
    rwa [show J + (n + 1) = J + 1 + n by omega]

/-- The outer loop on a square, with `m` rounds to come: there is still something to do, or there is not. -/
def Good (f : F) (m : Nat) (s : TsOuter F) : Prop :=
  (s.x * s.x = f * s.b ∧ 1 ≤ s.v ∧ s.v ≤ m ∧ s.b ^ 2 ^ (s.v - 1) = 1 ∧ s.z ^ 2 ^ (s.v - 1) = -1) ∨
  (s.x * s.x = f ∧ s.b * s.b = 1 ∧ s.z * s.z = 1)

theorem Good.round {f : F} {m : Nat} {s : TsOuter F} (h : Good f (m + 1) s) : Good f m (s.round (m + 1)) := by
  have idle : s.b * s.b = 1 → s.z * s.z = 1 → (if s.b = 1 then s.x * s.x = f else s.x * s.x = f) →
      Good f m (s.round (m + 1)) := by
    intro hb hz hx
    obtain ⟨hk, hz'⟩ := inner_idle s.v (List.range' 2 (m + 1 - 2)) (⟨s.b * s.b, 1, s.z, true⟩ : TsInner F) hb hz
    refine .inr ⟨?_, ?_, ?_⟩
    · unfold TsOuter.round
      dsimp only
      split
      · rename_i h1
        rwa [if_pos h1] at hx
      · rename_i h1
        rw [if_neg h1] at hx
        rw [mul_mul_mul_comm, hz', mul_one, hx]
    · unfold TsOuter.round
      dsimp only
      rw [hz', mul_one, hb]
    · unfold TsOuter.round
      dsimp only
      rw [hz', one_mul]
  rcases h with ⟨hx, hv1, hvm, hb, hz⟩ | ⟨hx, hb, hz⟩
  swap
  · exact idle hb hz (by split <;> exact hx)
  by_cases hv : s.v = 1
  · rw [hv] at hb hz
    rw [Nat.sub_self, pow_zero, pow_one] at hb hz
    refine idle (by rw [hb, one_mul]) (by rw [hz]; ring) ?_
    rw [hb, mul_one] at hx
    split <;> exact hx
  -- the exponent
  have hex : ∃ K, 1 ≤ K ∧ s.b ^ 2 ^ K = 1 := ⟨s.v - 1, by omega, hb⟩
  classical
  obtain ⟨hK1, hK⟩ := Nat.find_spec hex
  have hmin : ∀ i, 1 ≤ i → i < Nat.find hex → s.b ^ 2 ^ i ≠ 1 := fun i h1 hi h2 => Nat.find_min hex hi ⟨h1, h2⟩
  have hKv : Nat.find hex ≤ s.v - 1 := Nat.find_min' hex ⟨by omega, hb⟩
  generalize Nat.find hex = K at hK1 hK hmin hKv
  have h0 : InnerAt s.b s.z s.v K 1 ⟨s.b * s.b, 1, s.z, true⟩ := by
    refine ⟨by simp; omega, ?_, ?_, ?_⟩
    · rw [show min K 1 = 1 by omega, pow_one, sq]
    · rw [show min 1 (s.v - 1) - K = 0 by omega, pow_zero, pow_one]
    · simp
      omega
  have hfin := inner_loop hK hmin (m + 1 - 2) 1 _ (le_refl 1) h0
  have hJ : 1 + (m + 1 - 2) = m := by omega
  rw [hJ] at hfin
  obtain ⟨hk, -, hz', -⟩ := hfin
  generalize hs : (List.range' (1 + 1) (m + 1 - 2)).foldl (TsInner.round s.v) ⟨s.b * s.b, 1, s.z, true⟩ = r at hk hz'
  have hround : s.round (m + 1) = ⟨r.k, if s.b = 1 then s.x else s.x * r.z, s.b * (r.z * r.z), r.z * r.z⟩ := by
    unfold TsOuter.round
    dsimp only
    rw [show (2 : Nat) = 1 + 1 from rfl, hs]
  rw [hround]
  have hmk : min K m = K := by omega
  rw [show min m (s.v - 1) = s.v - 1 by omega] at hz'
  rw [hmk] at hk
  have hzk : (r.z * r.z) ^ 2 ^ (K - 1) = -1 := by
    rw [← sq, ← pow_mul, ← pow_succ', show K - 1 + 1 = K by omega, hz', ← pow_mul, ← pow_add,
      show s.v - 1 - K + K = s.v - 1 by omega, hz]
  by_cases hb1 : s.b = 1
  · -- the root was found before
    have hK' : K = 1 := by
      by_contra h
      exact hmin 1 (le_refl 1) (by omega) (by rw [hb1, one_pow])
    rw [hK'] at hzk
    rw [Nat.sub_self, pow_zero, pow_one] at hzk
    refine .inr ⟨?_, ?_, ?_⟩
    · dsimp only
      rw [if_pos hb1, hx, hb1, mul_one]
    · dsimp only
      rw [hb1, hzk]
      ring
    · dsimp only
      rw [hzk]
      ring
  · have hbk : s.b ^ 2 ^ (K - 1) = -1 := by
      have h2 : (s.b ^ 2 ^ (K - 1)) ^ 2 = 1 := by
        rw [← pow_mul, ← pow_succ, show K - 1 + 1 = K by omega, hK]
      rcases mul_self_eq_one_iff.1 ((sq _).symm.trans h2) with h | h
      · exfalso
        rcases Nat.eq_or_lt_of_le hK1 with h1 | h1
        · rw [← h1] at h
          rw [Nat.sub_self, pow_zero, pow_one] at h
          exact hb1 h
        · exact hmin (K - 1) (by omega) (by omega) h
      · exact h
    refine .inl ⟨?_, ?_, ?_, ?_, ?_⟩
    · dsimp only
      rw [if_neg hb1, mul_mul_mul_comm, hx]
      ring
    · dsimp only
      omega
    · dsimp only
      omega
    · dsimp only
      rw [hk, mul_pow, hbk, hzk]
      ring
    · dsimp only
      rw [hk, hzk]

theorem Good.loop {f : F} : ∀ (m : Nat) {s : TsOuter F}, Good f m s →
    Good f 0 ((List.range' 1 m).reverse.foldl TsOuter.round s)
  | 0, _, h => h
  | m + 1, s, h => by
    rw [List.range'_concat, List.reverse_append]
    show Good f 0 ((List.range' 1 m).reverse.foldl TsOuter.round (s.round (1 + 1 * m)))
    rw [show 1 + 1 * m = m + 1 by omega]
    exact Good.loop m h.round

theorem zero_loop : ∀ (l : List Nat) (s : TsOuter F), s.x = 0 → (l.foldl TsOuter.round s).x = 0
  | [], _, h => h
  | m :: l, s, h => zero_loop l _ (by
      unfold TsOuter.round
      dsimp only
      rw [h, zero_mul, ite_self])

/-- The root is found if there is one. -/
theorem sqrtTonelli_square [Fintype F] {S m : Nat} {e : Limbs} {root : F} (hS : 1 ≤ S)
    (hcard : Fintype.card F = 2 ^ S * (2 * m + 1) + 1) (he : e.Ok) (hm : e.val = m) (hroot : root ^ 2 ^ (S - 1) = -1) (g : F) :
    ∃ x, sqrtTonelli S root e (g * g) = some x ∧ x * x = g * g := by
  unfold sqrtTonelli
  dsimp only
  rw [powWords_eq _ (fun _ => rfl) _ he, hm]
  have key : ∀ x : F, x * x = g * g →
      ∃ y, (if x * x = g * g then some x else none) = some y ∧ y * y = g * g := by
    intro x h
    rw [if_pos h]
    exact ⟨x, rfl, h⟩
  apply key
  by_cases h0 : g = 0
  · rw [zero_loop _ _ (by simp [h0]), h0]
  · have hg : g ^ (2 ^ S * (2 * m + 1)) = 1 := by
      have := FiniteField.pow_card_sub_one_eq_one g h0
      rwa [hcard, Nat.add_sub_cancel] at this
    have hgood : Good (g * g) S ⟨S, (g * g) ^ m * (g * g), (g * g) ^ m * (g * g) * (g * g) ^ m, root⟩ := by
      refine .inl ⟨?_, hS, le_refl S, ?_, hroot⟩
      · dsimp only
        ring
      · dsimp only
        rw [← hg]
        have : (g * g) ^ m * (g * g) * (g * g) ^ m = g ^ (2 * (2 * m + 1)) := by ring
        rw [this, ← pow_mul]
        congr 1
        obtain ⟨k, rfl⟩ : ∃ k, S = k + 1 := ⟨S - 1, by omega⟩
        rw [Nat.add_sub_cancel, pow_succ]
        ring
    rcases hgood.loop with ⟨-, h1, h2, -⟩ | ⟨h, -⟩
    · omega
    · exact h

end tonelli

/-! ### The quadratic extension -/

theorem neg1_eq : (⟨Spec.decoded ⟨0x68c3488912edefaa, 0x8d087f6872aabf4f, 0x51e1a24709081231, 0x2259d6b14729c0fa⟩, 0⟩ : Fq2 Spec.Fq) = -1 := by
  decide +kernel

open Spec in
/-- The powers, for a number other than 0. -/
theorem sqrt2_eq {a : Fq2 Fq} (ha : a ≠ 0) : Fq2.sqrt decoded a =
    if a ^ ((Q ^ 2 - 1) / 2) = -1 then none
    else if a ^ ((Q - 1) / 2) = -1 then some (a ^ ((Q + 1) / 4) * ⟨0, 1⟩)
    else some (a ^ ((Q + 1) / 4) * (a ^ ((Q - 1) / 2) + 1) ^ ((Q - 1) / 2)) := by
  have hp : ∀ (c : Fq2 Fq) {e : Limbs}, e.Ok → powWords Fq2.square c e = c ^ e.val :=
    fun c _ he => powWords_eq (K := Fq2 Fq) Fq2.square (fun c => Fq2.square_eq c) c he
  have h0 : a.isZero = false := by
    rw [← Bool.not_eq_true, Fq2.isZero_iff]
    exact ha
  have e1 : Limbs.val ⟨0x4f082305b61f3f51, 0x65e05aa45a1c72a3, 0x6e14116da0605617, 0x0c19139cb84c680a⟩ = (Q - 3) / 4 := by
    decide +kernel
  have e2 : Limbs.val ⟨0x9e10460b6c3e7ea3, 0xcbc0b548b438e546, 0xdc2822db40c0ac2e, 0x183227397098d014⟩ = (Q - 1) / 2 := by
    decide +kernel
  unfold Fq2.sqrt
  rw [h0]
  dsimp only
  rw [neg1_eq]
  have o1 : Limbs.Ok ⟨0x4f082305b61f3f51, 0x65e05aa45a1c72a3, 0x6e14116da0605617, 0x0c19139cb84c680a⟩ :=
    (limbs_ok_iff _).2 (by decide +kernel)
  have o2 : Limbs.Ok ⟨0x9e10460b6c3e7ea3, 0xcbc0b548b438e546, 0xdc2822db40c0ac2e, 0x183227397098d014⟩ :=
    (limbs_ok_iff _).2 (by decide +kernel)
  simp only [hp _ o1, hp _ o2, e1, e2,
    Fq2.mulAssign_eq, Fq2.square_eq, frob2_pow, pow_one]
  have a1 : a ^ ((Q - 3) / 4) * a ^ ((Q - 3) / 4) * a = a ^ ((Q - 1) / 2) := by
    rw [← pow_add, ← pow_succ]
    rw [show (Q - 3) / 4 + (Q - 3) / 4 + 1 = (Q - 1) / 2 by decide +kernel]
  have a2 : a ^ ((Q - 3) / 4) * a = a ^ ((Q + 1) / 4) := by
    rw [← pow_succ]
    rw [show (Q - 3) / 4 + 1 = (Q + 1) / 4 by decide +kernel]
  have a3 : (a ^ ((Q - 1) / 2)) ^ Q * a ^ ((Q - 1) / 2) = a ^ ((Q ^ 2 - 1) / 2) := by
    rw [← pow_mul, ← pow_add]
    rw [show (Q - 1) / 2 * Q + (Q - 1) / 2 = (Q ^ 2 - 1) / 2 by decide +kernel]
  rw [a1, a2, a3]
  simp

open Spec in
/-- The root is found if there is one, and nothing else is. -/
theorem sqrt2_spec (a : Fq2 Fq) :
    (IsSquare a → ∃ y, Fq2.sqrt decoded a = some y ∧ y * y = a) ∧ (¬ IsSquare a → Fq2.sqrt decoded a = none) := by
  have hQ : (Q - 1) / 2 + (Q - 1) / 2 = Q - 1 := by decide +kernel
  have hQ1 : Q - 1 + 1 = Q := by decide +kernel
  have hQ4 : (Q + 1) / 4 + (Q + 1) / 4 = (Q - 1) / 2 + 1 := by decide +kernel
  have hQ2 : (Q - 1) / 2 * Q + (Q - 1) / 2 = (Q ^ 2 - 1) / 2 := by decide +kernel
  have hdiv : Q ^ 2 / 2 = (Q ^ 2 - 1) / 2 := by decide +kernel
  have hchar : ringChar (Fq2 Fq) ≠ 2 := by
    rw [ringChar.eq (Fq2 Fq) Q]
    decide +kernel
  by_cases ha : a = 0
  · subst ha
    have : Fq2.sqrt decoded (0 : Fq2 Fq) = some 0 := by
      unfold Fq2.sqrt
      rw [if_pos ((Fq2.isZero_iff _).2 rfl)]
    exact ⟨fun _ => ⟨0, this, mul_zero 0⟩, fun h => absurd (IsSquare.zero) h⟩
  have hdich := FiniteField.pow_dichotomy hchar ha
  have hiff := FiniteField.isSquare_iff hchar ha
  rw [Fq2.card, hdiv] at hdich hiff
  have hne : (1 : Fq2 Fq) ≠ -1 := by decide +kernel
  rw [sqrt2_eq ha]
  constructor
  · intro hs
    have h1 := hiff.1 hs
    rw [if_neg (by rw [h1]; exact hne)]
    generalize hα : a ^ ((Q - 1) / 2) = α
    have hx : a ^ ((Q + 1) / 4) * a ^ ((Q + 1) / 4) = α * a := by
      rw [← pow_add, hQ4, pow_succ, hα]
    have hαQ : α ^ Q * α = 1 := by
      rw [← hα, ← pow_mul, ← pow_add, hQ2, h1]
    split
    · rename_i h
      refine ⟨_, rfl, ?_⟩
      have hu : (⟨0, 1⟩ : Fq2 Fq) * ⟨0, 1⟩ = -1 := by decide +kernel
      rw [mul_mul_mul_comm, hx, hu, h]
      ring
    · rename_i h
      refine ⟨_, rfl, ?_⟩
      have h1α : α + 1 ≠ 0 := fun h' => h (eq_neg_of_add_eq_zero_left h')
      have hf : (α + 1) ^ Q = α ^ Q + 1 := by
        haveI : Fact Q.Prime := ⟨Q_prime⟩
        rw [add_pow_char, one_pow]
      have hcancel : (α + 1) ^ (Q - 1) * α = 1 := by
        refine mul_right_cancel₀ h1α ?_
        calc (α + 1) ^ (Q - 1) * α * (α + 1) = (α + 1) ^ (Q - 1 + 1) * α := by rw [pow_succ]; ring
          _ = 1 * (α + 1) := by rw [hQ1, hf, add_mul, hαQ]; ring
      rw [mul_mul_mul_comm, hx, ← pow_add, hQ]
      calc α * a * (α + 1) ^ (Q - 1) = a * ((α + 1) ^ (Q - 1) * α) := by ring
        _ = a := by rw [hcancel, mul_one]
  · intro hs
    rw [if_pos (hdich.resolve_left fun h => hs (hiff.2 h))]

open Spec in
/-- The symbol of the norm. -/
theorem legendre2_spec (a : Fq2 Fq) :
    (a.legendre = 0 ↔ a = 0) ∧ (a.legendre = 1 ↔ a ≠ 0 ∧ IsSquare a) ∧ (a.legendre = -1 ↔ ¬ IsSquare a) := by
  have o2 : Limbs.Ok ⟨0x9e10460b6c3e7ea3, 0xcbc0b548b438e546, 0xdc2822db40c0ac2e, 0x183227397098d014⟩ :=
    (limbs_ok_iff _).2 (by decide +kernel)
  have e2 : Limbs.val ⟨0x9e10460b6c3e7ea3, 0xcbc0b548b438e546, 0xdc2822db40c0ac2e, 0x183227397098d014⟩ = (Q - 1) / 2 := by
    decide +kernel
  have hdiv : Q ^ 2 / 2 = (Q ^ 2 - 1) / 2 := by decide +kernel
  have hchar : ringChar (Fq2 Fq) ≠ 2 := by
    rw [ringChar.eq (Fq2 Fq) Q]
    decide +kernel
  have hof : Fq2.of (a.norm ^ ((Q - 1) / 2)) = a ^ ((Q ^ 2 - 1) / 2) := by
    rw [map_pow, ← Fq2.mul_conjugate, ← pow_q2, ← pow_succ', ← pow_mul,
      show (Q + 1) * ((Q - 1) / 2) = (Q ^ 2 - 1) / 2 by decide +kernel]
  have hinj : Function.Injective (Fq2.of : Fq →+* Fq2 Fq) := RingHom.injective _
  unfold Fq2.legendre
  dsimp only
  rw [powWords_eq _ (fun _ => rfl) _ o2, e2]
  by_cases ha : a = 0
  · have : (0 : Fq2 Fq).norm ^ ((Q - 1) / 2) = 0 := by
      have : (0 : Fq2 Fq).norm = 0 := by decide +kernel
      rw [this, zero_pow (by decide +kernel)]
    subst ha
    rw [if_pos this]
    simp
  · have h0 : a.norm ^ ((Q - 1) / 2) ≠ 0 := by
      intro h
      rw [h, map_zero] at hof
      exact ha (pow_eq_zero_iff (by decide +kernel) |>.1 hof.symm)
    have hiff := FiniteField.isSquare_iff hchar ha
    rw [Fq2.card, hdiv, ← hof, ← map_one (Fq2.of : Fq →+* Fq2 Fq), hinj.eq_iff] at hiff
    rw [if_neg h0]
    by_cases h : IsSquare a
    · rw [if_pos (hiff.1 h)]
      simp [ha, h]
    · rw [if_neg fun h' => h (hiff.2 h')]
      simp [ha, h]

end Verif

import Verif.Lemmas.GrainAll
import Verif.Props.Poseidon

/-! The generator of the parameters of Poseidon. -/

namespace Verif.Props

open Pos Spec.Grain Spec.Poseidon

/-- **C85.** From any register that is not empty, any number of bits is got without a panic, each within 80 rounds of the
loop, and they are those of the generator in the paper, read in pairs from the bit after the register on. -/
theorem C85_bits (s : List Bool) (hs : s.length = 80) (h1 : true ∈ s) (n : Nat) :
    ∃ b l m, Feedback b ∧ window b 0 = s ∧ Bits b 80 l (m + 80) ∧ l.length = n ∧
      takeBits 80 n 0 s = some (number l, window b m) := by
  obtain ⟨i, hi, h⟩ := List.mem_iff_getElem.1 h1
  have hlive : Live (stream s) 0 := by
    refine ⟨i, by omega, ?_⟩
    have h1 := window_get (stream s) 0 i (by omega)
    rw [stream_window hs, List.getElem?_eq_getElem hi, h] at h1
    exact (Option.some.inj h1).symm
  obtain ⟨l, m, hb, hl, -, e⟩ := takeBits_ok (stream_feedback s) n 0 0 hlive
  rw [stream_window hs, Nat.zero_add] at *
  exact ⟨stream s, l, m, stream_feedback s, stream_window hs, hb, hl, e⟩

/-- **C85.** Whatever the width and the numbers of rounds, the register is ready after 160 rounds, and not empty. -/
theorem C85_ready (T rf rp : Nat) : ∃ b, Feedback b ∧ window b 0 = grainStart T rf rp ∧
    warmUp 160 (grainStart T rf rp) = some (window b 160) ∧ true ∈ window b 160 := by
  refine ⟨stream (grainStart T rf rp), stream_feedback _, stream_window (grainStart_length T rf rp), ?_, ?_⟩
  · have := warmUp_window (stream_feedback (grainStart T rf rp)) 160 0
    rw [stream_window (grainStart_length T rf rp), Nat.zero_add] at this
    exact this
  · obtain ⟨i, hi, h⟩ := (live_start T rf rp).add (stream_feedback _) 160
    rw [Nat.zero_add] at h
    have := window_get (stream (grainStart T rf rp)) 160 i hi
    rw [h] at this
    exact List.mem_of_getElem? this

/-- **C85.** A constant is the first group of 254 bits that is below the modulus, if there is one; there is no other way for
the loop to end. That there is one is not proved. -/
theorem C85_constant_partial (b : Nat → Bool) (hb : Feedback b) (m : Nat) (h : true ∈ window b m) (x : Fr) (m' : Nat) :
    (∃ tries, fieldElement 80 tries (window b m) = some (x, window b m')) ↔
      ∃ v m'', Below b 254 P (m + 80) v (m'' + 80) ∧ x = (v : Fr) ∧ window b m' = window b m'' := by
  have hlive : Live b m := by
    obtain ⟨i, hi, h⟩ := List.mem_iff_getElem.1 h
    have hi' : i < 80 := by rw [window_length] at hi; exact hi
    refine ⟨i, hi', ?_⟩
    have h1 := window_get b m i hi'
    rw [List.getElem?_eq_getElem hi, h] at h1
    exact (Option.some.inj h1).symm
  constructor
  · rintro ⟨tries, e⟩
    obtain ⟨v, m'', h1, -, h2, -, h3⟩ := fieldElement_some hb tries m x _ hlive e
    exact ⟨v, m'', h1, h2, h3⟩
  · rintro ⟨v, m'', h1, rfl, h3⟩
    obtain ⟨tries, k, hk, -, e⟩ := fieldElement_below hb h1 m rfl hlive
    have : k = m'' := by omega
    subst this
    exact ⟨tries, by rw [h3]; exact e⟩

/-- **C85.** If the generator and the making of the parameters return, then the matrix is MDS: elements that are not
distinct, which the generator does not look for, cannot go unnoticed. -/
theorem C85_matrix (fuel tries t rf rp : Nat) (cs : List (Fin (t + 1) → Fr)) (M : Matrix (Fin (t + 1)) (Fin (t + 1)) Fr)
    (p : Params Fr t) (hg : generate fuel tries (t + 1) rf rp = some (cs, M)) (hp : Params.new rf rp cs M = some p) :
    MDS M ∧ cs.length = rf + rp := by
  obtain ⟨-, -, hl, hM, -⟩ := (C81_parameters rf rp cs M).1 ⟨p, hp⟩
  refine ⟨?_, hl⟩
  unfold generate at hg
  by_cases h2 : rf % 2 = 0
  swap
  · rw [if_neg h2] at hg; cases hg
  rw [if_pos h2] at hg
  obtain ⟨s, -, hg⟩ := Option.bind_eq_some_iff.1 hg
  obtain ⟨⟨c, s1⟩, -, hg⟩ := Option.bind_eq_some_iff.1 hg
  obtain ⟨⟨xs, s2⟩, -, hg⟩ := Option.bind_eq_some_iff.1 hg
  obtain ⟨⟨ys, s3⟩, -, hg⟩ := Option.bind_eq_some_iff.1 hg
  obtain ⟨m, hm, hg⟩ := Option.bind_eq_some_iff.1 hg
  have hg' := Option.some.inj hg
  have hmM : m = M := congrArg Prod.snd hg'
  subst hmM
  unfold cauchy at hm
  by_cases hne : ∀ i j, toVec (t + 1) xs i + toVec (t + 1) ys j ≠ 0
  swap
  · rw [if_neg hne] at hm; cases hm
  rw [if_pos hne] at hm
  have hm' := Option.some.inj hm
  subst hm'
  have hdet := hM (t + 1) (le_refl _)
  unfold leadingMinor at hdet
  generalize toVec (t + 1) xs = X at *
  generalize toVec (t + 1) ys = Y at *
  have hx : Function.Injective X := by
    intro i j hij
    by_contra hne
    exact hdet (Matrix.det_zero_of_row_eq hne (by
      funext k
      show (X i + Y k)⁻¹ = (X j + Y k)⁻¹
      rw [hij]))
  have hy : Function.Injective Y := by
    intro i j hij
    by_contra hne
    exact hdet (Matrix.det_zero_of_column_eq hne (by
      intro k
      show (X k + Y i)⁻¹ = (X k + Y j)⁻¹
      rw [hij]))
  intro k f g hf hg
  exact cauchy_det (fun i => X (f i)) (fun i => Y (g i)) (hx.comp hf) (hy.comp hg) fun _ _ => hne _ _

/-- **C85.** What the generator returns, if it returns: from the sequence seeded with the field, the width and the numbers of
rounds, 160 bits after the seed are left out; then come the constants of all rounds, one after the other, each the next
group of 254 bits below the modulus; then two times as many groups as the width, and the matrix has the inverses of their
sums. It returns exactly if there are such numbers. -/
theorem C85_generate (T rf rp : Nat) (cs : List (Fin T → Fr)) (M : Matrix (Fin T) (Fin T) Fr) :
    (∃ tries, generate 80 tries T rf rp = some (cs, M)) ↔
      rf % 2 = 0 ∧ ∃ b ks xs ys m₁ m₂ m₃, Feedback b ∧ Seeded b 254 T rf rp ∧
        Many (Below b 254 P) (80 + 160) ks m₁ ∧ Many (Group b 254) m₁ xs m₂ ∧ Many (Group b 254) m₂ ys m₃ ∧
        ks.length = (rf + rp) * T ∧ xs.length = T ∧ ys.length = T ∧ cs.length = rf + rp ∧
        (∀ (r : Nat) (c : Fin T → Fr), cs[r]? = some c → ∀ i : Fin T, ∃ k, ks[r * T + i]? = some k ∧ c i = (k : Fr)) ∧
        ∀ i j : Fin T, ∃ x y : Nat, xs[i.val]? = some x ∧ ys[j.val]? = some y ∧ M i j * ((x : Fr) + (y : Fr)) = 1 := by
  have hvec : ∀ (l : List Nat) (i : Fin T) (x : Nat), l[i.val]? = some x →
      toVec T (l.map (fun (v : Nat) => (v : Fr))) i = (x : Fr) := by
    intro l i x h
    unfold toVec
    rw [List.getD_eq_getElem?_getD, List.getElem?_map, h]
    rfl
  have hrow : ∀ (l : List Nat) (r : Nat) (i : Fin T) (x : Nat), l[r * T + i.val]? = some x →
      toVec T (((l.map (fun (v : Nat) => (v : Fr))).drop (r * T)).take T) i = (x : Fr) := by
    intro l r i x h
    unfold toVec
    rw [List.getD_eq_getElem?_getD, List.getElem?_take_of_lt i.isLt, List.getElem?_drop, List.getElem?_map, h]
    rfl
  have hidx : ∀ r, r < rf + rp → ∀ i : Fin T, r * T + i.val < (rf + rp) * T := by
    intro r hr i
    have h1 : (r + 1) * T ≤ (rf + rp) * T := Nat.mul_le_mul_right _ hr
    have := i.isLt
    rw [Nat.add_mul r, Nat.one_mul] at h1
    omega
  constructor
  · rintro ⟨tries, hg⟩
    unfold generate at hg
    by_cases h2 : rf % 2 = 0
    swap
    · rw [if_neg h2] at hg; cases hg
    rw [if_pos h2] at hg
    have hb := stream_feedback (grainStart T rf rp)
    have hw := stream_window (grainStart_length T rf rp)
    have hlive := live_start T rf rp
    generalize stream (grainStart T rf rp) = b at hb hw hlive
    rw [← hw, warmUp_window hb] at hg
    have hl := hlive.add hb 160
    rw [Nat.zero_add] at hg hl
    dsimp only [Option.bind_eq_bind, Option.bind_some] at hg
    obtain ⟨⟨c, s1⟩, g1, hg⟩ := bind_some hg
    dsimp only at hg
    obtain ⟨⟨X, s2⟩, g2, hg⟩ := bind_some hg
    dsimp only at hg
    obtain ⟨⟨Y, s3⟩, g3, hg⟩ := bind_some hg
    dsimp only at hg
    obtain ⟨m, hm, hend⟩ := bind_some hg
    have any : ∀ m x s, Live b m → fieldElementAny 80 (window b m) = some (x, s) →
        ∃ v m', Group b 254 (m + 80) v (m' + 80) ∧ m ≤ m' ∧ x = (v : Fr) ∧ s = window b m' := by
      intro m x s hm h
      obtain ⟨v, m', h1, h2, h3⟩ := (fieldElementAny_iff hb hm x s).1 h
      exact ⟨v, m', h1, by have := Group.le h1; omega, h2, h3⟩
    obtain ⟨ks, m1, r1, l1, le1, rfl, rfl⟩ := times_some hb (R := Below b 254 P) (fun m x s hm h => by
      obtain ⟨v, m', h1, -, h2, h3, h4⟩ := fieldElement_some hb tries m x s hm h
      exact ⟨v, m', h1, h3, h2, h4⟩) _ 160 _ _ hl g1
    obtain ⟨xs, m2, r2, l2, le2, rfl, rfl⟩ := times_some hb any _ m1 _ _ (hl.mono hb le1) g2
    obtain ⟨ys, m3, r3, l3, le3, rfl, rfl⟩ := times_some hb any _ m2 _ _ (hl.mono hb (by omega)) g3
    have hg' := Option.some.inj hend
    obtain rfl : m = M := congrArg Prod.snd hg'
    obtain rfl := congrArg Prod.fst hg'
    refine ⟨h2, b, ks, xs, ys, _, _, _, hb, (seeded_iff b T rf rp).2 hw, r1, r2, r3, by rw [l1, Nat.add_comm], l2, l3,
      by rw [List.length_map, List.length_range, Nat.add_comm], ?_, ?_⟩
    · intro r c hc i
      obtain ⟨r', hr', rfl⟩ := List.getElem?_map .. ▸ hc |> Option.map_eq_some_iff.1
      obtain ⟨hlt, rfl⟩ := List.getElem?_eq_some_iff.1 hr'
      rw [List.length_range] at hlt
      rw [List.getElem_range]
      have hi := hidx r (by omega) i
      rw [Nat.add_comm rf, ← l1] at hi
      exact ⟨ks[r * T + i.val], List.getElem?_eq_getElem hi, hrow _ _ _ _ (List.getElem?_eq_getElem hi)⟩
    · intro i j
      have hi : i.val < xs.length := by rw [l2]; exact i.isLt
      have hj : j.val < ys.length := by rw [l3]; exact j.isLt
      refine ⟨xs[i.val], ys[j.val], List.getElem?_eq_getElem hi, List.getElem?_eq_getElem hj, ?_⟩
      unfold cauchy at hm
      split_ifs at hm with hne
      obtain rfl := Option.some.inj hm
      have := hne i j
      dsimp only
      rw [hvec _ _ _ (List.getElem?_eq_getElem hi), hvec _ _ _ (List.getElem?_eq_getElem hj)] at this ⊢
      exact inv_mul_cancel₀ this
  · rintro ⟨h2, b, ks, xs, ys, m₁, m₂, m₃, hb, hs, r1, r2, r3, l1, l2, l3, lc, hc, hM⟩
    have hw := (seeded_iff b T rf rp).1 hs
    have hlive : Live b 0 := by
      refine ⟨79, by omega, ?_⟩
      have h1 := window_get b 0 79 (by omega)
      rw [hw, grainStart_last] at h1
      exact (Option.some.inj h1).symm
    have hl := hlive.add hb 160
    rw [Nat.zero_add] at hl
    have any : ∀ m v M', Live b m → Group b 254 (m + 80) v M' → ∃ t m', M' = m' + 80 ∧ m ≤ m' ∧
        ∀ t', t ≤ t' → (fun _ : Nat => fieldElementAny 80) t' (window b m) = some ((v : Fr), window b m') := by
      intro m v M' hm h
      have hle := Group.le h
      obtain ⟨m', rfl⟩ : ∃ m', M' = m' + 80 := ⟨M' - 80, by omega⟩
      exact ⟨0, m', rfl, by omega, fun _ _ => (fieldElementAny_iff hb hm _ _).2 ⟨v, m', h, rfl, rfl⟩⟩
    obtain ⟨t1, m1, rfl, le1, e1⟩ := times_many hb (gen := fieldElement 80) (fun m v M' hm h => by
      obtain ⟨t, m', h1, h2, h3⟩ := fieldElement_below hb h m rfl hm
      exact ⟨t, m', h1, h2, fun t' ht => fieldElement_mono ht h3⟩) r1 160 rfl hl
    obtain ⟨t2, m2, rfl, le2, e2⟩ := times_many hb any r2 m1 rfl (hl.mono hb le1)
    obtain ⟨t3, m3, rfl, le3, e3⟩ := times_many hb any r3 m2 rfl (hl.mono hb (by omega))
    refine ⟨t1, ?_⟩
    have e1 := e1 t1 (le_refl _)
    have e2 := e2 t2 (le_refl _)
    have e3 := e3 t3 (le_refl _)
    have hx : ∀ i j : Fin T, M i j * (toVec T (xs.map (fun (v : Nat) => (v : Fr))) i +
        toVec T (ys.map (fun (v : Nat) => (v : Fr))) j) = 1 := by
      intro i j
      obtain ⟨x, y, h1, h2, h3⟩ := hM i j
      rw [hvec _ _ _ h1, hvec _ _ _ h2]
      exact h3
    have hcm : cauchy (toVec T (xs.map (fun (v : Nat) => (v : Fr)))) (toVec T (ys.map (fun (v : Nat) => (v : Fr)))) =
        some M := by
      unfold cauchy
      rw [if_pos fun i j h => by have := hx i j; rw [h, mul_zero] at this; exact zero_ne_one this]
      congr 1
      funext i j
      exact (eq_inv_of_mul_eq_one_left (hx i j)).symm
    unfold generate
    rw [if_pos h2, ← hw, warmUp_window hb, Nat.zero_add]
    rw [l1, Nat.add_comm rf] at e1
    rw [l2] at e2
    rw [l3] at e3
    simp only [Option.bind_eq_bind, Option.bind_some, e1, e2, e3, hcm]
    refine congrArg (fun l => some (l, M)) ?_
    apply List.ext_getElem?
    intro r
    rw [List.getElem?_map]
    by_cases hr : r < rp + rf
    · rw [List.getElem?_range hr]
      have hr' : r < cs.length := by omega
      rw [List.getElem?_eq_getElem hr']
      refine congrArg some ?_
      funext i
      obtain ⟨k, hk, e⟩ := hc r _ (List.getElem?_eq_getElem hr') i
      exact (hrow _ _ _ _ hk).trans e.symm
    · rw [List.getElem?_eq_none (by rw [List.length_range]; omega), List.getElem?_eq_none (by omega)]
      rfl

/-- **C86.** Numbers of rounds below 1024 and widths below 4096 are told apart by where the generator starts. -/
theorem C86_start_partial (T rf rp T' rf' rp' : Nat) :
    grainStart T rf rp = grainStart T' rf' rp' ↔
      T % 4096 = T' % 4096 ∧ rf % 1024 = rf' % 1024 ∧ rp % 1024 = rp' % 1024 := by
  have h16 : ∀ v, v % 2 ^ 16 % 2 ^ 10 = v % 1024 := fun v => by omega
  constructor
  · intro h
    unfold grainStart at h
    have h1 := List.append_inj h (by simp only [List.length_append, bitsOf_length])
    have h2 := List.append_inj h1.1 (by simp only [List.length_append, bitsOf_length])
    have h3 := List.append_inj h2.1 (by simp only [List.length_append, bitsOf_length])
    have h4 := List.append_inj h3.1 (by simp only [List.length_append, bitsOf_length])
    have e1 := bitsOf_inj h2.2
    have e2 := bitsOf_inj h3.2
    have e3 := bitsOf_inj h4.2
    rw [h16, h16] at e1 e2
    exact ⟨e3, e2, e1⟩
  · rintro ⟨h1, h2, h3⟩
    unfold grainStart
    rw [← bitsOf_mod 12 T, ← bitsOf_mod 10 (rf % 2 ^ 16), ← bitsOf_mod 10 (rp % 2 ^ 16), ← bitsOf_mod 12 T',
      ← bitsOf_mod 10 (rf' % 2 ^ 16), ← bitsOf_mod 10 (rp' % 2 ^ 16), h16, h16, h16, h16, h2, h3]
    have h12 : ∀ v, v % 2 ^ 12 = v % 4096 := fun v => by omega
    rw [h12, h12, h1]

/-- **C86.** Not all numbers of rounds are told apart: the constants for 1024 more partial rounds begin like those
without. -/
theorem C86_not_all (T rf rp : Nat) : grainStart T rf rp = grainStart T rf (rp + 1024) :=
  (C86_start_partial T rf rp T rf (rp + 1024)).2 ⟨rfl, rfl, by omega⟩

/-! Instances. -/

example : (grainStart 9 8 63).length = 80 ∧ true ∈ grainStart 9 8 63 := by decide

example : ∃ v s, takeBits 80 8 0 (grainStart 9 8 63) = some (v, s) := by
  obtain ⟨b, l, m, -, -, -, -, e⟩ := C85_bits (grainStart 9 8 63) (by decide) (by decide) 8
  exact ⟨_, _, e⟩

example : grainStart 3 8 57 ≠ grainStart 3 8 56 := by decide

end Verif.Props

import Verif.Lemmas.EccFixedHonest
import Mathlib.Algebra.BigOperators.Intervals
import Mathlib.Data.List.GetD

/-! Multiplication of a fixed point in circuits by an honest prover: the loop and the whole. -/

namespace Verif.Lemmas.Ecc

open Verif.Gadget Verif.Spec.Gadget Verif.Spec Verif.Spec.Ecc Verif.Lemmas.Gadget Verif.Spec.EccFixed
open Verif.FloorPlanner (Call)
open Verif.Spec.Pow5 (SatAll FollowsAll)

section

variable {c : MulFixed} {region offset n : Nat} {base : FixedBase pallasBase} {B : Pt (5 : Fp)}

theorem digit_val {d : Nat} (hd : d < 8) : ((d : ZMod vestaBase)).val = d :=
  ZMod.val_natCast_of_lt (Nat.lt_trans hd (by decide +kernel))

theorem index_digit {d : Nat} (hd : d < 8) : MulFixed.index (d : ZMod vestaBase) = d := by
  unfold MulFixed.index
  rw [digit_val hd, Nat.mod_eq_of_lt hd]

theorem lower_smul (P : Pt (5 : Fp)) (d i : Nat) :
    (((d : ZMod vestaBase) + 2) * 8 ^ i).val • P = ((d + 2) * 8 ^ i) • P := by
  rw [← cast_smul P ((d + 2) * 8 ^ i)]
  push_cast
  rfl

theorem offset_sum (m : Nat) : (List.range m).foldl (fun acc w => acc + 2 ^ (3 * w + 1)) (0 : ZMod vestaBase) =
    ((∑ j ∈ Finset.range m, 2 * 8 ^ j : Nat) : ZMod vestaBase) := by
  induction m with
  | zero => simp
  | succ m ih =>
    rw [List.range_succ, List.foldl_append, ih, Finset.sum_range_succ]
    simp only [List.foldl_cons, List.foldl_nil]
    push_cast
    rw [pow_succ, pow_mul]
    norm_num
    ring

theorem msb_smul (P : Pt (5 : Fp)) (d m : Nat) :
    ((d : ZMod vestaBase) * 8 ^ m - ((∑ j ∈ Finset.range m, 2 * 8 ^ j : Nat) : ZMod vestaBase)).val • P =
      (d * 8 ^ m) • P - (∑ j ∈ Finset.range m, 2 * 8 ^ j) • P := by
  rw [sub_smul, cast_smul, ← cast_smul P (d * 8 ^ m)]
  push_cast
  rfl

/-- What a row of a window contains. -/
def RowIs (c : MulFixed) (n region offset : Nat) (base : FixedBase pallasBase) (B : Pt (5 : Fp)) (w : Content Fp) (i k : Nat) :
    Prop :=
  (w region (.advice c.add.xP) ((offset + i : Nat) : Int), w region (.advice c.add.yP) ((offset + i : Nat) : Int)) =
    coords (windowPoint n B i k) ∧
  w region (.advice c.u) ((offset + i : Nat) : Int) ^ 2 = (coords (windowPoint n B i k)).2 + ((base.z.getD i 0 : Nat) : Fp)

theorem lower_ne (hB : B ≠ 0) {i d : Nat} (hi : i + 1 < n) (hn : n ≤ 85) (hd : d < 8) : windowPoint n B i d ≠ 0 := by
  rw [windowPoint, if_pos hi]
  have hmono : (8 : Nat) ^ i ≤ 8 ^ 83 := Nat.pow_le_pow_right (by norm_num) (by omega)
  have hmul : (d + 2) * 8 ^ i ≤ 9 * 8 ^ 83 := Nat.mul_le_mul (by omega) hmono
  have hv : 9 * 8 ^ 83 < vestaBase := by decide +kernel
  exact pallas_free hB (by positivity) (by omega)

theorem processLower_good (t : TableOf n B base) (hB : B ≠ 0) (hn : n ≤ 85) {i d : Nat} (hi : i + 1 < n) (hd : d < 8) :
    ∃ calls out, c.processLower n region offset i base (some (d : ZMod vestaBase)) = .ok (calls, out) ∧
      Valued out (((d + 2) * 8 ^ i) • B) ∧ ∀ w, Follows w region calls →
        (∀ k ∈ calls, Enforced w region k) ∧ (∀ s o, Call.enable s o ∉ calls) ∧ KnownPoint w out ∧
        RowIs c n region offset base B w i d := by
  have hw : windowPoint n B i d = ((d + 2) * 8 ^ i) • B := by rw [windowPoint, if_pos hi]
  obtain ⟨calls, out, h1, h2, h3⟩ := processWindow_good (c := c) (region := region) (offset := offset) t hB (i := i)
    (by omega) hd (s := ((d : ZMod vestaBase) + 2) * 8 ^ i) (by rw [hw, lower_smul]) (lower_ne hB hi hn hd)
  refine ⟨calls, out, ?_, hw ▸ h2, fun w hf => ?_⟩
  · unfold MulFixed.processLower
    simp only [Option.map_some, index_digit hd]
    exact h1
  · obtain ⟨e1, e2, e3, e4, e5⟩ := h3 w hf
    exact ⟨e1, e2, e3, e4, e5⟩

theorem processMsb_good (t : TableOf n B base) (hB : B ≠ 0) (hn : 0 < n) {d : Nat} (hd : d < 8)
    (hne : windowPoint n B (n - 1) d ≠ 0) :
    ∃ calls out, c.processMsb n region offset base (some (d : ZMod vestaBase)) = .ok (calls, out) ∧
      Valued out (windowPoint n B (n - 1) d) ∧ ∀ w, Follows w region calls →
        (∀ k ∈ calls, Enforced w region k) ∧ (∀ s o, Call.enable s o ∉ calls) ∧ KnownPoint w out ∧
        RowIs c n region offset base B w (n - 1) d := by
  obtain ⟨calls, out, h1, h2, h3⟩ := processWindow_good (c := c) (region := region) (offset := offset) t hB (i := n - 1)
    (by omega) hd
    (s := (d : ZMod vestaBase) * 8 ^ (n - 1) - ((∑ j ∈ Finset.range (n - 1), 2 * 8 ^ j : Nat) : ZMod vestaBase))
    (by rw [windowPoint, if_neg (by omega), msb_smul]) hne
  refine ⟨calls, out, ?_, h2, fun w hf => ?_⟩
  · unfold MulFixed.processMsb
    simp only [Option.map_some, index_digit hd, offset_sum]
    exact h1
  · obtain ⟨e1, e2, e3, e4, e5⟩ := h3 w hf
    exact ⟨e1, e2, e3, e4, e5⟩

/-- The gate of incomplete addition holds in row `o`. -/
def IncAt (c : MulFixed) (region : Nat) (w : Content Fp) (o : Nat) : Prop :=
  ∀ (sel : Selector → Int → Bool), ∀ g ∈ (c.addIncomplete.chip : Chip Fp).gates, ∀ e ∈ g.2, e.eval sel (w region) (o : Int) = 0

theorem addWindows_good (t : TableOf n B base) (hB : B ≠ 0) (hn : n ≤ 85) :
    ∀ (ds : List Nat) (i : Nat) (acc : EccPoint Fp) (m : Nat), (∀ d ∈ ds, d < 8) → i + ds.length + 1 ≤ n →
    Valued acc (m • B) → 0 < m → 7 * m + 9 ≤ 9 * 8 ^ i →
    ∃ calls out, c.addWindows n region offset base i acc (ds.map fun (d : Nat) => some (d : ZMod vestaBase)) = .ok (calls, out) ∧
      Valued out ((m + ∑ j ∈ Finset.range ds.length, (ds.getD j 0 + 2) * 8 ^ (i + j)) • B) ∧
      ∀ w, Follows w region calls → KnownPoint w acc →
        (∀ k ∈ calls, Enforced w region k) ∧
        (∀ s o, Call.enable s o ∈ calls → s = c.addIncomplete.qAddIncomplete ∧ IncAt c region w o) ∧ KnownPoint w out ∧
        ∀ j < ds.length, RowIs c n region offset base B w (i + j) (ds.getD j 0)
  | [], i, acc, m, _, _, hacc, _, _ => by
    refine ⟨[], acc, rfl, by simpa using hacc, fun w _ ka => ⟨fun k hk => absurd hk (by simp), fun s o h => absurd h (by simp), ka,
      fun j hj => absurd hj (by simp)⟩⟩
  | d :: ds, i, acc, m, hds, hl, hacc, hm0, hm => by
    simp only [List.length_cons] at hl
    have hd : d < 8 := hds d List.mem_cons_self
    obtain ⟨c1, mulB, h1, v1, g1⟩ := processLower_good (c := c) (region := region) (offset := offset) t hB hn (i := i) (d := d)
      (by omega) hd
    have hpos : 0 < 8 ^ i := by positivity
    have hmono : (8 : Nat) ^ i ≤ 8 ^ 83 := Nat.pow_le_pow_right (by norm_num) (by omega)
    have hmul1 : 2 * 8 ^ i ≤ (d + 2) * 8 ^ i := Nat.mul_le_mul_right _ (by omega)
    have hmul2 : (d + 2) * 8 ^ i ≤ 9 * 8 ^ i := Nat.mul_le_mul_right _ (by omega)
    have hv : 11 * 8 ^ 83 < vestaBase := by decide +kernel
    obtain ⟨c2, acc', h2, v2, g2⟩ := incomplete_good (c := c.addIncomplete) (region := region) (offset := offset + i) smooth_five
      (ord := vestaBase) (fun _ => pallas_free hB) hm0 (i := (d + 2) * 8 ^ i) (by omega) (by omega) v1 hacc
    obtain ⟨c3, out, h3, v3, g3⟩ := addWindows_good t hB hn ds (i + 1) acc' ((d + 2) * 8 ^ i + m)
      (fun x hx => hds x (List.mem_cons_of_mem _ hx)) (by omega) v2 (by omega) (by rw [pow_succ]; omega)
    refine ⟨c1 ++ c2 ++ c3, out, ?_, ?_, fun w hf ka => ?_⟩
    · rw [List.map_cons]
      unfold MulFixed.addWindows
      rw [h1]
      simp only [bind, Except.bind]
      rw [h2]
      simp only
      rw [h3]
      rfl
    · rw [List.length_cons, Finset.sum_range_succ']
      have e : (d + 2) * 8 ^ i + m + ∑ j ∈ Finset.range ds.length, (ds.getD j 0 + 2) * 8 ^ (i + 1 + j) =
          m + (∑ j ∈ Finset.range ds.length, ((d :: ds).getD (j + 1) 0 + 2) * 8 ^ (i + (j + 1)) +
            ((d :: ds).getD 0 0 + 2) * 8 ^ (i + 0)) := by
        have : ∀ j, i + 1 + j = i + (j + 1) := fun j => by omega
        simp only [this, add_zero, List.getD_cons_succ, List.getD_cons_zero]
        omega
      rw [← e]
      exact v3
    · obtain ⟨a1, a2, a3, a4⟩ := g1 w (follows_mono hf (by simp +contextual))
      obtain ⟨b1, b2, b3, b4⟩ := g2 w (follows_mono hf (by simp +contextual)) a3 ka
      obtain ⟨e1, e2, e3, e4⟩ := g3 w (follows_mono hf (by simp +contextual)) b4
      refine ⟨?_, ?_, e3, ?_⟩
      · intro k hk
        rcases List.mem_append.1 hk with hk | hk
        · exact (List.mem_append.1 hk).elim (a1 k) (b1 k)
        · exact e1 k hk
      · intro s o h
        rcases List.mem_append.1 h with h | h
        · rcases List.mem_append.1 h with h | h
          · exact absurd h (a2 s o)
          · obtain ⟨rfl, rfl⟩ := b2 s o h
            exact ⟨rfl, b3⟩
        · exact e2 s o h
      · intro j hj
        rcases j with _ | j
        · exact a4
        · have := e4 j (by simpa using hj)
          rw [List.getD_cons_succ, show i + (j + 1) = i + 1 + j by omega]
          exact this

/-- The gate of the coordinates holds in a row. -/
theorem row_gate (t : TableOf n B base) {w : Content Fp} {i k : Nat} (hi : i < n) (hk : k < 8) (hne : windowPoint n B i k ≠ 0)
    (hr : RowIs c n region offset base B w i k) {sel : Selector → Int → Bool} {word : Verif.Gadget.Expr Fp}
    (hword : word.eval sel (w region) ((offset + i : Nat) : Int) = (k : Fp))
    (f1 : ∀ k < 8, w region (.fixed (c.lagrange k)) ((offset + i : Nat) : Int) = (base.lagrange.getD i []).getD k 0)
    (f2 : w region (.fixed c.fixedZ) ((offset + i : Nat) : Int) = ((base.z.getD i 0 : Nat) : Fp)) :
    ∀ e ∈ c.coordsCheck (5 : Fp) word, e.eval sel (w region) ((offset + i : Nat) : Int) = 0 := by
  have r1 : w region (.advice c.add.xP) ((offset + i : Nat) : Int) = (coords (windowPoint n B i k)).1 := congrArg Prod.fst hr.1
  have r2 : w region (.advice c.add.yP) ((offset + i : Nat) : Int) = (coords (windowPoint n B i k)).2 := congrArg Prod.snd hr.1
  rw [coordsCheck_iff, hword, r1, r2, f2, ← t.x i k hi hk]
  refine ⟨Finset.sum_congr rfl fun j hj => by rw [f1 j (Finset.mem_range.1 hj)], hr.2, ?_⟩
  rw [t.x i k hi hk]
  exact coords_curve hne

theorem fixed_enable {toggle : Selector} {calls : Calls Fp} (h : c.assignFixed n offset toggle base = .ok calls) {s : Selector}
    {o : Nat} (hm : Call.enable s o ∈ calls) : s = toggle ∧ ∃ i < n, o = offset + i := by
  obtain ⟨-, -, rfl⟩ := assignFixed_ok h
  obtain ⟨i, hi, hm⟩ := List.mem_flatMap.1 hm
  simp only [List.mem_append, List.mem_cons, List.mem_map, List.not_mem_nil, or_false, Call.enable.injEq, reduceCtorEq,
    and_false, exists_false, or_false] at hm
  exact ⟨hm.1, i, List.mem_range.1 hi, by omega⟩

theorem fixed_enforced {toggle : Selector} {calls : Calls Fp} {w : Content Fp} (h : c.assignFixed n offset toggle base = .ok calls)
    (hf : Follows w region calls) : ∀ k ∈ calls, Enforced w region k := by
  intro k hk
  have hk' := hk
  obtain ⟨-, -, rfl⟩ := assignFixed_ok h
  obtain ⟨i, hi, hm⟩ := List.mem_flatMap.1 hk
  simp only [List.mem_append, List.mem_cons, List.mem_map, List.not_mem_nil, or_false] at hm
  rcases hm with (rfl | ⟨j, -, rfl⟩) | rfl
  · trivial
  · exact hf.2.2 _ _ _ hk'
  · exact hf.2.2 _ _ _ hk'

/-- The part that the three variants share, by an honest prover. -/
theorem inner_good {toggle : Selector} (t : TableOf n B base) (hB : B ≠ 0) (hn : 2 ≤ n) (hn' : n ≤ 85) {ds : List Nat}
    (hl : ds.length = n) (hd : ∀ d ∈ ds, d < 8) (hne : ∀ k < 8, windowPoint n B (n - 1) k ≠ 0) :
    ∃ calls acc mulB, c.inner n region offset base toggle (ds.map fun (d : Nat) => some (d : ZMod vestaBase)) =
        .ok (calls, acc, mulB) ∧
      Valued acc ((∑ i ∈ Finset.range (n - 1), (ds.getD i 0 + 2) * 8 ^ i) • B) ∧
      Valued mulB (windowPoint n B (n - 1) (ds.getD (n - 1) 0)) ∧
      ∀ w, Follows w region calls → (∀ k ∈ calls, Enforced w region k) ∧
        (∀ s o, Call.enable s o ∈ calls → (s = c.addIncomplete.qAddIncomplete ∧ IncAt c region w o) ∨
          (s = toggle ∧ ∃ i < n, o = offset + i)) ∧
        KnownPoint w acc ∧ KnownPoint w mulB ∧
        ∀ (sel : Selector → Int → Bool) (word : Verif.Gadget.Expr Fp), ∀ i < n,
          word.eval sel (w region) ((offset + i : Nat) : Int) = ((ds.getD i 0 : Nat) : Fp) →
          ∀ e ∈ c.coordsCheck (5 : Fp) word, e.eval sel (w region) ((offset + i : Nat) : Int) = 0 := by
  have hdg : ∀ i, ds.getD i 0 < 8 := by
    intro i
    by_cases hi : i < ds.length
    · rw [List.getD_eq_getElem _ _ hi]; exact hd _ (List.getElem_mem hi)
    · rw [List.getD_eq_default _ _ (by omega)]; norm_num
  obtain ⟨fixed, hfix⟩ : ∃ fixed, c.assignFixed n offset toggle base = .ok fixed := by
    unfold MulFixed.assignFixed
    rw [assert_ok.2 (by simpa using t.sizes.1), assert_ok.2 (by simpa using t.sizes.2.1)]
    exact ⟨_, rfl⟩
  obtain ⟨c0, acc0, h0, v0, g0⟩ := processLower_good (c := c) (region := region) (offset := offset) t hB hn' (i := 0)
    (d := ds.getD 0 0) (by omega) (hdg 0)
  have hv0 : Valued acc0 ((ds.getD 0 0 + 2) • B) := by rwa [pow_zero, mul_one] at v0
  have hlen : ((ds.take (n - 1)).drop 1).length = n - 2 := by simp [hl]; omega
  have hget : ∀ j < n - 2, ((ds.take (n - 1)).drop 1).getD j 0 = ds.getD (1 + j) 0 := by
    intro j hj
    rw [List.getD_eq_getElem _ _ (by omega), List.getD_eq_getElem _ _ (by omega)]
    simp only [List.getElem_drop, List.getElem_take]
  obtain ⟨c1, acc, h1, v1, g1⟩ := addWindows_good (c := c) (region := region) (offset := offset) t hB hn'
    ((ds.take (n - 1)).drop 1) 1 acc0 (ds.getD 0 0 + 2)
    (fun d h => hd d (List.mem_of_mem_take (List.mem_of_mem_drop h))) (by omega) hv0 (by omega) (by have := hdg 0; omega)
  obtain ⟨c2, mulB, h2, v2, g2⟩ := processMsb_good (c := c) (region := region) (offset := offset) t hB (by omega)
    (d := ds.getD (n - 1) 0) (hdg _) (hne _ (hdg _))
  refine ⟨fixed ++ c0 ++ c1 ++ c2, acc, mulB, ?_, ?_, v2, fun w hf => ?_⟩
  · unfold MulFixed.inner
    rw [hfix]
    have e0 : (ds.map fun (d : Nat) => some (d : ZMod vestaBase))[0]? = some (some ((ds.getD 0 0 : Nat) : ZMod vestaBase)) := by
      rw [List.getElem?_map, List.getElem?_eq_getElem (by omega), List.getD_eq_getElem _ _ (by omega)]; rfl
    have e1 : (ds.map fun (d : Nat) => some (d : ZMod vestaBase))[n - 1]? =
        some (some ((ds.getD (n - 1) 0 : Nat) : ZMod vestaBase)) := by
      rw [List.getElem?_map, List.getElem?_eq_getElem (by omega), List.getD_eq_getElem _ _ (by omega)]; rfl
    simp only [bind, Except.bind, e0, e1]
    rw [h0]
    simp only
    rw [assert_ok.2 (by simp [hl])]
    simp only
    rw [← List.map_take, ← List.map_drop, h1]
    simp only
    rw [h2]
    rfl
  · rw [hlen] at v1
    have e : ds.getD 0 0 + 2 + ∑ j ∈ Finset.range (n - 2), (((ds.take (n - 1)).drop 1).getD j 0 + 2) * 8 ^ (1 + j) =
        ∑ i ∈ Finset.range (n - 1), (ds.getD i 0 + 2) * 8 ^ i := by
      obtain ⟨m, rfl⟩ : ∃ m, n = m + 2 := ⟨n - 2, by omega⟩
      rw [show m + 2 - 1 = m + 1 by omega, show m + 2 - 2 = m by omega] at *
      rw [Finset.sum_range_succ', pow_zero, mul_one, Nat.add_comm]
      congr 1
      exact Finset.sum_congr rfl fun j hj => by rw [hget j (Finset.mem_range.1 hj), Nat.add_comm 1 j]
    rwa [e] at v1
  · have ff := follows_mono (a := fixed) hf (by simp +contextual)
    obtain ⟨a1, a2, a3, a4⟩ := g0 w (follows_mono hf (by simp +contextual))
    obtain ⟨b1, b2, b3, b4⟩ := g1 w (follows_mono hf (by simp +contextual)) a3
    obtain ⟨e1, e2, e3, e4⟩ := g2 w (follows_mono hf (by simp +contextual))
    have rows : ∀ i < n, RowIs c n region offset base B w i (ds.getD i 0) := by
      intro i hi
      by_cases h0 : i = 0
      · subst h0; exact a4
      · by_cases h9 : i = n - 1
        · subst h9; exact e4
        · obtain ⟨j, rfl⟩ : ∃ j, i = 1 + j := ⟨i - 1, by omega⟩
          have := b4 j (by omega)
          rwa [hget j (by omega)] at this
    refine ⟨?_, ?_, b3, e3, ?_⟩
    · intro k hk
      rcases List.mem_append.1 hk with hk | hk
      · rcases List.mem_append.1 hk with hk | hk
        · exact (List.mem_append.1 hk).elim (fixed_enforced hfix ff k) (a1 k)
        · exact b1 k hk
      · exact e1 k hk
    · intro s o h
      rcases List.mem_append.1 h with h | h
      · rcases List.mem_append.1 h with h | h
        · rcases List.mem_append.1 h with h | h
          · exact Or.inr (fixed_enable hfix h)
          · exact absurd h (a2 s o)
        · exact Or.inl (b2 s o h)
      · exact absurd h (e2 s o)
    · intro sel word i hi hword
      obtain ⟨-, m2, m3⟩ := assignFixed_mem hfix hi
      refine row_gate t hi (hdg i) ?_ (rows i hi) hword (fun k hk => (Option.some.inj (ff.2.2 _ _ _ (m2 k hk))).symm)
        (Option.some.inj (ff.2.2 _ _ _ m3)).symm
      by_cases h9 : i = n - 1
      · subst h9; exact hne _ (hdg _)
      · exact lower_ne hB (by omega) hn' (hdg i)

/-- No multiple that the last window stands for is the identity. -/
theorem last_ne (hB : B ≠ 0) {m k s : Nat} (hs : ∑ j ∈ Finset.range m, 2 * 8 ^ j = s) (h : (k * 8 ^ m) % vestaBase ≠ s % vestaBase) :
    windowPoint (m + 1) B m k ≠ 0 := by
  rw [windowPoint, if_neg (by omega), hs]
  intro e
  rw [sub_eq_zero] at e
  have ho : addOrderOf B = vestaBase := addOrderOf_eq_prime (pallas_order B) hB
  have := nsmul_eq_nsmul_iff_modEq.1 e
  rw [ho] at this
  exact h this

theorem last_full (hB : B ≠ 0) : ∀ k < 8, windowPoint 85 B 84 k ≠ 0 := fun k hk =>
  last_ne hB rfl (by
    have : ∀ k < 8, (k * 8 ^ 84) % vestaBase ≠ (∑ j ∈ Finset.range 84, 2 * 8 ^ j) % vestaBase := by decide +kernel
    exact this k hk)

theorem last_short (hB : B ≠ 0) : ∀ k < 8, windowPoint 22 B 21 k ≠ 0 := fun k hk =>
  last_ne hB rfl (by
    have : ∀ k < 8, (k * 8 ^ 21) % vestaBase ≠ (∑ j ∈ Finset.range 21, 2 * 8 ^ j) % vestaBase := by decide +kernel
    exact this k hk)

end

theorem ok_then {ε α β : Type} {a : α} {f : α → Except ε β} : ((.ok a : Except ε α) >>= f) = f a := rfl

theorem ofChunks_digits : ∀ (ks : List Nat), ofChunks 3 ks = ∑ i ∈ Finset.range ks.length, ks.getD i 0 * 8 ^ i
  | [] => rfl
  | k :: ks => by
    rw [ofChunks, ofChunks_digits ks, List.length_cons, Finset.sum_range_succ', Finset.mul_sum]
    simp only [List.getD_cons_succ, List.getD_cons_zero, pow_zero, mul_one]
    rw [Nat.add_comm]
    congr 1
    exact Finset.sum_congr rfl fun i _ => by rw [pow_succ]; ring

section full

variable {c : MulFull} {start : Nat} {base : FixedBase pallasBase} {B : Pt (5 : Fp)} {table : Nat → List Fp} {chip : Chip Fp}

/-- All gates. -/
theorem full_gates (h : c.chip (5 : Fp) = .ok chip) : chip.lookups = [] ∧ ∀ g ∈ chip.gates,
    g.1 = c.sup.runningSum.qRangeCheck ∨ g = (c.sup.add.qAdd, c.sup.add.polys) ∨
    g ∈ (c.sup.addIncomplete.chip : Chip Fp).gates ∨
    g = (c.qFull, c.sup.coordsCheck (5 : Fp) (.advice c.sup.window 0) ++ [rangeCheck (.advice c.sup.window 0) 8]) := by
  unfold MulFull.chip at h
  obtain ⟨sup, h1, h⟩ := bind_ok h
  unfold MulFixed.chip at h1
  obtain ⟨sum, h2, h1⟩ := bind_ok h1
  unfold RunningSum.chip at h2
  obtain ⟨_, -, h2⟩ := bind_ok h2
  simp only [pure, Except.pure, Except.ok.injEq] at h h1 h2
  subst h2 h1 h
  refine ⟨rfl, fun g hg => ?_⟩
  simp only [List.mem_append, List.mem_singleton] at hg
  rcases hg with (((hg | hg) | hg) | hg) | hg
  · left; rw [hg]
  · left; rw [hg]
  · right; left
    simpa [AddComplete.chip] using hg
  · right; right; left; exact hg
  · right; right; right; exact hg

theorem inc_selector {a : AddIncomplete} {g : Selector × List (Verif.Gadget.Expr Fp)} (h : g ∈ (a.chip : Chip Fp).gates) :
    g.1 = a.qAddIncomplete := by
  simp only [AddIncomplete.chip, List.mem_singleton] at h
  rw [h]

theorem cellWindows_digits {region offset col : Nat} {ks : List Nat} (hk : ∀ k ∈ ks, k < 8) :
    MulFixed.cellWindows (q := vestaBase) ((List.range ks.length).map fun i => (⟨⟨region, offset + i, .advice col⟩,
      ((ks.map some).getD i none).map fun (k : Nat) => (k : Fp)⟩ : Assigned Fp)) =
      .ok (ks.map fun (d : Nat) => some (d : ZMod vestaBase)) := by
  have hp : 8 < pallasBase := by decide +kernel
  have hq : 8 < vestaBase := by decide +kernel
  have key : ∀ (ks : List Nat) (l : List (Assigned Fp)), (∀ k ∈ ks, k < 8) → l.map (·.value) = ks.map (fun (k : Nat) => some (k : Fp)) →
      MulFixed.cellWindows (q := vestaBase) l = .ok (ks.map fun (d : Nat) => some (d : ZMod vestaBase)) := by
    intro ks
    induction ks with
    | nil =>
      intro l _ h
      have : l = [] := by simpa using h
      subst this
      rfl
    | cons k ks ih =>
      intro l hk h
      match l, h with
      | a :: l, h =>
        simp only [List.map_cons, List.cons.injEq] at h
        have h8 := hk k List.mem_cons_self
        have hv : ((k : Fp)).val = k := ZMod.val_natCast_of_lt (by omega)
        have e1 : (onKnown a.value fun v => (do
            assert (v.val < vestaBase)
            return ((v.val : Nat) : ZMod vestaBase) : Except Stop _)) = .ok (some ((k : Nat) : ZMod vestaBase)) := by
          rw [h.1]
          simp only [onKnown, hv]
          rw [assert_ok.2 (by simpa using Nat.lt_trans h8 hq)]
          rfl
        unfold MulFixed.cellWindows
        rw [List.mapM_cons, e1]
        have := ih l (fun x hx => hk x (List.mem_cons_of_mem _ hx)) h.2
        unfold MulFixed.cellWindows at this
        rw [ok_then, this]
        rfl
  apply key ks _ hk
  apply List.ext_getElem
  · simp
  · intro i h1 h2
    simp only [List.length_map] at h2
    simp [h2]

/-- Full-width multiplication by an honest prover. -/
theorem full_complete (hchip : c.chip (5 : Fp) = .ok chip)
    (hd : [c.qFull, c.sup.runningSum.qRangeCheck, c.sup.add.qAdd, c.sup.addIncomplete.qAddIncomplete].Nodup)
    (t : TableOf 85 B base) (hB : B ≠ 0) (s : ZMod vestaBase) :
    ∃ regions out windows, c.assign start (some s) base = .ok (regions, out, windows) ∧ ∀ w, FollowsAll w start regions →
      SatAll chip table w start regions ∧ KnownPoint w out ∧ Holds w out (s.val • B) := by
  obtain ⟨ks, hks, hkl, hlt, hsum⟩ := decomposeWord_ok s (wordBits := 255) (windowBits := 3) (by norm_num) (by norm_num) (by norm_num)
  norm_num at hkl hlt
  have hsv : ∑ i ∈ Finset.range 85, ks.getD i 0 * 8 ^ i = s.val := by
    rw [← hkl, ← ofChunks_digits, hsum]
    exact Nat.mod_eq_of_lt (Nat.lt_trans (ZMod.val_lt s) (by decide +kernel))
  have hwit : ∃ c0 windows, c.witness (p := pallasBase) 255 85 start 0 (some s) = .ok (c0, windows) := by
    unfold MulFull.witness
    simp only [onKnown, hks, Except.map, bind, Except.bind, transposeVec]
    rw [assert_ok.2 (by simpa using hkl)]
    exact ⟨_, _, rfl⟩
  obtain ⟨c0, windows, hwit⟩ := hwit
  obtain ⟨ks', -, ⟨ds, e1, e2⟩, hw, hc⟩ := witness_cells hwit
  simp only [onKnown, hks, Except.map, Except.ok.injEq] at e1
  subst e1
  obtain ⟨-, rfl⟩ := transposeVec_some e2
  have hcw : MulFixed.cellWindows (q := vestaBase) windows = .ok (ks.map fun (d : Nat) => some (d : ZMod vestaBase)) := by
    rw [hw, ← hkl]
    exact cellWindows_digits hlt
  obtain ⟨c1, acc, mulB, h1, v1, v2, g⟩ := inner_good (c := c.sup) (region := start) (offset := 0) (toggle := c.qFull) t hB
    (by norm_num) le_rfl hkl hlt (last_full hB)
  refine ⟨[c0 ++ c1, (c.sup.add.assign (start + 1) mulB acc 0).1], (c.sup.add.assign (start + 1) mulB acc 0).2, windows, ?_, ?_⟩
  · unfold MulFull.assign
    rw [hwit]
    simp only [bind, Except.bind]
    rw [hcw]
    simp only
    rw [h1]
    rfl
  · intro w hf
    have f0 : Follows w start (c0 ++ c1) := hf 0 (by simp)
    have f1 : Follows w (start + 1) (c.sup.add.assign (start + 1) mulB acc 0).1 := hf 1 (by simp)
    obtain ⟨a1, a2, a3, a4, a5⟩ := g w (follows_mono f0 (by simp +contextual))
    obtain ⟨⟨b1, b1'⟩, b2, b3⟩ := add_good usable_pallas f1 a4 a3 (v2.holds a4) (v1.holds a3)
    have hws := windows_sum (n := 85) (B := B) (by norm_num) (fun i => ks.getD i 0)
    beta_reduce at hws
    rw [hws, hsv] at b3
    obtain ⟨l1, l2⟩ := full_gates hchip
    simp only [List.nodup_cons, List.mem_cons, List.not_mem_nil, or_false, not_or] at hd
    refine ⟨?_, b2, b3⟩
    intro i hi
    have hi' : i = 0 ∨ i = 1 := by simp at hi; omega
    rcases hi' with rfl | rfl
    · refine ⟨?_, gates_of fun g hg e he o ho => ?_, fun l hl => by rw [l1] at hl; cases hl⟩
      · intro k hk
        rcases List.mem_append.1 hk with hk | hk
        · rw [hc] at hk
          simp only [List.mem_append, List.mem_map] at hk
          rcases hk with ⟨_, -, rfl⟩ | ⟨_, -, rfl⟩ <;> trivial
        · exact a1 k hk
      · have hen : (g.1 = c.sup.addIncomplete.qAddIncomplete ∧ IncAt c.sup start w o) ∨ (g.1 = c.qFull ∧ ∃ i < 85, o = 0 + i) := by
          rcases List.mem_append.1 ho with ho | ho
          · rw [hc] at ho
            simp only [List.mem_append, List.mem_map, reduceCtorEq, and_false, exists_false, or_false, Call.enable.injEq] at ho
            obtain ⟨i, hi, e1, e2⟩ := ho
            exact Or.inr ⟨e1.symm, i, List.mem_range.1 hi, e2.symm⟩
          · exact a2 _ _ ho
        rcases l2 g hg with h | h | h | h
        · rw [h] at hen
          rcases hen with ⟨e, -⟩ | ⟨e, -⟩
          · exact absurd e hd.2.1.2
          · exact absurd e.symm hd.1.1
        · subst h
          rcases hen with ⟨e, -⟩ | ⟨e, -⟩
          · exact absurd e hd.2.2.1
          · exact absurd e.symm hd.1.2.1
        · rw [inc_selector h] at hen
          rcases hen with ⟨-, hi⟩ | ⟨e, -⟩
          · exact hi _ g h e he
          · exact absurd e.symm hd.1.2.2
        · subst h
          rcases hen with ⟨e, -⟩ | ⟨-, i, hi, rfl⟩
          · exact absurd e hd.1.2.2
          · have hcell : w start (.advice c.sup.window) ((0 + i : Nat) : Int) = ((ks.getD i 0 : Nat) : Fp) := by
              refine follows_at f0 (List.mem_append_left _ ?_)
              rw [hc]
              refine List.mem_append_right _ (List.mem_map.2 ⟨i, List.mem_range.2 hi, ?_⟩)
              rw [List.getD_eq_getElem _ _ (by simpa [hkl] using hi), List.getD_eq_getElem _ _ (by omega)]
              simp
            have hev : ∀ sel, (Verif.Gadget.Expr.advice c.sup.window 0).eval sel (w start) ((0 + i : Nat) : Int) =
                ((ks.getD i 0 : Nat) : Fp) := fun sel => by rw [eval_advice, add_zero, hcell]
            rcases List.mem_append.1 he with he | he
            · exact a5 _ _ i hi (hev _) e he
            · obtain rfl := List.mem_singleton.1 he
              rw [eval_rangeCheck _ _ _ _ (by norm_num)]
              refine ⟨ks.getD i 0, ?_, hev _⟩
              rw [List.getD_eq_getElem _ _ (by omega)]
              exact hlt _ (List.getElem_mem _)
    · refine ⟨b1, gates_of fun g hg e he o ho => ?_, fun l hl => by rw [l1] at hl; cases hl⟩
      obtain ⟨hs, rfl⟩ := add_enable.1 ho
      rcases l2 g hg with h | h | h | h
      · rw [h] at hs; exact absurd hs hd.2.1.1
      · subst h
        obtain ⟨es, m1, m2⟩ := b1' _ _ ho
        have : es = c.sup.add.polys := by
          simp only [AddComplete.chip, List.mem_singleton, Prod.mk.injEq] at m1
          exact m1.2
        subst this
        exact m2 _ e he
      · rw [inc_selector h] at hs
        exact absurd hs.symm hd.2.2.1
      · subst h
        exact absurd hs hd.1.2.1

end full

end Verif.Lemmas.Ecc

import Verif.Lemmas.EccMul

/-! What an honest prover writes when multiplying a point by a number. -/

namespace Verif.Lemmas.Ecc

open Verif.Gadget Verif.Spec.Gadget Verif.Spec Verif.Spec.Ecc Verif.Lemmas.Gadget
open Verif.FloorPlanner (Call)

variable {F : Type} [Field F] [DecidableEq F] {b : F}

/-- The base added to or subtracted from a multiple is no exceptional case. -/
theorem row_free {B : Pt b} {q c : Nat} (free : ∀ m, 0 < m → m < q → m • B ≠ 0) (h2 : 2 ≤ c) (hq : 2 * c + 1 < q) (k : Bool) :
    c • B ≠ 0 ∧ (if k then B else -B) ≠ 0 ∧ (if k then B else -B) ≠ c • B ∧ (if k then B else -B) ≠ -(c • B) ∧
      c • B + (if k then B else -B) ≠ -(c • B) := by
  have hB : B ≠ 0 := by simpa using free 1 one_pos (by omega)
  have hA := free c (by omega) (by omega)
  obtain ⟨d, rfl⟩ : ∃ d, c = d + 1 := ⟨c - 1, by omega⟩
  have n1 : B ≠ (d + 1) • B := fun e => free d (by omega) (by omega) (by
    rw [add_nsmul, one_nsmul] at e; simpa using e.symm)
  have n2 : B ≠ -((d + 1) • B) := fun e => free (d + 2) (by omega) (by omega) (by
    rw [show d + 2 = (d + 1) + 1 from rfl, add_nsmul _ (d + 1) 1, one_nsmul]
    nth_rewrite 2 [e]; simp)
  cases k
  · refine ⟨hA, by simpa using hB, ?_, ?_, ?_⟩
    · simp only [Bool.false_eq_true, if_false]
      exact fun e => n2 (by rw [← e, neg_neg])
    · simp only [Bool.false_eq_true, if_false]
      exact fun e => n1 (neg_injective e)
    · simp only [Bool.false_eq_true, if_false]
      intro e
      refine free (2 * d + 1) (by omega) (by omega) ?_
      rw [show 2 * d + 1 = d + (d + 1) by omega, add_nsmul]
      have : (d + 1) • B + -B = d • B := by rw [add_nsmul, one_nsmul]; simp
      rw [← this, e]; simp
  · refine ⟨hA, hB, n1, n2, ?_⟩
    simp only [if_true]
    intro e
    refine free (2 * d + 3) (by omega) (by omega) ?_
    rw [show 2 * d + 3 = ((d + 1) + 1) + (d + 1) by omega, add_nsmul _ (d + 1 + 1), add_nsmul _ (d + 1) 1, one_nsmul, e]
    simp

/-- One row, as it is computed. -/
theorem row_honest {B : Pt b} {q c : Nat} (free : ∀ m, 0 < m → m < q → m • B ≠ 0) (h2 : 2 ≤ c) (hq : 2 * c + 1 < q) (k : Bool)
    {z l1 xr l2 xn yn : F}
    (hl1 : l1 = ((coords (c • B)).2 - (if k then (coords B).2 else -(coords B).2)) * ((coords (c • B)).1 - (coords B).1)⁻¹)
    (hxr : xr = l1 ^ 2 - (coords (c • B)).1 - (coords B).1)
    (hl2 : l2 = (coords (c • B)).2 * 2 * ((coords (c • B)).1 - xr)⁻¹ - l1)
    (hxn : xn = l2 ^ 2 - (coords (c • B)).1 - xr) (hyn : yn = l2 * ((coords (c • B)).1 - xn) - (coords (c • B)).2) :
    Row (coords B).1 (coords B).2 (coords (c • B)).1 (coords (c • B)).2 z l1 l2 xn yn (2 * z + (k.toNat : F)) ∧
      (xn, yn) = coords ((2 * c + 2 * k.toNat - 1) • B) := by
  obtain ⟨hA, hS, n1, n2, n3⟩ := row_free free h2 hq k
  have cS : coords (if k then B else -B) = ((coords B).1, if k then (coords B).2 else -(coords B).2) := by
    cases k
    · simp [coords_neg]
    · simp
  generalize hSS : (if k then B else -B) = S at *
  have hx : (coords (c • B)).1 ≠ (coords S).1 := fun e => (same_x hA hS e).elim n1 n2
  have hd1 : (coords (c • B)).1 - (coords B).1 ≠ 0 := by rw [cS] at hx; exact sub_ne_zero.2 hx
  have e1 : l1 * ((coords (c • B)).1 - (coords B).1) = (coords (c • B)).2 - (if k then (coords B).2 else -(coords B).2) := by
    rw [hl1, mul_assoc, inv_mul_cancel₀ hd1, mul_one]
  have hR := coords_add hA hS hx (l := l1) (by rw [cS]; linear_combination -e1)
  have hR0 : c • B + S ≠ 0 := fun e => n2 (eq_neg_of_add_eq_zero_right e)
  have hx' : (coords (c • B)).1 ≠ (coords (c • B + S)).1 := fun e =>
    (same_x hA hR0 e).elim (fun e => hS (by simpa using e)) n3
  have hd2 : (coords (c • B)).1 - xr ≠ 0 := by
    rw [hR, cS] at hx'
    rw [hxr]; exact sub_ne_zero.2 hx'
  have e2 : (l1 + l2) * ((coords (c • B)).1 - xr) = 2 * (coords (c • B)).2 := by
    rw [hl2, add_sub_cancel, mul_assoc, inv_mul_cancel₀ hd2]; ring
  have row : Row (coords B).1 (coords B).2 (coords (c • B)).1 (coords (c • B)).2 z l1 l2 xn yn (2 * z + (k.toNat : F)) := by
    refine ⟨?_, by rw [← hxr, e2], ?_, by rw [← hxr, hxn]; ring, by rw [hyn]; ring⟩
    · cases k
      · left; simp; ring
      · right; simp; ring
    · cases k
      · simp only [Bool.false_eq_true, if_false] at e1
        simp only [Bool.toNat_false, Nat.cast_zero]; linear_combination e1
      · simp only [if_true] at e1
        simp only [Bool.toNat_true, Nat.cast_one]; linear_combination e1
  refine ⟨row, ?_⟩
  obtain ⟨k', hk, hz, hp⟩ := row_point free h2 hq row
  have : k' = k.toNat := by
    have hc : (k.toNat : F) = k' := by linear_combination hz
    have h01 : (0 : F) ≠ 1 := zero_ne_one
    rcases Nat.le_one_iff_eq_zero_or_eq_one.1 hk with rfl | rfl <;> cases k <;> simp_all
  rw [hp, this]

/-- The number that bits make up, the highest first, after the bits of `K`. -/
def bitsUp (K : Nat) (ks : List Bool) : Nat := ks.foldl (fun a k => 2 * a + k.toNat) K

theorem acc_double (s K : Nat) (k : Bool) :
    2 * accScalar s K + 2 * k.toNat - 1 = accScalar (s + 1) (2 * K + k.toNat) := by
  unfold accScalar
  rw [pow_succ]; omega

theorem bitsUp_lt : ∀ (ks : List Bool) (s K : Nat), K < 2 ^ s → bitsUp K ks < 2 ^ (s + ks.length)
  | [], s, K, h => h
  | k :: ks, s, K, h => by
    have := bitsUp_lt ks (s + 1) (2 * K + k.toNat) (by
      have : k.toNat ≤ 1 := Bool.toNat_le k
      rw [pow_succ]; omega)
    rw [List.length_cons, show s + (ks.length + 1) = s + 1 + ks.length by omega]
    exact this

theorem step_value {B : Pt b} {q c0 : Nat} (free : ∀ m, 0 < m → m < q → m • B ≠ 0) (h2 : 2 ≤ c0) (hq : 2 * c0 + 1 < q)
    {c : MulIncomplete} {region row : Nat} {s : MulIncomplete.State F} {z : F} {k : Bool}
    (hx : s.xA.value = some (coords (c0 • B)).1) (hy : s.yA = some (coords (c0 • B)).2) (hz : s.z.value = some z) :
    ∃ l1 l2, Row (coords B).1 (coords B).2 (coords (c0 • B)).1 (coords (c0 • B)).2 z l1 l2
        (coords ((2 * c0 + 2 * k.toNat - 1) • B)).1 (coords ((2 * c0 + 2 * k.toNat - 1) • B)).2 (2 * z + (k.toNat : F)) ∧
      c.step region row (some (coords B).1) (some (coords B).2) s (some k) =
        ([.advice c.z row (some (2 * z + (k.toNat : F))), .advice c.da.xP row (some (coords B).1),
          .advice c.yP row (some (coords B).2), .advice c.da.lambda1 row (some l1), .advice c.da.lambda2 row (some l2),
          .advice c.da.xA (row + 1) (some (coords ((2 * c0 + 2 * k.toNat - 1) • B)).1)],
          ⟨⟨⟨region, row + 1, .advice c.da.xA⟩, some (coords ((2 * c0 + 2 * k.toNat - 1) • B)).1⟩,
            some (coords ((2 * c0 + 2 * k.toNat - 1) • B)).2,
            ⟨⟨region, row, .advice c.z⟩, some (2 * z + (k.toNat : F))⟩⟩) := by
  obtain ⟨hrow, hp⟩ := row_honest free h2 hq k (z := z) rfl rfl rfl rfl rfl
  rw [← hp]
  exact ⟨_, _, hrow, by simp only [MulIncomplete.step, hx, hy, hz, bind, Option.bind, pure]⟩

/-- The point after the bits of `ks`. -/
def pointUp (B : Pt b) (s K : Nat) (ks : List Bool) : F × F := coords (accScalar (s + ks.length) (bitsUp K ks) • B)

theorem pointUp_cons (B : Pt b) (s K : Nat) (k : Bool) (ks : List Bool) :
    pointUp B s K (k :: ks) = pointUp B (s + 1) (2 * K + k.toNat) ks := by
  unfold pointUp
  rw [List.length_cons, show s + (ks.length + 1) = s + 1 + ks.length by omega]
  rfl

theorem pointUp_nil (B : Pt b) (s K : Nat) : pointUp B s K [] = coords (accScalar s K • B) := rfl

/-- What the loop writes. -/
structure Written (c : MulIncomplete) (calls : Calls F) (px py : F) (row : Nat) (zn l1 l2 xn : F) : Prop where
  z : Call.advice c.z row (some zn) ∈ calls
  xP : Call.advice c.da.xP row (some px) ∈ calls
  yP : Call.advice c.yP row (some py) ∈ calls
  lambda1 : Call.advice c.da.lambda1 row (some l1) ∈ calls
  lambda2 : Call.advice c.da.lambda2 row (some l2) ∈ calls
  xA : Call.advice c.da.xA (row + 1) (some xn) ∈ calls

omit [Field F] [DecidableEq F] in
theorem Written.mono {c : MulIncomplete} {calls calls' : Calls F} {px py : F} {row : Nat} {zn l1 l2 xn : F}
    (h : Written c calls px py row zn l1 l2 xn) (hs : ∀ x ∈ calls, x ∈ calls') : Written c calls' px py row zn l1 l2 xn :=
  ⟨hs _ h.z, hs _ h.xP, hs _ h.yP, hs _ h.lambda1, hs _ h.lambda2, hs _ h.xA⟩

theorem steps_value {B : Pt b} {q : Nat} (free : ∀ m, 0 < m → m < q → m • B ≠ 0) {c : MulIncomplete} {region : Nat} :
    ∀ (ks : List Bool) (row : Nat) (st : MulIncomplete.State F) (s K : Nat), K < 2 ^ s → 3 * 2 ^ (s + ks.length) ≤ q →
    st.xA.value = some (coords (accScalar s K • B)).1 → st.yA = some (coords (accScalar s K • B)).2 →
    st.z.value = some (K : F) →
    let r := c.steps region (some (coords B).1) (some (coords B).2) row st (ks.map some)
    r.2.1.xA.value = some (pointUp B s K ks).1 ∧ r.2.1.yA = some (pointUp B s K ks).2 ∧
    (∀ x ∈ r.1, ∃ col o v, x = .advice col o v) ∧
    (∀ i (hi : i < r.2.2.length), r.2.2[i].value = some ((bitsUp K (ks.take (i + 1)) : Nat) : F)) ∧
    ∀ i < ks.length, ∃ l1 l2, Row (coords B).1 (coords B).2 (pointUp B s K (ks.take i)).1 (pointUp B s K (ks.take i)).2
        ((bitsUp K (ks.take i) : Nat) : F) l1 l2 (pointUp B s K (ks.take (i + 1))).1 (pointUp B s K (ks.take (i + 1))).2
        ((bitsUp K (ks.take (i + 1)) : Nat) : F) ∧
      Written c r.1 (coords B).1 (coords B).2 (row + i) ((bitsUp K (ks.take (i + 1)) : Nat) : F) l1 l2
        (pointUp B s K (ks.take (i + 1))).1
  | [], row, st, s, K, hK, hq, hx, hy, hz => by
    refine ⟨hx, hy, fun x hx => ?_, fun i hi => ?_, fun i hi => ?_⟩
    · simp [MulIncomplete.steps] at hx
    · simp [MulIncomplete.steps] at hi
    · simp at hi
  | k :: ks, row, st, s, K, hK, hq, hx, hy, hz => by
    have hpow : 2 ^ (s + (ks.length + 1)) = 2 * 2 ^ ks.length * 2 ^ s := by ring
    have hn : 1 ≤ 2 ^ ks.length := Nat.one_le_two_pow
    have hs : 1 ≤ 2 ^ s := Nat.one_le_two_pow
    have hb : 6 * 2 ^ s ≤ q := by
      refine le_trans ?_ hq
      rw [List.length_cons, hpow]
      nlinarith
    obtain ⟨l1, l2, hrow, hstep⟩ := step_value free (c0 := accScalar s K) (by unfold accScalar; omega)
      (by unfold accScalar; omega) (c := c) (region := region) (row := row) (k := k) hx hy hz
    rw [acc_double] at hrow hstep
    have hcast : (2 * (K : F) + (k.toNat : F)) = ((2 * K + k.toNat : Nat) : F) := by push_cast; ring
    rw [hcast] at hrow hstep
    obtain ⟨i1, i2, i3, i4, i5⟩ := steps_value free (c := c) (region := region) ks (row + 1)
      (c.step region row (some (coords B).1) (some (coords B).2) st (some k)).2 (s + 1) (2 * K + k.toNat)
      (by
        have : k.toNat ≤ 1 := Bool.toNat_le k
        rw [pow_succ]; omega)
      (by rwa [show s + 1 + ks.length = s + (k :: ks).length by rw [List.length_cons]; omega])
      (by rw [hstep]) (by rw [hstep]) (by rw [hstep])
    simp only [List.map_cons, MulIncomplete.steps]
    refine ⟨?_, ?_, ?_, ?_, ?_⟩
    · rw [pointUp_cons]; exact i1
    · rw [pointUp_cons]; exact i2
    · intro x hx
      rcases List.mem_append.1 hx with hx | hx
      · rw [hstep] at hx
        simp only [List.mem_cons, List.not_mem_nil, or_false] at hx
        rcases hx with rfl | rfl | rfl | rfl | rfl | rfl <;> exact ⟨_, _, _, rfl⟩
      · exact i3 x hx
    · rintro (_ | i) hi
      · show (c.step region row (some (coords B).1) (some (coords B).2) st (some k)).2.z.value = _
        rw [hstep]
        rfl
      · exact i4 i (Nat.lt_of_succ_lt_succ hi)
    · rintro (_ | i) hi
      · refine ⟨l1, l2, hrow, ?_⟩
        refine Written.mono (calls := (c.step region row (some (coords B).1) (some (coords B).2) st (some k)).1) ?_
          (fun x hx => List.mem_append_left _ hx)
        rw [hstep]
        constructor <;> simp [bitsUp, pointUp]
      · obtain ⟨l1, l2, h1, h2⟩ := i5 i (by simpa using hi)
        refine ⟨l1, l2, ?_, ?_⟩
        · simp only [List.take_succ_cons, pointUp_cons]
          exact h1
        · simp only [List.take_succ_cons, pointUp_cons]
          rw [show row + (i + 1) = row + 1 + i by omega]
          exact h2.mono (fun x hx => List.mem_append_right _ hx)

/-- What the calls ask for holds, and the gates hold where the calls enable them. -/
def Good (chip : Chip F) (w : Content F) (region : Nat) (calls : Calls F) : Prop :=
  (∀ k ∈ calls, Enforced w region k) ∧
  ∀ s o, Call.enable s o ∈ calls → ∃ es, (s, es) ∈ chip.gates ∧ ∀ (sel : Selector → Int → Bool), ∀ e ∈ es,
    e.eval sel (w region) (o : Int) = 0

omit [DecidableEq F] in
theorem Good.append {chip : Chip F} {w : Content F} {region : Nat} {a b : Calls F} (ha : Good chip w region a)
    (hb : Good chip w region b) : Good chip w region (a ++ b) :=
  ⟨fun k hk => (List.mem_append.1 hk).elim (ha.1 k) (hb.1 k), fun s o h => (List.mem_append.1 h).elim (ha.2 s o) (hb.2 s o)⟩

omit [DecidableEq F] in
theorem Good.mono {chip chip' : Chip F} {w : Content F} {region : Nat} {a : Calls F} (ha : Good chip w region a)
    (h : ∀ g ∈ chip.gates, g ∈ chip'.gates) : Good chip' w region a :=
  ⟨ha.1, fun s o hm => by
    obtain ⟨es, h1, h2⟩ := ha.2 s o hm
    exact ⟨es, h _ h1, h2⟩⟩

omit [Field F] [DecidableEq F] in
theorem follows_mono {w : Content F} {region : Nat} {a b : Calls F} (h : Follows w region b) (hs : ∀ x ∈ a, x ∈ b) :
    Follows w region a :=
  ⟨fun c o v m => h.1 c o v (hs _ m), fun c o v m => h.2.1 c o v (hs _ m), fun c o v m => h.2.2 c o v (hs _ m)⟩

omit [Field F] [DecidableEq F] in
theorem follows_at {w : Content F} {region : Nat} {calls : Calls F} (h : Follows w region calls) {col o : Nat} {v : F}
    (hm : Call.advice col o (some v) ∈ calls) : w region (.advice col) (o : Int) = v :=
  (Option.some.inj (h.1 _ _ _ hm)).symm

omit [DecidableEq F] in
theorem coords_ne (sm : Smooth b) {P : Pt b} (h : P ≠ 0) : ¬ ((coords P).1 = 0 ∧ (coords P).2 = 0) := fun e =>
  h (coords_injective sm (Prod.ext e.1 e.2))

/-- Double-and-add by an honest prover. -/
theorem doubleAndAdd_honest (sm : Smooth b) {B : Pt b} {q : Nat} (free : ∀ m, 0 < m → m < q → m • B ≠ 0) {c : MulIncomplete}
    {n region offset : Nat} {base acc : EccPoint F} {z : Assigned F} {ks : List Bool} (hn : 0 < n) (hl : ks.length = n)
    {s K : Nat} (hK : K < 2 ^ s) (hq : 3 * 2 ^ (s + n) ≤ q)
    (bx : base.x.value = some (coords B).1) (by' : base.y.value = some (coords B).2)
    (ax : acc.x.value = some (coords (accScalar s K • B)).1) (ay : acc.y.value = some (coords (accScalar s K • B)).2)
    (hz : z.value = some (K : F)) :
    ∃ calls out zs, c.doubleAndAdd n region offset base (ks.map some) acc z = .ok (calls, out, zs) ∧
      out.x.value = some (pointUp B s K ks).1 ∧ out.y.value = some (pointUp B s K ks).2 ∧
      (∀ i (hi : i < zs.length), zs[i].value = some ((bitsUp K (ks.take (i + 1)) : Nat) : F)) ∧
      ∀ w, Follows w region calls → Known w acc.x → Known w acc.y → Known w z →
        Good c.chip w region calls ∧ KnownPoint w out ∧ ∀ a ∈ zs, Known w a := by
  subst hl
  have hpow : 2 * 2 ^ s ≤ 2 ^ (s + ks.length) := by
    rw [mul_comm, ← pow_succ]
    exact Nat.pow_le_pow_right (by norm_num) (by omega)
  have hs1 : 1 ≤ 2 ^ s := Nat.one_le_two_pow
  obtain ⟨hA, hS, n1, n2, -⟩ := row_free free (c := accScalar s K) (by unfold accScalar; omega) (by unfold accScalar; omega) true
  simp only [if_true] at hS n1 n2
  have hno : ((zip4 acc.x.value acc.y.value base.x.value base.y.value).any fun (xA, yA, xP, yP) =>
      (xP = 0 ∧ yP = 0) ∨ (xA = 0 ∧ yA = 0) ∨ xP = xA) = false := by
    rw [ax, ay, bx, by']
    simp only [zip4, Option.any_some, decide_eq_false_iff_not, not_or]
    exact ⟨coords_ne sm hS, coords_ne sm hA, fun e => (same_x hA hS e.symm).elim n1 n2⟩
  obtain ⟨v1, v2, v3, v4, v5⟩ := steps_value free (c := c) (region := region) ks (offset + 1)
    ⟨(copyAdvice region acc.x c.da.xA (offset + 1)).2, acc.y.value, (copyAdvice region z c.z offset).2⟩ s K hK hq ax ay hz
  have hok : ∃ r, c.doubleAndAdd ks.length region offset base (ks.map some) acc z = .ok r := by
    unfold MulIncomplete.doubleAndAdd
    rw [assert_ok.2 (by simp)]
    simp only [bind, Except.bind]
    rw [if_neg (by rw [hno]; simp)]
    exact ⟨_, rfl⟩
  obtain ⟨⟨calls, out, zs⟩, hok⟩ := hok
  have hout : out = ⟨(c.steps region base.x.value base.y.value (offset + 1) ⟨(copyAdvice region acc.x c.da.xA (offset + 1)).2,
        acc.y.value, (copyAdvice region z c.z offset).2⟩ (ks.map some)).2.1.xA,
      ⟨⟨region, offset + 1 + ks.length, .advice c.da.lambda1⟩, (c.steps region base.x.value base.y.value (offset + 1)
        ⟨(copyAdvice region acc.x c.da.xA (offset + 1)).2, acc.y.value, (copyAdvice region z c.z offset).2⟩ (ks.map some)).2.1.yA⟩⟩ ∧
      zs = (c.steps region base.x.value base.y.value (offset + 1) ⟨(copyAdvice region acc.x c.da.xA (offset + 1)).2,
        acc.y.value, (copyAdvice region z c.z offset).2⟩ (ks.map some)).2.2 := by
    have h := hok
    unfold MulIncomplete.doubleAndAdd at h
    obtain ⟨_, h1, h⟩ := bind_ok h
    split at h
    · cases h
    · simp only [pure, Except.pure, Except.ok.injEq, Prod.mk.injEq] at h
      exact ⟨h.2.1.symm, h.2.2.symm⟩
  obtain ⟨-, hcalls, ox, oy, zl, zc⟩ := doubleAndAdd_split hok
  rw [bx, by'] at hcalls hout
  generalize hR : c.steps region (some (coords B).1) (some (coords B).2) (offset + 1)
    ⟨(copyAdvice region acc.x c.da.xA (offset + 1)).2, acc.y.value, (copyAdvice region z c.z offset).2⟩ (ks.map some) = R at *
  obtain ⟨rfl, rfl⟩ := hout
  refine ⟨calls, _, _, hok, v1, v2, v4, fun w hf kx ky kz => ?_⟩
  have two : (2 : F) ≠ 0 := sm.two
  have sub : ∀ x ∈ R.1, x ∈ calls := fun x hx => by
    rw [hcalls]; simp only [List.mem_append]; tauto
  have wrow : ∀ i, ((offset + 1 + i : Nat) : Int) = ((offset + (i + 1) : Nat) : Int) := fun i => by push_cast; ring
  have fz : ∀ i ≤ ks.length, w region (.advice c.z) ((offset + i : Nat) : Int) = ((bitsUp K (ks.take i) : Nat) : F) := by
    rintro (_ | i) hi
    · refine follows_at hf ?_
      rw [hcalls, List.take_zero, show bitsUp K [] = K from rfl, ← hz, Nat.add_zero]
      simp only [List.mem_append, copyAdvice, List.mem_cons]; tauto
    · obtain ⟨l1, l2, -, hw⟩ := v5 i hi
      rw [show offset + (i + 1) = offset + 1 + i by omega]
      exact follows_at hf (sub _ hw.z)
  have fx : ∀ i ≤ ks.length, w region (.advice c.da.xA) ((offset + 1 + i : Nat) : Int) = (pointUp B s K (ks.take i)).1 := by
    rintro (_ | i) hi
    · refine follows_at hf ?_
      rw [hcalls, List.take_zero, pointUp_nil, ← ax]
      simp only [List.mem_append, copyAdvice, List.mem_cons, Nat.add_zero]; tauto
    · obtain ⟨l1, l2, -, hw⟩ := v5 i hi
      exact follows_at hf (sub _ hw.xA)
  have fy0 : w region (.advice c.da.lambda1) (offset : Int) = (pointUp B s K []).2 := by
    refine follows_at hf ?_
    rw [hcalls, pointUp_nil, ← ay]
    simp only [List.mem_append, copyAdvice, List.mem_cons]; tauto
  have fyn : w region (.advice c.da.lambda1) ((offset + 1 + ks.length : Nat) : Int) = (pointUp B s K ks).2 := by
    refine follows_at hf ?_
    rw [hcalls, ← v2]
    simp only [List.mem_append, List.mem_cons]; tauto
  have frow : ∀ i < ks.length, w region (.advice c.da.xP) ((offset + 1 + i : Nat) : Int) = (coords B).1 ∧
      w region (.advice c.yP) ((offset + 1 + i : Nat) : Int) = (coords B).2 ∧
      rowY c w region ((offset + 1 + i : Nat) : Int) = (pointUp B s K (ks.take i)).2 ∧
      Row (coords B).1 (coords B).2 (pointUp B s K (ks.take i)).1 (pointUp B s K (ks.take i)).2
        ((bitsUp K (ks.take i) : Nat) : F) (w region (.advice c.da.lambda1) ((offset + 1 + i : Nat) : Int))
        (w region (.advice c.da.lambda2) ((offset + 1 + i : Nat) : Int)) (pointUp B s K (ks.take (i + 1))).1
        (pointUp B s K (ks.take (i + 1))).2 ((bitsUp K (ks.take (i + 1)) : Nat) : F) := by
    intro i hi
    obtain ⟨l1, l2, hr, hw⟩ := v5 i hi
    have e1 := follows_at hf (sub _ hw.lambda1)
    have e2 := follows_at hf (sub _ hw.lambda2)
    have e3 := follows_at hf (sub _ hw.xP)
    have e4 := follows_at hf (sub _ hw.yP)
    refine ⟨e3, e4, ?_, by rw [e1, e2]; exact hr⟩
    rw [rowY, e1, e2, e3, fx i hi.le, ← hr.y, mul_comm 2, mul_assoc, mul_inv_cancel₀ two, mul_one]
  have loop : ∀ (sel : Selector → Int → Bool) (yNext : Verif.Gadget.Expr F), ∀ i < ks.length,
      yNext.eval sel (w region) ((offset + 1 + i : Nat) : Int) = (pointUp B s K (ks.take (i + 1))).2 →
      ∀ e ∈ c.forLoop yNext, e.eval sel (w region) ((offset + 1 + i : Nat) : Int) = 0 := by
    intro sel yNext i hi hy
    refine (forLoop_iff (c := c) (w := w) (region := region) two).2 ?_
    obtain ⟨g1, g2, g3, g4⟩ := frow i hi
    have r1 : ((offset + 1 + i : Nat) : Int) - 1 = ((offset + i : Nat) : Int) := by push_cast; ring
    have r2 : ((offset + 1 + i : Nat) : Int) + 1 = ((offset + 1 + (i + 1) : Nat) : Int) := by push_cast; ring
    rw [hy, g1, g2, g3, r1, r2, fx i hi.le, fx (i + 1) hi, fz i hi.le, wrow i, fz (i + 1) hi, ← wrow i]
    exact g4
  refine ⟨⟨?_, ?_⟩, ⟨?_, ?_⟩, ?_⟩
  · intro k hk
    rw [hcalls] at hk
    simp only [List.mem_append, copyAdvice, List.mem_cons, List.not_mem_nil, or_false] at hk
    rcases hk with ((((hk | rfl | rfl) | rfl | rfl) | rfl | rfl) | hk) | rfl
    · simp only [MulIncomplete.enables, List.cons_append, List.mem_cons, List.mem_append, List.mem_map, List.not_mem_nil,
        or_false] at hk
      rcases hk with rfl | ⟨_, _, rfl⟩ | rfl <;> trivial
    · trivial
    · have : z.value = some (w.at z.cell) := kz
      rw [hz] at this
      exact (fz 0 (by omega)).trans (Option.some.inj this)
    · trivial
    · have : acc.x.value = some (w.at acc.x.cell) := kx
      rw [ax] at this
      exact (fx 0 (by omega)).trans (Option.some.inj this)
    · trivial
    · have : acc.y.value = some (w.at acc.y.cell) := ky
      rw [ay] at this
      exact fy0.trans (Option.some.inj this)
    · obtain ⟨_, _, _, rfl⟩ := v3 k hk
      trivial
    · trivial
  · intro sl o ho
    have ho : Call.enable sl o ∈ (c.enables ks.length offset : Calls F) := by
      rw [hcalls] at ho
      simp only [List.mem_append, copyAdvice, List.mem_cons, List.not_mem_nil, or_false, reduceCtorEq, or_self] at ho
      rcases ho with ho | ho
      · exact ho
      · obtain ⟨_, _, _, h⟩ := v3 _ ho
        cases h
    simp only [MulIncomplete.enables, List.cons_append, List.mem_cons, List.mem_append, List.mem_map, List.mem_range,
      List.not_mem_nil, or_false, Call.enable.injEq] at ho
    rcases ho with ⟨rfl, rfl⟩ | ⟨i, hi, rfl, rfl⟩ | ⟨rfl, rfl⟩
    · refine ⟨_, List.mem_cons_self, fun sel e he => ?_⟩
      obtain rfl := List.mem_singleton.1 he
      rw [eval_sub, eval_advice, eval_yA, add_zero, fy0]
      have := (frow 0 hn).2.2.1
      rw [Nat.add_zero, List.take_zero] at this
      rw [show (o : Int) + 1 = ((o + 1 : Nat) : Int) by push_cast; ring, this, sub_self]
    · have hi' : i + 1 < ks.length := by omega
      obtain ⟨a1, a2, -⟩ := frow i (by omega)
      obtain ⟨b1, b2, b3, -⟩ := frow (i + 1) hi'
      have r2 : ((offset + 1 + i : Nat) : Int) + 1 = ((offset + 1 + (i + 1) : Nat) : Int) := by push_cast; ring
      refine ⟨_, List.mem_cons_of_mem _ List.mem_cons_self, fun sel e he => ?_⟩
      simp only [List.cons_append, List.nil_append, List.mem_cons] at he
      rcases he with rfl | rfl | he
      · rw [eval_sub, eval_advice, eval_advice, add_zero, a1, r2, b1, sub_self]
      · rw [eval_sub, eval_advice, eval_advice, add_zero, a2, r2, b2, sub_self]
      · refine loop sel _ i (by omega) ?_ e he
        rw [eval_yA, r2]
        exact b3
    · refine ⟨_, List.mem_cons_of_mem _ (List.mem_cons_of_mem _ List.mem_cons_self), fun sel e he => ?_⟩
      have := loop sel (.advice c.da.lambda1 1) (ks.length - 1) (by omega) (by
        rw [eval_advice, show ((offset + 1 + (ks.length - 1) : Nat) : Int) + 1 = ((offset + 1 + ks.length : Nat) : Int) by omega,
          fyn, show ks.length - 1 + 1 = ks.length by omega, List.take_length]) e he
      rwa [show offset + 1 + ks.length - 1 = offset + 1 + (ks.length - 1) by omega]
  · show R.2.1.xA.value = some (w.at R.2.1.xA.cell)
    rw [v1, show R.2.1.xA.cell = _ from ox]
    have := fx ks.length le_rfl
    rw [List.take_length] at this
    exact congrArg some this.symm
  · show R.2.1.yA = some (w region (.advice c.da.lambda1) ((offset + 1 + ks.length : Nat) : Int))
    rw [v2, fyn]
  · intro a ha
    obtain ⟨i, hi, rfl⟩ := List.getElem_of_mem ha
    show R.2.2[i].value = _
    rw [v4 i hi, zc i hi]
    have := fz (i + 1) (by omega)
    exact congrArg some this.symm

end Verif.Lemmas.Ecc

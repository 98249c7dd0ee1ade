import Verif.Model.Verifier
import Mathlib.Tactic.Ring
import Mathlib.Tactic.Linarith

/-!
Facts on the byte encodings.
-/

namespace Verif

theorem leBytes_length (n v : Nat) : (leBytes n v).length = n := by
  induction n generalizing v with
  | zero => rfl
  | succ n ih => simp [leBytes, ih]

theorem leNat_leBytes (n v : Nat) (h : v < 256 ^ n) : leNat (leBytes n v) = v := by
  induction n generalizing v with
  | zero => simp at h; simp [leBytes, leNat, h]
  | succ n ih =>
    have h' : v / 256 < 256 ^ n := by
      rw [Nat.div_lt_iff_lt_mul (by norm_num)]; rw [pow_succ] at h; exact h
    simp only [leBytes, leNat, ih _ h', UInt8.toNat_ofNat']
    omega

theorem leNat_lt (l : List UInt8) : leNat l < 256 ^ l.length := by
  induction l with
  | nil => simp [leNat]
  | cons b l ih =>
    have hb := b.toNat_lt
    simp only [leNat, List.length_cons, pow_succ]
    omega

theorem leBytes_leNat (l : List UInt8) : leBytes l.length (leNat l) = l := by
  induction l with
  | nil => rfl
  | cons b l ih =>
    have hb := b.toNat_lt
    simp only [List.length_cons, leBytes, leNat]
    have e1 : UInt8.ofNat (b.toNat + 256 * leNat l) = b := by
      apply UInt8.toNat_inj.mp
      rw [UInt8.toNat_ofNat']; omega
    have e2 : (b.toNat + 256 * leNat l) / 256 = leNat l := by omega
    rw [e1, e2, ih]

theorem leBytes_of_length {l : List UInt8} {n : Nat} (h : l.length = n) :
    leBytes n (leNat l) = l := by subst h; exact leBytes_leNat l

theorem beNat_beBytes (n v : Nat) (h : v < 256 ^ n) : beNat (beBytes n v) = v := by
  simp [beNat, beBytes, leNat_leBytes n v h]

theorem beBytes_length (n v : Nat) : (beBytes n v).length = n := by
  simp [beBytes, leBytes_length]

theorem beBytes_beNat {l : List UInt8} {n : Nat} (h : l.length = n) :
    beBytes n (beNat l) = l := by
  unfold beBytes beNat
  rw [leBytes_of_length (by simpa using h), List.reverse_reverse]

theorem readExact_append {n : Nat} {a r : List UInt8} (h : a.length = n) :
    readExact n (a ++ r) = some (a, r) := by
  subst h
  simp [readExact]

theorem readExact_some {n : Nat} {r a s : List UInt8} (h : readExact n r = some (a, s)) :
    a.length = n ∧ r = a ++ s := by
  unfold readExact at h
  split_ifs at h with hn
  · obtain ⟨rfl, rfl⟩ : r.take n = a ∧ r.drop n = s := by simpa using h
    refine ⟨by simp; omega, by simp⟩

/-! ### Limbs -/

/-- `sbb` in terms of bits: incoming borrow `e`, outgoing borrow `f`. -/
theorem sbb_bit (a b e : Nat) (ha : a < W64) (hb : b < W64) (he : e ≤ 1) :
    ∃ f ≤ 1, (sbb a b (e * (W64 - 1))).2 = f * (W64 - 1) ∧
      (sbb a b (e * (W64 - 1))).1 + b + e = a + f * W64 ∧
      (sbb a b (e * (W64 - 1))).1 < W64 := by
  simp only [sbb, W64] at *
  have hee : e = 0 ∨ e = 1 := by omega
  by_cases hab : b + e ≤ a
  · refine ⟨0, by omega, ?_⟩
    rcases hee with rfl | rfl <;> norm_num <;> omega
  · refine ⟨1, by omega, ?_⟩
    rcases hee with rfl | rfl <;> norm_num <;> omega

theorem Limbs.isLessThan_iff {x y : Limbs} (hx : x.Ok) (hy : y.Ok) :
    x.isLessThan y = true ↔ x.val < y.val := by
  obtain ⟨x0, x1, x2, x3⟩ := x
  obtain ⟨y0, y1, y2, y3⟩ := y
  obtain ⟨hx0, hx1, hx2, hx3⟩ := hx
  obtain ⟨hy0, hy1, hy2, hy3⟩ := hy
  simp only at hx0 hx1 hx2 hx3 hy0 hy1 hy2 hy3
  obtain ⟨f0, b0, e0, q0, l0⟩ := sbb_bit x0 y0 0 hx0 hy0 (by omega)
  obtain ⟨f1, b1, e1, q1, l1⟩ := sbb_bit x1 y1 f0 hx1 hy1 b0
  obtain ⟨f2, b2, e2, q2, l2⟩ := sbb_bit x2 y2 f1 hx2 hy2 b1
  obtain ⟨f3, b3, e3, q3, l3⟩ := sbb_bit x3 y3 f2 hx3 hy3 b2
  rw [Nat.zero_mul] at e0 q0 l0
  simp only [Limbs.isLessThan, Limbs.val, beq_iff_eq, e0, e1, e2, e3]
  generalize (sbb x3 y3 _).1 = d3 at q3 l3
  generalize (sbb x2 y2 _).1 = d2 at q2 l2
  generalize (sbb x1 y1 _).1 = d1 at q1 l1
  generalize (sbb x0 y0 _).1 = d0 at q0 l0
  clear e0 e1 e2 e3
  have hf : f3 * (W64 - 1) / 2 ^ 63 = f3 := by
    have : f3 = 0 ∨ f3 = 1 := by omega
    rcases this with rfl | rfl <;> norm_num [W64]
  rw [hf]
  simp only [W64] at *
  omega

theorem fqModulus_ok : fqModulus.Ok := by
  simp only [Limbs.Ok, fqModulus, W64]; omega

theorem frModulus_ok : frModulus.Ok := by
  simp only [Limbs.Ok, frModulus, W64]; omega

theorem readLimb_append {v : Nat} (h : v < W64) (r : List UInt8) :
    readLimb (leBytes 8 v ++ r) = some (v, r) := by
  have h' : v < 256 ^ 8 := by simp only [W64] at h; omega
  simp [readLimb, readExact_append (leBytes_length 8 v), leNat_leBytes 8 v h']

theorem readLimb_some {v : Nat} {r s : List UInt8} (h : readLimb r = some (v, s)) :
    v < W64 ∧ r = leBytes 8 v ++ s := by
  unfold readLimb at h
  cases he : readExact 8 r with
  | none => simp [he] at h
  | some p =>
    obtain ⟨b, t⟩ := p
    obtain ⟨hl, rfl⟩ := readExact_some he
    simp only [he, Option.bind_eq_bind, Option.bind_some, Option.some.injEq, Prod.mk.injEq] at h
    obtain ⟨rfl, rfl⟩ := h
    refine ⟨?_, by rw [leBytes_of_length hl]⟩
    have := leNat_lt b
    rw [hl] at this
    simp only [W64]; omega

theorem readRawIf_limbs {lt : Limbs → Bool} {a b c d : Nat} {r0 r1 r2 r3 r4 : List UInt8}
    (h0 : readLimb r0 = some (a, r1)) (h1 : readLimb r1 = some (b, r2))
    (h2 : readLimb r2 = some (c, r3)) (h3 : readLimb r3 = some (d, r4))
    (h : lt ⟨a, b, c, d⟩ = true) :
    readRawIf lt r0 = some (⟨a, b, c, d⟩, r4) := by
  simp [readRawIf, h0, h1, h2, h3, h]

theorem readRawIf_some {lt : Limbs → Bool} {a : Limbs} {r s : List UInt8}
    (h : readRawIf lt r = some (a, s)) : a.Ok ∧ lt a = true ∧ r = writeRaw a ++ s := by
  unfold readRawIf at h
  simp only [Option.bind_eq_bind, Option.bind_eq_some_iff, Prod.exists] at h
  obtain ⟨a0, r0, e0, a1, r1, e1, a2, r2, e2, a3, r3, e3, h⟩ := h
  obtain ⟨h0, rfl⟩ := readLimb_some e0
  obtain ⟨h1, rfl⟩ := readLimb_some e1
  obtain ⟨h2, rfl⟩ := readLimb_some e2
  obtain ⟨h3, rfl⟩ := readLimb_some e3
  split_ifs at h with hl
  simp only [Option.some.injEq, Prod.mk.injEq] at h
  obtain ⟨rfl, rfl⟩ := h
  exact ⟨⟨h0, h1, h2, h3⟩, hl, by simp [writeRaw]⟩

theorem readRaw_append {m a : Limbs} (hm : m.Ok) (ha : a.Ok) (h : a.val < m.val)
    (r : List UInt8) : readRaw m (writeRaw a ++ r) = some (a, r) := by
  have hl := (Limbs.isLessThan_iff ha hm).mpr h
  have e : writeRaw a ++ r = leBytes 8 a.l0 ++ (leBytes 8 a.l1 ++ (leBytes 8 a.l2 ++
      (leBytes 8 a.l3 ++ r))) := by
    unfold writeRaw; simp only [List.append_assoc]
  rw [e]
  exact readRawIf_limbs (lt := fun elt => elt.isLessThan m) (readLimb_append ha.1 _)
    (readLimb_append ha.2.1 _) (readLimb_append ha.2.2.1 _) (readLimb_append ha.2.2.2 _) hl

theorem readRaw_some {m a : Limbs} {r s : List UInt8} (hm : m.Ok)
    (h : readRaw m r = some (a, s)) : a.Ok ∧ a.val < m.val ∧ r = writeRaw a ++ s := by
  obtain ⟨ok, hl, e⟩ := readRawIf_some (lt := fun elt => elt.isLessThan m) h
  exact ⟨ok, (Limbs.isLessThan_iff ok hm).mp hl, e⟩

theorem writeRaw_length (a : Limbs) : (writeRaw a).length = 32 := by
  simp [writeRaw, leBytes_length]

/-- A stored base field element: limbs below the modulus. -/
def FqStored (a : Limbs) : Prop := a.Ok ∧ a.val < fqModulus.val

/-- A point whose coordinates are stored base field elements. -/
def G1Raw.Stored (p : G1Raw) : Prop := FqStored p.x ∧ FqStored p.y

/-- A point of the second group whose coordinates are stored base field elements. -/
def G2Raw.Stored (p : G2Raw) : Prop :=
  FqStored p.x.c0 ∧ FqStored p.x.c1 ∧ FqStored p.y.c0 ∧ FqStored p.y.c1

theorem readPair_append {α β : Type} {f : List UInt8 → Option (α × List UInt8)}
    {mk : α → α → β} {x y : α} {a b c : List UInt8}
    (hx : f a = some (x, b)) (hy : f b = some (y, c)) :
    readPair f mk a = some (mk x y, c) := by
  simp [readPair, hx, hy]

theorem readPair_some {α β : Type} {f : List UInt8 → Option (α × List UInt8)}
    {mk : α → α → β} {z : β} {r s : List UInt8} (h : readPair f mk r = some (z, s)) :
    ∃ x y t, f r = some (x, t) ∧ f t = some (y, s) ∧ z = mk x y := by
  unfold readPair at h
  simp only [Option.bind_eq_bind, Option.bind_eq_some_iff, Prod.exists] at h
  obtain ⟨a0, r0, e0, a1, r1, e1, h⟩ := h
  simp only [Option.some.injEq, Prod.mk.injEq] at h
  obtain ⟨rfl, rfl⟩ := h
  exact ⟨_, _, _, e0, e1, rfl⟩

theorem readG1_append {p : G1Raw} (h : p.Stored) (r : List UInt8) :
    readG1 (writeG1 p ++ r) = some (p, r) := by
  unfold writeG1
  rw [List.append_assoc]
  exact readPair_append (readRaw_append fqModulus_ok h.1.1 h.1.2 _)
    (readRaw_append fqModulus_ok h.2.1 h.2.2 _)

theorem readG1_some {p : G1Raw} {r s : List UInt8} (h : readG1 r = some (p, s)) :
    p.Stored ∧ r = writeG1 p ++ s := by
  obtain ⟨x, y, t, e0, e1, rfl⟩ := readPair_some h
  obtain ⟨o0, l0, rfl⟩ := readRaw_some fqModulus_ok e0
  obtain ⟨o1, l1, rfl⟩ := readRaw_some fqModulus_ok e1
  exact ⟨⟨⟨o0, l0⟩, o1, l1⟩, by unfold writeG1; rw [List.append_assoc]⟩

theorem readFq2_append {p : Fq2Raw} (h0 : FqStored p.c0) (h1 : FqStored p.c1) (r : List UInt8) :
    readFq2 (writeFq2 p ++ r) = some (p, r) := by
  unfold writeFq2
  rw [List.append_assoc]
  exact readPair_append (readRaw_append fqModulus_ok h0.1 h0.2 _)
    (readRaw_append fqModulus_ok h1.1 h1.2 _)

theorem readFq2_some {p : Fq2Raw} {r s : List UInt8} (h : readFq2 r = some (p, s)) :
    FqStored p.c0 ∧ FqStored p.c1 ∧ r = writeFq2 p ++ s := by
  obtain ⟨x, y, t, e0, e1, rfl⟩ := readPair_some h
  obtain ⟨o0, l0, rfl⟩ := readRaw_some fqModulus_ok e0
  obtain ⟨o1, l1, rfl⟩ := readRaw_some fqModulus_ok e1
  exact ⟨⟨o0, l0⟩, ⟨o1, l1⟩, by unfold writeFq2; rw [List.append_assoc]⟩

theorem readG2_append {p : G2Raw} (h : p.Stored) (r : List UInt8) :
    readG2 (writeG2 p ++ r) = some (p, r) := by
  unfold writeG2
  rw [List.append_assoc]
  exact readPair_append (readFq2_append h.1 h.2.1 _) (readFq2_append h.2.2.1 h.2.2.2 _)

theorem readG2_some {p : G2Raw} {r s : List UInt8} (h : readG2 r = some (p, s)) :
    p.Stored ∧ r = writeG2 p ++ s := by
  obtain ⟨x, y, t, e0, e1, rfl⟩ := readPair_some h
  obtain ⟨o0, o0', rfl⟩ := readFq2_some e0
  obtain ⟨o1, o1', rfl⟩ := readFq2_some e1
  exact ⟨⟨o0, o0', o1, o1'⟩, by unfold writeG2; rw [List.append_assoc]⟩

theorem readMany_append {α : Type} {f : List UInt8 → Option (α × List UInt8)}
    {w : α → List UInt8} {l : List α} {n : Nat} (hn : l.length = n)
    (h : ∀ a ∈ l, ∀ r, f (w a ++ r) = some (a, r)) (r : List UInt8) :
    readMany f n (l.flatMap w ++ r) = some (l, r) := by
  subst hn
  induction l with
  | nil => rfl
  | cons a l ih =>
    simp only [List.length_cons, readMany, List.flatMap_cons, List.append_assoc]
    rw [h a (by simp)]
    simp [ih (fun a ha => h a (by simp [ha]))]

theorem readMany_some {α : Type} {f : List UInt8 → Option (α × List UInt8)}
    {w : α → List UInt8} {P : α → Prop}
    (hf : ∀ a r s, f r = some (a, s) → P a ∧ r = w a ++ s)
    {n : Nat} {l : List α} {r s : List UInt8} (h : readMany f n r = some (l, s)) :
    l.length = n ∧ (∀ a ∈ l, P a) ∧ r = l.flatMap w ++ s := by
  induction n generalizing l r with
  | zero =>
    simp only [readMany, Option.some.injEq, Prod.mk.injEq] at h
    obtain ⟨rfl, rfl⟩ := h
    simp
  | succ n ih =>
    simp only [readMany, Option.bind_eq_bind, Option.bind_eq_some_iff, Prod.exists] at h
    obtain ⟨a, r0, e0, l', r1, e1, h⟩ := h
    simp only [Option.some.injEq, Prod.mk.injEq] at h
    obtain ⟨rfl, rfl⟩ := h
    obtain ⟨pa, rfl⟩ := hf _ _ _ e0
    obtain ⟨hl, hp, rfl⟩ := ih e1
    refine ⟨by simp [hl], ?_, by simp⟩
    intro b hb
    rcases List.mem_cons.mp hb with rfl | hb
    · exact pa
    · exact hp b hb

end Verif

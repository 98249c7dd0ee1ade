import Verif.Model.VerifyingKey
import Verif.Lemmas.BytesLemmas
import Verif.Lemmas.CompressSound

/-! Reading back what was written for a verifying key (helper lemmas). -/

namespace Verif

open Spec Compress

/-! ### Stored scalars -/

theorem frModulus_val : frModulus.val = P := by decide +kernel

theorem ofNat_ok (v : Nat) : (Limbs.ofNat v).Ok := by
  refine ⟨?_, ?_, ?_, ?_⟩ <;> exact Nat.mod_lt _ (by decide)

theorem ofNat_val {v : Nat} (h : v < W64 ^ 4) : (Limbs.ofNat v).val = v := by
  simp only [Limbs.val, Limbs.ofNat, W64] at *
  omega

theorem two256_ne : ((2 ^ 256 : Nat) : Fr) ≠ 0 := by
  rw [Ne, ZMod.natCast_eq_zero_iff]
  decide +kernel

theorem toStored_val (x : Fr) : x.toStored.val = (x * ((2 ^ 256 : Nat) : Fr)).val := by
  unfold Fr.toStored
  refine ofNat_val ?_
  have h1 := ZMod.val_lt (x * ((2 ^ 256 : Nat) : Fr))
  have h2 : P < W64 ^ 4 := by decide
  omega

theorem toStored_lt (x : Fr) : x.toStored.val < frModulus.val := by
  rw [toStored_val, frModulus_val]
  exact ZMod.val_lt _

theorem ofStored_toStored (x : Fr) : Fr.ofStored x.toStored = x := by
  unfold Fr.ofStored
  rw [toStored_val, ZMod.natCast_val, ZMod.cast_id, mul_assoc, mul_inv_cancel₀ two256_ne, mul_one]

theorem toStored_ofStored {l : Limbs} (h : l.Ok) (hl : l.val < frModulus.val) :
    (Fr.ofStored l).toStored = l := by
  have hv : (Fr.ofStored l).toStored.val = l.val := by
    rw [toStored_val]
    unfold Fr.ofStored
    rw [mul_assoc, inv_mul_cancel₀ two256_ne, mul_one]
    exact ZMod.val_cast_of_lt (by rw [← frModulus_val]; exact hl)
  have hok : (Fr.ofStored l).toStored.Ok := ofNat_ok _
  revert hv hok
  generalize (Fr.ofStored l).toStored = m
  intro hv hok
  obtain ⟨a, b, c, d⟩ := l
  obtain ⟨a', b', c', d'⟩ := m
  simp only [Limbs.val, Limbs.Ok, W64] at *
  simp only [Limbs.mk.injEq]
  omega

theorem readFr_append (x : Fr) (r : List UInt8) : readFr (writeFr x ++ r) = some (x, r) := by
  unfold readFr writeFr
  have hok : x.toStored.Ok := ofNat_ok _
  rw [readRaw_append frModulus_ok hok (toStored_lt x)]
  simp [ofStored_toStored]

theorem readFr_some {x : Fr} {r s : List UInt8} (h : readFr r = some (x, s)) :
    r = writeFr x ++ s := by
  unfold readFr at h
  rw [Option.map_eq_some_iff] at h
  obtain ⟨⟨l, t⟩, h1, h2⟩ := h
  obtain ⟨hok, hlt, rfl⟩ := readRaw_some frModulus_ok h1
  cases h2
  unfold writeFr
  rw [toStored_ofStored hok hlt]

/-! ### Numbers -/

theorem be32_length (x : Nat) : (be32 x).length = 4 := beBytes_length _ _
theorem beI32_length (x : Int) : (beI32 x).length = 4 := beBytes_length _ _
theorem writeFr_length (x : Fr) : (writeFr x).length = 32 := writeRaw_length _

theorem readU32_append {x : Nat} (h : x < 2 ^ 32) (r : List UInt8) :
    readU32 (be32 x ++ r) = some (x, r) := by
  unfold readU32 be32
  rw [readExact_append (beBytes_length _ _)]
  simp [beNat_beBytes 4 x (by omega)]

theorem readU32_some {x : Nat} {r s : List UInt8} (h : readU32 r = some (x, s)) :
    x < 2 ^ 32 ∧ r = be32 x ++ s := by
  unfold readU32 at h
  rw [Option.map_eq_some_iff] at h
  obtain ⟨⟨l, t⟩, h1, h2⟩ := h
  obtain ⟨hl, rfl⟩ := readExact_some h1
  cases h2
  have := leNat_lt l.reverse
  rw [List.length_reverse, hl] at this
  refine ⟨by unfold beNat; omega, ?_⟩
  unfold be32
  rw [beBytes_beNat hl]

theorem readI32_append {x : Int} (h : -2 ^ 31 ≤ x) (h' : x < 2 ^ 31) (r : List UInt8) :
    readI32 (beI32 x ++ r) = some (x, r) := by
  have e : beI32 x = be32 (x % 2 ^ 32).toNat := rfl
  unfold readI32
  rw [e, readU32_append (by omega)]
  simp only [Option.map_some, Option.some.injEq, Prod.mk.injEq, and_true]
  split_ifs with hc <;> omega

theorem readI32_some {x : Int} {r s : List UInt8} (h : readI32 r = some (x, s)) :
    -2 ^ 31 ≤ x ∧ x < 2 ^ 31 ∧ r = beI32 x ++ s := by
  unfold readI32 at h
  rw [Option.map_eq_some_iff] at h
  obtain ⟨⟨l, t⟩, h1, h2⟩ := h
  obtain ⟨hl, rfl⟩ := readU32_some h1
  simp only [Prod.mk.injEq] at h2
  obtain ⟨rfl, rfl⟩ := h2
  refine ⟨by split_ifs <;> omega, by split_ifs <;> omega, ?_⟩
  unfold beI32 be32
  congr 2
  split_ifs <;> omega

theorem readU8_append {x : Nat} (h : x < 256) (r : List UInt8) :
    readU8 (leBytes 1 x ++ r) = some (x, r) := by
  unfold readU8
  rw [readExact_append (leBytes_length _ _)]
  simp [leNat_leBytes 1 x (by omega)]

theorem readU8_cons (b : UInt8) (r : List UInt8) : readU8 (b :: r) = some (b.toNat, r) := by
  unfold readU8
  rw [show b :: r = [b] ++ r from rfl, readExact_append (n := 1) rfl]
  simp [leNat]

/-! ### Expressions -/

/-- The numbers of the expression fit in the bytes written for them. -/
def WExpr.InRange : WExpr → Prop
  | const _ => True
  | selector s => s.index < 2 ^ 32
  | fixed i c r => i < 2 ^ 32 ∧ c < 2 ^ 32 ∧ -2 ^ 31 ≤ r ∧ r < 2 ^ 31
  | advice i c r p => i < 2 ^ 32 ∧ c < 2 ^ 32 ∧ -2 ^ 31 ≤ r ∧ r < 2 ^ 31 ∧ p < 256
  | instance_ i c r => i < 2 ^ 32 ∧ c < 2 ^ 32 ∧ -2 ^ 31 ≤ r ∧ r < 2 ^ 31
  | challenge i p => i < 2 ^ 32 ∧ p < 256
  | neg a => a.InRange
  | sum a b => a.InRange ∧ b.InRange
  | product a b => a.InRange ∧ b.InRange
  | scaled a _ => a.InRange

theorem WExpr.write_pos (e : WExpr) : 0 < e.write.length := by
  cases e <;> simp [WExpr.write]

theorem WExpr.read_const (f : Nat) (r : List UInt8) : WExpr.read (f + 1) (0 :: r) =
    (readFr r).bind fun p => some (const p.1, p.2) := by
  rw [WExpr.read, readU8_cons]; rfl

theorem WExpr.read_selector (f : Nat) (r : List UInt8) : WExpr.read (f + 1) (1 :: r) =
    (readU32 r).bind fun p => (readU8 p.2).bind fun q => some (selector ⟨p.1, q.1 != 0⟩, q.2) := by
  rw [WExpr.read, readU8_cons]; rfl

theorem WExpr.read_fixed (f : Nat) (r : List UInt8) : WExpr.read (f + 1) (2 :: r) =
    (readU32 r).bind fun p => (readU32 p.2).bind fun q => (readI32 q.2).bind fun t =>
      some (fixed p.1 q.1 t.1, t.2) := by
  rw [WExpr.read, readU8_cons]; rfl

theorem WExpr.read_advice (f : Nat) (r : List UInt8) : WExpr.read (f + 1) (3 :: r) =
    (readU32 r).bind fun p => (readU32 p.2).bind fun q => (readI32 q.2).bind fun t =>
      (readU8 t.2).bind fun u => some (advice p.1 q.1 t.1 u.1, u.2) := by
  rw [WExpr.read, readU8_cons]; rfl

theorem WExpr.read_instance (f : Nat) (r : List UInt8) : WExpr.read (f + 1) (4 :: r) =
    (readU32 r).bind fun p => (readU32 p.2).bind fun q => (readI32 q.2).bind fun t =>
      some (instance_ p.1 q.1 t.1, t.2) := by
  rw [WExpr.read, readU8_cons]; rfl

theorem WExpr.read_challenge (f : Nat) (r : List UInt8) : WExpr.read (f + 1) (5 :: r) =
    (readU32 r).bind fun p => (readU8 p.2).bind fun q => some (challenge p.1 q.1, q.2) := by
  rw [WExpr.read, readU8_cons]; rfl

theorem WExpr.read_neg (f : Nat) (r : List UInt8) : WExpr.read (f + 1) (6 :: r) =
    (WExpr.read f r).bind fun p => some (neg p.1, p.2) := by
  rw [WExpr.read, readU8_cons]; rfl

theorem WExpr.read_sum (f : Nat) (r : List UInt8) : WExpr.read (f + 1) (7 :: r) =
    (WExpr.read f r).bind fun p => (WExpr.read f p.2).bind fun q => some (sum p.1 q.1, q.2) := by
  rw [WExpr.read, readU8_cons]; rfl

theorem WExpr.read_product (f : Nat) (r : List UInt8) : WExpr.read (f + 1) (8 :: r) =
    (WExpr.read f r).bind fun p => (WExpr.read f p.2).bind fun q =>
      some (product p.1 q.1, q.2) := by
  rw [WExpr.read, readU8_cons]; rfl

theorem WExpr.read_scaled (f : Nat) (r : List UInt8) : WExpr.read (f + 1) (9 :: r) =
    (WExpr.read f r).bind fun p => (readFr p.2).bind fun q => some (scaled p.1 q.1, q.2) := by
  rw [WExpr.read, readU8_cons]; rfl

theorem WExpr.read_append (e : WExpr) (h : e.InRange) (fuel : Nat) (hf : e.write.length ≤ fuel)
    (r : List UInt8) : WExpr.read fuel (e.write ++ r) = some (e, r) := by
  induction e generalizing fuel r with
  | const c =>
    obtain ⟨f, rfl⟩ : ∃ f, fuel = f + 1 := ⟨fuel - 1, by have := write_pos (const c); omega⟩
    rw [WExpr.write, List.cons_append, WExpr.read_const, readFr_append]; rfl
  | selector s =>
    obtain ⟨f, rfl⟩ : ∃ f, fuel = f + 1 := ⟨fuel - 1, by have := write_pos (selector s); omega⟩
    obtain ⟨i, b⟩ := s
    rw [WExpr.write, List.cons_append, List.append_assoc, WExpr.read_selector, readU32_append h,
      Option.bind_some, List.singleton_append, readU8_cons, Option.bind_some]
    cases b <;> rfl
  | fixed i c rot =>
    obtain ⟨f, rfl⟩ : ∃ f, fuel = f + 1 := ⟨fuel - 1, by have := write_pos (fixed i c rot); omega⟩
    obtain ⟨h1, h2, h3, h4⟩ := h
    rw [WExpr.write, List.cons_append, List.append_assoc, List.append_assoc, WExpr.read_fixed,
      readU32_append h1, Option.bind_some, readU32_append h2, Option.bind_some,
      readI32_append h3 h4, Option.bind_some]
  | advice i c rot p =>
    obtain ⟨f, rfl⟩ : ∃ f, fuel = f + 1 := ⟨fuel - 1, by have := write_pos (advice i c rot p); omega⟩
    obtain ⟨h1, h2, h3, h4, h5⟩ := h
    rw [WExpr.write, List.cons_append, List.append_assoc, List.append_assoc, List.append_assoc,
      WExpr.read_advice,
      readU32_append h1, Option.bind_some, readU32_append h2, Option.bind_some,
      readI32_append h3 h4, Option.bind_some, readU8_append h5, Option.bind_some]
  | instance_ i c rot =>
    obtain ⟨f, rfl⟩ : ∃ f, fuel = f + 1 := ⟨fuel - 1, by have := write_pos (instance_ i c rot); omega⟩
    obtain ⟨h1, h2, h3, h4⟩ := h
    rw [WExpr.write, List.cons_append, List.append_assoc, List.append_assoc, WExpr.read_instance,
      readU32_append h1, Option.bind_some, readU32_append h2, Option.bind_some,
      readI32_append h3 h4, Option.bind_some]
  | challenge i p =>
    obtain ⟨f, rfl⟩ : ∃ f, fuel = f + 1 := ⟨fuel - 1, by have := write_pos (challenge i p); omega⟩
    obtain ⟨h1, h2⟩ := h
    rw [WExpr.write, List.cons_append, List.append_assoc, WExpr.read_challenge,
      readU32_append h1, Option.bind_some, readU8_append h2, Option.bind_some]
  | neg a iha =>
    obtain ⟨f, rfl⟩ : ∃ f, fuel = f + 1 := ⟨fuel - 1, by have := write_pos (neg a); omega⟩
    simp only [WExpr.write, List.length_cons] at hf
    rw [WExpr.write, List.cons_append, WExpr.read_neg, iha h f (by omega)]; rfl
  | sum a b iha ihb =>
    obtain ⟨f, rfl⟩ : ∃ f, fuel = f + 1 := ⟨fuel - 1, by have := write_pos (sum a b); omega⟩
    simp only [WExpr.write, List.length_cons, List.length_append] at hf
    rw [WExpr.write, List.cons_append, List.append_assoc, WExpr.read_sum, iha h.1 f (by omega),
      Option.bind_some, ihb h.2 f (by omega)]; rfl
  | product a b iha ihb =>
    obtain ⟨f, rfl⟩ : ∃ f, fuel = f + 1 := ⟨fuel - 1, by have := write_pos (product a b); omega⟩
    simp only [WExpr.write, List.length_cons, List.length_append] at hf
    rw [WExpr.write, List.cons_append, List.append_assoc, WExpr.read_product, iha h.1 f (by omega),
      Option.bind_some, ihb h.2 f (by omega)]; rfl
  | scaled a g iha =>
    obtain ⟨f, rfl⟩ : ∃ f, fuel = f + 1 := ⟨fuel - 1, by have := write_pos (scaled a g); omega⟩
    simp only [WExpr.write, List.length_cons, List.length_append] at hf
    rw [WExpr.write, List.cons_append, List.append_assoc, WExpr.read_scaled, iha h f (by omega),
      Option.bind_some, readFr_append]; rfl

/-- The numbers of the assignment fit in the bytes written for them. -/
def WAssignment.InRange (a : WAssignment) : Prop :=
  a.selector < 2 ^ 32 ∧ a.combinationIndex < 2 ^ 32 ∧ a.expression.InRange

theorem WAssignment.read_append {a : WAssignment} (h : a.InRange) (r : List UInt8) :
    WAssignment.read (a.write ++ r) = some (a, r) := by
  obtain ⟨h1, h2, h3⟩ := h
  unfold WAssignment.read WAssignment.write
  simp only [List.append_assoc]
  rw [readU32_append h1]
  simp only [Option.bind_eq_bind, Option.bind_some]
  rw [readU32_append h2]
  simp only [Option.bind_some]
  rw [WExpr.read_append _ h3 _ (by simp; omega)]
  rfl

theorem erase_ofExpr (cs : CS) (e : Expr) : (WExpr.ofExpr cs e).erase = e := by
  induction e <;> simp_all [WExpr.ofExpr, WExpr.erase]

theorem erase_ofAssignment (cs : CS) (a : SelectorAssignment) :
    (WAssignment.ofAssignment cs a).erase = a := by
  simp [WAssignment.ofAssignment, WAssignment.erase, erase_ofExpr]

/-! ### The whole key -/

theorem VerifyingKey.read_append {checks : Bool} {fuel : Nat} {cs : CS} {vk : VerifyingKey}
    (hk : vk.domain.k < 2 ^ 32)
    (hd : Domain.new checks fuel cs.degree vk.domain.k = .ok vk.domain)
    (hfl : vk.fixedCommitments.length < 2 ^ 32)
    (hf : ∀ p ∈ vk.fixedCommitments, p.Stored)
    (hpl : vk.permutation.length = cs.permutation.length)
    (hp : ∀ p ∈ vk.permutation, p.Stored)
    (hal : vk.selectorAssignments.length < 2 ^ 32)
    (ha : ∀ a ∈ vk.selectorAssignments, a.InRange)
    (hr : cs.recreate (vk.selectorAssignments.map WAssignment.erase) = .ok vk.cs)
    (rest : List UInt8) :
    VerifyingKey.read checks fuel cs (vk.write ++ rest) = .ok (some (vk, rest)) := by
  unfold VerifyingKey.read VerifyingKey.write
  simp only [List.append_assoc]
  rw [readU32_append hk]
  simp only [ioBind, hd, bind, Except.bind]
  rw [readU32_append hfl]
  simp only
  rw [readMany_append rfl (fun a h r => readG1_append (hf a h) r)]
  simp only
  rw [readMany_append hpl (fun a h r => readG1_append (hp a h) r)]
  simp only
  rw [readU32_append hal]
  simp only
  rw [readMany_append rfl (fun a h r => WAssignment.read_append (ha a h) r)]
  simp only [hr]

theorem replacement_inRange (cs : CS) (query : Expr) (h : (WExpr.ofExpr cs query).InRange)
    (len i : Nat) : (WExpr.ofExpr cs (replacement query len i)).InRange := by
  unfold replacement
  generalize List.range len = l
  have key : ∀ (l : List Nat) (e : Expr), (WExpr.ofExpr cs e).InRange →
      (WExpr.ofExpr cs (l.foldl (fun e j => if root j ≠ root i then
        e * (.const (root j) - query) else e) e)).InRange := by
    intro l
    induction l with
    | nil => intro e he; exact he
    | cons j l ih =>
      intro e he
      rw [List.foldl_cons]
      apply ih
      split_ifs
      · exact ⟨he, trivial, h⟩
      · exact he
  exact key l query h

/-! ### What a key that has been read can contain -/

theorem replaceSelectors_eq {rs : List Expr} {b : Bool} (e : Expr) {out : Expr}
    (h : e.replaceSelectors rs b = .ok out) :
    out = e.subst rs ∧ ∀ s ∈ selectorsIn e, s.index < rs.length := by
  induction e generalizing out with
  | selector s =>
    rw [Expr.replaceSelectors] at h
    split_ifs at h
    cases hs : rs[s.index]? with
    | none => rw [hs] at h; cases h
    | some x =>
      rw [hs] at h; cases h
      refine ⟨?_, ?_⟩
      · show _ = rs.getD s.index (.const 0)
        rw [List.getD_eq_getElem?_getD, hs]; rfl
      · intro t ht
        rw [selectorsIn, List.mem_singleton] at ht
        subst ht
        exact (List.getElem?_eq_some_iff.1 hs).1
  | neg a iha =>
    rw [Expr.replaceSelectors, except_bind] at h
    obtain ⟨x, hx, h⟩ := h
    cases h
    obtain ⟨rfl, h2⟩ := iha hx
    exact ⟨rfl, h2⟩
  | scaled a f iha =>
    rw [Expr.replaceSelectors, except_bind] at h
    obtain ⟨x, hx, h⟩ := h
    cases h
    obtain ⟨rfl, h2⟩ := iha hx
    exact ⟨rfl, h2⟩
  | sum a b iha ihb =>
    rw [Expr.replaceSelectors, except_bind] at h
    obtain ⟨x, hx, h⟩ := h
    rw [except_bind] at h
    obtain ⟨y, hy, h⟩ := h
    split_ifs at h
    cases h
    obtain ⟨rfl, h2⟩ := iha hx
    obtain ⟨rfl, h3⟩ := ihb hy
    refine ⟨rfl, fun s hs => ?_⟩
    rcases List.mem_append.1 hs with hs | hs
    · exact h2 s hs
    · exact h3 s hs
  | product a b iha ihb =>
    rw [Expr.replaceSelectors, except_bind] at h
    obtain ⟨x, hx, h⟩ := h
    rw [except_bind] at h
    obtain ⟨y, hy, h⟩ := h
    split_ifs at h
    cases h
    obtain ⟨rfl, h2⟩ := iha hx
    obtain ⟨rfl, h3⟩ := ihb hy
    refine ⟨rfl, fun s hs => ?_⟩
    rcases List.mem_append.1 hs with hs | hs
    · exact h2 s hs
    · exact h3 s hs
  | const c => cases h; exact ⟨rfl, by simp [selectorsIn]⟩
  | fixed c r => cases h; exact ⟨rfl, by simp [selectorsIn]⟩
  | advice c r => cases h; exact ⟨rfl, by simp [selectorsIn]⟩
  | instance_ c r => cases h; exact ⟨rfl, by simp [selectorsIn]⟩
  | challenge i => cases h; exact ⟨rfl, by simp [selectorsIn]⟩

theorem mapM_eq {α β : Type} {f : α → Except Panic β} {h : α → β} {l : List α} {out : List β}
    (hf : ∀ x ∈ l, ∀ y, f x = .ok y → y = h x) (ho : l.mapM f = .ok out) : out = l.map h := by
  induction l generalizing out with
  | nil => cases ho; rfl
  | cons x l ih =>
    rw [List.mapM_cons, except_bind] at ho
    obtain ⟨y, hy, ho⟩ := ho
    rw [except_bind] at ho
    obtain ⟨ys, hys, ho⟩ := ho
    cases ho
    rw [hf x (by simp) y hy, ih (fun z hz => hf z (List.mem_cons_of_mem _ hz)) hys]
    rfl

theorem mapM_all {α β : Type} {f : α → Except Panic β} {l : List α} {out : List β}
    (ho : l.mapM f = .ok out) : ∀ x ∈ l, ∃ y, f x = .ok y := by
  induction l generalizing out with
  | nil => simp
  | cons x l ih =>
    rw [List.mapM_cons, except_bind] at ho
    obtain ⟨y, hy, ho⟩ := ho
    rw [except_bind] at ho
    obtain ⟨ys, hys, ho⟩ := ho
    intro z hz
    rcases List.mem_cons.1 hz with rfl | hz
    · exact ⟨y, hy⟩
    · exact ih hys z hz

theorem substitute_eq {cs out : CS} {rs : List Expr} (h : cs.substitute rs = .ok out) :
    out = cs.replaced rs ∧
      ∀ e ∈ cs.gates.flatten, ∀ s ∈ selectorsIn e, s.index < rs.length := by
  unfold CS.substitute at h
  rw [except_bind] at h
  obtain ⟨gs, hg, h⟩ := h
  rw [except_bind] at h
  obtain ⟨ls, hl, h⟩ := h
  cases h
  constructor
  · unfold CS.replaced
    congr 1
    · refine mapM_eq ?_ hg
      intro g _ y hy
      exact mapM_eq (fun e _ x hx => (replaceSelectors_eq e hx).1) hy
    · refine mapM_eq ?_ hl
      intro l _ y hy
      rw [except_bind] at hy
      obtain ⟨i, hi, hy⟩ := hy
      rw [except_bind] at hy
      obtain ⟨t, ht, hy⟩ := hy
      cases hy
      rw [mapM_eq (fun e _ x hx => (replaceSelectors_eq e hx).1) hi,
        mapM_eq (fun e _ x hx => (replaceSelectors_eq e hx).1) ht]
  · intro e he
    obtain ⟨g, hgm, heg⟩ := List.mem_flatten.1 he
    obtain ⟨y, hy⟩ := mapM_all hg g hgm
    obtain ⟨x, hx⟩ := mapM_all hy e heg
    exact (replaceSelectors_eq e hx).2

theorem recreateLoop_cs (cs : CS) (as : List SelectorAssignment) : ∀ (m : Nat) (new : List Nat)
    (r : CS × List (Nat × Nat)), CS.recreateLoop as (cs.allocMany m) new = .ok r →
    ∃ k, r.1 = cs.allocMany k := by
  induction as with
  | nil => intro m new r h; cases h; exact ⟨m, rfl⟩
  | cons a as ih =>
    intro m new r h
    rw [CS.recreateLoop] at h
    split at h
    · cases h
    · rename_i c hc
      rcases hq : CS.recreateLoop as
          (if a.combinationIndex ≥ new.length then (cs.allocMany m).allocFixed else cs.allocMany m)
          (if a.combinationIndex ≥ new.length then new ++ [(cs.allocMany m).numFixed] else new) with _ | q
      · rw [hq] at h; cases h
      · rw [hq] at h
        cases h
        split_ifs at hq
        · exact ih (m + 1) _ q hq
        · exact ih m _ q hq

theorem fill_fold_mem {α : Type} (entries : List (Nat × α)) : ∀ (v w : List (Option α)),
    entries.foldlM (fun (v : List (Option α)) e =>
        if e.1 < v.length then Except.ok (v.set e.1 (some e.2)) else .error Panic.index) v = .ok w →
      w.length = v.length ∧
      ∀ (i : Nat) (x : α), w[i]? = some (some x) → v[i]? = some (some x) ∨ (i, x) ∈ entries := by
  induction entries with
  | nil => intro v w h; cases h; exact ⟨rfl, fun i x h => .inl h⟩
  | cons e entries ih =>
    intro v w h
    rw [List.foldlM_cons] at h
    split_ifs at h with he
    · obtain ⟨h1, h2⟩ := ih (v.set e.1 (some e.2)) w h
      refine ⟨by rw [h1, List.length_set], fun i x hx => ?_⟩
      rcases h2 i x hx with h3 | h3
      · by_cases hi : e.1 = i
        · subst hi
          rw [List.getElem?_set_self he] at h3
          cases h3
          exact .inr (by simp)
        · rw [List.getElem?_set_ne hi] at h3
          exact .inl h3
      · exact .inr (List.mem_cons_of_mem _ h3)
    · cases h

theorem fillVec_eq {α : Type} {len : Nat} {entries : List (Nat × α)} {v : List α}
    (h : fillVec len entries = .ok v) :
    v.length = len ∧ ∀ (i : Nat) (x : α), v[i]? = some x → (i, x) ∈ entries := by
  unfold fillVec at h
  rw [except_bind] at h
  obtain ⟨w, hw, h⟩ := h
  obtain ⟨h1, h2⟩ := fill_fold_mem _ _ _ hw
  rw [List.length_replicate] at h1
  have hmap : ∀ (w : List (Option α)) (v : List α), w.mapM (fun o => match o with
    | some x => Except.ok x
    | none => .error Panic.unwrap) = .ok v → w = v.map some := by
    intro w
    induction w with
    | nil => intro v h; cases h; rfl
    | cons o w ih =>
      intro v h
      rw [List.mapM_cons, except_bind] at h
      obtain ⟨x, hx, h⟩ := h
      rw [except_bind] at h
      obtain ⟨xs, hxs, h⟩ := h
      cases h
      rw [ih _ hxs]
      cases o with
      | none => cases hx
      | some y => cases hx; rfl
  have hw' := hmap w v h
  refine ⟨by rw [← h1, hw', List.length_map], fun i x hx => ?_⟩
  rcases h2 i x (by rw [hw', List.getElem?_map, hx]; rfl) with h3 | h3
  · exfalso
    have := List.mem_of_getElem? h3
    rw [List.mem_replicate] at this
    cases this.2
  · exact h3

theorem recreate_eq {cs : CS} {as : List SelectorAssignment} {c : CS.Compressed}
    (h : cs.recreate as = .ok c) :
    ∃ (k : Nat) (rs : List Expr), c.cs = (cs.allocMany k).replaced rs ∧ rs.length = as.length ∧
      (∀ (i : Nat) (x : Expr), rs[i]? = some x → ∃ a ∈ as, a.selector = i ∧ a.expression = x) ∧
      ∀ e ∈ cs.gates.flatten, ∀ s ∈ selectorsIn e, s.index < rs.length := by
  unfold CS.recreate at h
  rw [except_bind] at h
  obtain ⟨r, h1, h⟩ := h
  rw [except_bind] at h
  obtain ⟨map, h2, h⟩ := h
  rw [except_bind] at h
  obtain ⟨rs, h3, h⟩ := h
  rw [except_bind] at h
  obtain ⟨out, h4, h⟩ := h
  cases h
  obtain ⟨k, hk⟩ := recreateLoop_cs cs as 0 [] r h1
  obtain ⟨h5, h6⟩ := substitute_eq h4
  obtain ⟨h7, h8⟩ := fillVec_eq h3
  refine ⟨k, rs, by rw [h5, hk], h7, ?_, ?_⟩
  · intro i x hx
    obtain ⟨a, ha, he⟩ := List.mem_map.1 (h8 i x hx)
    simp only [Prod.mk.injEq] at he
    exact ⟨a, ha, he.1, he.2⟩
  · intro e he
    refine h6 e ?_
    obtain ⟨qs, hqs⟩ := allocMany_same cs k
    rw [hk, hqs]
    exact he

/-- The value read is a key as described. -/
theorem VerifyingKey.read_some {checks : Bool} {fuel : Nat} {cs : CS} {r rest : List UInt8}
    {vk : VerifyingKey} (h : VerifyingKey.read checks fuel cs r = .ok (some (vk, rest))) :
    (∃ k, Domain.new checks fuel cs.degree k = .ok vk.domain) ∧
      vk.permutation.length = cs.permutation.length ∧
      cs.recreate (vk.selectorAssignments.map WAssignment.erase) = .ok vk.cs := by
  unfold VerifyingKey.read at h
  cases h0 : readU32 r with
  | none => rw [h0] at h; cases h
  | some p0 =>
    obtain ⟨k, r0⟩ := p0
    rw [h0] at h
    simp only [ioBind] at h
    rw [except_bind] at h
    obtain ⟨d, hd, h⟩ := h
    cases h1 : readU32 r0 with
    | none => rw [h1] at h; cases h
    | some p1 =>
    obtain ⟨nf, r1⟩ := p1
    rw [h1] at h
    simp only at h
    cases h2 : readMany readG1 nf r1 with
    | none => rw [h2] at h; cases h
    | some p2 =>
    obtain ⟨f, r2⟩ := p2
    rw [h2] at h
    simp only at h
    cases h3 : readMany readG1 cs.permutation.length r2 with
    | none => rw [h3] at h; cases h
    | some p3 =>
    obtain ⟨pm, r3⟩ := p3
    rw [h3] at h
    simp only at h
    cases h4 : readU32 r3 with
    | none => rw [h4] at h; cases h
    | some p4 =>
    obtain ⟨len, r4⟩ := p4
    rw [h4] at h
    simp only at h
    cases h5 : readMany WAssignment.read len r4 with
    | none => rw [h5] at h; cases h
    | some p5 =>
    obtain ⟨as, r5⟩ := p5
    rw [h5] at h
    simp only at h
    rw [except_bind] at h
    obtain ⟨c, hc, h⟩ := h
    cases h
    refine ⟨⟨k, hd⟩, ?_, hc⟩
    exact (readMany_some (w := fun p => writeG1 p) (P := fun p => p.Stored)
      (fun a r s hh => readG1_some hh) h3).1

/-! ### Selector expressions that are zero -/

/-- The expression is zero once all selectors are. -/
def Expr.dead : Expr → Bool
  | .selector _ => true
  | .neg a => a.dead
  | .sum a b => a.dead && b.dead
  | .product a b => a.dead || b.dead
  | .scaled a _ => a.dead
  | _ => false

theorem dead_eval {rs : List Expr} (hrs : ∀ i, rs.getD i (.const 0) = .const 0) {n : Nat} {g : Grid}
    {row : Nat} (e : Expr) (h : e.dead = true) : (e.subst rs).eval n g row = 0 := by
  induction e with
  | selector s =>
    show (rs.getD s.index (.const 0)).eval n g row = 0
    rw [hrs]; rfl
  | neg a ih => show -_ = _; rw [ih h, neg_zero]
  | sum a b iha ihb =>
    simp only [Expr.dead, Bool.and_eq_true] at h
    show _ + _ = _; rw [iha h.1, ihb h.2, add_zero]
  | product a b iha ihb =>
    simp only [Expr.dead, Bool.or_eq_true] at h
    show _ * _ = _
    rcases h with h | h
    · rw [iha h, zero_mul]
    · rw [ihb h, mul_zero]
  | scaled a f ih => show _ * _ = _; rw [ih h, zero_mul]
  | const c => cases h
  | fixed c r => cases h
  | advice c r => cases h
  | instance_ c r => cases h
  | challenge i => cases h

end Verif

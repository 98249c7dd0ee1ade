import Verif.Spec.SinsemillaCommit
import Verif.Lemmas.SinsemillaShown
import Verif.Lemmas.SinsemillaKeys
import Verif.Lemmas.EccFixedShown
import Verif.Lemmas.EccFixedKeys
import Verif.Lemmas.MerkleHonest
import Verif.Props.EccFixed
import Verif.Props.Sinsemilla
import Verif.Props.Ecc

/-! Sinsemilla commitments in circuits. -/

namespace Verif.Lemmas.SinsemillaCommit

open Verif.Gadget Verif.Spec.Gadget Verif.Spec Verif.Spec.Ecc Verif.Spec.EccFixed Verif.Spec.Sinsemilla Verif.Spec.SinsemillaCommit
open Verif.Lemmas.Gadget Verif.Lemmas.Ecc Verif.Lemmas.Sinsemilla Verif.Lemmas.Merkle Verif.Props
open Verif.FloorPlanner (Call)
open Verif.Spec.Pow5 (SatAll FollowsAll)

variable {c : CommitDomain pallasBase} {start : Nat} {pieces : List (Piece pallasBase)}

/-- What a commitment is made of. -/
theorem commit_split {r : MulFull.ScalarFixed pallasBase vestaBase} {regions : List (Calls Fp)} {out : EccPoint Fp}
    {zss : List (List (Assigned Fp))} (h : c.commit start pieces r = .ok (regions, out, zss)) :
    ∃ r0 r1 blind windows calls point, c.mul.assign start r.value c.R = .ok ([r0, r1], blind, windows) ∧
      c.hash.hashToPoint c.S (start + 2) c.Q pieces = .ok (calls, point, zss) ∧
      regions = [r0, r1, calls, (c.mul.sup.add.assign (start + 3) point blind 0).1] ∧
      out = (c.mul.sup.add.assign (start + 3) point blind 0).2 := by
  unfold CommitDomain.commit at h
  obtain ⟨⟨rs, blind, after⟩, h1, h⟩ := bind_ok h
  obtain ⟨⟨calls, point, zs⟩, h2, h⟩ := bind_ok h
  simp only [pure, Except.pure, Except.ok.injEq, Prod.mk.injEq] at h
  obtain ⟨rfl, rfl, rfl⟩ := h
  unfold MulFull.mul at h1
  split at h1
  · cases h1
  · obtain ⟨⟨rs', blind', windows⟩, h3, h1⟩ := bind_ok h1
    simp only [pure, Except.pure, Except.ok.injEq, Prod.mk.injEq] at h1
    obtain ⟨rfl, rfl, -⟩ := h1
    obtain ⟨c0, ks, c1, acc, mulB, -, -, -, rfl, -⟩ := full_split h3
    exact ⟨_, _, _, _, _, _, h3, h2, rfl, rfl⟩

theorem commit_of {r : Option (ZMod vestaBase)} {r0 r1 calls : Calls Fp} {blind point : EccPoint Fp}
    {windows : List (Assigned Fp)} {zss : List (List (Assigned Fp))}
    (h1 : c.mul.assign start r c.R = .ok ([r0, r1], blind, windows))
    (h2 : c.hash.hashToPoint c.S (start + 2) c.Q pieces = .ok (calls, point, zss)) :
    c.commit start pieces (.new r) = .ok ([r0, r1, calls, (c.mul.sup.add.assign (start + 3) point blind 0).1],
      (c.mul.sup.add.assign (start + 3) point blind 0).2, zss) := by
  unfold CommitDomain.commit MulFull.mul MulFull.ScalarFixed.new
  simp only [h1, h2, bind, Except.bind, pure, Except.pure]
  rfl

theorem sat_off {chip : Chip Fp} {table : Nat → List Fp} {w : Content Fp} {region : Nat} {calls : Calls Fp}
    (he : ∀ k ∈ calls, Enforced w region k) (hl : chip.lookups = []) (hg : ∀ g ∈ chip.gates, ∀ r, Call.enable g.1 r ∉ calls) :
    Sat chip table w region calls :=
  ⟨he, gates_of fun g hm _ _ o ho => absurd ho (hg g hm o), fun l h => by rw [hl] at h; cases h⟩

theorem window_enable {m : MulFixed} {n region offset i : Nat} {base : FixedBase pallasBase} {k s : Option Nat} {calls : Calls Fp}
    {out : EccPoint Fp} (h : m.processWindow n region offset i base k s = .ok (calls, out)) (sel : Selector) (o : Nat) :
    Call.enable sel o ∉ calls := by
  unfold MulFixed.processWindow at h
  obtain ⟨_, -, h⟩ := bind_ok h
  obtain ⟨_, -, h⟩ := bind_ok h
  obtain ⟨_, -, h⟩ := bind_ok h
  simp only [pure, Except.pure, Except.ok.injEq, Prod.mk.injEq] at h
  obtain ⟨rfl, -⟩ := h
  simp [assignAdvice]

theorem inc_enable {a : AddIncomplete} {region offset : Nat} {P Q out : EccPoint Fp} {calls : Calls Fp}
    (h : a.assign region P Q offset = .ok (calls, out)) {sel : Selector} {o : Nat} (hm : Call.enable sel o ∈ calls) :
    sel = a.qAddIncomplete := by
  unfold AddIncomplete.assign at h
  simp only at h
  split at h
  · cases h
  · simp only [Except.ok.injEq, Prod.mk.injEq] at h
    obtain ⟨rfl, -⟩ := h
    simp [assignAdvice, copyAdvice] at hm
    exact hm.1

theorem windows_enable {m : MulFixed} {n region offset : Nat} {base : FixedBase pallasBase} :
    ∀ (ks : List (Option (ZMod vestaBase))) (i : Nat) (acc : EccPoint Fp) (calls : Calls Fp) (out : EccPoint Fp),
    m.addWindows n region offset base i acc ks = .ok (calls, out) → ∀ sel o, Call.enable sel o ∈ calls →
      sel = m.addIncomplete.qAddIncomplete
  | [], i, acc, calls, out, h, sel, o, hm => by
    simp only [MulFixed.addWindows, Except.ok.injEq, Prod.mk.injEq] at h
    obtain ⟨rfl, -⟩ := h
    cases hm
  | k :: ks, i, acc, calls, out, h, sel, o, hm => by
    unfold MulFixed.addWindows at h
    obtain ⟨⟨c1, B⟩, h1, h⟩ := bind_ok h
    obtain ⟨⟨c2, acc2⟩, h2, h⟩ := bind_ok h
    obtain ⟨⟨c3, acc3⟩, h3, h⟩ := bind_ok h
    simp only [pure, Except.pure, Except.ok.injEq, Prod.mk.injEq] at h
    obtain ⟨rfl, -⟩ := h
    rcases List.mem_append.1 hm with hm | hm
    · rcases List.mem_append.1 hm with hm | hm
      · exact absurd hm (window_enable h1 _ _)
      · exact inc_enable h2 hm
    · exact windows_enable ks _ _ _ _ h3 sel o hm

theorem inner_enable {m : MulFixed} {n region offset : Nat} {base : FixedBase pallasBase} {toggle : Selector}
    {ks : List (Option (ZMod vestaBase))} {calls : Calls Fp} {acc B : EccPoint Fp}
    (h : m.inner n region offset base toggle ks = .ok (calls, acc, B)) {sel : Selector} {o : Nat} (hm : Call.enable sel o ∈ calls) :
    sel = toggle ∨ sel = m.addIncomplete.qAddIncomplete := by
  unfold MulFixed.inner at h
  obtain ⟨fixed, h0, h⟩ := bind_ok h
  split at h
  · obtain ⟨⟨c0, a0⟩, h1, h⟩ := bind_ok h
    obtain ⟨_, -, h⟩ := bind_ok h
    obtain ⟨⟨c1, a1⟩, h2, h⟩ := bind_ok h
    obtain ⟨⟨c2, a2⟩, h3, h⟩ := bind_ok h
    simp only [pure, Except.pure, Except.ok.injEq, Prod.mk.injEq] at h
    obtain ⟨rfl, -⟩ := h
    rcases List.mem_append.1 hm with hm | hm
    · rcases List.mem_append.1 hm with hm | hm
      · rcases List.mem_append.1 hm with hm | hm
        · exact Or.inl (fixed_enable h0 hm).1
        · exact absurd hm (window_enable h1 _ _)
      · exact Or.inr (windows_enable _ _ _ _ _ h2 _ _ hm)
    · exact absurd hm (window_enable h3 _ _)
  · cases h

/-- The selectors enabled by a multiplication. -/
theorem full_enable {m : MulFull} {scalar : Option (ZMod vestaBase)} {base : FixedBase pallasBase} {regions : List (Calls Fp)}
    {out : EccPoint Fp} {windows : List (Assigned Fp)} (h : m.assign start scalar base = .ok (regions, out, windows)) {calls : Calls Fp}
    (hc : calls ∈ regions) {sel : Selector} {o : Nat} (hm : Call.enable sel o ∈ calls) :
    sel = m.qFull ∨ sel = m.sup.addIncomplete.qAddIncomplete ∨ sel = m.sup.add.qAdd := by
  obtain ⟨c0, ks, c1, acc, B, h1, -, h3, rfl, -⟩ := full_split h
  simp only [List.mem_cons, List.not_mem_nil, or_false] at hc
  rcases hc with rfl | rfl
  · rcases List.mem_append.1 hm with hm | hm
    · obtain ⟨_, -, -, -, e⟩ := witness_cells h1
      rw [e] at hm
      simp only [List.mem_append, List.mem_map, reduceCtorEq, and_false, exists_false, or_false, Call.enable.injEq] at hm
      obtain ⟨_, -, e, -⟩ := hm
      exact Or.inl e.symm
    · rcases inner_enable h3 hm with e | e
      · exact Or.inl e
      · exact Or.inr (Or.inl e)
  · exact Or.inr (Or.inr (add_enable.1 hm).1)

/-- No two of the selectors of both chips are the same. -/
def Distinct (c : CommitDomain pallasBase) : Prop :=
  [c.hash.qS1, c.hash.qS4, c.mul.qFull, c.mul.sup.runningSum.qRangeCheck, c.mul.sup.add.qAdd,
    c.mul.sup.addIncomplete.qAddIncomplete].Nodup

theorem commit_sound {mul : Chip Fp} (hchip : c.mul.chip (5 : Fp) = .ok mul) {G : Nat → Pt (5 : Fp)} (hS : Generators c.S G)
    {Q B : Pt (5 : Fp)} (hQ : c.Q = affine Q) (hB : B ≠ 0) (t : TableOf 85 B c.R) (hne : pieces ≠ [])
    (hp : ∀ piece ∈ pieces, Made piece) {r : MulFull.ScalarFixed pallasBase vestaBase} {regions : List (Calls Fp)}
    {out : EccPoint Fp} {zss : List (List (Assigned Fp))} (h : c.commit start pieces r = .ok (regions, out, zss))
    {table : Nat → List Fp} {w : Content Fp} (hs : Meets c mul table w start regions) :
    ∃ mss : List (List Nat), ∃ k < 8 ^ 85, List.Forall₂ (WordsOf w) pieces mss ∧ List.Forall₂ (SumsOf w) zss mss ∧
      ∀ P, commitOf G Q B mss.flatten k = some P → Holds w out P := by
  obtain ⟨r0, r1, blind, windows, calls, point, h1, h2, rfl, rfl⟩ := commit_split h
  have s01 : SatAll mul table w start [r0, r1] := by
    intro i hi
    have hi' : i = 0 ∨ i = 1 := by simp at hi; omega
    rcases hi' with rfl | rfl
    · exact (hs 0 (by simp)).1
    · exact (hs 1 (by simp)).1
  obtain ⟨-, d, hd, -, hb⟩ := C112_sound c.mul mul hchip B hB c.R t start _ _ _ _ h1 table w s01
  rw [hQ] at h2
  obtain ⟨mss, m1, m2, m3⟩ := C118_sound c.hash c.S G hS Q pieces hne hp (start + 2) calls point zss h2 table w
    (hs 2 (by simp)).2.1 (hs 2 (by simp)).2.2
  have hsum : ∑ i ∈ Finset.range 85, d i * 8 ^ i < 8 ^ 85 := by
    have : ∀ n, ∑ i ∈ Finset.range n, d i * 8 ^ i < 8 ^ n := by
      intro n
      induction n with
      | zero => simp
      | succ n ih =>
        rw [Finset.sum_range_succ, pow_succ]
        have := Nat.mul_le_mul_right (8 ^ n) (show d n ≤ 7 from by have := hd n; omega)
        omega
    exact this 85
  refine ⟨mss, _, hsum, m1, m2, fun P hP => ?_⟩
  obtain ⟨H, hH, rfl⟩ := Option.map_eq_some_iff.1 hP
  have s3 : Sat c.mul.sup.add.chip table w (start + 3) (c.mul.sup.add.assign (start + 3) point blind 0).1 :=
    sat_mono (fun g hg => by
      obtain ⟨-, g2, -⟩ := full_chip hchip
      exact g2 g hg) (fun l hl => by cases hl) (hs 3 (by simp)).1
  exact C107_sound usable_pallas c.mul.sup.add (start + 3) 0 point blind table w s3 H _ (m3 H hH) hb

theorem commit_complete {mul : Chip Fp} (hchip : c.mul.chip (5 : Fp) = .ok mul) (hd : Distinct c) {G : Nat → Pt (5 : Fp)}
    (hS : Generators c.S G) {Q B P : Pt (5 : Fp)} (hQ : c.Q = affine Q) (hQ0 : Q ≠ 0) (hB : B ≠ 0) (t : TableOf 85 B c.R)
    {mss : List (List Nat)} (hne : pieces ≠ []) (hp : ∀ piece ∈ pieces, Made piece ∧ 0 < piece.numWords)
    (hw : List.Forall₂ (fun piece ms => ms.length = piece.numWords ∧ (∀ m ∈ ms, m < 1024) ∧
      ∃ x, piece.value.value = some x ∧ x.val = Nat.ofDigits 1024 ms) pieces mss) (r : ZMod vestaBase)
    (h : commitOf G Q B mss.flatten r.val = some P) (table : Nat → List Fp) :
    ∃ regions out zss, c.commit start pieces (.new (some r)) = .ok (regions, out, zss) ∧ ∀ w, FollowsAll w start regions →
      (∀ piece ∈ pieces, Known w piece.value) → Meets c mul table w start regions ∧ KnownPoint w out ∧ Holds w out P := by
  obtain ⟨H, hH, rfl⟩ := Option.map_eq_some_iff.1 h
  unfold Distinct at hd
  simp only [List.nodup_cons, List.mem_cons, List.not_mem_nil, or_false, not_or, not_false_eq_true, List.nodup_nil, and_true] at hd
  obtain ⟨⟨n12, n13, n14, n15, n16⟩, ⟨n23, n24, n25, n26⟩, ⟨n34, n35, n36⟩, ⟨n45, n46⟩, n56⟩ := hd
  obtain ⟨rs, blind, windows, h1, g1⟩ := C112_complete c.mul mul hchip
    (by unfold FixedDistinct; simp [n34, n35, n36, n45, n46, n56]) B hB c.R t start r table
  obtain ⟨calls, point, zss, h2, g2⟩ := C118_complete c.hash n12 c.S G hS Q H hQ0 pieces mss hne hp hw hH (start + 2) table
  obtain ⟨c0, ks, c1, acc, mB, -, -, -, rfl, -⟩ := full_split h1
  rw [← hQ] at h2
  have e01 := @full_enable start c.mul _ _ _ _ _ h1
  have e2 := (hashToPoint_parts h2).1
  refine ⟨_, _, _, commit_of h1 h2, fun w hf hk => ?_⟩
  obtain ⟨s01, kb, hb⟩ := g1 w (fun i hi => by
    have hi' : i = 0 ∨ i = 1 := by simp at hi; omega
    rcases hi' with rfl | rfl
    · exact hf 0 (by simp)
    · exact hf 1 (by simp))
  obtain ⟨s2, l2, kp, hpt⟩ := g2 w (hf 2 (by simp)) hk
  obtain ⟨s3, ko⟩ := C107_complete usable_pallas c.mul.sup.add (start + 3) 0 point blind table w H _ kp kb hpt hb (hf 3 (by simp))
  have ho := C107_sound usable_pallas c.mul.sup.add (start + 3) 0 point blind table w s3 H _ hpt hb
  obtain ⟨hl, hg⟩ := full_gates hchip
  have sel : ∀ g ∈ mul.gates, g.1 = c.mul.sup.runningSum.qRangeCheck ∨ g ∈ (c.mul.sup.add.chip : Chip Fp).gates ∨
      g.1 = c.mul.sup.addIncomplete.qAddIncomplete ∨ g.1 = c.mul.qFull := by
    intro g hm
    rcases hg g hm with e | e | e | e
    · exact Or.inl e
    · right; left; rw [e]; simp [AddComplete.chip]
    · exact Or.inr (Or.inr (Or.inl (inc_selector e)))
    · right; right; right; rw [e]
  have none : ∀ region calls, (∀ r, Call.enable c.hash.qS1 r ∉ calls) →
      LooksUp (c.hash.lookup c.S) (Sinsemilla.load c.S) w region calls := fun region calls h =>
    looksUp_of smooth_five.two hS fun r hr => absurd hr (h r)
  have off : ∀ region calls, (∀ k ∈ calls, Enforced w region k) → (∀ s o, Call.enable s o ∈ calls →
      s = c.mul.qFull ∨ s = c.mul.sup.addIncomplete.qAddIncomplete ∨ s = c.mul.sup.add.qAdd) →
      Sat c.hash.chip table w region calls ∧ LooksUp (c.hash.lookup c.S) (Sinsemilla.load c.S) w region calls := by
    intro region calls he hen
    refine ⟨sat_off he rfl fun g hm r hr => ?_, none _ _ fun r hr => ?_⟩
    · simp only [Sinsemilla.chip, List.mem_cons, List.not_mem_nil, or_false] at hm
      rcases hm with rfl | rfl <;> rcases hen _ _ hr with e | e | e <;> exact absurd e (by assumption)
    · rcases hen _ _ hr with e | e | e <;> exact absurd e (by assumption)
  refine ⟨?_, ko, ho⟩
  intro i hi
  have hi' : i = 0 ∨ i = 1 ∨ i = 2 ∨ i = 3 := by simp at hi; omega
  rcases hi' with rfl | rfl | rfl | rfl
  · exact ⟨s01 0 (by simp), off _ _ (s01 0 (by simp)).enforced fun s o hm => e01 List.mem_cons_self hm⟩
  · exact ⟨s01 1 (by simp), off _ _ (s01 1 (by simp)).enforced fun s o hm => e01 (List.mem_cons_of_mem _ List.mem_cons_self) hm⟩
  · refine ⟨sat_off s2.enforced hl fun g hm r hr => ?_, s2, l2⟩
    have := e2 _ _ hr
    rcases sel g hm with e | e | e | e
    · rw [e] at this; rcases this with e | e <;> exact absurd e.symm (by assumption)
    · simp only [AddComplete.chip, List.mem_singleton] at e
      rw [e] at this; rcases this with e | e <;> exact absurd e.symm (by assumption)
    · rw [e] at this; rcases this with e | e <;> exact absurd e.symm (by assumption)
    · rw [e] at this; rcases this with e | e <;> exact absurd e.symm (by assumption)
  · refine ⟨⟨s3.enforced, gates_of fun g hm e he o ho => ?_, fun l h => by rw [hl] at h; cases h⟩,
      off _ _ s3.enforced fun s o hm => Or.inr (Or.inr (add_enable.1 hm).1)⟩
    have ea := (add_enable.1 ho).1
    rcases sel g hm with e' | e' | e' | e'
    · exact absurd (e'.symm.trans ea) n45
    · exact sat_gate s3 e' he ho
    · exact absurd (ea.symm.trans e') n56
    · exact absurd (e'.symm.trans ea) n35

theorem commit_total {Q B : Pt (5 : Fp)} (hQ : c.Q = affine Q) (hQ0 : Q ≠ 0) (t : TableOf 85 B c.R) (hne : pieces ≠ [])
    (hp : ∀ piece ∈ pieces, 0 < piece.numWords ∧ piece.value.value = none) :
    ∃ regions out zss, c.commit (q := vestaBase) start pieces (.new none) = .ok (regions, out, zss) := by
  obtain ⟨rs, blind, windows, h1⟩ := C112_runs c.mul B c.R t start
  obtain ⟨calls, point, zss, h2⟩ := C118_runs c.hash c.S Q hQ0 pieces hne hp (start + 2)
  obtain ⟨c0, ks, c1, acc, mB, -, -, -, rfl, -⟩ := full_split h1
  rw [← hQ] at h2
  exact ⟨_, _, _, commit_of h1 h2⟩

/-! An example. -/

/-- The row of the sum. -/
def sumRows : List (List Nat) := [
  [0x8e5ae8bb13ce7d5ca4a2cef78506729955b0ddaca884cb807c8541144d2193,
    0x1fca408a56f8166b23fecc6166f43b67655bd06d3532744de22fd3a130f6c1fe,
    0x330aaaecedffbd4ccd1e2d490ddb9ffdb3d7db2a600cb15d46fb61f4fd700ed1,
    0x470a2a2a4ab53eedb1671ab21adb4b908f751349a7926d827446ca1e8709285,
    0xdcc685388e954f966c0fdffc47b61c5f07216d04117232ddcb06bad2becdf84,
    0x9fead78e99dccf598592bd202d5c30bb34af5c6d832fdfda8a4ef95a80b1786,
    0x1ca8bb5b5a953a145c6945ad333729a14791e24c8a2425c35247746e4c2a76f9,
    0xb4c77e3ebffd8a9bc965d389c346748d80a66ac6b08a2cb25b9287116bba6d5,
    0x0],
  [0, 0, 0x236215c2a213cd4f6c233314a92b70cd22fffad4de717f680f1ffbfd0573e72d,
    0x3d5283adfd7312aef8e6aeb6e536553002f51b8061a4da22ead9fd27f33efc5b]]

/-- The columns as in the examples of both chips. -/
def demoCommit : CommitDomain pallasBase := ⟨demoFull, { demo with qS4 := ⟨9, true⟩, qS1 := ⟨10, false⟩ }, generatorTable, some (-1, 2), fullBase⟩

/-- Five times (-1, 2) in regions 0 and 1, the hash of 3, 700 and 1023 in region 2, their sum in region 3, and the pieces in
region 4. -/
def commitCells : Content Fp
  | 2, col, r => sampleCells 0 col r
  | 4, col, r => sampleCells 1 col r
  | i, col, r => cellsOf fullBase [five0, five1, [], sumRows] i col r

def commitPieces (a b : Option Fp) : List (Piece pallasBase) :=
  [⟨⟨⟨4, 0, .advice 0⟩, a⟩, 2⟩, ⟨⟨⟨4, 1, .advice 0⟩, b⟩, 1⟩]

def checkCommit : Bool :=
  match demoFull.chip (5 : Fp), demoCommit.commit (q := vestaBase) 0 (commitPieces none none) (.new none) with
  | .ok chip, .ok (regions, _) => regionsOk chip commitCells 0 regions && regionsOk demoCommit.hash.chip commitCells 0 regions &&
    regions.zipIdx.all fun (calls, i) => calls.all (lookupOk demoCommit.hash generatorTable commitCells (0 + i))
  | _, _ => false

theorem commit_check : checkCommit = true := by decide +kernel

theorem commit_meets {table : Nat → List Fp} : ∃ chip regions out zss, demoFull.chip (5 : Fp) = .ok chip ∧
    demoCommit.commit (q := vestaBase) 0 (commitPieces none none) (.new none) = .ok (regions, out, zss) ∧
    Meets demoCommit chip table commitCells 0 regions := by
  have h := commit_check
  unfold checkCommit at h
  split at h
  case h_2 => cases h
  rename_i chip regions o hc ha
  simp only [Bool.and_eq_true] at h
  refine ⟨chip, regions, o.1, o.2, hc, ha, fun i hi => ⟨regions_sat h.1.1 (full_gates hc).1 i hi, regions_sat h.1.2 rfl i hi, ?_⟩⟩
  have hm : (regions[i], i) ∈ regions.zipIdx := by
    rw [List.mem_zipIdx_iff_getElem?]
    exact List.getElem?_eq_getElem hi
  exact lookupOk_looksUp gen_table (List.all_eq_true.1 h.2 _ hm)

end Verif.Lemmas.SinsemillaCommit

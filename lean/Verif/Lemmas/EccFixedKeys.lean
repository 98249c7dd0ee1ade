import Verif.Lemmas.EccFixedDone
import Verif.Lemmas.EccMulKeys

/-! What the multiplication of a fixed point calls does not depend on values; it does not fail while they are unknown. -/

namespace Verif.Lemmas.Ecc

open Verif.Gadget Verif.Spec.Gadget Verif.Spec Verif.Spec.Ecc Verif.Spec.EccFixed Verif.Lemmas.Gadget
open Verif.FloorPlanner (Call)

section inner

variable {c : MulFixed} {n region offset : Nat} {base : FixedBase pallasBase}

theorem processWindow_same {i : Nat} {k scalar k' scalar' : Option Nat} {calls calls' : Calls Fp} {out out' : EccPoint Fp}
    (h : c.processWindow n region offset i base k scalar = .ok (calls, out))
    (h' : c.processWindow n region offset i base k' scalar' = .ok (calls', out')) :
    List.Forall₂ SameCall calls calls' ∧ SameCells out out' := by
  obtain ⟨-, m, u, -, -, rfl, rfl⟩ := processWindow_ok h
  obtain ⟨-, m', u', -, -, rfl, rfl⟩ := processWindow_ok h'
  exact ⟨.cons (.advice ..) (.cons (.advice ..) (.cons (.advice ..) .nil)), rfl, rfl⟩

theorem addWindows_same : ∀ (ks ks' : List (Option (ZMod vestaBase))) (i : Nat) (acc acc' : EccPoint Fp) (calls calls' : Calls Fp)
    (out out' : EccPoint Fp), ks.length = ks'.length → SameCells acc acc' →
    c.addWindows n region offset base i acc ks = .ok (calls, out) →
    c.addWindows n region offset base i acc' ks' = .ok (calls', out') →
    List.Forall₂ SameCall calls calls' ∧ SameCells out out'
  | [], [], i, acc, acc', calls, calls', out, out', _, ha, h, h' => by
    simp only [MulFixed.addWindows, Except.ok.injEq, Prod.mk.injEq] at h h'
    obtain ⟨rfl, rfl⟩ := h
    obtain ⟨rfl, rfl⟩ := h'
    exact ⟨.nil, ha⟩
  | k :: ks, k' :: ks', i, acc, acc', calls, calls', out, out', hl, ha, h, h' => by
    unfold MulFixed.addWindows at h h'
    obtain ⟨⟨c1, m⟩, h1, h⟩ := bind_ok h
    obtain ⟨⟨c2, a⟩, h2, h⟩ := bind_ok h
    obtain ⟨⟨c3, r⟩, h3, h⟩ := bind_ok h
    obtain ⟨⟨c1', m'⟩, h1', h'⟩ := bind_ok h'
    obtain ⟨⟨c2', a'⟩, h2', h'⟩ := bind_ok h'
    obtain ⟨⟨c3', r'⟩, h3', h'⟩ := bind_ok h'
    simp only [pure, Except.pure, Except.ok.injEq, Prod.mk.injEq] at h h'
    obtain ⟨rfl, rfl⟩ := h
    obtain ⟨rfl, rfl⟩ := h'
    obtain ⟨i1, i2⟩ := processWindow_same h1 h1'
    obtain ⟨xr, yr, rfl, rfl, -, -⟩ := incomplete_ok h2
    obtain ⟨xr', yr', rfl, rfl, -, -⟩ := incomplete_ok h2'
    obtain ⟨j1, j2⟩ := addWindows_same ks ks' (i + 1) _ _ _ _ _ _ (by simpa using hl) (by constructor <;> rfl) h3 h3'
    exact ⟨List.rel_append (List.rel_append i1 (incomplete_same i2 ha)) j1, j2⟩
  | [], _ :: _, _, _, _, _, _, _, _, hl, _, _, _ => by simp at hl
  | _ :: _, [], _, _, _, _, _, _, _, hl, _, _, _ => by simp at hl

theorem inner_same {toggle : Selector} {ks ks' : List (Option (ZMod vestaBase))} {calls calls' : Calls Fp}
    {acc acc' mulB mulB' : EccPoint Fp} (h : c.inner n region offset base toggle ks = .ok (calls, acc, mulB))
    (h' : c.inner n region offset base toggle ks' = .ok (calls', acc', mulB')) :
    List.Forall₂ SameCall calls calls' ∧ SameCells acc acc' ∧ SameCells mulB mulB' := by
  obtain ⟨hl, -, fixed, c0, c1, c2, acc0, first, last, h1, -, -, h2, h3, h4, rfl⟩ := inner_split h
  obtain ⟨hl', -, fixed', c0', c1', c2', acc0', first', last', h1', -, -, h2', h3', h4', rfl⟩ := inner_split h'
  obtain rfl : fixed = fixed' := Except.ok.inj (h1.symm.trans h1')
  obtain ⟨i1, i2⟩ := processWindow_same h2 h2'
  obtain ⟨j1, j2⟩ := addWindows_same _ _ _ _ _ _ _ _ _ (by simp [hl, hl']) i2 h3 h3'
  obtain ⟨k1, k2⟩ := processWindow_same h4 h4'
  exact ⟨List.rel_append (List.rel_append (List.rel_append (List.forall₂_same.2 fun x _ => .refl x) i1) j1) k1, j2, k2⟩

theorem processWindow_total {i : Nat} (hu : base.u.length = n) : ∃ calls out,
    c.processWindow n region offset i base none none = .ok (calls, out) ∧ out.x.value = none := by
  unfold MulFixed.processWindow
  rw [assert_ok.2 (by simpa using hu)]
  exact ⟨_, _, rfl, rfl⟩

theorem addWindows_total (hu : base.u.length = n) : ∀ (m i : Nat) (acc : EccPoint Fp),
    ∃ r, c.addWindows (q := vestaBase) n region offset base i acc (List.replicate m none) = .ok r
  | 0, i, acc => ⟨_, rfl⟩
  | m + 1, i, acc => by
    obtain ⟨c1, o1, h1, h2⟩ := processWindow_total (c := c) (region := region) (offset := offset) (i := i) hu
    have hex : ¬ Exceptional o1 acc := by
      rintro ⟨xp, yp, xq, yq, e, -⟩
      rw [h2] at e; cases e
    obtain ⟨xr, yr, h3, -, -⟩ := (incomplete_error (c := c.addIncomplete) (region := region) (offset := offset + i)).2 hex
    obtain ⟨r, h4⟩ := addWindows_total hu m (i + 1) ⟨⟨⟨region, offset + i + 1, .advice c.addIncomplete.xQR⟩, xr⟩,
      ⟨⟨region, offset + i + 1, .advice c.addIncomplete.yQR⟩, yr⟩⟩
    refine ⟨(c1 ++ incompleteCalls c.addIncomplete region o1 acc (offset + i) xr yr ++ r.1, r.2), ?_⟩
    rw [List.replicate_succ, MulFixed.addWindows]
    have e1 : c.processLower (q := vestaBase) n region offset i base none = .ok (c1, o1) := h1
    rw [e1, ok_then]
    simp only
    rw [h3, ok_then]
    simp only
    rw [h4, ok_then]
    rfl

theorem inner_total {toggle : Selector} (hn : 0 < n) (hs : base.lagrange.length = n ∧ base.z.length = n ∧ base.u.length = n) :
    ∃ calls acc mulB, c.inner (q := vestaBase) n region offset base toggle (List.replicate n none) = .ok (calls, acc, mulB) := by
  obtain ⟨c0, a0, h0, -⟩ := processWindow_total (c := c) (region := region) (offset := offset) (i := 0) hs.2.2
  obtain ⟨c2, m2, h2, -⟩ := processWindow_total (c := c) (region := region) (offset := offset) (i := n - 1) hs.2.2
  obtain ⟨r, h1⟩ := addWindows_total (c := c) (region := region) (offset := offset) hs.2.2 (n - 1 - 1) 1 a0
  unfold MulFixed.inner
  have e0 : c.processLower (q := vestaBase) n region offset 0 base none = .ok (c0, a0) := h0
  have e2 : c.processMsb (q := vestaBase) n region offset base none = .ok (c2, m2) := h2
  have e1 : ((List.replicate n (none : Option (ZMod vestaBase))).take (n - 1)).drop 1 = List.replicate (n - 1 - 1) none := by
    rw [List.take_replicate, List.drop_replicate]
    congr 1
    omega
  have ef : ∃ f, c.assignFixed n offset toggle base = .ok f := by
    unfold MulFixed.assignFixed
    rw [assert_ok.2 (by simpa using hs.1), ok_then, assert_ok.2 (by simpa using hs.2.1)]
    exact ⟨_, rfl⟩
  obtain ⟨f, ef⟩ := ef
  rw [ef, ok_then, List.getElem?_replicate, List.getElem?_replicate, if_pos hn, if_pos (by omega)]
  try simp only
  rw [e0, ok_then]
  simp only
  rw [assert_ok.2 (by simp), ok_then, e1, h1, ok_then]
  try simp only
  rw [e2, ok_then]
  exact ⟨_, _, _, rfl⟩

end inner

section full

variable {c : MulFull} {start : Nat} {base : FixedBase pallasBase} {scalar scalar' : Option (ZMod vestaBase)}

theorem witness_same {bits n region offset : Nat} {calls calls' : Calls Fp} {cells cells' : List (Assigned Fp)}
    (h : c.witness bits n region offset scalar = .ok (calls, cells))
    (h' : c.witness bits n region offset scalar' = .ok (calls', cells')) :
    List.Forall₂ SameCall calls calls' ∧ List.Forall₂ SameCell cells cells' := by
  obtain ⟨ks, -, -, rfl, rfl⟩ := witness_cells h
  obtain ⟨ks', -, -, rfl, rfl⟩ := witness_cells h'
  refine ⟨List.rel_append (List.forall₂_same.2 fun x _ => .refl x) ?_, ?_⟩
  · rw [List.forall₂_map_left_iff, List.forall₂_map_right_iff]
    exact List.forall₂_same.2 fun x _ => .advice ..
  · rw [List.forall₂_map_left_iff, List.forall₂_map_right_iff]
    exact List.forall₂_same.2 fun x _ => rfl

theorem full_same {regions regions' : List (Calls Fp)} {out out' : EccPoint Fp} {windows windows' : List (Assigned Fp)}
    (h : c.assign start scalar base = .ok (regions, out, windows))
    (h' : c.assign start scalar' base = .ok (regions', out', windows')) :
    List.Forall₂ (List.Forall₂ SameCall) regions regions' ∧ SameCells out out' ∧ List.Forall₂ SameCell windows windows' := by
  obtain ⟨c0, ks, c1, acc, mulB, h1, -, h3, rfl, rfl⟩ := full_split h
  obtain ⟨c0', ks', c1', acc', mulB', h1', -, h3', rfl, rfl⟩ := full_split h'
  obtain ⟨i1, i2⟩ := witness_same h1 h1'
  obtain ⟨j1, j2, j3⟩ := inner_same h3 h3'
  obtain ⟨k1, k2⟩ := add_same (c := c.sup.add) (region := start + 1) (offset := 0) j3 j2
  exact ⟨.cons (List.rel_append i1 j1) (.cons k1 .nil), k2, i2⟩

theorem cellWindows_none : ∀ (l : List (Assigned Fp)), (∀ a ∈ l, a.value = none) →
    MulFixed.cellWindows (q := vestaBase) l = .ok (List.replicate l.length none)
  | [], _ => rfl
  | a :: l, h => by
    have ih := cellWindows_none l fun x hx => h x (List.mem_cons_of_mem _ hx)
    unfold MulFixed.cellWindows at ih ⊢
    have e1 : (onKnown a.value fun v => (do
        assert (v.val < vestaBase)
        return ((v.val : Nat) : ZMod vestaBase) : Except Stop _)) = .ok none := by
      rw [h a List.mem_cons_self]
      rfl
    rw [List.mapM_cons, e1, ok_then, ih]
    rfl

theorem full_total (hs : base.lagrange.length = 85 ∧ base.z.length = 85 ∧ base.u.length = 85) :
    ∃ regions out windows, c.assign (q := vestaBase) start none base = .ok (regions, out, windows) := by
  have hwit : ∃ c0 windows, c.witness (p := pallasBase) (q := vestaBase) 255 85 start 0 none = .ok (c0, windows) := ⟨_, _, rfl⟩
  obtain ⟨c0, windows, hwit⟩ := hwit
  obtain ⟨ks, hl, ⟨ds, e1, e2⟩, hw, -⟩ := witness_cells hwit
  have hcw : MulFixed.cellWindows (q := vestaBase) windows = .ok (List.replicate 85 none) := by
    have := cellWindows_none windows (by
      rw [hw]
      intro a ha
      obtain ⟨i, -, rfl⟩ := List.mem_map.1 ha
      obtain rfl : none = ds := Except.ok.inj e1
      obtain rfl := Except.ok.inj e2
      simp only [List.getD_eq_getElem?_getD, List.getElem?_replicate]
      split <;> rfl)
    rwa [hw, List.length_map, List.length_range, ← hw] at this
  obtain ⟨c1, acc, mulB, h3⟩ := inner_total (c := c.sup) (region := start) (offset := 0) (toggle := c.qFull) (by norm_num : 0 < 85) hs
  unfold MulFull.assign
  rw [hwit, ok_then]
  simp only
  rw [hcw, ok_then, h3, ok_then]
  exact ⟨_, _, _, rfl⟩

end full

end Verif.Lemmas.Ecc

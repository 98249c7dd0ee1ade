import Verif.Lemmas.EccMulDone

/-! What the multiplication calls does not depend on values; when it fails. -/

namespace Verif.Lemmas.Ecc

open Verif.Gadget Verif.Spec.Gadget Verif.Spec Verif.Spec.Ecc Verif.Lemmas.Gadget
open Verif.FloorPlanner (Call)

/-- Assigned cells are the same, whatever their values are. -/
def SameCell {F : Type} (a a' : Assigned F) : Prop := a.cell = a'.cell

theorem copyCheck_same {p : Nat} {o : RangeCheck} {k region n : Nat} {a a' : Assigned (ZMod p)} (ha : a.cell = a'.cell)
    {strict : Bool} {calls calls' : Calls (ZMod p)} {zs zs' : List (Assigned (ZMod p))}
    (h : o.copyCheck k region a n strict = .ok (calls, zs)) (h' : o.copyCheck k region a' n strict = .ok (calls', zs')) :
    List.Forall₂ SameCall calls calls' ∧ List.Forall₂ SameCell zs zs' := by
  obtain ⟨more, h1, rfl⟩ := copyCheck_split h
  obtain ⟨more', h1', rfl⟩ := copyCheck_split h'
  obtain ⟨-, -, words, hlen, -, hzs, hcalls⟩ := rangeCheck_shape h1
  obtain ⟨-, -, words', hlen', -, hzs', hcalls'⟩ := rangeCheck_shape h1'
  refine ⟨.cons (.advice ..) (.cons (by rw [ha]; exact .refl _) ?_), ?_⟩
  · show List.Forall₂ SameCall more more'
    rw [hcalls, hcalls']
    refine List.rel_append ?_ ?_
    · refine List.rel_flatMap (R := fun x y => x.2 = y.2) ?_ ?_
      · rw [List.forall₂_iff_get]
        refine ⟨by simp [sumCells_length, hlen, hlen'], fun i hi hi' => ?_⟩
        simp
      · rintro ⟨x, i⟩ ⟨y, j⟩ (rfl : i = j)
        exact .cons (.refl _) (.cons (.refl _) (.cons (.advice ..) .nil))
    · rw [hzs, hzs', last_cell rfl, last_cell rfl, hlen, hlen']
      exact List.forall₂_same.2 fun x _ => .refl x
  · rw [hzs, hzs']
    refine .cons rfl ?_
    rw [List.forall₂_iff_get]
    refine ⟨by rw [sumCells_length, sumCells_length, hlen, hlen'], fun i hi hi' => ?_⟩
    simp only [List.get_eq_getElem, SameCell, sumCells_cell]

section any

variable {F : Type} [Field F] [DecidableEq F] {region : Nat}

omit [DecidableEq F] in
theorem inc_steps_same {c : MulIncomplete} {xP yP xP' yP' : Option F} : ∀ (bits bits' : List (Option Bool)),
    bits.length = bits'.length → ∀ (row : Nat) (s s' : MulIncomplete.State F), s.xA.cell = s'.xA.cell → 
    List.Forall₂ SameCall (c.steps region xP yP row s bits).1 (c.steps region xP' yP' row s' bits').1 ∧
    (c.steps region xP yP row s bits).2.1.xA.cell = (c.steps region xP' yP' row s' bits').2.1.xA.cell ∧
    List.Forall₂ SameCell (c.steps region xP yP row s bits).2.2 (c.steps region xP' yP' row s' bits').2.2
  | [], [], _, _, _, _, h => ⟨.nil, h, .nil⟩
  | k :: ks, k' :: ks', hl, row, s, s', h => by
    obtain ⟨i1, i2, i3⟩ := inc_steps_same (c := c) (xP := xP) (yP := yP) (xP' := xP') (yP' := yP') ks ks' (by simpa using hl) (row + 1)
      (c.step region row xP yP s k).2 (c.step region row xP' yP' s' k').2 rfl
    refine ⟨List.rel_append ?_ i1, i2, .cons rfl i3⟩
    exact .cons (.advice ..) (.cons (.advice ..) (.cons (.advice ..) (.cons (.advice ..) (.cons (.advice ..) (.cons (.advice ..) .nil)))))
  | [], _ :: _, hl, _, _, _, _ => by simp at hl
  | _ :: _, [], hl, _, _, _, _ => by simp at hl

theorem dadd_same {c : MulIncomplete} {n offset : Nat} {base base' acc acc' : EccPoint F} {bits bits' : List (Option Bool)}
    {z z' : Assigned F} (ha : SameCells acc acc') (hz : SameCell z z')
    {calls calls' : Calls F} {out out' : EccPoint F} {zs zs' : List (Assigned F)}
    (h : c.doubleAndAdd n region offset base bits acc z = .ok (calls, out, zs))
    (h' : c.doubleAndAdd n region offset base' bits' acc' z' = .ok (calls', out', zs')) :
    List.Forall₂ SameCall calls calls' ∧ SameCells out out' ∧ List.Forall₂ SameCell zs zs' := by
  obtain ⟨e1, e2, e3, e4, e5, e6⟩ := doubleAndAdd_split h
  obtain ⟨f1, f2, f3, f4, f5, f6⟩ := doubleAndAdd_split h'
  refine ⟨?_, ⟨e3.trans f3.symm, e4.trans f4.symm⟩, ?_⟩
  · rw [e2, f2]
    refine List.rel_append (List.rel_append (List.rel_append (List.rel_append (List.rel_append ?_ (copy_same hz)) (copy_same ha.1))
      (copy_same ha.2)) ?_) (.cons (.advice ..) .nil)
    · exact List.forall₂_same.2 fun x _ => .refl x
    · refine (inc_steps_same _ _ (e1.trans f1.symm) _ _ _ ?_).1
      rfl
  · rw [List.forall₂_iff_get]
    refine ⟨e5.trans f5.symm, fun i hi hi' => ?_⟩
    simp only [List.get_eq_getElem, SameCell]
    rw [e6 i hi, f6 i hi']

theorem complete_step_same {c : MulComplete} {base base' : EccPoint F} (hb : SameCells base base') {row : Nat} {acc acc' : EccPoint F}
    {z z' : Assigned F} {k k' : Option Bool} (h : SameCells acc acc') :
    List.Forall₂ SameCall (c.step region row base acc z k).1 (c.step region row base' acc' z' k').1 := by
  unfold MulComplete.step
  refine List.rel_append (List.rel_append (List.rel_append (List.rel_append ?_ (copy_same hb.2)) ?_) ?_) ?_
  · exact .cons (.advice ..) .nil
  · exact .cons (.advice ..) .nil
  · refine (add_same (And.intro ?_ ?_) h).1
    · exact hb.1
    · rfl
  · refine (add_same h ⟨?_, ?_⟩).1 <;> rfl

theorem complete_steps_same {c : MulComplete} {base base' : EccPoint F} (hb : SameCells base base') :
    ∀ (bits bits' : List (Option Bool)), bits.length = bits'.length → ∀ (row : Nat) (acc acc' : EccPoint F) (z z' : Assigned F),
    SameCells acc acc' → 
    List.Forall₂ SameCall (c.steps region base row acc z bits).1 (c.steps region base' row acc' z' bits').1 ∧
    SameCells (c.steps region base row acc z bits).2.1 (c.steps region base' row acc' z' bits').2.1 ∧
    List.Forall₂ SameCell (c.steps region base row acc z bits).2.2 (c.steps region base' row acc' z' bits').2.2
  | [], [], _, _, _, _, _, _, h => ⟨.nil, h, .nil⟩
  | k :: ks, k' :: ks', hl, row, acc, acc', z, z', h => by
    obtain ⟨i1, i2, i3⟩ := complete_steps_same (c := c) hb ks ks' (by simpa using hl) (row + 2)
      (c.step region row base acc z k).2.1 (c.step region row base' acc' z' k').2.1 (c.step region row base acc z k).2.2
      (c.step region row base' acc' z' k').2.2 ⟨rfl, rfl⟩
    exact ⟨List.rel_append (complete_step_same hb h) i1, i2, .cons (by rfl) i3⟩
  | [], _ :: _, hl, _, _, _, _, _, _ => by simp at hl
  | _ :: _, [], hl, _, _, _, _, _, _ => by simp at hl

theorem complete_same {c : MulComplete} {offset : Nat} {base base' acc acc' : EccPoint F} {bits bits' : List (Option Bool)}
    {z z' : Assigned F} (hb : SameCells base base') (ha : SameCells acc acc') (hz : SameCell z z')
    {calls calls' : Calls F} {out out' : EccPoint F} {zs zs' : List (Assigned F)}
    (h : c.assign region offset bits base acc z = .ok (calls, out, zs))
    (h' : c.assign region offset bits' base' acc' z' = .ok (calls', out', zs')) :
    List.Forall₂ SameCall calls calls' ∧ SameCells out out' ∧ List.Forall₂ SameCell zs zs' := by
  obtain ⟨_, l1, h⟩ := bind_ok h
  obtain ⟨_, l2, h'⟩ := bind_ok h'
  have l1 := assert_ok.1 l1
  have l2 := assert_ok.1 l2
  rw [beq_iff_eq] at l1 l2
  have h := Except.ok.inj h
  have h' := Except.ok.inj h'
  obtain ⟨i1, i2, i3⟩ := complete_steps_same (c := c) (region := region) hb bits bits' (l1.trans l2.symm) offset acc acc'
    (copyAdvice region z c.z offset).2 (copyAdvice region z' c.z offset).2 ha
  have e1 : _ = calls := congrArg (fun x => x.1) h
  have e2 : _ = out := congrArg (fun x => x.2.1) h
  have e3 : _ = zs := congrArg (fun x => x.2.2) h
  have f1 : _ = calls' := congrArg (fun x => x.1) h'
  have f2 : _ = out' := congrArg (fun x => x.2.1) h'
  have f3 : _ = zs' := congrArg (fun x => x.2.2) h'
  subst e1 e2 e3 f1 f2 f3
  exact ⟨List.rel_append (List.rel_append (List.forall₂_same.2 fun x _ => .refl x) (copy_same hz)) i1, i2, i3⟩

omit [Field F] [DecidableEq F] in
theorem getD_same {zs zs' : List (Assigned F)} {a : Assigned F} (h : List.Forall₂ SameCell zs zs') :
    SameCell (zs.getLast?.getD a) (zs'.getLast?.getD a) := by
  rw [List.getLast?_eq_getElem?, List.getLast?_eq_getElem?, ← h.length_eq]
  rcases Nat.lt_or_ge (zs.length - 1) zs.length with hl | hl
  · rw [List.getElem?_eq_getElem hl, List.getElem?_eq_getElem (by rw [← h.length_eq]; exact hl)]
    exact h.get hl (by rw [← h.length_eq]; exact hl)
  · rw [List.getElem?_eq_none hl, List.getElem?_eq_none (by rw [← h.length_eq]; exact hl)]
    exact rfl

end any

section mul

variable {c : Mul} {start : Nat} {alpha alpha' : Assigned Fp} {base base' : EccPoint Fp}

theorem lsb_same {offset : Nat} {acc acc' : EccPoint Fp} {z1 z1' : Assigned Fp} {k k' : Option Bool} (hb : SameCells base base')
    (ha : SameCells acc acc') :
    List.Forall₂ SameCall (c.processLsb start offset base acc z1 k).1 (c.processLsb start offset base' acc' z1' k').1 ∧
    SameCells (c.processLsb start offset base acc z1 k).2.1 (c.processLsb start offset base' acc' z1' k').2.1 ∧
    SameCell (c.processLsb start offset base acc z1 k).2.2 (c.processLsb start offset base' acc' z1' k').2.2 := by
  refine ⟨.cons (.refl _) ?_, ⟨rfl, rfl⟩, rfl⟩
  refine List.rel_append (List.rel_append (List.rel_append (List.rel_append (List.rel_append (.cons (.advice ..) .nil)
    (copy_same hb.1)) (copy_same hb.2)) (.cons (.advice ..) .nil)) (.cons (.advice ..) .nil)) (add_same ⟨?_, ?_⟩ ha).1 <;> rfl

theorem check_same {o : MulOverflow} {zs zs' : List (Assigned Fp)} (ha : SameCell alpha alpha') (hz : List.Forall₂ SameCell zs zs')
    {r r' : List (Calls Fp)} (h : o.check start alpha zs = .ok r) (h' : o.check start alpha' zs' = .ok r') :
    List.Forall₂ (List.Forall₂ SameCall) r r' := by
  unfold MulOverflow.check at h h'
  split at h
  case h_2 => cases h
  rename_i z0 z130 k254 m0 m1 m2
  split at h'
  case h_2 => cases h'
  rename_i z0' z130' k254' m0' m1' m2'
  have get : ∀ {i : Nat} {a a' : Assigned Fp}, zs[i]? = some a → zs'[i]? = some a' → SameCell a a' := by
    intro i a a' e e'
    obtain ⟨hi, rfl⟩ := List.getElem?_eq_some_iff.1 e
    obtain ⟨hi', rfl⟩ := List.getElem?_eq_some_iff.1 e'
    exact hz.get hi hi'
  obtain ⟨⟨calls, sums⟩, h1, h⟩ := bind_ok h
  obtain ⟨⟨calls', sums'⟩, h1', h'⟩ := bind_ok h'
  simp only at h h'
  split at h
  case h_2 => cases h
  rename_i s hs
  split at h'
  case h_2 => cases h'
  rename_i s' hs'
  have h := Except.ok.inj h
  have h' := Except.ok.inj h'
  subst h h'
  obtain ⟨i1, i2⟩ := copyCheck_same (by rfl) h1 h1'
  have hss : SameCell s s' := by
    have := getD_same (a := s) i2
    rwa [hs, hs'] at this
  refine .cons (.cons (.advice ..) .nil) (.cons i1 (.cons (.cons (.refl _) ?_) .nil))
  exact List.rel_append (List.rel_append (List.rel_append (List.rel_append (List.rel_append (List.rel_append (copy_same (get m0 m0'))
    (copy_same (get m1 m1'))) (.cons (.advice ..) .nil)) (copy_same (get m2 m2'))) (copy_same ha)) (copy_same hss)) (copy_same (by rfl))

theorem mul_same (ha : SameCell alpha alpha') (hb : SameCells base base') {regions regions' : List (Calls Fp)}
    {out out' : EccPoint Fp} (h : c.assign start alpha base = .ok (regions, out))
    (h' : c.assign start alpha' base' = .ok (regions', out')) :
    List.Forall₂ (List.Forall₂ SameCall) regions regions' ∧ SameCells out out' := by
  obtain ⟨hi, accHi, zsHi, lo, accLo, zsLo, co, accCo, zsCo, over, h1, h2, h3, h5, rfl, rfl⟩ := assign_split h
  obtain ⟨hi', accHi', zsHi', lo', accLo', zsLo', co', accCo', zsCo', over', h1', h2', h3', h5', rfl, rfl⟩ := assign_split h'
  obtain ⟨i1, i2⟩ := add_same (c := c.add) (region := start) (offset := 0) hb hb
  obtain ⟨j1, j2, j3⟩ := dadd_same i2 (by rfl) h1 h1'
  obtain ⟨k1, k2, k3⟩ := dadd_same j2 (getD_same j3) h2 h2'
  obtain ⟨l1, l2, l3⟩ := complete_same hb k2 (getD_same k3) h3 h3'
  obtain ⟨m1, m2, m3⟩ := lsb_same (c := c) (start := start) (offset := 1 + 126 + 2 + 3 * 2) (z1 := zsCo.getLast?.getD (zInit c start))
    (z1' := zsCo'.getLast?.getD (zInit c start)) (k := ((Mul.decompose alpha.value).drop 254).head?.getD none)
    (k' := ((Mul.decompose alpha'.value).drop 254).head?.getD none) hb l2
  refine ⟨.cons ?_ (check_same ha ?_ h5 h5'), m2⟩
  · exact List.rel_append (List.rel_append (List.rel_append (List.rel_append (List.rel_append i1 (.cons (.refl _) .nil)) j1) k1) l1) m1
  · exact List.rel_reverse (.cons rfl (List.rel_append (List.rel_append (List.rel_append j3 k3) l3) (.cons m3 .nil)))

theorem zip4_none {a b c d : Option Fp} (h : c = none ∨ d = none) : zip4 a b c d = none := by
  rcases h with rfl | rfl
  · cases a <;> cases b <;> cases d <;> rfl
  · cases a <;> cases b <;> cases c <;> rfl

theorem dadd_total {d : MulIncomplete} {n offset : Nat} {acc : EccPoint Fp} {bits : List (Option Bool)} {z : Assigned Fp}
    (hl : bits.length = n) (hb : base.x.value = none ∨ base.y.value = none) :
    ∃ calls out zs, d.doubleAndAdd n start offset base bits acc z = .ok (calls, out, zs) ∧ zs.length = n := by
  have : ∃ r, d.doubleAndAdd n start offset base bits acc z = .ok r := by
    unfold MulIncomplete.doubleAndAdd
    rw [assert_ok.2 (by rw [beq_iff_eq]; exact hl)]
    simp only [bind, Except.bind]
    rw [if_neg (by rw [zip4_none hb]; simp)]
    exact ⟨_, rfl⟩
  obtain ⟨⟨calls, out, zs⟩, h⟩ := this
  exact ⟨calls, out, zs, h, (doubleAndAdd_split h).2.2.2.2.1⟩

theorem decompose_length (v : Option Fp) : (Mul.decompose v).length = 255 := by simp [Mul.decompose]

/-- While the base is unknown, as when keys are generated, nothing fails. -/
theorem mul_total (hb : base.x.value = none ∨ base.y.value = none) :
    ∃ regions out, c.assign start alpha base = .ok (regions, out) := by
  have hl := decompose_length alpha.value
  obtain ⟨hi, accHi, zsHi, h1, l1⟩ := dadd_total (d := c.hi) (start := start) (offset := 1) (n := 125)
    (acc := (c.add.assign start base base 0).2) (bits := (Mul.decompose alpha.value).take 125) (z := zInit c start) (by simp [hl]) hb
  obtain ⟨lo, accLo, zsLo, h2, l2⟩ := dadd_total (d := c.lo) (start := start) (offset := 1) (n := 126)
    (acc := accHi) (bits := ((Mul.decompose alpha.value).drop 125).take 126) (z := zsHi.getLast?.getD (zInit c start)) (by simp [hl]) hb
  have h3 : ∃ r, c.complete.assign start (1 + 126 + 2) (((Mul.decompose alpha.value).drop 251).take 3) base accLo
        (zsLo.getLast?.getD (zInit c start)) = .ok r := by
    unfold MulComplete.assign
    rw [assert_ok.2 (by simp [hl])]
    exact ⟨_, rfl⟩
  obtain ⟨⟨co, accCo, zsCo⟩, h3⟩ := h3
  have l3 := complete_length h3
  obtain ⟨over, h5⟩ := check_total (start := start + 1) (alpha := alpha) c.overflow (zs := (zInit c start :: (zsHi ++ zsLo ++ zsCo ++
        [(lsbOf c start alpha base accCo zsCo).2.2])).reverse) (by simp [l1, l2, l3])
  exact ⟨_, _, assign_join h1 h2 h3 (by simp [l1, l2, l3]) h5⟩

/-- The identity has no multiple. -/
theorem mul_identity (hx : base.x.value = some 0) (hy : base.y.value = some 0) : c.assign start alpha base = .error .error := by
  have h1 : c.hi.doubleAndAdd 125 start 1 base ((Mul.decompose alpha.value).take 125) (c.add.assign start base base 0).2
      (zInit c start) = .error .error := by
    obtain ⟨a1, a2⟩ := add_value (c := c.add) (start := start) (offset := 0) (P := 0) (Q := 0) (p := base) (q := base) hx hy hx hy
    unfold MulIncomplete.doubleAndAdd
    rw [assert_ok.2 (by simp [decompose_length])]
    simp only [bind, Except.bind]
    rw [if_pos (by rw [a1, a2, hx, hy]; simp [zip4])]
  unfold zInit at h1
  unfold Mul.assign
  simp only [h1]
  rfl

end mul

end Verif.Lemmas.Ecc

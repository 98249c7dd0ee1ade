import Verif.Lemmas.EccMulHonest

/-! Complete addition, the last bit and the check of overflow by an honest prover. -/

namespace Verif.Lemmas.Ecc

open Verif.Gadget Verif.Spec.Gadget Verif.Spec Verif.Spec.Ecc Verif.Lemmas.Gadget
open Verif.FloorPlanner (Call)
open Verif.Spec.Pow5 (SatAll FollowsAll)

section complete

variable {F : Type} [Field F] [DecidableEq F] {b : F} {w : Content F} {region : Nat}

theorem add_good (u : Usable b) {c : AddComplete} {p q : EccPoint F} {P Q : Pt b} {offset : Nat}
    (hf : Follows w region (c.assign region p q offset).1) (kp : KnownPoint w p) (kq : KnownPoint w q)
    (hp : Holds w p P) (hq : Holds w q Q) :
    Good c.chip w region (c.assign region p q offset).1 ∧ KnownPoint w (c.assign region p q offset).2 ∧
      Holds w (c.assign region p q offset).2 (P + Q) := by
  obtain ⟨h1, h2, h3⟩ := add_complete u (sel := enabled (c.assign region p q offset).1) hf kp kq hp hq
  refine ⟨⟨h1, fun s o ho => ?_⟩, h3, add_sound u (fun _ h => h) h1 h2 hp hq⟩
  obtain ⟨rfl, rfl⟩ := add_enable.1 ho
  exact ⟨_, List.mem_cons_self, fun sel => (add_complete u (sel := sel) hf kp kq hp hq).2.1⟩

theorem acc_step_bool (B : Pt b) (s K : Nat) (k : Bool) :
    accScalar s K • B + ((if k then B else -B) + accScalar s K • B) = accScalar (s + 1) (2 * K + k.toNat) • B := by
  rw [← acc_step B s K k.toNat (Bool.toNat_le k)]
  cases k <;> simp

omit [Field F] [DecidableEq F] in
theorem good_advice [Field F] {chip : Chip F} {col o : Nat} {v : Option F} : Good chip w region [.advice col o v] :=
  ⟨fun k hk => by obtain rfl := List.mem_singleton.1 hk; trivial, fun s o h => by simp at h⟩

omit [DecidableEq F] in
theorem good_copy {chip : Chip F} {a : Assigned F} {col o : Nat} (ka : Known w a)
    (hf : Follows w region (copyAdvice region a col o).1) : Good chip w region (copyAdvice region a col o).1 := by
  refine ⟨fun k hk => ?_, fun s o h => by simp [copyAdvice] at h⟩
  simp only [copyAdvice, List.mem_cons, List.not_mem_nil, or_false] at hk
  rcases hk with rfl | rfl
  · trivial
  · have h1 := hf.1 col o a.value (by simp [copyAdvice])
    have h2 : a.value = some (w.at a.cell) := ka
    rw [h2] at h1
    exact (Option.some.inj h1).symm

omit [Field F] [DecidableEq F] in
theorem copy_known {a : Assigned F} {col o : Nat} (ka : Known w a) (hf : Follows w region (copyAdvice region a col o).1) :
    w region (.advice col) (o : Int) = w.at a.cell := by
  have h1 := hf.1 col o a.value (by simp [copyAdvice])
  have h2 : a.value = some (w.at a.cell) := ka
  rw [h2] at h1
  exact (Option.some.inj h1).symm

variable {c : MulComplete} {base : EccPoint F} {B : Pt b}

theorem complete_step_good (u : Usable b) {row : Nat} {acc : EccPoint F} {z : Assigned F} {k : Bool} {A : Pt b}
    (kb : KnownPoint w base) (hb : Holds w base B) (ka : KnownPoint w acc) (ha : Holds w acc A) (kz : Known w z)
    (hzc : z.cell = ⟨region, row, .advice c.z⟩) (hf : Follows w region (c.step region row base acc z (some k)).1) :
    Good c.add.chip w region (c.step region row base acc z (some k)).1 ∧
    KnownPoint w (c.step region row base acc z (some k)).2.1 ∧
    Holds w (c.step region row base acc z (some k)).2.1 (A + ((if k then B else -B) + A)) ∧
    Known w (c.step region row base acc z (some k)).2.2 ∧
    w.at (c.step region row base acc z (some k)).2.2.cell = w.at z.cell * 2 + (k.toNat : F) ∧
    ∀ g ∈ (c.chip : Chip F).gates, ∀ (sel : Selector → Int → Bool), ∀ e ∈ g.2, e.eval sel (w region) ((row + 1 : Nat) : Int) = 0 := by
  have hzv : z.value = some (w.at z.cell) := kz
  have hbx : base.x.value = some (w.at base.x.cell) := kb.1
  have hby : base.y.value = some (w.at base.y.cell) := kb.2
  have b1 : w.at base.x.cell = (coords B).1 := congrArg Prod.fst hb
  have b2 : w.at base.y.cell = (coords B).2 := congrArg Prod.snd hb
  generalize hz' : assignAdvice region c.z (row + 2) (some (w.at z.cell * 2 + (k.toNat : F))) = z' at *
  generalize hY : copyAdvice region base.y c.z (row + 1) = Y at *
  generalize hy : assignAdvice region c.add.yP row (some (if k then w.at base.y.cell else -w.at base.y.cell)) = y at *
  generalize ht : c.add.assign region ⟨base.x, y.2⟩ acc row = t at *
  generalize hr : c.add.assign region acc t.2 (row + 1) = r at *
  have hstep : c.step region row base acc z (some k) = (z'.1 ++ Y.1 ++ y.1 ++ t.1 ++ r.1, r.2, z'.2) := by
    rw [← hr, ← ht, ← hy, ← hY, ← hz']
    simp only [MulComplete.step, hzv, bind, Option.bind, pure, copyAdvice, hby]
  rw [hstep] at hf ⊢
  have sub : ∀ l ∈ [z'.1, Y.1, y.1, t.1, r.1], Follows w region l := fun l hl => follows_mono hf fun x hx => by
    simp only [List.mem_cons, List.not_mem_nil, or_false] at hl
    simp only [List.mem_append]
    rcases hl with rfl | rfl | rfl | rfl | rfl <;> tauto
  have fz := sub z'.1 (by simp)
  have fY := sub Y.1 (by simp)
  have fy := sub y.1 (by simp)
  have ft := sub t.1 (by simp)
  have fr := sub r.1 (by simp)
  have wz : w region (.advice c.z) ((row + 2 : Nat) : Int) = w.at z.cell * 2 + (k.toNat : F) :=
    follows_at fz (by rw [← hz']; exact List.mem_cons_self)
  have wY : w region (.advice c.z) ((row + 1 : Nat) : Int) = w.at base.y.cell := copy_known kb.2 (by rw [hY]; exact fY)
  have wy : w region (.advice c.add.yP) (row : Int) = if k then w.at base.y.cell else -w.at base.y.cell :=
    follows_at fy (by rw [← hy]; exact List.mem_cons_self)
  have hU : Holds w ⟨base.x, y.2⟩ (if k then B else -B) := by
    refine Prod.ext ?_ ?_
    · show w.at base.x.cell = _
      rw [b1]; cases k <;> simp [coords_neg]
    · show w.at y.2.cell = _
      rw [← hy]
      show w region (.advice c.add.yP) (row : Int) = _
      rw [wy, b2]; cases k <;> simp [coords_neg]
  have kU : KnownPoint w ⟨base.x, y.2⟩ := by
    refine ⟨kb.1, ?_⟩
    rw [← hy]
    exact congrArg some wy.symm
  obtain ⟨g1, k1, h1⟩ := add_good u (c := c.add) (offset := row) (by rw [ht]; exact ft) kU ka hU ha
  rw [ht] at g1 k1 h1
  obtain ⟨g2, k2, h2⟩ := add_good u (c := c.add) (offset := row + 1) (by rw [hr]; exact fr) ka k1 ha h1
  rw [hr] at g2 k2 h2
  refine ⟨?_, k2, h2, ?_, ?_, ?_⟩
  · refine Good.append (Good.append (Good.append (Good.append ?_ ?_) ?_) g1) g2
    · rw [← hz']; exact good_advice
    · rw [← hY]; exact good_copy kb.2 (by rw [hY]; exact fY)
    · rw [← hy]; exact good_advice
  · rw [← hz']
    exact congrArg some wz.symm
  · rw [← hz']
    exact wz
  · intro g hg sel e he
    obtain rfl := List.mem_singleton.1 hg
    have r1 : ((row + 1 : Nat) : Int) + -1 = row := by push_cast; ring
    have r2 : ((row + 1 : Nat) : Int) + 1 = ((row + 2 : Nat) : Int) := by push_cast; ring
    have hzw : w.at z.cell = w region (.advice c.z) (row : Int) := by rw [hzc]; rfl
    rw [hzw] at wz
    simp only [List.mem_cons, List.not_mem_nil, or_false] at he
    rcases he with rfl | rfl
    · rw [eval_boolCheck]
      simp only [eval_sub, eval_mul, eval_const, eval_advice, r1, r2]
      rw [wz]
      cases k
      · left; simp; ring
      · right; simp; ring
    · rw [eval_ternary]
      simp only [eval_sub, eval_add, eval_mul, eval_const, eval_advice, r1, r2, add_zero]
      rw [wz, wY, wy]
      cases k
      · simp; ring_nf; simp
      · simp; left; ring

theorem complete_steps_good (u : Usable b) (kb : KnownPoint w base) (hb : Holds w base B) :
    ∀ (ks : List Bool) (row : Nat) (acc : EccPoint F) (z : Assigned F) (s K : Nat),
    KnownPoint w acc → Holds w acc (accScalar s K • B) → Known w z → z.cell = ⟨region, row, .advice c.z⟩ → w.at z.cell = K →
    Follows w region (c.steps region base row acc z (ks.map some)).1 →
    Good c.add.chip w region (c.steps region base row acc z (ks.map some)).1 ∧
    KnownPoint w (c.steps region base row acc z (ks.map some)).2.1 ∧
    Holds w (c.steps region base row acc z (ks.map some)).2.1 (accScalar (s + ks.length) (bitsUp K ks) • B) ∧
    (c.steps region base row acc z (ks.map some)).2.2.length = ks.length ∧
    (∀ y ∈ (c.steps region base row acc z (ks.map some)).2.2.getLast?, w.at y.cell = ((bitsUp K ks : Nat) : F) ∧ Known w y ∧
        y.cell = ⟨region, row + 2 * ks.length, .advice c.z⟩) ∧
    ∀ i < ks.length, ∀ g ∈ (c.chip : Chip F).gates, ∀ (sel : Selector → Int → Bool), ∀ e ∈ g.2,
      e.eval sel (w region) ((row + 2 * i + 1 : Nat) : Int) = 0
  | [], row, acc, z, s, K, ka, ha, kz, hzc, hz, _ => by
    refine ⟨⟨fun k hk => ?_, fun _ _ hk => ?_⟩, ka, ha, rfl, ?_, fun i hi => by simp at hi⟩
    · simp [MulComplete.steps] at hk
    · simp [MulComplete.steps] at hk
    · simp [MulComplete.steps]
  | k :: ks, row, acc, z, s, K, ka, ha, kz, hzc, hz, hf => by
    obtain ⟨s1, s2, s3, s4, s5, s6⟩ := complete_step_good u (c := c) (k := k) kb hb ka ha kz hzc
      (follows_mono hf fun x hx => List.mem_append_left _ hx)
    rw [acc_step_bool] at s3
    have ez : w.at (c.step region row base acc z (some k)).2.2.cell = ((2 * K + k.toNat : Nat) : F) := by
      rw [s5, hz]; push_cast; ring
    obtain ⟨h1, h2, h3, h4, h5, h6⟩ := complete_steps_good u kb hb ks (row + 2) _
      (c.step region row base acc z (some k)).2.2 (s + 1) (2 * K + k.toNat) s2 s3 s4 rfl ez
      (follows_mono hf fun x hx => List.mem_append_right _ hx)
    rw [List.length_cons, show s + (ks.length + 1) = s + 1 + ks.length by omega]
    refine ⟨s1.append h1, h2, h3, congrArg (· + 1) h4, ?_, ?_⟩
    · intro y hy
      change y ∈ ((c.step region row base acc z (some k)).2.2 ::
        (c.steps region base (row + 2) (c.step region row base acc z (some k)).2.1
          (c.step region row base acc z (some k)).2.2 (ks.map some)).2.2).getLast? at hy
      match ks, h4, h5, hy with
      | [], _, _, hy =>
        simp only [List.map_nil, MulComplete.steps, List.getLast?_singleton, Option.mem_def, Option.some.injEq] at hy
        rw [← hy]
        exact ⟨ez, s4, rfl⟩
      | k2 :: ks, _, h5, hy =>
        have := h5 y (by
          rw [List.getLast?_cons_of_ne_nil] at hy
          · exact hy
          · exact List.cons_ne_nil _ _)
        rw [show row + 2 + 2 * (k2 :: ks).length = row + 2 * ((k2 :: ks).length + 1) by omega] at this
        exact this
    · rintro (_ | i) hi g hg sel e he
      · exact s6 g hg sel e he
      · rw [show row + 2 * (i + 1) + 1 = row + 2 + 2 * i + 1 by ring]
        exact h6 i (by omega) g hg sel e he

/-- The complete part by an honest prover. -/
theorem complete_good (u : Usable b) {offset : Nat} {ks : List Bool} (hl : ks.length = 3) {acc : EccPoint F} {z : Assigned F} :
    ∃ co accCo zsCo, c.assign region offset (ks.map some) base acc z = .ok (co, accCo, zsCo) ∧
      ∀ w s K, KnownPoint w base → Holds w base B → KnownPoint w acc → Holds w acc (accScalar s K • B) → Known w z →
        w.at z.cell = (K : F) → Follows w region co → ∀ chip : Chip F, (∀ g ∈ c.add.chip.gates, g ∈ chip.gates) →
        (∀ g ∈ (c.chip : Chip F).gates, g ∈ chip.gates) → Good chip w region co ∧
        KnownPoint w accCo ∧ Holds w accCo (accScalar (s + 3) (bitsUp K ks) • B) ∧ ∃ hl : zsCo.length = 3,
          w.at (zsCo[2]'(by omega)).cell = ((bitsUp K ks : Nat) : F) ∧ Known w (zsCo[2]'(by omega)) ∧
          (zsCo[2]'(by omega)).cell = ⟨region, offset + 6, .advice c.z⟩ := by
  have h : c.assign region offset (ks.map some) base acc z = .ok
      ((List.range 3).map (fun row => .enable c.qDecompose (2 * row + offset + 1)) ++ (copyAdvice region z c.z offset).1 ++
        (c.steps region base offset acc (copyAdvice region z c.z offset).2 (ks.map some)).1,
        (c.steps region base offset acc (copyAdvice region z c.z offset).2 (ks.map some)).2.1,
        (c.steps region base offset acc (copyAdvice region z c.z offset).2 (ks.map some)).2.2) := by
    unfold MulComplete.assign
    rw [assert_ok.2 (by simp [hl])]
    rfl
  refine ⟨_, _, _, h, fun w s K kb hb ka ha kz hz hf chip g1 g2 => ?_⟩
  have fz : Follows w region (copyAdvice region z c.z offset).1 := follows_mono hf fun x hx => by
    simp only [List.mem_append]; tauto
  have wz := copy_known kz fz
  have kz' : Known w (copyAdvice region z c.z offset).2 := by
    have : z.value = some (w.at z.cell) := kz
    show z.value = some (w region (.advice c.z) (offset : Int))
    rw [this, wz]
  obtain ⟨h1, h2, h3, h4, h5, h6⟩ := complete_steps_good u (c := c) kb hb ks offset acc (copyAdvice region z c.z offset).2 s K ka ha
    kz' rfl (wz.trans hz) (follows_mono hf fun x hx => List.mem_append_right _ hx)
  rw [hl] at h3 h4 h5
  have hlast : (c.steps region base offset acc (copyAdvice region z c.z offset).2 (ks.map some)).2.2.getLast? =
      some ((c.steps region base offset acc (copyAdvice region z c.z offset).2 (ks.map some)).2.2[2]'(by omega)) := by
    rw [List.getLast?_eq_getElem?, List.getElem?_eq_getElem (by omega)]
    congr 1
    congr 1
    omega
  obtain ⟨w3, k3, c3⟩ := h5 _ hlast
  refine ⟨Good.append (Good.append ?_ (good_copy kz fz)) (h1.mono g1), h2, h3, h4, w3, k3, c3⟩
  refine ⟨fun k hk => ?_, fun sl o ho => ?_⟩
  · obtain ⟨_, _, rfl⟩ := List.mem_map.1 hk
    trivial
  · obtain ⟨i, hi, e⟩ := List.mem_map.1 ho
    rw [Call.enable.injEq] at e
    obtain ⟨rfl, rfl⟩ := e
    refine ⟨_, g2 _ List.mem_cons_self, fun sel e he => ?_⟩
    have := h6 i (by rw [hl]; exact List.mem_range.1 hi) _ List.mem_cons_self sel e he
    rwa [show offset + 2 * i + 1 = 2 * i + offset + 1 by omega] at this

end complete

section last

variable {c : Mul} {table : Nat → List Fp} {w : Content Fp} {start region : Nat} {alpha : Assigned Fp} {base : EccPoint Fp}
  {B : Pt (5 : Fp)}

theorem lsb_good {offset : Nat} {acc : EccPoint Fp} {z1 : Assigned Fp} {k : Bool} {A : Pt (5 : Fp)}
    (kb : KnownPoint w base) (hb : Holds w base B) (ka : KnownPoint w acc) (ha : Holds w acc A) (kz : Known w z1)
    (hzc : z1.cell = ⟨region, offset, .advice c.complete.z⟩)
    (hf : Follows w region (c.processLsb region offset base acc z1 (some k)).1) :
    Good c.chip w region (c.processLsb region offset base acc z1 (some k)).1 ∧
    KnownPoint w (c.processLsb region offset base acc z1 (some k)).2.1 ∧
    Known w (c.processLsb region offset base acc z1 (some k)).2.2 ∧
    w.at (c.processLsb region offset base acc z1 (some k)).2.2.cell = w.at z1.cell * 2 + (k.toNat : Fp) := by
  have hzv : z1.value = some (w.at z1.cell) := kz
  have hbx : base.x.value = some (w.at base.x.cell) := kb.1
  have hby : base.y.value = some (w.at base.y.cell) := kb.2
  have b1 : w.at base.x.cell = (coords B).1 := congrArg Prod.fst hb
  have b2 : w.at base.y.cell = (coords B).2 := congrArg Prod.snd hb
  generalize hz' : assignAdvice region c.complete.z (offset + 1) (some (w.at z1.cell * 2 + (k.toNat : Fp))) = z' at *
  generalize hX : copyAdvice region base.x c.add.xP (offset + 1) = X at *
  generalize hY : copyAdvice region base.y c.add.yP (offset + 1) = Y at *
  generalize hx : assignAdvice region c.add.xP offset (some (if k then 0 else w.at base.x.cell)) = x at *
  generalize hy : assignAdvice region c.add.yP offset (some (if k then 0 else -w.at base.y.cell)) = y at *
  generalize hr : c.add.assign region ⟨x.2, y.2⟩ acc offset = r at *
  have hstep : c.processLsb region offset base acc z1 (some k) =
      (.enable c.qLsb offset :: (z'.1 ++ X.1 ++ Y.1 ++ x.1 ++ y.1 ++ r.1), r.2, z'.2) := by
    rw [← hr, ← hx, ← hy, ← hX, ← hY, ← hz']
    cases k <;> simp only [Mul.processLsb, hzv, bind, Option.bind, pure, hbx, hby, if_true, Bool.false_eq_true, if_false,
      Option.map_some]
  rw [hstep] at hf ⊢
  have sub : ∀ l ∈ [z'.1, X.1, Y.1, x.1, y.1, r.1], Follows w region l := fun l hl => follows_mono hf fun a ha => by
    simp only [List.mem_cons, List.not_mem_nil, or_false] at hl
    simp only [List.mem_append, List.mem_cons]
    rcases hl with rfl | rfl | rfl | rfl | rfl | rfl <;> tauto
  have fz := sub z'.1 (by simp)
  have fX := sub X.1 (by simp)
  have fY := sub Y.1 (by simp)
  have fx := sub x.1 (by simp)
  have fy := sub y.1 (by simp)
  have fr := sub r.1 (by simp)
  have wz : w region (.advice c.complete.z) ((offset + 1 : Nat) : Int) = w.at z1.cell * 2 + (k.toNat : Fp) :=
    follows_at fz (by rw [← hz']; exact List.mem_cons_self)
  have wX : w region (.advice c.add.xP) ((offset + 1 : Nat) : Int) = w.at base.x.cell := copy_known kb.1 (by rw [hX]; exact fX)
  have wY : w region (.advice c.add.yP) ((offset + 1 : Nat) : Int) = w.at base.y.cell := copy_known kb.2 (by rw [hY]; exact fY)
  have wx : w region (.advice c.add.xP) (offset : Int) = if k then 0 else w.at base.x.cell :=
    follows_at fx (by rw [← hx]; exact List.mem_cons_self)
  have wy : w region (.advice c.add.yP) (offset : Int) = if k then 0 else -w.at base.y.cell :=
    follows_at fy (by rw [← hy]; exact List.mem_cons_self)
  have hU : Holds w ⟨x.2, y.2⟩ (if k then 0 else -B) := by
    rw [← hx, ← hy]
    refine Prod.ext ?_ ?_
    · show w region (.advice c.add.xP) (offset : Int) = _
      rw [wx, b1]; cases k <;> simp [coords_neg, coords_zero]
    · show w region (.advice c.add.yP) (offset : Int) = _
      rw [wy, b2]; cases k <;> simp [coords_neg, coords_zero]
  have kU : KnownPoint w ⟨x.2, y.2⟩ := by
    rw [← hx, ← hy]
    exact ⟨congrArg some wx.symm, congrArg some wy.symm⟩
  obtain ⟨g1, k1, -⟩ := add_good usable_pallas (c := c.add) (offset := offset) (by rw [hr]; exact fr) kU ka hU ha
  rw [hr] at g1 k1
  obtain ⟨gadd, -⟩ := gates_parts c.lsbGate (c.add.chip : Chip Fp).gates c.hi.chip.gates c.lo.chip.gates
    c.complete.chip.gates c.overflow.chip.gates
  refine ⟨?_, k1, ?_, ?_⟩
  · refine Good.append (a := [.enable c.qLsb offset]) ?_ (Good.append (Good.append (Good.append (Good.append (Good.append
      ?_ ?_) ?_) ?_) ?_) (g1.mono gadd))
    · refine ⟨fun k hk => by obtain rfl := List.mem_singleton.1 hk; trivial, fun s o ho => ?_⟩
      obtain ⟨rfl, rfl⟩ : s = c.qLsb ∧ o = offset := by simpa using ho
      refine ⟨_, List.mem_cons_self, fun sel e he => ?_⟩
      have r2 : (o : Int) + 1 = ((o + 1 : Nat) : Int) := by push_cast; ring
      have hzw : w.at z1.cell = w region (.advice c.complete.z) (o : Int) := by rw [hzc]; rfl
      rw [hzw] at wz
      simp only [List.mem_cons, List.not_mem_nil, or_false] at he
      rcases he with rfl | rfl | rfl
      · rw [eval_boolCheck]
        simp only [eval_sub, eval_scaled, eval_advice, add_zero, r2]
        rw [wz]
        cases k <;> simp
      · rw [eval_ternary]
        simp only [eval_sub, eval_scaled, eval_advice, add_zero, r2]
        rw [wz, wX, wx]
        cases k <;> simp
      · rw [eval_ternary]
        simp only [eval_sub, eval_add, eval_scaled, eval_advice, add_zero, r2]
        rw [wz, wY, wy]
        cases k <;> simp
    · rw [← hz']; exact good_advice
    · rw [← hX]; exact good_copy kb.1 (by rw [hX]; exact fX)
    · rw [← hY]; exact good_copy kb.2 (by rw [hY]; exact fY)
    · rw [← hx]; exact good_advice
    · rw [← hy]; exact good_advice
  · rw [← hz']
    exact congrArg some wz.symm
  · rw [← hz']
    exact wz

theorem copyCheck_total (o : RangeCheck) (region : Nat) (a : Assigned Fp) :
    ∃ calls zs, o.copyCheck 10 region a 13 false = .ok (calls, zs) ∧ zs.length = 14 := by
  have hsz : 13 * 10 ≤ Nat.size pallasBase - 1 := by
    have : 2 ^ 254 < pallasBase := by decide +kernel
    have := Nat.lt_size.2 this.le
    omega
  have h2 : (2 : Fp) ^ 10 ≠ 0 := by decide +kernel
  have key : ∃ words, (onKnown a.value (RangeCheck.words 10 13) >>= fun d => transposeVec d 13) = .ok words := by
    cases hv : a.value with
    | none => exact ⟨List.replicate 13 none, rfl⟩
    | some x =>
      obtain ⟨ks, e1, e2, -⟩ := words_ok (k := 10) (n := 13) (by norm_num) (by norm_num) (by norm_num) x
      refine ⟨ks.map some, ?_⟩
      simp only [onKnown, e1, Except.map, bind, Except.bind, transposeVec]
      rw [assert_ok.2 (by simp [e2])]
      rfl
  obtain ⟨words, hw⟩ := key
  obtain ⟨d, hd, hw⟩ := bind_ok hw
  have hr : ∃ r, o.copyCheck 10 region a 13 false = .ok r := by
    unfold RangeCheck.copyCheck RangeCheck.rangeCheck copyAdvice
    simp only [bind, Except.bind]
    rw [assert_ok.2 (decide_eq_true hsz)]
    simp only [hd, hw]
    rw [assert_ok.2 (by simpa using h2)]
    exact ⟨_, rfl⟩
  obtain ⟨⟨calls, zs⟩, hr⟩ := hr
  refine ⟨calls, zs, hr, ?_⟩
  obtain ⟨more, h3, -⟩ := copyCheck_split hr
  obtain ⟨-, -, ws, hl, -, e, -⟩ := rangeCheck_shape h3
  rw [e, List.length_cons, sumCells_length, hl]

theorem check_total (o : MulOverflow) {zs : List (Assigned Fp)} (h : zs.length = 256) :
    ∃ regions, o.check start alpha zs = .ok regions := by
  unfold MulOverflow.check
  rw [List.getElem?_eq_getElem (by omega), List.getElem?_eq_getElem (by omega), List.getElem?_eq_getElem (by omega)]
  simp only
  obtain ⟨calls, sums, e, hl⟩ := copyCheck_total o.lookup (start + 1) (assignAdvice start o.advice0 0 (do
    let a ← alpha.value
    let k ← zs[254].value
    pure (a + k * ((2 ^ 65 : Nat) : Fp) ^ 2))).2
  rw [e]
  simp only [bind, Except.bind]
  rw [List.getLast?_eq_getElem?, List.getElem?_eq_getElem (by omega)]
  exact ⟨_, rfl⟩

/-- The gate of the check of overflow, for the numbers of an honest prover. -/
theorem overflow_holds {a : Fp} {Z : Nat} (hZ : Z = a.val + tQ) {s sMinus : Fp}
    (hs : s = a + ((Z / 2 ^ 254 : Nat) : Fp) * ((2 ^ 65 : Nat) : Fp) ^ 2)
    (hm : sMinus * 2 ^ 130 = s - ((s.val % 2 ^ 130 : Nat) : Fp)) :
    ((Z / 2 ^ 254 : Nat) : Fp) * (((Z / 2 ^ 130 : Nat) : Fp) - ((2 ^ 124 : Nat) : Fp)) = 0 ∧
    ((Z / 2 ^ 254 : Nat) : Fp) * sMinus = 0 ∧
    (1 - ((Z / 2 ^ 254 : Nat) : Fp)) * (1 - ((Z / 2 ^ 130 : Nat) : Fp) * ((Z / 2 ^ 130 : Nat) : Fp)⁻¹) * sMinus = 0 := by
  have hp : pallasBase = 2 ^ 254 + 45560315531419706090280762371685220353 := by decide +kernel
  have ht : tQ = 45560315531506369815346746415080538113 := rfl
  have hal := ZMod.val_lt a
  have hav : ((a.val : Nat) : Fp) = a := ZMod.natCast_zmod_val a
  have h130 : (2 : Fp) ^ 130 ≠ 0 := by decide +kernel
  have small : s.val < 2 ^ 130 → sMinus = 0 := fun h => by
    rw [Nat.mod_eq_of_lt h, ZMod.natCast_zmod_val, sub_self] at hm
    exact (mul_eq_zero.1 hm).resolve_right h130
  have h65 : ((2 ^ 65 : Nat) : Fp) ^ 2 = ((2 ^ 130 : Nat) : Fp) := by decide +kernel
  rw [h65] at hs
  by_cases hbig : 2 ^ 254 ≤ Z
  · have e1 : Z / 2 ^ 254 = 1 := by
      have h1 := Nat.div_pos hbig (show 0 < 2 ^ 254 by positivity)
      have h2 : Z / 2 ^ 254 < 2 := Nat.div_lt_of_lt_mul (by omega)
      omega
    have e2 : Z / 2 ^ 130 = 2 ^ 124 := by
      have h1 : 2 ^ 124 ≤ Z / 2 ^ 130 := (Nat.le_div_iff_mul_le (by positivity)).2 (by rw [← pow_add]; exact hbig)
      have h2 : Z / 2 ^ 130 < 2 ^ 124 + 1 := Nat.div_lt_of_lt_mul (by omega)
      omega
    have hsv : s = ((a.val + 2 ^ 130 - pallasBase : Nat) : Fp) := by
      rw [Nat.cast_sub (by omega), show ((pallasBase : Nat) : Fp) = 0 from CharP.cast_eq_zero Fp pallasBase, sub_zero, Nat.cast_add, hav, hs, e1, Nat.cast_one, one_mul]
    have h0 : sMinus = 0 := small (by
      rw [hsv, ZMod.val_natCast, Nat.mod_eq_of_lt (by omega)]
      omega)
    rw [e1, e2, h0]
    simp
  · have e1 : Z / 2 ^ 254 = 0 := Nat.div_eq_of_lt (by omega)
    rw [e1, Nat.cast_zero, zero_mul, zero_mul, sub_zero, one_mul]
    refine ⟨rfl, rfl, ?_⟩
    by_cases h0 : Z / 2 ^ 130 = 0
    · have hlt : Z < 2 ^ 130 := by
        by_contra hc
        have := Nat.div_pos (show 2 ^ 130 ≤ Z by omega) (by positivity)
        omega
      rw [small (by
        rw [hs, e1, Nat.cast_zero, zero_mul, add_zero]
        omega), mul_zero]
    · have hne : ((Z / 2 ^ 130 : Nat) : Fp) ≠ 0 := by
        intro e
        have hlt : Z / 2 ^ 130 < 2 ^ 124 := Nat.div_lt_of_lt_mul (by rw [← pow_add]; omega)
        rw [ZMod.natCast_eq_zero_iff] at e
        exact h0 (Nat.eq_zero_of_dvd_of_lt e (by omega))
      rw [mul_inv_cancel₀ hne, sub_self, zero_mul]

theorem copyCheck_honest {o : RangeCheck} (hd : Verif.Props.RangeCheckDistinct o) (ht : IsTable 10 (table o.tableIdx))
    {a : Assigned Fp} {x : Fp} {calls : Calls Fp} {zs : List (Assigned Fp)}
    (h : o.copyCheck 10 region a 13 false = .ok (calls, zs)) (ha : a.value = some x) (ka : Known w a)
    (hf : Follows w region calls) :
    Sat (o.chip 10) table w region calls ∧ (∀ s r, Call.enable s r ∈ calls → s = o.qLookup ∨ s = o.qRunning) ∧
    ∃ z, zs.getLast? = some z ∧ Known w z ∧ w.at z.cell * 2 ^ 130 = x - ((x.val % 2 ^ 130 : Nat) : Fp) := by
  have hp : pallasBase < 2 ^ 256 := by decide +kernel
  refine ⟨Verif.Props.C103_complete o hd 10 region a x 13 false table ht w calls zs (by norm_num) (by norm_num) hp ha
    (fun h => by cases h) h ka hf, ?_⟩
  obtain ⟨more, h1, rfl⟩ := copyCheck_split h
  obtain ⟨-, h2k, words, hlen, -, hzs, hcalls⟩ := rangeCheck_shape h1
  have hx0 : x = w region (.advice o.runningSum) 0 := by
    have := hf.1 o.runningSum 0 a.value (by simp)
    rw [ha] at this
    simpa using this
  obtain ⟨-, e2⟩ := rangeCheck_words (w := w) (x := x) (z0 := ⟨⟨region, 0, .advice o.runningSum⟩, a.value⟩) (by norm_num)
    (by norm_num) hp ha hx0 h1 (fun r v hv => hf.1 o.runningSum r v (List.mem_append_right _ hv))
  refine ⟨fun s r hm => ?_, ?_⟩
  · rw [hcalls, List.mem_append, List.mem_append, mem_flat] at hm
    rcases hm with hm | ⟨i, hi, hm⟩ | hm
    · simp at hm
    · rcases hm with hm | hm | hm
      · simp only [Call.enable.injEq] at hm
        exact Or.inl hm.1
      · simp only [Call.enable.injEq] at hm
        exact Or.inr hm.1
      · cases hm
    · simp at hm
  · have hl : zs.length = 14 := by rw [hzs, List.length_cons, sumCells_length, hlen]
    have hcell : (zs[13]'(by omega)).cell = ⟨region, 13, .advice o.runningSum⟩ := by
      have := zs_cells (region := region) (col := o.runningSum) (offset := 0) (inv := ((2 : Fp) ^ 10)⁻¹)
        (z0 := ⟨⟨region, 0, .advice o.runningSum⟩, a.value⟩) (words := words) rfl 13 (by rw [← hzs]; omega)
      simp only [← hzs] at this
      exact this
    have hval : (zs[13]'(by omega)).value = some (w region (.advice o.runningSum) ((13 : Nat) : Int)) := by
      refine hf.1 o.runningSum 13 _ (List.mem_append_right _ ?_)
      rw [hcalls]
      refine List.mem_append_left _ (mem_flat.2 ⟨12, by rw [sumCells_length, hlen]; norm_num, Or.inr (Or.inr ?_)⟩)
      simp only [hzs, List.getElem_cons_succ]
    refine ⟨zs[13]'(by omega), ?_, ?_, ?_⟩
    · rw [List.getLast?_eq_getElem?, show zs.length - 1 = 13 by omega, List.getElem?_eq_getElem (by omega)]
    · show (zs[13]'(by omega)).value = _
      rw [hval, hcell]
      rfl
    · rw [hcell]
      exact e2

theorem overflow_good {o : MulOverflow} (hd : Verif.Props.RangeCheckDistinct o.lookup)
    (ht : IsTable 10 (table o.lookup.tableIdx)) {zs : List (Assigned Fp)} {regions : List (Calls Fp)}
    (h : o.check start alpha zs = .ok regions) {Z : Nat} (ka : Known w alpha) (hZ : Z = (w.at alpha.cell).val + tQ)
    {z0 z130 k254 : Assigned Fp} (m0 : zs[0]? = some z0) (m1 : zs[130]? = some z130) (m2 : zs[254]? = some k254)
    (k0 : Known w z0) (k1 : Known w z130) (k2 : Known w k254) (e0 : w.at z0.cell = ((Z : Nat) : Fp))
    (e1 : w.at z130.cell = ((Z / 2 ^ 130 : Nat) : Fp)) (e2 : w.at k254.cell = ((Z / 2 ^ 254 : Nat) : Fp))
    (hf : FollowsAll w start regions) :
    ∃ s0 s1 s2, regions = [s0, s1, s2] ∧ Good o.chip w start s0 ∧ (∀ s r, Call.enable s r ∉ s0) ∧
      Sat (o.lookup.chip 10) table w (start + 1) s1 ∧
      (∀ s r, Call.enable s r ∈ s1 → s = o.lookup.qLookup ∨ s = o.lookup.qRunning) ∧
      Good o.chip w (start + 2) s2 ∧ (∀ s r, Call.enable s r ∈ s2 → s = o.qOverflow) := by
  unfold MulOverflow.check at h
  rw [m0, m1, m2] at h
  have va : alpha.value = some (w.at alpha.cell) := ka
  have v2 : k254.value = some (w.at k254.cell) := k2
  have v1 : z130.value = some (w.at z130.cell) := k1
  simp only [va, v2, v1, bind, Option.bind, pure, Option.map_some] at h
  generalize hs : assignAdvice start o.advice0 0 (some (w.at alpha.cell + w.at k254.cell * ((2 ^ 65 : Nat) : Fp) ^ 2)) = s at *
  obtain ⟨⟨calls, sums⟩, h1, h2⟩ := bind_ok h
  simp only at h2
  split at h2
  case h_2 => cases h2
  rename_i sMinus hlast
  have h2 := (Except.ok.inj h2).symm
  subst h2
  have f0 : Follows w start s.1 := hf 0 (by simp)
  have f1 : Follows w (start + 1) calls := hf 1 (by simp)
  have f2 := hf 2 (by simp)
  simp only [List.getElem_cons_succ, List.getElem_cons_zero] at f2
  have ws : w start (.advice o.advice0) ((0 : Nat) : Int) = w.at alpha.cell + w.at k254.cell * ((2 ^ 65 : Nat) : Fp) ^ 2 :=
    follows_at f0 (by rw [← hs]; exact List.mem_cons_self)
  have ks : Known w s.2 := by rw [← hs]; exact congrArg some ws.symm
  have cs : w.at s.2.cell = w.at alpha.cell + w.at k254.cell * ((2 ^ 65 : Nat) : Fp) ^ 2 := by rw [← hs]; exact ws
  obtain ⟨q1, q2, z, q3, q4, q5⟩ := copyCheck_honest hd ht h1 (x := w.at s.2.cell) ks ks f1
  rw [hlast, Option.some.injEq] at q3
  subst q3
  have sub : ∀ l ∈ [(copyAdvice (start + 2) z0 o.advice0 0).1, (copyAdvice (start + 2) z130 o.advice0 1).1,
      [Call.advice o.advice0 2 (some (w.at z130.cell)⁻¹)], (copyAdvice (start + 2) k254 o.advice1 0).1,
      (copyAdvice (start + 2) alpha o.advice1 1).1, (copyAdvice (start + 2) sMinus o.advice1 2).1,
      (copyAdvice (start + 2) s.2 o.advice2 1).1], Follows w (start + 2) l := fun l hl => follows_mono f2 fun x hx => by
    refine List.mem_cons_of_mem _ ?_
    simp only [List.mem_cons, List.not_mem_nil, or_false] at hl
    rcases hl with rfl | rfl | rfl | rfl | rfl | rfl | rfl
    · exact List.mem_append_left _ (List.mem_append_left _ (List.mem_append_left _ (List.mem_append_left _
        (List.mem_append_left _ (List.mem_append_left _ hx)))))
    · exact List.mem_append_left _ (List.mem_append_left _ (List.mem_append_left _ (List.mem_append_left _
        (List.mem_append_left _ (List.mem_append_right _ hx)))))
    · exact List.mem_append_left _ (List.mem_append_left _ (List.mem_append_left _ (List.mem_append_left _
        (List.mem_append_right _ hx))))
    · exact List.mem_append_left _ (List.mem_append_left _ (List.mem_append_left _ (List.mem_append_right _ hx)))
    · exact List.mem_append_left _ (List.mem_append_left _ (List.mem_append_right _ hx))
    · exact List.mem_append_left _ (List.mem_append_right _ hx)
    · exact List.mem_append_right _ hx
  have F0 := sub _ (List.mem_of_getElem? (i := 0) rfl)
  have F1 := sub _ (List.mem_of_getElem? (i := 1) rfl)
  have F2 := sub _ (List.mem_of_getElem? (i := 2) rfl)
  have F3 := sub _ (List.mem_of_getElem? (i := 3) rfl)
  have F4 := sub _ (List.mem_of_getElem? (i := 4) rfl)
  have F5 := sub _ (List.mem_of_getElem? (i := 5) rfl)
  have F6 := sub _ (List.mem_of_getElem? (i := 6) rfl)
  have c0 := copy_known k0 F0
  have c1 := copy_known k1 F1
  have ce : w (start + 2) (.advice o.advice0) ((2 : Nat) : Int) = (w.at z130.cell)⁻¹ := follows_at F2 List.mem_cons_self
  have c2 := copy_known k2 F3
  have c3 := copy_known ka F4
  have c4 := copy_known q4 F5
  have c5 := copy_known ks F6
  refine ⟨_, _, _, rfl, ?_, ?_, q1, q2, ?_, ?_⟩
  · rw [← hs]; exact good_advice
  · intro s r hm
    rw [← hs] at hm
    simp [assignAdvice] at hm
  · refine Good.append (a := [.enable o.qOverflow 1]) ?_ (Good.append (Good.append (Good.append (Good.append (Good.append (Good.append
      (good_copy k0 F0) (good_copy k1 F1)) good_advice) (good_copy k2 F3)) (good_copy ka F4)) (good_copy q4 F5)) (good_copy ks F6))
    refine ⟨fun k hk => by obtain rfl := List.mem_singleton.1 hk; trivial, fun sl r hr => ?_⟩
    obtain ⟨rfl, rfl⟩ : sl = o.qOverflow ∧ r = 1 := by simpa using hr
    refine ⟨_, List.mem_cons_self, fun sel e he => ?_⟩
    rw [e2] at cs
    obtain ⟨g3, g4, g5⟩ := overflow_holds hZ cs q5
    have r0 : ((1 : Nat) : Int) + -1 = ((0 : Nat) : Int) := by norm_num
    have r1 : ((1 : Nat) : Int) + 0 = ((1 : Nat) : Int) := by norm_num
    have r2 : ((1 : Nat) : Int) + 1 = ((2 : Nat) : Int) := by norm_num
    have h65 : ((2 ^ 65 : Nat) : Fp) ^ 2 = ((2 ^ 124 : Nat) : Fp) * ((2 ^ 6 : Nat) : Fp) := by decide +kernel
    have hZc : ((Z : Nat) : Fp) = w.at alpha.cell + ((tQ : Nat) : Fp) := by
      rw [hZ, Nat.cast_add, ZMod.natCast_zmod_val]
    simp only [List.mem_cons, List.not_mem_nil, or_false] at he
    rcases he with rfl | rfl | rfl | rfl | rfl
    · simp only [eval_sub, eval_add, eval_mul, eval_const, eval_advice, r0, r1]
      rw [c5, c3, c2, cs, e2, h65]; ring
    · simp only [eval_sub, eval_const, eval_advice, r0, r1]
      rw [c0, c3, e0, hZc]; ring
    · simp only [eval_sub, eval_mul, eval_const, eval_advice, r0, r1]
      rw [c2, c1, e2, e1]; exact g3
    · simp only [eval_mul, eval_advice, r0, r2]
      rw [c2, c4, e2]; exact g4
    · simp only [eval_sub, eval_mul, eval_const, eval_advice, r0, r1, r2]
      rw [c2, c1, c4, ce, e1, e2]; exact g5
  · intro sl r hm
    simp only [copyAdvice, List.mem_cons, List.mem_append, List.not_mem_nil, or_false, Call.enable.injEq, reduceCtorEq] at hm
    exact hm.1

end last

end Verif.Lemmas.Ecc

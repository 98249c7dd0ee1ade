import Verif.Lemmas.EccMulLoop
import Verif.Lemmas.PallasOrder
import Verif.Lemmas.GadgetLookup
import Verif.Props.Gadget
import Verif.Spec.Pow5

/-! Multiplication of a point by a number in circuits. -/

namespace Verif.Lemmas.Ecc

open Verif.Gadget Verif.Spec.Gadget Verif.Spec Verif.Spec.Ecc Verif.Lemmas.Gadget
open Verif.FloorPlanner (Call)
open Verif.Spec.Pow5 (SatAll)

section complete

variable {F : Type} [Field F] [DecidableEq F] {b : F} {chip : Chip F} {table : Nat → List F} {w : Content F}
  {region : Nat} {all : Calls F}

/-- Complete addition within a larger region. -/
theorem add_within (u : Usable b) {c : AddComplete} {p q : EccPoint F} {P Q : Pt b} {offset : Nat}
    (hg : (c.qAdd, c.polys) ∈ chip.gates) (hs : Sat chip table w region all)
    (hsub : ∀ k ∈ (c.assign region p q offset).1, k ∈ all) (hp : Holds w p P) (hq : Holds w q Q) :
    Holds w (c.assign region p q offset).2 (P + Q) :=
  add_sound u hsub hs.enforced (fun _ he => sat_gate hs hg he (hsub _ (add_enable.2 ⟨rfl, rfl⟩))) hp hq

theorem acc_step (B : Pt b) (s K k : Nat) (hk : k ≤ 1) :
    accScalar s K • B + ((if k = 1 then B else -B) + accScalar s K • B) = accScalar (s + 1) (2 * K + k) • B := by
  rcases Nat.le_one_iff_eq_zero_or_eq_one.1 hk with rfl | rfl
  · have h1 : accScalar (s + 1) (2 * K + 0) = accScalar s K + (2 ^ s + 2 * K) := by unfold accScalar; rw [pow_succ]; omega
    have h2 : accScalar s K • B = (2 ^ s + 2 * K) • B + B := by unfold accScalar; rw [add_nsmul _ _ 1, one_nsmul]
    rw [if_neg (by norm_num), h1, add_nsmul]
    congr 1
    rw [h2]; abel
  · have h1 : accScalar (s + 1) (2 * K + 1) = accScalar s K + (1 + accScalar s K) := by unfold accScalar; rw [pow_succ]; omega
    rw [if_pos rfl, h1, add_nsmul, add_nsmul _ 1, one_nsmul]

variable {c : MulComplete} {base : EccPoint F} {B : Pt b}

theorem complete_step (u : Usable b) (ha : (c.add.qAdd, c.add.polys) ∈ chip.gates)
    (hd : ∀ g ∈ (c.chip : Chip F).gates, g ∈ chip.gates) (hs : Sat chip table w region all) {row : Nat} {acc : EccPoint F}
    {z : Assigned F} {k : Option Bool} (hsub : ∀ x ∈ (c.step region row base acc z k).1, x ∈ all)
    (hen : Call.enable c.qDecompose (row + 1) ∈ all) (hb : Holds w base B) {A : Pt b} (hacc : Holds w acc A)
    (hz : z.cell = ⟨region, row, .advice c.z⟩) :
    ∃ k' : Nat, k' ≤ 1 ∧ w.at (c.step region row base acc z k).2.2.cell = w.at z.cell * 2 + k' ∧
      Holds w (c.step region row base acc z k).2.1 (A + ((if k' = 1 then B else -B) + A)) := by
  have hgate := hd _ (List.mem_cons_self)
  have h1 := sat_gate hs hgate List.mem_cons_self hen
  have h2 := sat_gate hs hgate (List.mem_cons_of_mem _ List.mem_cons_self) hen
  rw [eval_boolCheck] at h1
  rw [eval_ternary] at h2
  have r1 : ((row + 1 : Nat) : Int) + -1 = row := by push_cast; ring
  have r2 : ((row + 1 : Nat) : Int) + 1 = ((row + 2 : Nat) : Int) := by push_cast; ring
  simp only [eval_sub, eval_add, eval_mul, eval_const, eval_advice, r1, r2, add_zero] at h1 h2
  have hby : w region (.advice c.z) ((row + 1 : Nat) : Int) = w.at base.y.cell :=
    sat_copy hs (a := ⟨region, row + 1, .advice c.z⟩) (hsub _ (by
      simp only [MulComplete.step, copyAdvice, List.mem_append, List.mem_cons]; tauto))
  have hzw : w.at z.cell = w region (.advice c.z) (row : Int) := by rw [hz]; rfl
  have hb1 : w.at base.x.cell = (coords B).1 := congrArg Prod.fst hb
  have hb2 : w.at base.y.cell = (coords B).2 := congrArg Prod.snd hb
  rw [hby, hb2] at h2
  have fin : ∀ k' : Nat, k' ≤ 1 → w region (.advice c.z) ((row + 2 : Nat) : Int) = w.at z.cell * 2 + k' →
      w region (.advice c.add.yP) (row : Int) = (coords (if k' = 1 then B else -B)).2 →
      ∃ k' : Nat, k' ≤ 1 ∧ w.at (c.step region row base acc z k).2.2.cell = w.at z.cell * 2 + k' ∧
      Holds w (c.step region row base acc z k).2.1 (A + ((if k' = 1 then B else -B) + A)) := by
    intro k' hk e1 e2
    refine ⟨k', hk, e1, ?_⟩
    refine add_within u ha hs (fun x hx => hsub x ?_) hacc (add_within u ha hs (fun x hx => hsub x ?_) ?_ hacc)
    · simp only [MulComplete.step, List.mem_append]; exact Or.inr hx
    · simp only [MulComplete.step, List.mem_append]; exact Or.inl (Or.inr hx)
    · refine Prod.ext ?_ e2
      show w.at base.x.cell = _
      rw [hb1]
      split
      · rfl
      · rw [coords_neg]
  rcases h1 with h1 | h1
  · rw [h1, zero_mul, zero_add, sub_zero, one_mul] at h2
    refine fin 0 (by omega) (by rw [hzw, Nat.cast_zero]; linear_combination h1) ?_
    rw [if_neg (by norm_num), coords_neg]
    linear_combination h2
  · rw [h1, one_mul, sub_self, zero_mul, add_zero] at h2
    refine fin 1 (by omega) (by rw [hzw, Nat.cast_one]; linear_combination h1) ?_
    rw [if_pos rfl]
    linear_combination -h2

theorem complete_steps (u : Usable b) (ha : (c.add.qAdd, c.add.polys) ∈ chip.gates)
    (hd : ∀ g ∈ (c.chip : Chip F).gates, g ∈ chip.gates) (hs : Sat chip table w region all) (hb : Holds w base B) :
    ∀ (ks : List (Option Bool)) (row : Nat) (acc : EccPoint F) (z : Assigned F) (s K : Nat), K < 2 ^ s →
    (∀ x ∈ (c.steps region base row acc z ks).1, x ∈ all) →
    (∀ i < ks.length, Call.enable c.qDecompose (row + 2 * i + 1) ∈ all) →
    Holds w acc (accScalar s K • B) → z.cell = ⟨region, row, .advice c.z⟩ → w.at z.cell = K →
    ∃ K' : Nat, K' < 2 ^ (s + ks.length) ∧ K' / 2 ^ ks.length = K ∧
      Holds w (c.steps region base row acc z ks).2.1 (accScalar (s + ks.length) K' • B) ∧
      (c.steps region base row acc z ks).2.2.length = ks.length ∧
      (∀ y ∈ (c.steps region base row acc z ks).2.2.getLast?, w.at y.cell = K' ∧
        y.cell = ⟨region, row + 2 * ks.length, .advice c.z⟩)
  | [], row, acc, z, s, K, hK, _, _, hacc, _, hz => ⟨K, hK, by simp, hacc, rfl, by simp [MulComplete.steps]⟩
  | k :: ks, row, acc, z, s, K, hK, hsub, hen, hacc, hzc, hz => by
    obtain ⟨k', hk, e1, e2⟩ := complete_step u ha hd hs (k := k) (fun x hx => hsub x (List.mem_append_left _ hx))
      (hen 0 (by simp)) hb hacc hzc
    rw [acc_step B s K k' hk] at e2
    have ez : w.at (c.step region row base acc z k).2.2.cell = ((2 * K + k' : Nat) : F) := by
      rw [e1, hz]; push_cast; ring
    obtain ⟨K', h1, h2, h3, h4, h5⟩ := complete_steps u ha hd hs hb ks (row + 2) _ (c.step region row base acc z k).2.2 (s + 1)
      (2 * K + k') (by rw [pow_succ]; omega) (fun x hx => hsub x (List.mem_append_right _ hx))
      (fun i hi => by
        have := hen (i + 1) (by simpa using hi)
        rwa [show row + 2 * (i + 1) + 1 = row + 2 + 2 * i + 1 by ring] at this) e2 rfl ez
    rw [List.length_cons, show s + (ks.length + 1) = s + 1 + ks.length by omega]
    refine ⟨K', h1, ?_, h3, congrArg (· + 1) h4, ?_⟩
    · rw [pow_succ, ← Nat.div_div_eq_div_mul, h2]; omega
    · intro y hy
      change y ∈ ((c.step region row base acc z k).2.2 ::
        (c.steps region base (row + 2) (c.step region row base acc z k).2.1 (c.step region row base acc z k).2.2 ks).2.2).getLast? at hy
      match ks, h1, h2, h3, h4, h5, hy with
      | [], h1, h2, _, _, _, hy =>
        simp only [MulComplete.steps, List.getLast?_singleton, Option.mem_def, Option.some.injEq] at hy
        simp only [List.length_nil, pow_zero, Nat.div_one] at h2
        rw [← hy, h2]
        exact ⟨ez, rfl⟩
      | k2 :: ks, _, _, _, _, h5, hy =>
        have := h5 y (by
          rw [List.getLast?_cons_of_ne_nil] at hy
          · exact hy
          · exact List.cons_ne_nil _ _)
        rw [show row + 2 + 2 * (k2 :: ks).length = row + 2 * ((k2 :: ks).length + 1) by omega] at this
        exact this

end complete

/-- The check of overflow: the number decomposed is the scalar plus `tQ`. -/
theorem overflow_exact {Z m : Nat} (hZ : Z < 2 ^ 255) (hm : m < 2 ^ 130) {alpha s sMinus eta z0 z130 k254 : Fp}
    (e0 : z0 = (Z : Nat)) (e1 : z130 = ((Z / 2 ^ 130 : Nat) : Fp)) (e2 : k254 = ((Z / 2 ^ 254 : Nat) : Fp))
    (g1 : s - (alpha + k254 * (((2 ^ 124 : Nat) : Fp) * ((2 ^ 6 : Nat) : Fp))) = 0) (g2 : z0 - alpha - ((tQ : Nat) : Fp) = 0)
    (g3 : k254 * (z130 - ((2 ^ 124 : Nat) : Fp)) = 0) (g4 : k254 * sMinus = 0)
    (g5 : (1 - k254) * (1 - z130 * eta) * sMinus = 0) (hs : s = (m : Nat) + 2 ^ 130 * sMinus) :
    Z = alpha.val + tQ := by
  have hp : pallasBase = 2 ^ 254 + 45560315531419706090280762371685220353 := by decide +kernel
  have ht : tQ = 45560315531506369815346746415080538113 := rfl
  have hal := ZMod.val_lt alpha
  have hav : ((alpha.val : Nat) : Fp) = alpha := ZMod.natCast_zmod_val alpha
  have hcast : ((Z : Nat) : Fp) = ((alpha.val + tQ : Nat) : Fp) := by
    push_cast; rw [hav, ← e0]; linear_combination g2
  rw [ZMod.natCast_eq_natCast_iff] at hcast
  have hmod : Z % pallasBase = (alpha.val + tQ) % pallasBase := hcast
  have cases3 : Z = alpha.val + tQ ∨ Z + pallasBase = alpha.val + tQ ∨ Z = alpha.val + tQ + pallasBase := by
    have hz := Nat.div_add_mod Z pallasBase
    have ha := Nat.div_add_mod (alpha.val + tQ) pallasBase
    have hz2 : Z / pallasBase < 2 := Nat.div_lt_of_lt_mul (by omega)
    have ha2 : (alpha.val + tQ) / pallasBase < 2 := Nat.div_lt_of_lt_mul (by omega)
    rw [hmod] at hz
    generalize Z / pallasBase = u at *
    generalize (alpha.val + tQ) / pallasBase = v at *
    generalize (alpha.val + tQ) % pallasBase = r at *
    interval_cases u <;> interval_cases v <;> omega
  have hk : Z / 2 ^ 254 = 0 ∨ Z / 2 ^ 254 = 1 := by
    have : Z / 2 ^ 254 < 2 := Nat.div_lt_of_lt_mul (by omega)
    omega
  rcases cases3 with h | h | h
  · exact h
  · exfalso
    rcases hk with hk | hk
    · rw [hk, Nat.cast_zero] at e2
      have hz : Z / 2 ^ 130 = 0 := Nat.div_eq_of_lt (by omega)
      rw [hz, Nat.cast_zero] at e1
      rw [e2, e1, sub_zero, zero_mul, sub_zero, one_mul, one_mul] at g5
      rw [e2, zero_mul, add_zero, hs, g5, mul_zero, add_zero] at g1
      have : alpha = (m : Nat) := by linear_combination -g1
      have hv : alpha.val = m := by
        rw [this, ZMod.val_natCast, Nat.mod_eq_of_lt (by omega)]
      omega
    · have : 2 ^ 254 ≤ Z := by
        by_contra hc
        rw [Nat.div_eq_of_lt (by omega)] at hk
        omega
      omega
  · exfalso
    rcases hk with hk | hk
    · have : Z < 2 ^ 254 := by
        by_contra hc
        have := Nat.div_pos (show 2 ^ 254 ≤ Z by omega) (by positivity)
        omega
      omega
    · rw [hk, Nat.cast_one] at e2
      rw [e2, one_mul, e1, sub_eq_zero, ZMod.natCast_eq_natCast_iff] at g3
      have hz : Z / 2 ^ 130 = 2 ^ 124 := by
        have g3' : Z / 2 ^ 130 % pallasBase = 2 ^ 124 % pallasBase := g3
        have hlt : Z / 2 ^ 130 < 2 ^ 125 := Nat.div_lt_of_lt_mul (by rw [← pow_add]; exact hZ)
        rwa [Nat.mod_eq_of_lt (by omega), Nat.mod_eq_of_lt (by omega)] at g3'
      have hZ2 : Z < 2 ^ 254 + 2 ^ 130 := by
        have := Nat.lt_mul_div_succ Z (show 0 < 2 ^ 130 by positivity)
        rw [hz] at this
        omega
      rw [e2, one_mul] at g4
      rw [e2, one_mul, hs, g4, mul_zero, add_zero, sub_eq_zero] at g1
      have hc : ((m : Nat) : Fp) = ((alpha.val + 2 ^ 130 : Nat) : Fp) := by
        rw [g1]; push_cast; rw [hav]; ring
      rw [ZMod.natCast_eq_natCast_iff] at hc
      have hc' : m % pallasBase = (alpha.val + 2 ^ 130) % pallasBase := hc
      rw [Nat.mod_eq_of_lt (by omega)] at hc'
      have hge : pallasBase ≤ alpha.val + 2 ^ 130 := by
        by_contra hcon
        rw [Nat.mod_eq_of_lt (by omega)] at hc'
        omega
      omega

theorem sat_mono {F : Type} [Ring F] {chip chip' : Chip F} {table : Nat → List F} {w : Content F} {region : Nat}
    {calls : Calls F} (hg : ∀ g ∈ chip'.gates, g ∈ chip.gates) (hl : ∀ l ∈ chip'.lookups, l ∈ chip.lookups)
    (h : Sat chip table w region calls) : Sat chip' table w region calls :=
  ⟨h.enforced, fun g m => h.gates g (hg g m), fun l m => h.lookups l (hl l m)⟩

section mul

variable {c : Mul} {table : Nat → List Fp} {w : Content Fp} {start region : Nat} {alpha : Assigned Fp} {base : EccPoint Fp}
  {B : Pt (5 : Fp)}

theorem lsb_sound {all : Calls Fp} {offset : Nat} {acc : EccPoint Fp} {z1 : Assigned Fp} {lsb : Option Bool}
    (hs : Sat c.chip table w region all) (hsub : ∀ x ∈ (c.processLsb region offset base acc z1 lsb).1, x ∈ all)
    (hz : z1.cell = ⟨region, offset, .advice c.complete.z⟩) (hb : Holds w base B) {K : Nat}
    (hacc : Holds w acc (accScalar 254 K • B)) (hK : w.at z1.cell = K) :
    ∃ k : Nat, k ≤ 1 ∧ w.at (c.processLsb region offset base acc z1 lsb).2.2.cell = ((2 * K + k : Nat) : Fp) ∧
      Holds w (c.processLsb region offset base acc z1 lsb).2.1 ((2 ^ 254 + (2 * K + k)) • B) := by
  have hgate : c.lsbGate ∈ (c.chip : Chip Fp).gates := List.mem_cons_self
  have hen : Call.enable c.qLsb offset ∈ all := hsub _ List.mem_cons_self
  have g1 := sat_gate hs hgate List.mem_cons_self hen
  have g2 := sat_gate hs hgate (List.mem_cons_of_mem _ List.mem_cons_self) hen
  have g3 := sat_gate hs hgate (List.mem_cons_of_mem _ (List.mem_cons_of_mem _ List.mem_cons_self)) hen
  rw [eval_boolCheck] at g1
  rw [eval_ternary] at g2 g3
  simp only [eval_sub, eval_add, eval_scaled, eval_advice, add_zero] at g1 g2 g3
  have r2 : (offset : Int) + 1 = ((offset + 1 : Nat) : Int) := by push_cast; ring
  rw [r2] at g1 g2 g3
  have hbx : w region (.advice c.add.xP) ((offset + 1 : Nat) : Int) = w.at base.x.cell :=
    sat_copy hs (a := ⟨region, offset + 1, .advice c.add.xP⟩) (hsub _ (by
      simp only [Mul.processLsb, copyAdvice, List.mem_append, List.mem_cons]; tauto))
  have hby : w region (.advice c.add.yP) ((offset + 1 : Nat) : Int) = w.at base.y.cell :=
    sat_copy hs (a := ⟨region, offset + 1, .advice c.add.yP⟩) (hsub _ (by
      simp only [Mul.processLsb, copyAdvice, List.mem_append, List.mem_cons]; tauto))
  have hzw : w region (.advice c.complete.z) (offset : Int) = K := by rw [← hK, hz]; rfl
  have hb1 : w.at base.x.cell = (coords B).1 := congrArg Prod.fst hb
  have hb2 : w.at base.y.cell = (coords B).2 := congrArg Prod.snd hb
  rw [hbx, hb1] at g2
  rw [hby, hb2] at g3
  have fin : ∀ (P : Pt (5 : Fp)), w region (.advice c.add.xP) (offset : Int) = (coords P).1 →
      w region (.advice c.add.yP) (offset : Int) = (coords P).2 →
      Holds w (c.processLsb region offset base acc z1 lsb).2.1 (P + accScalar 254 K • B) := fun P h1 h2 =>
    add_within usable_pallas (chip := c.chip) (c := c.add) (by simp [Mul.chip, AddComplete.chip]) hs (fun x hx => hsub x (by
      simp only [Mul.processLsb, List.mem_append, List.mem_cons]; tauto)) (Prod.ext h1 h2) hacc
  rw [hzw] at g1
  rcases g1 with g1 | g1
  · rw [hzw, g1, zero_mul, zero_add, sub_zero, one_mul] at g2 g3
    refine ⟨0, by omega, ?_, ?_⟩
    · show w region (.advice c.complete.z) ((offset + 1 : Nat) : Int) = _
      have e : ((2 * K + 0 : Nat) : Fp) = 2 * K := by push_cast; ring
      rw [e]; linear_combination g1
    · have := fin (-B) (by rw [coords_neg]; linear_combination g2) (by rw [coords_neg]; linear_combination g3)
      rw [show accScalar 254 K = (2 ^ 254 + (2 * K + 0)) + 1 from rfl, add_nsmul _ _ 1, one_nsmul, add_comm (-B),
        add_neg_cancel_right] at this
      exact this
  · rw [hzw, g1, one_mul, sub_self, zero_mul, add_zero] at g2 g3
    refine ⟨1, by omega, ?_, ?_⟩
    · show w region (.advice c.complete.z) ((offset + 1 : Nat) : Int) = _
      have e : ((2 * K + 1 : Nat) : Fp) = 2 * K + 1 := by push_cast; ring
      rw [e]; linear_combination g1
    · have := fin 0 (by rw [g2]; rfl) (by rw [g3]; rfl)
      rw [zero_add] at this
      exact this

theorem overflow_sound {zs : List (Assigned Fp)} {regions : List (Calls Fp)} {o : MulOverflow} (ht : IsTable 10 (table o.lookup.tableIdx))
    (h : o.check start alpha zs = .ok regions) {chip : Chip Fp} (hg : ∀ g ∈ o.chip.gates, g ∈ chip.gates)
    (hl : ∀ l ∈ o.chip.lookups, l ∈ chip.lookups) (hs : SatAll chip table w start regions) {Z : Nat} (hZ : Z < 2 ^ 255)
    (e0 : ∀ z ∈ zs[0]?, w.at z.cell = (Z : Nat)) (e1 : ∀ z ∈ zs[130]?, w.at z.cell = ((Z / 2 ^ 130 : Nat) : Fp))
    (e2 : ∀ z ∈ zs[254]?, w.at z.cell = ((Z / 2 ^ 254 : Nat) : Fp)) : Z = (w.at alpha.cell).val + tQ := by
  unfold MulOverflow.check at h
  split at h
  case h_2 => cases h
  rename_i z0 z130 k254 m0 m1 m2
  obtain ⟨⟨calls, sums⟩, h1, h2⟩ := bind_ok h
  simp only at h2
  split at h2
  case h_2 => cases h2
  rename_i sMinus hlast
  simp only [pure, Except.pure, Except.ok.injEq] at h2
  have hs1 : Sat chip table w (start + 1) calls := by
    have := hs 1 (by rw [← h2]; simp)
    simpa [← h2] using this
  have hs2 := hs 2 (by rw [← h2]; simp)
  simp only [← h2, List.getElem_cons_succ, List.getElem_cons_zero] at hs2
  obtain ⟨hlt, m, hm, hsum⟩ := Verif.Props.C103_open o.lookup 10 (start + 1) _ 13 false table ht w calls sums h1
    (sat_mono (fun g m => hg g (List.mem_cons_of_mem _ m)) hl hs1)
  have hlen : sums.length = 14 := by
    obtain ⟨more, h3, -⟩ := copyCheck_split h1
    exact (rangeCheck_sound (more := [.advice o.lookup.runningSum 0 _, .equal ⟨start + 1, 0, .advice o.lookup.runningSum⟩ _]) ht rfl h3
      (by
        obtain ⟨more', h4, h5⟩ := copyCheck_split h1
        rw [h3] at h4
        simp only [Except.ok.injEq, Prod.mk.injEq, and_true] at h4
        rw [h4, ← h5]
        exact sat_mono (fun g m => hg g (List.mem_cons_of_mem _ m)) hl hs1)).1
  have hlast' : sums[13] = sMinus := by
    rw [List.getLast?_eq_getElem?, hlen, List.getElem?_eq_getElem (by omega)] at hlast
    exact Option.some.inj hlast
  rw [hlast'] at hsum
  have gate := fun e he => sat_gate hs2 (e := e) (hg _ List.mem_cons_self) he (o := 1) List.mem_cons_self
  simp only [List.forall_mem_cons, List.not_mem_nil, false_imp_iff, implies_true, and_true, eval_sub, eval_add, eval_mul,
    eval_const, eval_advice] at gate
  have cp : ∀ {col off : Nat} {a : Assigned Fp}, Call.equal ⟨start + 2, off, .advice col⟩ a.cell ∈ _ →
      w (start + 2) (.advice col) (off : Int) = w.at a.cell := fun hm => sat_copy hs2 (a := ⟨start + 2, _, .advice _⟩) hm
  have c0 := cp (col := o.advice0) (off := 0) (a := z0) (by simp [copyAdvice])
  have c1 := cp (col := o.advice0) (off := 1) (a := z130) (by simp [copyAdvice])
  have c2 := cp (col := o.advice1) (off := 0) (a := k254) (by simp [copyAdvice])
  have c3 := cp (col := o.advice1) (off := 1) (a := alpha) (by simp [copyAdvice])
  have c4 := cp (col := o.advice1) (off := 2) (a := sMinus) (by simp [copyAdvice])
  have c5 := cp (col := o.advice2) (off := 1) (a := ⟨⟨start, 0, .advice o.advice0⟩, none⟩) (by simp [copyAdvice, assignAdvice])
  obtain ⟨g1, g2, g3, g4, g5⟩ := gate
  have r0 : ((1 : Nat) : Int) + -1 = ((0 : Nat) : Int) := by norm_num
  have r1 : ((1 : Nat) : Int) + 0 = ((1 : Nat) : Int) := by norm_num
  have r2 : ((1 : Nat) : Int) + 1 = ((2 : Nat) : Int) := by norm_num
  rw [r0] at g1 g2 g3 g4 g5
  rw [r1] at g1 g2 g3 g5
  rw [r2] at g4 g5
  simp only [c0, c1, c2, c3, c4, c5] at g1 g2 g3 g4 g5
  exact overflow_exact hZ hm (e0 z0 m0) (e1 z130 m1) (e2 k254 m2) (s := w.at ⟨start, 0, .advice o.advice0⟩) g1 g2 g3 g4 g5 hsum

theorem getLast_getD {a : Assigned Fp} {l : List (Assigned Fp)} {n : Nat} (h : l.length = n + 1) :
    l.getLast?.getD a = l[n]'(by omega) := by
  have : l.getLast? = some (l[n]'(by omega)) := by
    rw [List.getLast?_eq_getElem?, show l.length - 1 = n by omega, List.getElem?_eq_getElem (by omega)]
  rw [this]
  rfl

theorem parts {α : Type} (a b c d e f : List α) :
    (∀ x ∈ a, x ∈ a ++ b ++ c ++ d ++ e ++ f) ∧ (∀ x ∈ b, x ∈ a ++ b ++ c ++ d ++ e ++ f) ∧
    (∀ x ∈ c, x ∈ a ++ b ++ c ++ d ++ e ++ f) ∧ (∀ x ∈ d, x ∈ a ++ b ++ c ++ d ++ e ++ f) ∧
    (∀ x ∈ e, x ∈ a ++ b ++ c ++ d ++ e ++ f) ∧ (∀ x ∈ f, x ∈ a ++ b ++ c ++ d ++ e ++ f) := by
  simp only [List.mem_append]
  tauto

theorem gates_parts {α : Type} (z : α) (a b c d e : List α) :
    (∀ x ∈ a, x ∈ z :: (a ++ b ++ c ++ d ++ e)) ∧ (∀ x ∈ b, x ∈ z :: (a ++ b ++ c ++ d ++ e)) ∧
    (∀ x ∈ c, x ∈ z :: (a ++ b ++ c ++ d ++ e)) ∧ (∀ x ∈ d, x ∈ z :: (a ++ b ++ c ++ d ++ e)) ∧
    (∀ x ∈ e, x ∈ z :: (a ++ b ++ c ++ d ++ e)) := by
  simp only [List.mem_append, List.mem_cons]
  tauto

/-- The cell of the running sum at the start. -/
def zInit (c : Mul) (start : Nat) : Assigned Fp := ⟨⟨start, 1, .advice c.hi.z⟩, some 0⟩

/-- The call for the last bit. -/
def lsbOf (c : Mul) (start : Nat) (alpha : Assigned Fp) (base acc : EccPoint Fp) (zsCo : List (Assigned Fp)) :
    Calls Fp × EccPoint Fp × Assigned Fp :=
  c.processLsb start (1 + 126 + 2 + 3 * 2) base acc (zsCo.getLast?.getD (zInit c start))
    (((Mul.decompose alpha.value).drop 254).head?.getD none)

/-- The parts of the multiplication. -/
theorem assign_split {regions : List (Calls Fp)} {out : EccPoint Fp} (h : c.assign start alpha base = .ok (regions, out)) :
    ∃ hi accHi zsHi lo accLo zsLo co accCo zsCo over,
      c.hi.doubleAndAdd 125 start 1 base ((Mul.decompose alpha.value).take 125) (c.add.assign start base base 0).2
        (zInit c start) = .ok (hi, accHi, zsHi) ∧
      c.lo.doubleAndAdd 126 start 1 base (((Mul.decompose alpha.value).drop 125).take 126) accHi
        (zsHi.getLast?.getD (zInit c start)) = .ok (lo, accLo, zsLo) ∧
      c.complete.assign start (1 + 126 + 2) (((Mul.decompose alpha.value).drop 251).take 3) base accLo
        (zsLo.getLast?.getD (zInit c start)) = .ok (co, accCo, zsCo) ∧
      c.overflow.check (start + 1) alpha (zInit c start :: (zsHi ++ zsLo ++ zsCo ++
        [(lsbOf c start alpha base accCo zsCo).2.2])).reverse = .ok over ∧
      regions = ((c.add.assign start base base 0).1 ++ [.constant c.hi.z 1 (some 0)] ++ hi ++ lo ++ co ++
        (lsbOf c start alpha base accCo zsCo).1) :: over ∧
      out = (lsbOf c start alpha base accCo zsCo).2.1 := by
  unfold Mul.assign at h
  obtain ⟨⟨hi, accHi, zsHi⟩, h1, h⟩ := bind_ok h
  obtain ⟨⟨lo, accLo, zsLo⟩, h2, h⟩ := bind_ok h
  obtain ⟨⟨co, accCo, zsCo⟩, h3, h⟩ := bind_ok h
  obtain ⟨_, h4, h⟩ := bind_ok h
  obtain ⟨over, h5, h⟩ := bind_ok h
  have h := Except.ok.inj h
  exact ⟨hi, accHi, zsHi, lo, accLo, zsLo, co, accCo, zsCo, over, h1, h2, h3, h5, (congrArg Prod.fst h).symm,
    (congrArg Prod.snd h).symm⟩

theorem complete_sound {all : Calls Fp} {offset : Nat} {bits : List (Option Bool)} {acc accCo : EccPoint Fp} {z : Assigned Fp}
    {co : Calls Fp} {zsCo : List (Assigned Fp)} {chip : Chip Fp} {d : MulComplete}
    (h : d.assign region offset bits base acc z = .ok (co, accCo, zsCo))
    (ha : (d.add.qAdd, d.add.polys) ∈ chip.gates) (hd : ∀ g ∈ (d.chip : Chip Fp).gates, g ∈ chip.gates)
    (hs : Sat chip table w region all) (hsub : ∀ x ∈ co, x ∈ all) (hb : Holds w base B) {s K : Nat} (hK : K < 2 ^ s)
    (hacc : Holds w acc (accScalar s K • B)) (hz : w.at z.cell = K) :
    ∃ K' : Nat, K' < 2 ^ (s + 3) ∧ K' / 8 = K ∧ Holds w accCo (accScalar (s + 3) K' • B) ∧ ∃ hl : zsCo.length = 3,
      w.at (zsCo[2]'(by omega)).cell = K' ∧ (zsCo[2]'(by omega)).cell = ⟨region, offset + 6, .advice d.z⟩ := by
  obtain ⟨_, hl3, h3⟩ := bind_ok h
  have hl3 := assert_ok.1 hl3
  simp only [beq_iff_eq] at hl3
  have h3 := Except.ok.inj h3
  have e1 : _ = co := congrArg Prod.fst h3
  have e2 : _ = accCo := congrArg (fun x => x.2.1) h3
  have e3 : _ = zsCo := congrArg (fun x => x.2.2) h3
  simp only at e1 e2 e3
  have cz : w region (.advice d.z) (offset : Int) = w.at z.cell :=
    sat_copy hs (a := ⟨region, offset, .advice d.z⟩) (hsub _ (by
      rw [← e1]; simp only [copyAdvice, List.mem_append, List.mem_cons]; tauto))
  obtain ⟨K3, k3, d3, a3, l3, v3⟩ := complete_steps usable_pallas (c := d) (w := w) (B := B) ha hd hs hb
    bits offset acc (copyAdvice region z d.z offset).2 s K hK (fun x hx => hsub x (by
      rw [← e1]; exact List.mem_append_right _ hx)) (fun i hi => hsub _ (by
      rw [← e1]
      refine List.mem_append_left _ (List.mem_append_left _ (List.mem_map.2 ⟨i, List.mem_range.2 (by omega), ?_⟩))
      rw [Call.enable.injEq]; exact ⟨rfl, by omega⟩)) hacc rfl (cz.trans hz)
  rw [e2] at a3
  rw [e3] at l3 v3
  rw [hl3] at k3 d3 a3 l3 v3
  have hlast : zsCo.getLast? = some (zsCo[2]'(by omega)) := by
    rw [List.getLast?_eq_getElem?, show zsCo.length - 1 = 2 by omega, List.getElem?_eq_getElem (by omega)]
  obtain ⟨w3, c3⟩ := v3 _ hlast
  exact ⟨K3, k3, d3, a3, l3, w3, c3⟩

theorem rev_parts {l1 l2 l3 : List (Assigned Fp)} {a z : Assigned Fp} (h1 : l1.length = 125) (h2 : l2.length = 126)
    (h3 : l3.length = 3) : (a :: (l1 ++ l2 ++ l3 ++ [z])).reverse[0]? = some z ∧
    (a :: (l1 ++ l2 ++ l3 ++ [z])).reverse[130]? = some (l1[124]'(by omega)) ∧
    (a :: (l1 ++ l2 ++ l3 ++ [z])).reverse[254]? = some (l1[0]'(by omega)) := by
  refine ⟨by simp, ?_, ?_⟩
  · rw [List.getElem?_reverse (by simp [h1, h2, h3])]
    simp [h1, h2, h3]
  · rw [List.getElem?_reverse (by simp [h1, h2, h3])]
    simp [h1, h2, h3]

/-- The product is right if the base in the loops is the base. -/
theorem mul_sound {advices : Nat → Nat} (hc : c.Configured advices) (ht : IsTable 10 (table c.overflow.lookup.tableIdx))
    {regions : List (Calls Fp)} {out : EccPoint Fp} (h : c.assign start alpha base = .ok (regions, out))
    (hs : SatAll c.chip table w start regions) (hb : Holds w base B) (hB : B ≠ 0)
    (hx : w start (.advice (advices 0)) 2 = (coords B).1) (hy : w start (.advice (advices 1)) 2 = (coords B).2) :
    Holds w out ((w.at alpha.cell).val • B) := by
  obtain ⟨hi, accHi, zsHi, lo, accLo, zsLo, co, accCo, zsCo, over, h1, h2, h3, h5, rfl, rfl⟩ := assign_split h
  have hs0 := hs 0 (Nat.succ_pos _)
  rw [List.getElem_cons_zero, Nat.add_zero] at hs0
  have hover : SatAll c.chip table w (start + 1) over := fun i hi => by
    have := hs (i + 1) (Nat.succ_lt_succ hi)
    rw [List.getElem_cons_succ] at this
    rwa [show start + 1 + i = start + (i + 1) by omega]
  obtain ⟨pa, pz, ph, pl, pc, ps⟩ := parts (c.add.assign start base base 0).1 [.constant c.hi.z 1 (some (0 : Fp))] hi lo co
    (lsbOf c start alpha base accCo zsCo).1
  generalize (c.add.assign start base base 0).1 ++ [.constant c.hi.z 1 (some (0 : Fp))] ++ hi ++ lo ++ co ++
    (lsbOf c start alpha base accCo zsCo).1 = main at *
  have two : (2 : Fp) ≠ 0 := by decide +kernel
  have free : ∀ m, 0 < m → m < vestaBase → m • B ≠ 0 := fun m => pallas_free hB
  obtain ⟨gadd', ghi, glo, gco, gov⟩ := gates_parts c.lsbGate (c.add.chip : Chip Fp).gates c.hi.chip.gates c.lo.chip.gates
    c.complete.chip.gates c.overflow.chip.gates
  have gadd := gadd' (c.add.qAdd, c.add.polys) List.mem_cons_self
  change (c.add.qAdd, c.add.polys) ∈ (c.chip : Chip Fp).gates at gadd
  change ∀ g ∈ (c.hi.chip : Chip Fp).gates, g ∈ (c.chip : Chip Fp).gates at ghi
  change ∀ g ∈ (c.lo.chip : Chip Fp).gates, g ∈ (c.chip : Chip Fp).gates at glo
  change ∀ g ∈ (c.complete.chip : Chip Fp).gates, g ∈ (c.chip : Chip Fp).gates at gco
  change ∀ g ∈ (c.overflow.chip : Chip Fp).gates, g ∈ (c.chip : Chip Fp).gates at gov
  -- the double of the base
  have hacc : Holds w (c.add.assign start base base 0).2 (accScalar 0 0 • B) := by
    have := add_within usable_pallas gadd hs0 (offset := 0) (p := base) (q := base) pa hb hb
    rwa [show accScalar 0 0 = 1 + 1 from rfl, add_nsmul, one_nsmul]
  have hz0 : w start (.advice c.hi.z) ((1 : Nat) : Int) = ((0 : Nat) : Fp) := by
    have : Enforced w start (.constant c.hi.z 1 (some 0)) := hs0.enforced _ (pz _ List.mem_cons_self)
    rw [Nat.cast_zero]
    exact (Option.some.inj this).symm
  -- the high half
  obtain ⟨K1, k1, -, a1, l1, v1⟩ := doubleAndAdd_sound two free (by norm_num) h1 ghi hs0 ph (by rw [hc.hi]; exact hx) (by rw [hc.hi]; exact hy) (s := 0) (K := 0) (by norm_num)
    (by decide +kernel) hacc hz0
  rw [getLast_getD l1] at h2
  have w1 : w.at (zsHi[124]'(by omega)).cell = ((K1 : Nat) : Fp) := by rw [v1 124 (by omega)]; simp
  -- the low half
  obtain ⟨K2, k2, d2, a2, l2, v2⟩ := doubleAndAdd_sound two free (by norm_num) h2 glo hs0 pl (by rw [hc.lo]; exact hx) (by rw [hc.lo]; exact hy) (s := 125) (K := K1) k1
    (by decide +kernel) a1 w1
  rw [getLast_getD l2] at h3
  have w2 : w.at (zsLo[125]'(by omega)).cell = ((K2 : Nat) : Fp) := by rw [v2 125 (by omega)]; simp
  -- complete addition
  obtain ⟨K3, k3, d3, a3, l3, w3, c3⟩ := complete_sound h3 (by rw [hc.complete]; exact gadd) gco hs0 pc hb k2 a2 w2
  -- the last bit
  unfold lsbOf at ps h5 ⊢
  rw [getLast_getD l3] at ps h5 ⊢
  obtain ⟨k, hk, w4, a4⟩ := lsb_sound hs0 ps c3 hb a3 w3
  -- the check of overflow
  obtain ⟨q0, q130, q254⟩ := rev_parts (a := zInit c start) (z := (c.processLsb start (1 + 126 + 2 + 3 * 2) base accCo
    (zsCo[2]'(by omega)) (((Mul.decompose alpha.value).drop 254).head?.getD none)).2.2) l1 l2 l3
  have hZ := overflow_sound (o := c.overflow) (chip := c.chip) (Z := 2 * K3 + k) ht h5 gov (fun l m => m) hover
    (by omega)
    (fun z hz => by
      rw [q0, Option.mem_def, Option.some.injEq] at hz
      rw [← hz]; exact w4)
    (fun z hz => by
      rw [q130, Option.mem_def, Option.some.injEq] at hz
      rw [← hz, w1]
      congr 1
      omega)
    (fun z hz => by
      rw [q254, Option.mem_def, Option.some.injEq] at hz
      rw [← hz, v1 0 (by omega)]
      congr 1
      omega)
  rw [hZ] at a4
  have hq : 2 ^ 254 + ((w.at alpha.cell).val + tQ) = (w.at alpha.cell).val + vestaBase := by
    have : 2 ^ 254 + tQ = vestaBase := by decide +kernel
    omega
  rw [hq, add_nsmul, pallas_order, add_zero] at a4
  exact a4

end mul

end Verif.Lemmas.Ecc

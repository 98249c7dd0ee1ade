import Verif.Lemmas.SinsemillaHonest
import Verif.Lemmas.SinsemillaTable
import Verif.Lemmas.EccMulForged

/-! A hash in a circuit, cell by cell, and the empty message. -/

namespace Verif.Lemmas.Sinsemilla

open Verif.Gadget Verif.Spec.Gadget Verif.Spec Verif.Spec.Ecc Verif.Spec.Sinsemilla Verif.Lemmas.Gadget Verif.Lemmas.Ecc
open Verif.FloorPlanner (Call)

/-- Five advice columns and two fixed ones. -/
def demo : Sinsemilla where
  qS1 := ⟨0, false⟩
  qS2 := 0
  qS4 := ⟨1, true⟩
  fixedYQ := 1
  da := ⟨0, 1, 3, 4⟩
  bits := 2

/-- The columns of the accumulator, the generator, the bits and the slopes. -/
def sample : List (List Nat) := [
  [0x40000000000000000000000000000000224698fc094cf91b992d30ed00000000,
   0x14215a48e11832c960ff465cd02c701f6539ca12938b1826a5faef0f0419dabc,
   0xaf003,
   0x2048033bd2b52333c3486961c40339dbde6e6bc67ada24d5fd15a36ec2fd5e80,
   0x172066c434213d31d92310e942d7e9c1c85e9e0280e6c2d55f67bcaabbed360c],
  [0x2143f6b11dabbc1f5af88604418f93d1c61419bc6843f9b9efc282af3a9bd269,
   0x5eb74baac186eb0fa127c4b9718324d162b7969422eff0a601085d0794ce3ac,
   0x2bc,
   0x286554e009fb7dac996d1e5618a31e5fd7778b4db4efdca597f688de72d8ae0,
   0x1c67386cf322f949fa677114b0329e1645b19ff44ead05552c924b09f4f53215],
  [0x1146ef031fc06bd456395b8c71322eebbe91886cd9f2d18fdd05f8faa91fc85c,
   0x26abf29d79296474ec871664d23deae7929235c2bdf68802bc3ed47d3b19dae,
   0x3ff,
   0x3ab3e8e0d30431b1b351ac821178b7fb232e334136e1b566ac861cb8d5041a7,
   0x32ad90c2965994fd8de5f2d92790468d7a55aaa4bca0532a6b0d26db73205911],
  [0x8e5ae8bb13ce7d5ca4a2cef78506729955b0ddaca884cb807c8541144d2193,
   0x0,
   0x0,
   0x1fca408a56f8166b23fecc6166f43b67655bd06d3532744de22fd3a130f6c1fe,
   0x0]]

/-- The cells of the region of the hash; both pieces are in another region. -/
def sampleCells : Content Fp
  | 0, .advice c, r => (((sample.getD r.toNat []).getD c 0 : Nat) : Fp)
  | 0, .fixed 0, r => (([1, 0, 2].getD r.toNat 0 : Nat) : Fp)
  | 0, .fixed 1, r => (([2].getD r.toNat 0 : Nat) : Fp)
  | 1, .advice 0, r => (([3 + 700 * 1024, 1023].getD r.toNat 0 : Nat) : Fp)
  | _, _, _ => 0

/-- A message of two pieces. -/
def samplePieces (a b : Option Fp) : List (Piece pallasBase) :=
  [⟨⟨⟨1, 0, .advice 0⟩, a⟩, 2⟩, ⟨⟨⟨1, 1, .advice 0⟩, b⟩, 1⟩]

/-- The lookup holds in an enabled row. -/
def lookupOk (c : Sinsemilla) (S : List (Fp × Fp)) (w : Content Fp) (region : Nat) : Call (Option Fp) → Bool
  | .enable s r => s != c.qS1 || (decide ((wordAt c w region r).val < 1024) && match S[(wordAt c w region r).val]? with
    | some g => w region (.advice c.da.xP) r == g.1 && y2 c w region r == 2 * (g.2 +
        w region (.advice c.da.lambda1) r * (w region (.advice c.da.xA) r - w region (.advice c.da.xP) r))
    | none => false)
  | _ => true

theorem lookupOk_looksUp {c : Sinsemilla} {S : List (Fp × Fp)} {G : Nat → Pt (5 : Fp)} (hS : Generators S G) {w : Content Fp}
    {region : Nat} {calls : Calls Fp} (h : calls.all (lookupOk c S w region) = true) :
    LooksUp (c.lookup S) (Sinsemilla.load S) w region calls := by
  refine looksUp_of smooth_five.two hS fun r hr => ?_
  have h1 := List.all_eq_true.1 h _ hr
  simp only [lookupOk, bne_self_eq_false, Bool.false_or, Bool.and_eq_true, decide_eq_true_eq] at h1
  obtain ⟨h1, h2⟩ := h1
  rw [(hS.points _ h1).2] at h2
  simp only [Bool.and_eq_true, beq_iff_eq] at h2
  exact ⟨_, h1, (ZMod.natCast_zmod_val (wordAt c w region r)).symm, h2⟩

def checkSample : Bool :=
  match demo.hashToPoint generatorTable 0 (some (-1, 2)) (samplePieces none none) with
  | .ok (calls, _, _) => calls.all (okCall demo.chip sampleCells 0 calls) && calls.all (lookupOk demo generatorTable sampleCells 0)
  | _ => false

theorem sample_check : checkSample = true := by decide +kernel

theorem sample_sat {table : Nat → List Fp} : ∃ calls out zss, demo.hashToPoint generatorTable 0 (affine pallasGen) (samplePieces none none) =
    .ok (calls, out, zss) ∧ Sat demo.chip table sampleCells 0 calls ∧
    LooksUp (demo.lookup generatorTable) (Sinsemilla.load generatorTable) sampleCells 0 calls := by
  have h := sample_check
  unfold checkSample at h
  split at h
  case h_2 => cases h
  rename_i calls out zss ha
  rw [Bool.and_eq_true] at h
  exact ⟨calls, out, zss, ha, ⟨ok_enforced h.1, ok_gates h.1, by simp [Sinsemilla.chip]⟩, lookupOk_looksUp gen_table h.2⟩

/-- The hash, computed independently. -/
def sampleOut : Nat × Nat := (0x8e5ae8bb13ce7d5ca4a2cef78506729955b0ddaca884cb807c8541144d2193,
  0x1fca408a56f8166b23fecc6166f43b67655bd06d3532744de22fd3a130f6c1fe)

theorem gen_coords {i x y : Nat} (hi : i < 1024) (h : Verif.Gadget.Sinsemilla.table[i]? = some (x, y)) :
    gen i ≠ 0 ∧ coords (gen i) = ((x : Fp), (y : Fp)) := by
  obtain ⟨h1, h2⟩ := gen_table.points i hi
  rw [generatorTable, List.getElem?_map, h] at h2
  exact ⟨h1, (Option.some.inj h2).symm⟩

theorem step_check {A : Pt (5 : Fp)} (hA : A ≠ 0) {i xa ya xs ys l1 l2 xr xn yn : Nat} (ca : coords A = ((xa : Fp), (ya : Fp)))
    (hi : i < 1024) (hs : Verif.Gadget.Sinsemilla.table[i]? = some (xs, ys))
    (h : (xa : Fp) ≠ xs ∧ (l1 : Fp) * (xa - xs) = ya - ys ∧ (xr : Fp) = (l1 : Fp) ^ 2 - xa - xs ∧ (xa : Fp) ≠ xr ∧
      2 * (ya : Fp) = (l1 + l2) * (xa - xr) ∧ (l2 : Fp) ^ 2 - xa - xr = xn ∧ (l2 : Fp) * (xa - xn) - ya = yn) :
    ∃ B, step A (gen i) = some B ∧ B ≠ 0 ∧ coords B = ((xn : Fp), (yn : Fp)) := by
  obtain ⟨h0, hc⟩ := gen_coords hi hs
  obtain ⟨e1, e2, e3, e4, e5, e6, e7⟩ := h
  obtain ⟨B, b1, b2, b3⟩ := step_of hA h0 ca hc e1 e2 e3 e4 e5
  rw [e6, e7] at b3
  exact ⟨B, b1, b2, b3⟩

theorem sample_hash : ∃ P : Pt (5 : Fp), hashOf gen pallasGen [3, 700, 1023] = some P ∧
    coords P = ((sampleOut.1 : Fp), (sampleOut.2 : Fp)) := by
  obtain ⟨B0, s0, n0, c0⟩ := step_check pallasGen_ne (i := 3) (xa := 0x40000000000000000000000000000000224698fc094cf91b992d30ed00000000)
    (ya := 0x2)
    (xs := 0x14215a48e11832c960ff465cd02c701f6539ca12938b1826a5faef0f0419dabc)
    (ys := 0x10666957becb884dc711a0b90b5803bd97b63b4b53e2ad56011d5d3625ca36dc)
    (l1 := 0x2048033bd2b52333c3486961c40339dbde6e6bc67ada24d5fd15a36ec2fd5e80)
    (l2 := 0x172066c434213d31d92310e942d7e9c1c85e9e0280e6c2d55f67bcaabbed360c)
    (xr := 0x1499b8c0e403ed1f4c3ab04b07fa1161186c83c151f75e9b8540604bb09e19c4)
    (xn := 0x2143f6b11dabbc1f5af88604418f93d1c61419bc6843f9b9efc282af3a9bd269)
    (yn := 0x31e04ae22dba6977d94285ded8569c701b992ef446c896f393f85dac3730dcac)
    (by decide +kernel) (by norm_num) (by decide +kernel) (by decide +kernel)
  obtain ⟨B1, s1, n1, c1⟩ := step_check n0 (i := 700) (xa := 0x2143f6b11dabbc1f5af88604418f93d1c61419bc6843f9b9efc282af3a9bd269)
    (ya := 0x31e04ae22dba6977d94285ded8569c701b992ef446c896f393f85dac3730dcac)
    (xs := 0x5eb74baac186eb0fa127c4b9718324d162b7969422eff0a601085d0794ce3ac)
    (ys := 0x1133273191bb93cf53e4deb734a64e7ad77b985f9626c949fa9c617637addbd4)
    (l1 := 0x286554e009fb7dac996d1e5618a31e5fd7778b4db4efdca597f688de72d8ae0)
    (l2 := 0x1c67386cf322f949fa677114b0329e1645b19ff44ead05552c924b09f4f53215)
    (xr := 0x3b6cd72dfd170603335eb0314370ea05d804727969a78c920adebf713107041f)
    (xn := 0x1146ef031fc06bd456395b8c71322eebbe91886cd9f2d18fdd05f8faa91fc85c)
    (yn := 0xb98fb321c957f680580d000d2a68ba422a6fda4558b10c5a0e42749f76adc92)
    c0 (by norm_num) (by decide +kernel) (by decide +kernel)
  obtain ⟨B2, s2, n2, c2⟩ := step_check n1 (i := 1023) (xa := 0x1146ef031fc06bd456395b8c71322eebbe91886cd9f2d18fdd05f8faa91fc85c)
    (ya := 0xb98fb321c957f680580d000d2a68ba422a6fda4558b10c5a0e42749f76adc92)
    (xs := 0x26abf29d79296474ec871664d23deae7929235c2bdf68802bc3ed47d3b19dae)
    (ys := 0x397cdfb14d5465ce0d499ba7a480134c15ba29c7c672fad28951204b52626b96)
    (l1 := 0x3ab3e8e0d30431b1b351ac821178b7fb232e334136e1b566ac861cb8d5041a7)
    (l2 := 0x32ad90c2965994fd8de5f2d92790468d7a55aaa4bca0532a6b0d26db73205911)
    (xr := 0x1bd57c8fe1006db0874dd6d786bd09880952fd75cef9549296dc4f3e58581fff)
    (xn := 0x8e5ae8bb13ce7d5ca4a2cef78506729955b0ddaca884cb807c8541144d2193)
    (yn := 0x1fca408a56f8166b23fecc6166f43b67655bd06d3532744de22fd3a130f6c1fe)
    c1 (by norm_num) (by decide +kernel) (by decide +kernel)
  refine ⟨B2, ?_, c2⟩
  simp only [hashOf, s0, s1, s2, Option.bind_eq_bind, Option.bind_some]

section empty

variable {p : Nat} [Fact p.Prime] {b : ZMod p} {c : Sinsemilla}

/-- Cells for the empty message, with `y` for the second coordinate of the result. -/
def emptyCells (c : Sinsemilla) (xQ yQ y : ZMod p) : Content (ZMod p)
  | _, .advice col, _ => if col = c.da.xA then xQ else if col = c.da.lambda1 then y else if col = c.da.lambda2 then 2 * yQ - y
    else if col = c.da.xP then 1 + y ^ 2 - 2 * xQ else 0
  | _, .fixed _, _ => yQ
  | _, _, _ => 0

theorem empty_ok (us : Usable b) {S : List (ZMod p × ZMod p)} {Q : Pt b} (hQ : Q ≠ 0) (region : Nat) :
    c.hashToPoint S region (affine Q) [] = .ok ([.enable c.qS4 0, .fixed c.fixedYQ 0 (some (coords Q).2),
      .constant c.da.xA 0 (some (coords Q).1), .advice c.da.lambda1 0 (some (coords Q).2), .advice c.da.lambda2 0 (some 0),
      .advice c.da.xP 0 (some 0)], ⟨⟨⟨region, 0, .advice c.da.xA⟩, some (coords Q).1⟩,
        ⟨⟨region, 0, .advice c.da.lambda1⟩, some (coords Q).2⟩⟩, []) := by
  have hx := coords_x_ne us hQ
  have hy := coords_y_ne us hQ
  match Q, hQ, hx, hy with
  | .some xQ yQ hc, _, hx, hy =>
    simp only [coords] at hx hy
    unfold Sinsemilla.hashToPoint
    simp only [affine, Sinsemilla.hashPieces, ok_then]
    rw [if_neg]
    · rfl
    · simp only [bind, Option.bind, pure]
      rw [show (xQ == 0 || yQ == 0) = false by simp [hx, hy]]
      decide

theorem empty_any (us : Usable b) {S : List (ZMod p × ZMod p)} {G : Nat → Pt b} (hS : Generators S G) (hsel : c.qS1 ≠ c.qS4)
    (hcol : [c.da.xA, c.da.xP, c.da.lambda1, c.da.lambda2].Nodup) {Q : Pt b} (hQ : Q ≠ 0) (region : Nat) (y : ZMod p)
    (table : Nat → List (ZMod p)) :
    ∃ calls out zss w, c.hashToPoint S region (affine Q) [] = .ok (calls, out, zss) ∧ Sat c.chip table w region calls ∧
      LooksUp (c.lookup S) (Sinsemilla.load S) w region calls ∧ (w.at out.x.cell, w.at out.y.cell) = ((coords Q).1, y) := by
  simp only [List.nodup_cons, List.mem_cons, List.not_mem_nil, or_false, not_or, not_false_eq_true, List.nodup_nil, and_true] at hcol
  obtain ⟨⟨h1, h2, h3⟩, ⟨h4, h5⟩, h6⟩ := hcol
  have w1 : ∀ r : Int, emptyCells c (coords Q).1 (coords Q).2 y region (.advice c.da.xA) r = (coords Q).1 := fun r => by simp [emptyCells]
  have w2 : ∀ r : Int, emptyCells c (coords Q).1 (coords Q).2 y region (.advice c.da.lambda1) r = y := fun r => by
    simp [emptyCells, Ne.symm h2]
  have w3 : ∀ r : Int, emptyCells c (coords Q).1 (coords Q).2 y region (.advice c.da.lambda2) r = 2 * (coords Q).2 - y := fun r => by
    simp [emptyCells, Ne.symm h3, Ne.symm h6]
  have w4 : ∀ r : Int, emptyCells c (coords Q).1 (coords Q).2 y region (.advice c.da.xP) r = 1 + y ^ 2 - 2 * (coords Q).1 := fun r => by
    simp [emptyCells, Ne.symm h1, h4, h5]
  refine ⟨_, _, _, emptyCells c (coords Q).1 (coords Q).2 y, empty_ok us hQ region, ⟨?_, gates_of ?_, by simp [Sinsemilla.chip]⟩,
    looksUp_of us.smooth.two hS ?_, ?_⟩
  · intro k hk
    simp only [List.mem_cons, List.not_mem_nil, or_false] at hk
    rcases hk with rfl | rfl | rfl | rfl | rfl | rfl
    · trivial
    · rfl
    · exact congrArg some (w1 _).symm
    all_goals trivial
  · intro g hg e he r hr
    simp only [List.mem_cons, List.not_mem_nil, or_false, reduceCtorEq, Call.enable.injEq] at hr
    simp only [Sinsemilla.chip, List.mem_cons, List.not_mem_nil, or_false] at hg
    rcases hg with rfl | rfl
    · rw [List.mem_singleton.1 he]
      simp only [eval_sub, eval_scaled, eval_fixed, eval_yA2, y2, w1, w2, w3, w4]
      simp only [emptyCells]
      ring
    · exact absurd hr.1 hsel
  · intro r hr
    simp only [List.mem_cons, List.not_mem_nil, or_false, reduceCtorEq, Call.enable.injEq] at hr
    exact absurd hr.1 hsel
  · exact Prod.ext (w1 0) (w2 0)

/-- An honest prover meets the constraints for the empty message only with a special point. -/
theorem empty_honest (us : Usable b) {S : List (ZMod p × ZMod p)} {Q : Pt b} (hQ : Q ≠ 0) {region : Nat}
    {calls : Calls (ZMod p)} {out : EccPoint (ZMod p)} {zss : List (List (Assigned (ZMod p)))} {table : Nat → List (ZMod p)}
    (h : c.hashToPoint S region (affine Q) [] = .ok (calls, out, zss)) {w : Content (ZMod p)} (hf : Follows w region calls)
    (hs : Sat c.chip table w region calls) : (coords Q).2 ^ 2 = 2 * (coords Q).1 - 2 := by
  rw [empty_ok us hQ region] at h
  simp only [Except.ok.injEq, Prod.mk.injEq] at h
  obtain ⟨rfl, -, -⟩ := h
  have f1 : w region (.advice c.da.xA) 0 = (coords Q).1 := (Option.some.inj (hf.2.1 c.da.xA 0 (some (coords Q).1) (by simp))).symm
  have f2 : w region (.fixed c.fixedYQ) 0 = (coords Q).2 := (Option.some.inj (hf.2.2 c.fixedYQ 0 (some (coords Q).2) (by simp))).symm
  have f3 : w region (.advice c.da.lambda1) 0 = (coords Q).2 :=
    (Option.some.inj (hf.1 c.da.lambda1 0 (some (coords Q).2) (by simp))).symm
  have f4 : w region (.advice c.da.lambda2) 0 = 0 := (Option.some.inj (hf.1 c.da.lambda2 0 (some 0) (by simp))).symm
  have f5 : w region (.advice c.da.xP) 0 = 0 := (Option.some.inj (hf.1 c.da.xP 0 (some 0) (by simp))).symm
  have hy := sat_gate hs (List.mem_cons_self (a := (c.qS4, _))) List.mem_cons_self (o := 0) (by simp)
  simp only [eval_sub, eval_scaled, eval_fixed, eval_yA2, add_zero, Nat.cast_zero, f2, y2, f1, f3, f4, f5] at hy
  refine mul_left_cancel₀ (coords_y_ne us hQ) ?_
  linear_combination hy

end empty

end Verif.Lemmas.Sinsemilla

import Verif.Model.Merkle
import Verif.Spec.Merkle
import Verif.Spec.Pow5
import Verif.Lemmas.Sinsemilla
import Verif.Lemmas.EccPallas
import Verif.Lemmas.EccMul
import Verif.Props.Gadget

/-! Merkle paths with the Sinsemilla hash. -/

namespace Verif.Lemmas.Merkle

open Verif.Gadget Verif.Spec.Gadget Verif.Spec Verif.Spec.Ecc Verif.Spec.Pow5 Verif.Spec.Sinsemilla Verif.Spec.Merkle
open Verif.Lemmas.Gadget Verif.Lemmas.Ecc Verif.Lemmas.Sinsemilla Verif.Props
open Verif.FloorPlanner (Call)

theorem size_pallas : pallasBase.size = 255 := by
  have h1 : pallasBase.size ≤ 255 := Nat.size_le.2 (by decide +kernel)
  have h2 : 254 < pallasBase.size := Nat.lt_size.2 (by decide +kernel)
  omega

theorem piece_shape {c : Merkle} {region : Nat} {subs : List (Option Fp × Nat)} {calls : Calls Fp} {q : Piece pallasBase}
    (h : c.piece region subs = .ok (calls, q)) : ∃ v bits, subpieces (some 0) 0 subs = .ok (v, bits) ∧ q.numWords = bits / 10 ∧
      q.numWords * 10 < pallasBase.size ∧ calls = [.advice c.witness 0 v] ∧ q.value = ⟨⟨region, 0, .advice c.witness⟩, v⟩ := by
  unfold Merkle.piece at h
  obtain ⟨⟨v, bits⟩, h1, h⟩ := bind_ok h
  obtain ⟨_, h2, h⟩ := bind_ok h
  obtain ⟨q', h3, h⟩ := bind_ok h
  simp only [pure, Except.pure, Except.ok.injEq, Prod.mk.injEq] at h
  obtain ⟨rfl, rfl⟩ := h
  unfold Piece.new at h3
  obtain ⟨_, h4, h3⟩ := bind_ok h3
  simp only [pure, Except.pure, Except.ok.injEq] at h3
  subst h3
  exact ⟨v, bits, h1, rfl, by simpa using assert_ok.1 h4, rfl, rfl⟩

theorem subpieces_bits {p : Nat} [Fact p.Prime] : ∀ (subs : List (Option (ZMod p) × Nat)) (acc v : Option (ZMod p)) (bits n : Nat),
    subpieces acc bits subs = .ok (v, n) → n = bits + (subs.map Prod.snd).sum
  | [], acc, v, bits, n, h => by
    simp only [subpieces, Except.ok.injEq, Prod.mk.injEq] at h
    simp [h.2]
  | (u, k) :: rest, acc, v, bits, n, h => by
    unfold subpieces at h
    obtain ⟨_, _, h⟩ := bind_ok h
    rw [subpieces_bits rest _ _ _ _ h]
    simp only [List.map_cons, List.sum_cons]
    omega

theorem bitrangeOf_bits {v r : Option Fp} {start stop n : Nat} (h : bitrangeOf v start stop = .ok (r, n)) : n = stop - start := by
  unfold bitrangeOf at h
  obtain ⟨_, _, h⟩ := bind_ok h
  simp only [pure, Except.pure, Except.ok.injEq, Prod.mk.injEq] at h
  exact h.2.symm

theorem message_eq {pieces more : List (Piece pallasBase)} (h : message pieces = .ok more) : more = pieces := by
  unfold message at h
  obtain ⟨_, _, h⟩ := bind_ok h
  simpa [pure, Except.pure] using h.symm

/-- The parts of `hash_layer`. -/
theorem layer_split {c : Merkle} {S : List (Fp × Fp)} {start l : Nat} {Q : AffinePoint Fp} {left right out : Assigned Fp}
    {regions : List (Calls Fp)} (h : c.hashLayer S start Q l left right = .ok (regions, out)) :
    ∃ ca a c1 b1 c2 b2 cb b cd d ch pt zss z0a z1a zsa z0b z1b zsb more,
      (a : Piece pallasBase).numWords = 25 ∧ b.numWords = 2 ∧ d.numWords = 25 ∧
      c.lookup.witnessBits 10 (start + 1) left.value 250 255 = .ok (c1, b1) ∧
      c.lookup.witnessBits 10 (start + 2) right.value 0 5 = .ok (c2, b2) ∧
      c.sins.hashToPoint S (start + 5) Q [a, b, d] = .ok (ch, pt, zss) ∧
      zss = (z0a :: z1a :: zsa) :: (z0b :: z1b :: zsb) :: more ∧
      regions = [ca, c1, c2, cb, cd, ch, c.decompose (start + 6) l a.value b.value d.value left right z1a z1b b1 b2] ∧
      out = pt.x := by
  unfold Merkle.hashLayer at h
  rw [size_pallas] at h
  obtain ⟨⟨u1, n1⟩, e1, h⟩ := bind_ok h
  obtain ⟨⟨u2, n2⟩, e2, h⟩ := bind_ok h
  obtain ⟨⟨ca, a⟩, ha, h⟩ := bind_ok h
  obtain ⟨⟨u3, n3⟩, e3, h⟩ := bind_ok h
  obtain ⟨⟨c1, b1⟩, h1, h⟩ := bind_ok h
  obtain ⟨⟨c2, b2⟩, h2, h⟩ := bind_ok h
  obtain ⟨⟨cb, b⟩, hb, h⟩ := bind_ok h
  obtain ⟨⟨u4, n4⟩, e4, h⟩ := bind_ok h
  obtain ⟨⟨cd, d⟩, hd, h⟩ := bind_ok h
  obtain ⟨ms, hm, h⟩ := bind_ok h
  obtain ⟨⟨ch, pt, zss⟩, hh, h⟩ := bind_ok h
  dsimp only at ha hb hd hh h
  rw [message_eq hm] at hh
  have k1 := bitrangeOf_bits e1
  have k2 := bitrangeOf_bits e2
  have k3 := bitrangeOf_bits e3
  have k4 := bitrangeOf_bits e4
  obtain ⟨va, na, ia, wa, -⟩ := piece_shape ha
  obtain ⟨vb, nb, ib, wb, -⟩ := piece_shape hb
  obtain ⟨vd, nd, id, wd, -⟩ := piece_shape hd
  have ja := subpieces_bits _ _ _ _ _ ia
  have jb := subpieces_bits _ _ _ _ _ ib
  have jd := subpieces_bits _ _ _ _ _ id
  simp only [List.map_cons, List.map_nil, List.sum_cons, List.sum_nil] at ja jb jd
  split at h
  · rename_i z0a z1a zsa z0b z1b zsb more
    simp only [pure, Except.pure, Except.ok.injEq, Prod.mk.injEq] at h
    obtain ⟨rfl, rfl⟩ := h
    exact ⟨ca, a, c1, b1, c2, b2, cb, b, cd, d, ch, pt, _, z0a, z1a, zsa, z0b, z1b, zsb, more, by omega, by omega, by omega, h1, h2,
      hh, rfl, rfl, rfl⟩
  · cases h

theorem witnessBits_sound {c : RangeCheck} (hd : RangeCheckDistinct c) {region start stop n : Nat} (hn : stop - start = n)
    {v : Option Fp} {table : Nat → List Fp} (ht : IsTable 10 (table c.tableIdx)) {w : Content Fp} {calls : Calls Fp} {a : Assigned Fp}
    (h : c.witnessBits 10 region v start stop = .ok (calls, a)) (hs : Sat (c.chip 10) table w region calls) :
    (w.at a.cell).val < 2 ^ n := by
  unfold RangeCheck.witnessBits at h
  obtain ⟨_, _, h⟩ := bind_ok h
  obtain ⟨u, _, h⟩ := bind_ok h
  rw [hn] at h
  exact C103_witness_short_sound c hd 10 region u n table ht w calls a
    ((Nat.pow_le_pow_right (by norm_num) (by omega : 2 * 10 - n ≤ 20)).trans (by decide +kernel)) h hs

theorem digits_lt {ms : List Nat} (h : ∀ m ∈ ms, m < 1024) : Nat.ofDigits 1024 ms < 2 ^ (10 * ms.length) := by
  rw [pow_mul]
  exact Nat.ofDigits_lt_base_pow_length (b := 1024) (by norm_num) h

theorem cast_eq {a b : Nat} (ha : a < 2 ^ 250) (hb : b < 2 ^ 250) (h : (a : Fp) = (b : Fp)) : a = b := by
  have hp : 2 ^ 250 < pallasBase := by decide +kernel
  have := (ZMod.natCast_eq_natCast_iff' _ _ pallasBase).1 h
  rwa [Nat.mod_eq_of_lt (ha.trans hp), Nat.mod_eq_of_lt (hb.trans hp)] at this

theorem layer_sound {c : Merkle} (hd : RangeCheckDistinct c.lookup) {S : List (Fp × Fp)} {G : Nat → Pt (5 : Fp)} (hS : Generators S G)
    {Q : Pt (5 : Fp)} {start l : Nat} (hl : l < 2 ^ 64) {left right out : Assigned Fp} {regions : List (Calls Fp)}
    (h : c.hashLayer S start (affine Q) l left right = .ok (regions, out)) {table : Nat → List Fp}
    (ht : IsTable 10 (table c.lookup.tableIdx)) {w : Content Fp} (hs : SatAll c.chip table w start regions)
    (hlk : ∀ i (h : i < regions.length), LooksUp (c.sins.lookup S) (Sinsemilla.load S) w (start + i) regions[i]) :
    LayerHash G Q l (w.at left.cell) (w.at right.cell) (w.at out.cell) := by
  obtain ⟨ca, a, c1, b1, c2, b2, cb, b, cd, d, ch, pt, zss, z0a, z1a, zsa, z0b, z1b, zsb, more, na, nb, nd, h1, h2, hh, rfl, rfl, rfl⟩ :=
    layer_split h
  have gs : ∀ g ∈ (c.sins.chip : Chip Fp).gates, g ∈ (c.chip : Chip Fp).gates := fun g hg => by simp [Merkle.chip, hg]
  have gl : ∀ g ∈ (c.lookup.chip 10 : Chip Fp).gates, g ∈ (c.chip : Chip Fp).gates := fun g hg => by simp [Merkle.chip, hg]
  have s1 : Sat c.chip table w (start + 1) c1 := hs 1 (by simp)
  have s2 : Sat c.chip table w (start + 2) c2 := hs 2 (by simp)
  have s5 : Sat c.chip table w (start + 5) ch := hs 5 (by simp)
  have s6 : Sat c.chip table w (start + 6) (c.decompose (start + 6) l a.value b.value d.value left right z1a z1b b1 b2) := hs 6 (by simp)
  have t1 : (w.at b1.cell).val < 2 ^ 5 := witnessBits_sound hd (by norm_num) ht h1 (sat_mono gl (fun _ h => h) s1)
  have t2 : (w.at b2.cell).val < 2 ^ 5 := witnessBits_sound hd (by norm_num) ht h2 (sat_mono gl (fun _ h => h) s2)
  obtain ⟨mss, r1, r2, r3⟩ := hashToPoint_sound smooth_five.two hS (List.cons_ne_nil _ _) (fun q hq => by
    rw [size_pallas]
    simp only [List.mem_cons, List.not_mem_nil, or_false] at hq
    rcases hq with rfl | rfl | rfl <;> omega) hh gs (fun _ h => h) s5 (hlk 5 (by simp))
  obtain ⟨msa, _, ⟨la, ma, va⟩, r4, rfl⟩ := List.forall₂_cons_left_iff.1 r1
  obtain ⟨msb, _, ⟨lb, mb, vb⟩, r5, rfl⟩ := List.forall₂_cons_left_iff.1 r4
  obtain ⟨msd, _, ⟨ld, md, vd⟩, r6, rfl⟩ := List.forall₂_cons_left_iff.1 r5
  obtain rfl := List.forall₂_nil_left_iff.1 r6
  obtain ⟨⟨-, ua⟩, r7⟩ := List.forall₂_cons.1 r2
  obtain ⟨⟨-, ub⟩, -⟩ := List.forall₂_cons.1 r7
  rw [na] at la
  rw [nb] at lb
  rw [nd] at ld
  obtain ⟨m0, msa, rfl⟩ : ∃ m ms, msa = m :: ms := by
    cases msa with
    | nil => simp at la
    | cons m ms => exact ⟨m, ms, rfl⟩
  obtain ⟨m1, m2, rfl⟩ : ∃ m n, msb = [m, n] := List.length_eq_two.1 lb
  have xa := ua 1 (by simp)
  have xb := ub 1 (by simp)
  simp only [List.getElem_cons_succ, List.getElem_cons_zero, List.drop_succ_cons, List.drop_zero] at xa xb
  have cell : ∀ (col o : Nat) (e : Assigned Fp), Call.equal ⟨start + 6, o, .advice col⟩ e.cell ∈
      c.decompose (start + 6) l a.value b.value d.value left right z1a z1b b1 b2 →
      w (start + 6) (.advice col) (o : Int) = w.at e.cell := fun col o e hm => sat_copy s6 hm
  have q1 := cell c.sins.da.xA 0 a.value (by simp [Merkle.decompose, copyAdvice])
  have q2 := cell c.sins.da.xP 0 b.value (by simp [Merkle.decompose, copyAdvice])
  have q3 := cell c.sins.bits 0 d.value (by simp [Merkle.decompose, copyAdvice])
  have q4 := cell c.sins.da.lambda1 0 left (by simp [Merkle.decompose, copyAdvice])
  have q5 := cell c.sins.da.lambda2 0 right (by simp [Merkle.decompose, copyAdvice])
  have q6 := cell c.sins.da.xA 1 z1a (by simp [Merkle.decompose, copyAdvice])
  have q7 := cell c.sins.da.xP 1 z1b (by simp [Merkle.decompose, copyAdvice])
  have q8 := cell c.sins.bits 1 b1 (by simp [Merkle.decompose, copyAdvice])
  have q9 := cell c.sins.da.lambda1 1 b2 (by simp [Merkle.decompose, copyAdvice])
  have ql : w (start + 6) (.advice c.sins.da.lambda2) ((1 : Nat) : Int) = (l : Fp) :=
    (Option.some.inj (s6.enforced (.constant c.sins.da.lambda2 1 (some (l : Fp))) (by simp [Merkle.decompose]))).symm
  have gate := fun e he => sat_gate s6 (s := c.qDecompose) (es := c.polys) (by simp [Merkle.chip]) (e := e) he (o := 0)
    (by simp [Merkle.decompose])
  simp only [Merkle.polys, List.forall_mem_cons] at gate
  obtain ⟨p1, p2, p3, p4, -⟩ := gate
  have o0 : ((0 : Nat) : Int) + 0 = ((0 : Nat) : Int) := by norm_num
  have o1 : ((0 : Nat) : Int) + 1 = ((1 : Nat) : Int) := by norm_num
  simp only [eval_sub, eval_add, eval_advice, eval_scaled, o0, o1, q1, q2, q3, q4, q5, q6, q7, q8, q9, ql] at p1 p2 p3 p4
  have ea : w.at a.value.cell = ((Nat.ofDigits 1024 (m0 :: msa) : Nat) : Fp) := by rw [← va, ZMod.natCast_zmod_val]
  have eb : w.at b.value.cell = ((Nat.ofDigits 1024 [m1, m2] : Nat) : Fp) := by rw [← vb, ZMod.natCast_zmod_val]
  have ed : w.at d.value.cell = ((Nat.ofDigits 1024 msd : Nat) : Fp) := by rw [← vd, ZMod.natCast_zmod_val]
  rw [Nat.ofDigits_cons] at ea
  simp only [Nat.ofDigits_cons, Nat.ofDigits_nil, mul_zero, add_zero] at eb xb
  obtain ⟨B1, hB1⟩ : ∃ n, n = (w.at b1.cell).val := ⟨_, rfl⟩
  obtain ⟨B2, hB2⟩ : ∃ n, n = (w.at b2.cell).val := ⟨_, rfl⟩
  have f1 : w.at b1.cell = (B1 : Fp) := by rw [hB1, ZMod.natCast_zmod_val]
  have f2 : w.at b2.cell = (B2 : Fp) := by rw [hB2, ZMod.natCast_zmod_val]
  rw [← hB1] at t1
  rw [← hB2] at t2
  have wa : Nat.ofDigits 1024 msa < 2 ^ 240 := by
    have := digits_lt (ms := msa) fun m hm => ma m (List.mem_cons_of_mem _ hm)
    rwa [show msa.length = 24 by simpa using la] at this
  have wd : Nat.ofDigits 1024 msd < 2 ^ 250 := by
    have := digits_lt md
    rwa [ld] at this
  have k0 : m0 < 1024 := ma _ List.mem_cons_self
  have k1 : m1 < 1024 := mb _ List.mem_cons_self
  have k2 : m2 < 1024 := mb _ (by simp)
  generalize hA : Nat.ofDigits 1024 msa = A at *
  generalize hC : Nat.ofDigits 1024 msd = C at *
  rw [ea, xa] at p1
  rw [xa, eb, xb, f1] at p2
  rw [f2, ed] at p3
  rw [xb, f1, f2] at p4
  have el : m0 = l := cast_eq (by omega) (by omega) (by push_cast at p1; linear_combination p1)
  have e2 : m2 = B1 + 32 * B2 := cast_eq (by omega) (by omega) (by push_cast; linear_combination p4)
  subst el
  refine ⟨k0, A + 2 ^ 240 * m1 + 2 ^ 250 * B1, B2 + 32 * C, [m0 :: msa, [m1, m2], msd].flatten, by omega, by omega, ?_, ?_, ⟨?_, ?_, ?_⟩,
    fun P hP => congrArg Prod.fst (r3 P hP)⟩
  · push_cast
    push_cast at p2
    linear_combination p2
  · push_cast
    linear_combination p3
  · simp only [List.flatten_cons, List.flatten_nil, List.length_append, List.length_cons, List.length_nil] at la ⊢
    omega
  · intro m hm
    simp only [List.flatten_cons, List.flatten_nil, List.append_nil, List.mem_append] at hm
    rcases hm with hm | hm | hm
    · exact ma m hm
    · exact mb m hm
    · exact md m hm
  · simp only [List.flatten_cons, List.flatten_nil, List.append_nil]
    rw [Nat.ofDigits_append, Nat.ofDigits_append, la, Nat.ofDigits_cons, hA, hC, e2]
    simp only [Nat.ofDigits_cons, Nat.ofDigits_nil, List.length_cons, List.length_nil]
    rw [show (2 : Nat) ^ 265 = 2 ^ 255 * 2 ^ 10 from pow_add 2 255 10]
    ring

theorem layers_sound {S : List (Fp × Fp)} {G : Nat → Pt (5 : Fp)} (hS : Generators S G) {Q : Pt (5 : Fp)} {chip : Chip Fp}
    {lookups : List (Verif.Gadget.Expr Fp × Verif.Gadget.Expr Fp × Verif.Gadget.Expr Fp)} {table : Nat → List Fp} {w : Content Fp}
    {bound : Nat} (hbound : bound ≤ 2 ^ 64) :
    ∀ (steps : List (Merkle × Option Fp × Option Bool)), (∀ s ∈ steps, RangeCheckDistinct s.1.lookup ∧
      IsTable 10 (table s.1.lookup.tableIdx) ∧ (∀ g ∈ (s.1.chip : Chip Fp).gates, g ∈ chip.gates) ∧
      (∀ g ∈ (s.1.chip : Chip Fp).lookups, g ∈ chip.lookups) ∧ s.1.sins.lookup S ∈ lookups) →
    ∀ (start l : Nat) (node root : Assigned Fp) (regions : List (Calls Fp)), l + steps.length ≤ bound →
    Merkle.layers S (affine Q) start l node steps = .ok (regions, root) → SatAll chip table w start regions →
    (∀ i (h : i < regions.length), ∀ k ∈ lookups, LooksUp k (Sinsemilla.load S) w (start + i) regions[i]) →
    Path G Q l steps.length (w.at node.cell) (w.at root.cell) := by
  intro steps
  induction steps with
  | nil =>
    intro _ start l node root regions _ h _ _
    simp only [Merkle.layers, Except.ok.injEq, Prod.mk.injEq] at h
    obtain ⟨-, rfl⟩ := h
    exact .here l _
  | cons s rest ih =>
    intro hc start l node root regions hlen h hs hl
    obtain ⟨c, sibling, bit⟩ := s
    unfold Merkle.layers at h
    dsimp only at h
    obtain ⟨⟨rs, out⟩, h1, h⟩ := bind_ok h
    obtain ⟨⟨more, root'⟩, h2, h⟩ := bind_ok h
    simp only [pure, Except.pure, Except.ok.injEq, Prod.mk.injEq] at h
    obtain ⟨rfl, rfl⟩ := h
    obtain ⟨d1, d2, d3, d4, d5⟩ := hc _ List.mem_cons_self
    have hrs : rs.length = 7 := by
      obtain ⟨_, _, _, _, _, _, _, _, _, _, _, _, _, _, _, _, _, _, _, _, _, _, _, _, _, _, _, rfl, _⟩ := layer_split h1
      rfl
    have hlen' : l + rest.length + 1 ≤ bound := by simpa [Nat.add_assoc] using hlen
    have s0 : Sat chip table w start (c.swap.run start (node, sibling) bit).1 := hs 0 (by simp)
    obtain ⟨other, ho⟩ := C101_sound c.swap start node sibling bit table w
      (sat_mono (fun g hg => d3 g (by simp [Merkle.chip, hg])) (by simp [CondSwap.chip]) s0)
    have sat : SatAll c.chip table w (start + 1) rs := fun i hi => by
      have := hs (i + 1) (by simp; omega)
      rw [show start + (i + 1) = start + 1 + i by omega] at this
      simp only [List.cons_append, List.getElem_cons_succ, List.getElem_append_left hi] at this
      exact sat_mono d3 d4 this
    have look : ∀ i (h : i < rs.length), LooksUp (c.sins.lookup S) (Sinsemilla.load S) w (start + 1 + i) rs[i] := fun i hi => by
      have := hl (i + 1) (by simp; omega) _ d5
      rw [show start + (i + 1) = start + 1 + i by omega] at this
      simpa only [List.cons_append, List.getElem_cons_succ, List.getElem_append_left hi] using this
    have hash := layer_sound d1 hS (by omega) h1 d2 sat look
    have path := ih (fun s hm => hc s (List.mem_cons_of_mem _ hm)) (start + 8) (l + 1) out root' more (by omega) h2
      (fun i hi => by
        have := hs (i + 8) (by simp; omega)
        rw [show start + (i + 8) = start + 8 + i by omega] at this
        simp only [List.cons_append, List.getElem_cons_succ] at this
        rw [List.getElem_append_right (by omega)] at this
        simpa only [hrs, Nat.add_sub_cancel] using this)
      (fun i hi k hk => by
        have := hl (i + 8) (by simp; omega) k hk
        rw [show start + (i + 8) = start + 8 + i by omega] at this
        simp only [List.cons_append, List.getElem_cons_succ] at this
        rw [List.getElem_append_right (by omega)] at this
        simpa only [hrs, Nat.add_sub_cancel] using this)
    rcases ho with ⟨e1, e2⟩ | ⟨e1, e2⟩
    · rw [e1] at hash
      exact .left hash path
    · rw [e2] at hash
      exact .right hash path

end Verif.Lemmas.Merkle

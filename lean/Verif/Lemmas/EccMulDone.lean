import Verif.Lemmas.EccMulAll

/-! The whole multiplication by an honest prover. -/

namespace Verif.Lemmas.Ecc

open Verif.Gadget Verif.Spec.Gadget Verif.Spec Verif.Spec.Ecc Verif.Lemmas.Gadget
open Verif.FloorPlanner (Call)
open Verif.Spec.Pow5 (SatAll FollowsAll)

/-- The bits of a number below 2^255, the highest first. -/
def bitsOf (N : Nat) : List Bool := ((List.range 255).map N.testBit).reverse

theorem bitsOf_length (N : Nat) : (bitsOf N).length = 255 := by simp [bitsOf]

theorem decompose_some (a : Fp) : Mul.decompose (some a) = (bitsOf (a.val + tQ)).map some := by
  simp only [Mul.decompose, bitsOf, List.map_reverse, List.map_map]
  rfl

theorem bitsOf_get (N i : Nat) (h : i < 255) : (bitsOf N)[i]'(by rw [bitsOf_length]; exact h) = N.testBit (254 - i) := by
  simp only [bitsOf, List.getElem_reverse, List.getElem_map, List.getElem_range, List.length_map, List.length_range]

theorem bitsUp_append (K : Nat) (a b : List Bool) : bitsUp K (a ++ b) = bitsUp (bitsUp K a) b := List.foldl_append

theorem half_bit (N i : Nat) : N / 2 ^ i = 2 * (N / 2 ^ (i + 1)) + (N.testBit i).toNat := by
  rw [Nat.toNat_testBit, pow_succ, ← Nat.div_div_eq_div_mul]
  omega

theorem bitsUp_take {N : Nat} (hN : N < 2 ^ 255) : ∀ n, n ≤ 255 → bitsUp 0 ((bitsOf N).take n) = N / 2 ^ (255 - n)
  | 0, _ => (Nat.div_eq_of_lt hN).symm
  | n + 1, h => by
    rw [List.take_add_one, List.getElem?_eq_getElem (by rw [bitsOf_length]; omega), bitsOf_get N n (by omega), bitsUp_append,
      bitsUp_take hN n (by omega), show 255 - n = 254 - n + 1 by omega, show 255 - (n + 1) = 254 - n by omega, half_bit N (254 - n)]
    rfl

theorem bitsUp_mid {N : Nat} (hN : N < 2 ^ 255) (m n : Nat) (h : m + n ≤ 255) :
    bitsUp (N / 2 ^ (255 - m)) (((bitsOf N).drop m).take n) = N / 2 ^ (255 - (m + n)) := by
  rw [← bitsUp_take hN m (by omega), ← bitsUp_append, ← List.take_add, bitsUp_take hN (m + n) h]

/-- The gates hold if the enabled ones do. -/
theorem sat_of_good {c : Mul} {table : Nat → List Fp} {w : Content Fp} {region : Nat} {calls : Calls Fp}
    (hn : ((c.chip : Chip Fp).gates.map Prod.fst).Nodup) (ht : IsTable 10 (table c.overflow.lookup.tableIdx))
    (h : Good c.chip w region calls) (hl : ∀ r, Call.enable c.overflow.lookup.qLookup r ∉ calls) :
    Sat c.chip table w region calls := by
  refine ⟨h.1, gates_of fun g hg e he o ho => ?_, fun l hm row => ?_⟩
  · obtain ⟨es, h1, h2⟩ := h.2 _ _ ho
    have : g = (g.1, es) := List.inj_on_of_nodup_map hn hg h1 rfl
    rw [this] at he
    exact h2 _ e he
  · obtain ⟨e1, e2⟩ := eval_lookup (c := c.overflow.lookup) (k := 10) (sel := enabled calls) (w := w region) (row := row) l hm
    rw [e1, e2]
    have h0 : enabled calls c.overflow.lookup.qLookup row = false := by
      rw [← Bool.not_eq_true, enabled_iff]
      rintro ⟨o, ho, -⟩
      exact hl o ho
    rw [h0, if_neg (by simp), zero_mul]
    exact (ht 0).2 ⟨0, by norm_num, by simp⟩

/-- The selectors of the gates, and those of the lookup. -/
def selectors (c : Mul) : List Selector := [c.qLsb, c.add.qAdd, c.hi.qMul1, c.hi.qMul2, c.hi.qMul3, c.lo.qMul1, c.lo.qMul2,
  c.lo.qMul3, c.complete.qDecompose, c.overflow.qOverflow, c.overflow.lookup.qBitshift, c.overflow.lookup.qLookup,
  c.overflow.lookup.qRunning]

theorem gate_selectors (c : Mul) : selectors c = (c.chip : Chip Fp).gates.map Prod.fst ++
    [c.overflow.lookup.qLookup, c.overflow.lookup.qRunning] := rfl

theorem lookup_distinct {c : Mul} (hd : (selectors c).Nodup) : Verif.Props.RangeCheckDistinct c.overflow.lookup := by
  have h : (selectors c).drop 10 = [c.overflow.lookup.qBitshift, c.overflow.lookup.qLookup, c.overflow.lookup.qRunning] := rfl
  have := hd.sublist (List.drop_sublist 10 _)
  rw [h] at this
  simp only [List.nodup_cons, List.mem_cons, List.not_mem_nil, or_false, not_or] at this
  exact ⟨this.2.1, fun e => this.1.2 e.symm, fun e => this.1.1 e.symm⟩

variable {c : Mul} {table : Nat → List Fp} {start : Nat} {alpha : Assigned Fp} {base : EccPoint Fp} {B : Pt (5 : Fp)}

theorem add_value {c : AddComplete} {offset : Nat} {P Q : Pt (5 : Fp)} {p q : EccPoint Fp}
    (px : p.x.value = some (coords P).1) (py : p.y.value = some (coords P).2) (qx : q.x.value = some (coords Q).1)
    (qy : q.y.value = some (coords Q).2) :
    (c.assign start p q offset).2.x.value = some (coords (P + Q)).1 ∧
    (c.assign start p q offset).2.y.value = some (coords (P + Q)).2 := by
  rw [← sum_coords usable_pallas P Q]
  unfold AddComplete.assign
  simp only [px, py, qx, qy]
  exact ⟨rfl, rfl⟩

theorem known_at {w : Content Fp} {z : Assigned Fp} {v : Fp} (k : Known w z) (h : z.value = some v) : w.at z.cell = v := by
  have : z.value = some (w.at z.cell) := k
  rw [h] at this
  exact (Option.some.inj this).symm

theorem known_holds {w : Content Fp} {p : EccPoint Fp} {P : Pt (5 : Fp)} (k : KnownPoint w p) (hx : p.x.value = some (coords P).1)
    (hy : p.y.value = some (coords P).2) : Holds w p P := Prod.ext (known_at k.1 hx) (known_at k.2 hy)

theorem complete_steps_length {c : MulComplete} : ∀ (bits : List (Option Bool)) (row : Nat) (acc : EccPoint Fp) (z : Assigned Fp),
    (c.steps start base row acc z bits).2.2.length = bits.length
  | [], _, _, _ => rfl
  | k :: ks, row, acc, z => by
    show ((c.steps start base (row + 2) (c.step start row base acc z k).2.1 (c.step start row base acc z k).2.2 ks).2.2).length + 1 = _
    rw [complete_steps_length ks]
    rfl

theorem complete_length {c : MulComplete} {offset : Nat} {bits : List (Option Bool)} {acc accCo : EccPoint Fp} {z : Assigned Fp}
    {co : Calls Fp} {zsCo : List (Assigned Fp)} (h : c.assign start offset bits base acc z = .ok (co, accCo, zsCo)) :
    zsCo.length = 3 := by
  obtain ⟨_, hl3, h3⟩ := bind_ok h
  have hl3 := assert_ok.1 hl3
  simp only [beq_iff_eq] at hl3
  have e : _ = zsCo := congrArg (fun x => x.2.2) (Except.ok.inj h3)
  subst e
  exact (complete_steps_length _ _ _ _).trans hl3

theorem bind_of {ε α β : Type} {x : Except ε α} {a : α} {f : α → Except ε β} (h : x = .ok a) : (x >>= f) = f a := by
  subst h; rfl

theorem assign_join {hi lo co : Calls Fp} {accHi accLo accCo : EccPoint Fp} {zsHi zsLo zsCo : List (Assigned Fp)}
    {over : List (Calls Fp)}
    (h1 : c.hi.doubleAndAdd 125 start 1 base ((Mul.decompose alpha.value).take 125) (c.add.assign start base base 0).2
        (zInit c start) = .ok (hi, accHi, zsHi))
    (h2 : c.lo.doubleAndAdd 126 start 1 base (((Mul.decompose alpha.value).drop 125).take 126) accHi
        (zsHi.getLast?.getD (zInit c start)) = .ok (lo, accLo, zsLo))
    (h3 : c.complete.assign start (1 + 126 + 2) (((Mul.decompose alpha.value).drop 251).take 3) base accLo
        (zsLo.getLast?.getD (zInit c start)) = .ok (co, accCo, zsCo))
    (h4 : (zInit c start :: (zsHi ++ zsLo ++ zsCo ++ [(lsbOf c start alpha base accCo zsCo).2.2])).reverse.length = 256)
    (h5 : c.overflow.check (start + 1) alpha (zInit c start :: (zsHi ++ zsLo ++ zsCo ++
        [(lsbOf c start alpha base accCo zsCo).2.2])).reverse = .ok over) :
    c.assign start alpha base = .ok (((c.add.assign start base base 0).1 ++ [.constant c.hi.z 1 (some 0)] ++ hi ++ lo ++
      co ++ (lsbOf c start alpha base accCo zsCo).1) :: over, (lsbOf c start alpha base accCo zsCo).2.1) := by
  unfold zInit at h1 h2 h3
  unfold lsbOf zInit at h4 h5 ⊢
  unfold Mul.assign
  refine (bind_of h1).trans ((bind_of h2).trans ((bind_of h3).trans ((bind_of (assert_ok.2 ?_)).trans ((bind_of h5).trans rfl))))
  rw [beq_iff_eq]
  exact h4

theorem mul_complete {advices : Nat → Nat} (hc : c.Configured advices) (hd : (selectors c).Nodup)
    (ht : IsTable 10 (table c.overflow.lookup.tableIdx)) {a : Fp} (ha : alpha.value = some a) (hB : B ≠ 0)
    (bx : base.x.value = some (coords B).1) (by' : base.y.value = some (coords B).2) :
    ∃ regions out, c.assign start alpha base = .ok (regions, out) ∧ ∀ w, Known w alpha → KnownPoint w base →
      FollowsAll w start regions → SatAll c.chip table w start regions ∧ KnownPoint w out ∧ Holds w out (a.val • B) := by
  have hp : pallasBase < 2 ^ 255 - tQ := by decide +kernel
  have hav : a.val < pallasBase := ZMod.val_lt a
  obtain ⟨N, hNe⟩ : ∃ N, N = a.val + tQ := ⟨_, rfl⟩
  have hN : N < 2 ^ 255 := by omega
  have free : ∀ m, 0 < m → m < vestaBase → m • B ≠ 0 := fun m => pallas_free hB
  have sm : Smooth (5 : Fp) := usable_pallas.smooth
  have hlen := bitsOf_length N
  -- the parts
  have hbits : Mul.decompose alpha.value = (bitsOf N).map some := by rw [ha, decompose_some, hNe]
  have t1 : (Mul.decompose alpha.value).take 125 = ((bitsOf N).take 125).map some := by rw [hbits, List.map_take]
  have t2 : ((Mul.decompose alpha.value).drop 125).take 126 = (((bitsOf N).drop 125).take 126).map some := by
    rw [hbits, List.map_take, List.map_drop]
  have t3 : ((Mul.decompose alpha.value).drop 251).take 3 = (((bitsOf N).drop 251).take 3).map some := by
    rw [hbits, List.map_take, List.map_drop]
  have t4 : ((Mul.decompose alpha.value).drop 254).head?.getD none = some (N.testBit 0) := by
    rw [hbits, List.head?_drop, List.getElem?_map, List.getElem?_eq_getElem (by omega), bitsOf_get N 254 (by omega)]
    rfl
  have dbl : ∀ P : Pt (5 : Fp), P + P = accScalar 0 0 • P := fun P => by
    rw [show accScalar 0 0 = 1 + 1 from rfl, add_nsmul, one_nsmul]
  obtain ⟨a0x, a0y⟩ := add_value (c := c.add) (start := start) (offset := 0) bx by' bx by'
  rw [dbl] at a0x a0y
  obtain ⟨hi, accHi, zsHi, h1, x1, y1, v1, good1⟩ := doubleAndAdd_honest sm free (c := c.hi) (n := 125) (region := start)
    (offset := 1) (base := base) (acc := (c.add.assign start base base 0).2) (z := zInit c start) (ks := (bitsOf N).take 125)
    (by norm_num) (by simp [hlen]) (s := 0) (K := 0) (by norm_num) (by decide +kernel) bx by' a0x a0y
    (by rw [Nat.cast_zero]; rfl)
  have l1 := (doubleAndAdd_split h1).2.2.2.2.1
  have K1e : bitsUp 0 ((bitsOf N).take 125) = N / 2 ^ 130 := bitsUp_take hN 125 (by norm_num)
  have K1lt : N / 2 ^ 130 < 2 ^ 125 := by omega
  have pu1 : pointUp B 0 0 ((bitsOf N).take 125) = coords (accScalar 125 (N / 2 ^ 130) • B) := by
    rw [pointUp, K1e, List.length_take, hlen, show 0 + min 125 255 = 125 from rfl]
  rw [pu1] at x1 y1
  have z1 : (zsHi[124]'(by omega)).value = some ((N / 2 ^ 130 : Nat) : Fp) := by
    rw [v1 124 (by omega), List.take_take, show min (124 + 1) 125 = 125 from rfl, K1e]
  obtain ⟨lo, accLo, zsLo, h2, x2, y2, v2, good2⟩ := doubleAndAdd_honest sm free (c := c.lo) (n := 126) (region := start)
    (offset := 1) (base := base) (acc := accHi) (z := zsHi[124]'(by omega)) (ks := ((bitsOf N).drop 125).take 126)
    (by norm_num) (by simp [hlen]) (s := 125) (K := N / 2 ^ 130) K1lt (by decide +kernel) bx by' x1 y1 z1
  have l2 := (doubleAndAdd_split h2).2.2.2.2.1
  have K2e : bitsUp (N / 2 ^ 130) (((bitsOf N).drop 125).take 126) = N / 2 ^ 4 := bitsUp_mid hN 125 126 (by norm_num)
  have pu2 : pointUp B 125 (N / 2 ^ 130) (((bitsOf N).drop 125).take 126) = coords (accScalar 251 (N / 2 ^ 4) • B) := by
    rw [pointUp, K2e, List.length_take, List.length_drop, hlen, show 125 + min 126 (255 - 125) = 251 from rfl]
  rw [pu2] at x2 y2
  have z2 : (zsLo[125]'(by omega)).value = some ((N / 2 ^ 4 : Nat) : Fp) := by
    rw [v2 125 (by omega), List.take_take, show min (125 + 1) 126 = 126 from rfl, K2e]
  obtain ⟨co, accCo, zsCo, h3, good3⟩ := complete_good (c := c.complete) (region := start) (base := base) (B := B)
    usable_pallas (offset := 1 + 126 + 2) (ks := ((bitsOf N).drop 251).take 3) (by simp [hlen]) (acc := accLo)
    (z := zsLo[125]'(by omega))
  have K3e : bitsUp (N / 2 ^ 4) (((bitsOf N).drop 251).take 3) = N / 2 := by
    have := bitsUp_mid hN 251 3 (by norm_num)
    simpa using this
  have l3 : zsCo.length = 3 := complete_length h3
  obtain ⟨over, h5⟩ := check_total (start := start + 1) (alpha := alpha) c.overflow (zs := (zInit c start :: (zsHi ++ zsLo ++ zsCo ++
        [(lsbOf c start alpha base accCo zsCo).2.2])).reverse) (by simp [l1, l2, l3])
  have hok : c.assign start alpha base = .ok (((c.add.assign start base base 0).1 ++ [.constant c.hi.z 1 (some 0)] ++ hi ++ lo ++
      co ++ (lsbOf c start alpha base accCo zsCo).1) :: over, (lsbOf c start alpha base accCo zsCo).2.1) := by
    refine assign_join (hi := hi) (accHi := accHi) (zsHi := zsHi) (lo := lo) (accLo := accLo) (zsLo := zsLo) (co := co) ?_ ?_ ?_ ?_ h5
    · rw [t1]; exact h1
    · rw [t2, getLast_getD l1]; exact h2
    · rw [t3, getLast_getD l2]; exact h3
    · simp [l1, l2, l3]
  refine ⟨_, _, hok, fun w ka kb hf => ?_⟩
  have hb : Holds w base B := known_holds kb bx by'
  have hal : w.at alpha.cell = a := by
    have : alpha.value = some (w.at alpha.cell) := ka
    rw [ha] at this
    exact (Option.some.inj this).symm
  have hf0 := hf 0 (Nat.succ_pos _)
  rw [List.getElem_cons_zero, Nat.add_zero] at hf0
  have hfo : FollowsAll w (start + 1) over := fun i hi => by
    have := hf (i + 1) (Nat.succ_lt_succ hi)
    rw [List.getElem_cons_succ] at this
    rwa [show start + 1 + i = start + (i + 1) by omega]
  unfold lsbOf at h5 hf0 hok hf ⊢
  rw [getLast_getD l3, t4] at h5 hf0 hok hf ⊢
  obtain ⟨pa, pz, ph, pl, pc, ps⟩ := parts (c.add.assign start base base 0).1 [.constant c.hi.z 1 (some (0 : Fp))] hi lo co
    (c.processLsb start (1 + 126 + 2 + 3 * 2) base accCo (zsCo[2]'(by omega)) (some (N.testBit 0))).1
  have fa := follows_mono hf0 pa
  have fz := follows_mono hf0 pz
  have fh := follows_mono hf0 ph
  have fl := follows_mono hf0 pl
  have fc := follows_mono hf0 pc
  have fs := follows_mono hf0 ps
  obtain ⟨gadd, ghi, glo, gco, gov⟩ := gates_parts c.lsbGate (c.add.chip : Chip Fp).gates c.hi.chip.gates c.lo.chip.gates
    c.complete.chip.gates c.overflow.chip.gates
  change ∀ g ∈ (c.add.chip : Chip Fp).gates, g ∈ (c.chip : Chip Fp).gates at gadd
  change ∀ g ∈ (c.hi.chip : Chip Fp).gates, g ∈ (c.chip : Chip Fp).gates at ghi
  change ∀ g ∈ (c.lo.chip : Chip Fp).gates, g ∈ (c.chip : Chip Fp).gates at glo
  change ∀ g ∈ (c.complete.chip : Chip Fp).gates, g ∈ (c.chip : Chip Fp).gates at gco
  change ∀ g ∈ (c.overflow.chip : Chip Fp).gates, g ∈ (c.chip : Chip Fp).gates at gov
  -- what the prover has, step by step
  obtain ⟨ga, kacc, -⟩ := add_good usable_pallas fa kb kb hb hb
  have wz : w start (.advice c.hi.z) ((1 : Nat) : Int) = 0 :=
    (Option.some.inj (fz.2.1 _ _ _ List.mem_cons_self)).symm
  have kz : Known w (zInit c start) := congrArg some wz.symm
  obtain ⟨gh, kHi, kzs1⟩ := good1 w fh kacc.1 kacc.2 kz
  have kz1 := kzs1 _ (List.getElem_mem (by omega : 124 < zsHi.length))
  obtain ⟨gl, kLo, kzs2⟩ := good2 w fl kHi.1 kHi.2 kz1
  have kz2 := kzs2 _ (List.getElem_mem (by omega : 125 < zsLo.length))
  obtain ⟨gc, kCo, hCo, _, w3, kz3, c3⟩ := good3 w 251 (N / 2 ^ 4) kb hb kLo (known_holds kLo x2 y2) kz2 (known_at kz2 z2) fc c.chip
    (by rw [hc.complete]; exact gadd) gco
  rw [K3e] at hCo w3
  obtain ⟨gs, kout, k0, w0⟩ := lsb_good kb hb kCo hCo kz3 c3 fs
  have e0 : w.at (c.processLsb start (1 + 126 + 2 + 3 * 2) base accCo (zsCo[2]'(by omega)) (some (N.testBit 0))).2.2.cell =
      ((N : Nat) : Fp) := by
    rw [w0, w3]
    have : N = N / 2 * 2 + (N.testBit 0).toNat := by
      have := half_bit N 0
      rw [pow_zero, Nat.div_one, zero_add, pow_one] at this
      omega
    conv_rhs => rw [this]
    push_cast
    ring
  obtain ⟨q0, q130, q254⟩ := rev_parts (a := zInit c start) (z := (c.processLsb start (1 + 126 + 2 + 3 * 2) base accCo
    (zsCo[2]'(by omega)) (some (N.testBit 0))).2.2) l1 l2 l3
  have v254 : (zsHi[0]'(by omega)).value = some ((N / 2 ^ 254 : Nat) : Fp) := by
    rw [v1 0 (by omega), List.take_take, show min (0 + 1) 125 = 1 from rfl, bitsUp_take hN 1 (by norm_num)]
  have kz254 := kzs1 _ (List.getElem_mem (by omega : 0 < zsHi.length))
  have hdr := lookup_distinct hd
  obtain ⟨s0, s1, s2, rfl, gs0, ns0, sat1, en1, gs2, en2⟩ := overflow_good hdr ht h5 ka (Z := N) (by rw [hal]; exact hNe) q0 q130 q254
    k0 kz1 kz254 e0 (known_at kz1 z1) (known_at kz254 v254) hfo
  -- the constraints
  rw [gate_selectors, List.nodup_append] at hd
  obtain ⟨hn, -, hdis⟩ := hd
  have nl : ∀ s, s ∈ (c.chip : Chip Fp).gates.map Prod.fst → s ≠ c.overflow.lookup.qLookup ∧ s ≠ c.overflow.lookup.qRunning :=
    fun s hs => ⟨hdis s hs _ (by simp), hdis s hs _ (by simp)⟩
  have satg : ∀ {calls : Calls Fp} {r}, Good c.chip w r calls → Sat c.chip table w r calls := fun h => sat_of_good hn ht h
    fun r hr => by
      obtain ⟨es, h1, -⟩ := h.2 _ _ hr
      exact (nl _ (List.mem_map.2 ⟨_, h1, rfl⟩)).1 rfl
  have gz : Good c.chip w start [.constant c.hi.z 1 (some (0 : Fp))] :=
    ⟨fun k hk => by obtain rfl := List.mem_singleton.1 hk; exact congrArg some wz.symm, fun s o h => by simp at h⟩
  have main := satg (((((((ga.mono gadd).append gz).append (gh.mono ghi)).append (gl.mono glo)).append gc)).append gs)
  have hsat : SatAll c.chip table w start (((c.add.assign start base base 0).1 ++ [.constant c.hi.z 1 (some 0)] ++ hi ++ lo ++
      co ++ (c.processLsb start (1 + 126 + 2 + 3 * 2) base accCo (zsCo[2]'(by omega)) (some (N.testBit 0))).1) :: [s0, s1, s2]) := by
    intro i hi
    match i, hi with
    | 0, _ => exact main
    | 1, _ => exact satg (gs0.mono gov)
    | 2, _ =>
      refine ⟨sat1.enforced, gates_of fun g hg e he o ho => ?_, sat1.lookups⟩
      have := nl _ (List.mem_map.2 ⟨g, hg, rfl⟩)
      exact ((en1 _ _ ho).elim this.1 this.2).elim
    | 3, _ => exact satg (gs2.mono gov)
  refine ⟨hsat, kout, ?_⟩
  obtain ⟨k, hk, w4, a4⟩ := lsb_sound main ps c3 hb hCo w3
  have hk' : 2 * (N / 2) + k = N := by
    rw [e0] at w4
    have h2 : (2 ^ 255 : Nat) < 2 * pallasBase := by decide +kernel
    have h3 := (ZMod.natCast_eq_natCast_iff' _ _ _).1 w4
    have h4 : 2 ≤ pallasBase := by decide +kernel
    rcases Nat.lt_or_ge N (2 * (N / 2) + k) with h | h
    · have : 2 * (N / 2) + k = N + 1 := by omega
      rw [this] at h3
      have : (N + 1) ≡ N [MOD pallasBase] := h3.symm
      have := (Nat.modEq_iff_dvd' (by omega)).1 this.symm
      have := Nat.le_of_dvd (by omega) this
      omega
    · by_contra hne
      have := (Nat.modEq_iff_dvd' h).1 (show (2 * (N / 2) + k) ≡ N [MOD pallasBase] from h3.symm)
      have := Nat.le_of_dvd (by omega) this
      omega
  rw [hk'] at a4
  have hq : 2 ^ 254 + N = a.val + vestaBase := by
    have : 2 ^ 254 + tQ = vestaBase := by decide +kernel
    omega
  rw [hq, add_nsmul, pallas_order, add_zero] at a4
  exact a4

end Verif.Lemmas.Ecc

import Verif.Lemmas.Sinsemilla
import Verif.Lemmas.GadgetLookup
import Verif.Lemmas.EccMulHonest
import Verif.Lemmas.EccFixedDone

/-! What an honest prover writes when hashing with Sinsemilla. -/

namespace Verif.Lemmas.Sinsemilla

open Verif.Gadget Verif.Spec.Gadget Verif.Spec Verif.Spec.Ecc Verif.Spec.Sinsemilla Verif.Lemmas.Gadget Verif.Lemmas.Ecc
open Verif.FloorPlanner (Call)

section spec

variable {F : Type} [Field F] [DecidableEq F] {b : F}

theorem plus_eq {P Q : Pt b} (hP : P ≠ 0) (hQ : Q ≠ 0) (hx : (coords P).1 ≠ (coords Q).1) : plus P Q = some (P + Q) := by
  unfold plus
  rw [if_neg]
  rintro (h | h | h | h)
  · exact hP h
  · exact hQ h
  · exact hx (by rw [h])
  · exact hx (by rw [h, coords_neg])

/-- One word, by the slopes of both additions. -/
theorem step_of {A S : Pt b} (hA : A ≠ 0) (hS : S ≠ 0) {xa ya xs ys l1 l2 xr : F} (ca : coords A = (xa, ya)) (cs : coords S = (xs, ys))
    (h1 : xa ≠ xs) (e1 : l1 * (xa - xs) = ya - ys) (hr : xr = l1 ^ 2 - xa - xs) (h2 : xa ≠ xr)
    (e2 : 2 * ya = (l1 + l2) * (xa - xr)) :
    ∃ B, step A S = some B ∧ B ≠ 0 ∧ coords B = (l2 ^ 2 - xa - xr, l2 * (xa - (l2 ^ 2 - xa - xr)) - ya) := by
  have hx : (coords A).1 ≠ (coords S).1 := by rw [ca, cs]; exact h1
  have p1 := plus_eq hA hS hx
  have c1 := coords_add hA hS hx (l := l1) (by rw [ca, cs]; linear_combination -e1)
  rw [ca, cs] at c1
  simp only [← hr] at c1
  have n1 := (plus_some p1).2.2.2.1
  have hR : A + S ≠ 0 := fun e => n1 (eq_neg_of_add_eq_zero_left e)
  have hx2 : (coords (A + S)).1 ≠ (coords A).1 := by rw [c1, ca]; exact h2.symm
  have p2 := plus_eq hR hA hx2
  have hs : step A S = some (A + S + A) := by
    unfold step
    rw [p1]
    exact p2
  have hx3 : (coords A).1 ≠ (coords (A + S)).1 := hx2.symm
  have c2 := coords_add hA hR hx3 (l := l2) (by rw [ca, c1]; linear_combination e2)
  rw [ca, c1] at c2
  refine ⟨_, hs, (step_some hs).2.2.2.2.2.2, ?_⟩
  rw [add_comm, c2]

theorem hashOf_append (G : Nat → Pt b) : ∀ (ms ms' : List Nat) (A P : Pt b), hashOf G A (ms ++ ms') = some P →
    ∃ B, hashOf G A ms = some B ∧ hashOf G B ms' = some P
  | [], ms', A, P, h => ⟨A, rfl, h⟩
  | m :: ms, ms', A, P, h => by
    rw [List.cons_append, hashOf, Option.bind_eq_bind, Option.bind_eq_some_iff] at h
    obtain ⟨B, h1, h2⟩ := h
    obtain ⟨C, h3, h4⟩ := hashOf_append G ms ms' B P h2
    exact ⟨C, by rw [hashOf, h1]; exact h3, h4⟩

theorem hashOf_ne {G : Nat → Pt b} : ∀ {ms : List Nat} {A P : Pt b}, A ≠ 0 → hashOf G A ms = some P → P ≠ 0
  | [], A, P, hA, h => by rw [← Option.some.inj h]; exact hA
  | m :: ms, A, P, hA, h => by
    rw [hashOf, Option.bind_eq_bind, Option.bind_eq_some_iff] at h
    obtain ⟨B, h1, h2⟩ := h
    exact hashOf_ne (step_some h1).2.2.2.2.2.2 h2

/-- One row, as it is computed. -/
theorem step_honest {A S B : Pt b} (h : step A S = some B) {l1 xr l2 xn yn : F}
    (hl1 : l1 = ((coords A).2 - (coords S).2) * ((coords A).1 - (coords S).1)⁻¹)
    (hxr : xr = l1 ^ 2 - (coords A).1 - (coords S).1) (hl2 : l2 = (coords A).2 * 2 * ((coords A).1 - xr)⁻¹ - l1)
    (hxn : xn = l2 ^ 2 - (coords A).1 - xr) (hyn : yn = l2 * ((coords A).1 - xn) - (coords A).2) :
    2 * (coords A).2 = (l1 + l2) * ((coords A).1 - xr) ∧ l1 * ((coords A).1 - (coords S).1) = (coords A).2 - (coords S).2 ∧
      (xn, yn) = coords B := by
  obtain ⟨hA, hS, n1, n2, n3, rfl, -⟩ := step_some h
  have hx : (coords A).1 ≠ (coords S).1 := fun e => (same_x hA hS e).elim n1 n2
  have e1 : l1 * ((coords A).1 - (coords S).1) = (coords A).2 - (coords S).2 := by
    rw [hl1, mul_assoc, inv_mul_cancel₀ (sub_ne_zero.2 hx), mul_one]
  have hR := coords_add hA hS hx (l := l1) (by linear_combination -e1)
  have hR0 : A + S ≠ 0 := fun e => n2 (eq_neg_of_add_eq_zero_right e)
  have hx' : (coords A).1 ≠ (coords (A + S)).1 := fun e =>
    (same_x hA hR0 e).elim (fun e => hS (by simpa using e)) n3
  have hd2 : (coords A).1 - xr ≠ 0 := by
    rw [hR] at hx'
    rw [hxr]; exact sub_ne_zero.2 hx'
  have e2 : 2 * (coords A).2 = (l1 + l2) * ((coords A).1 - xr) := by
    rw [hl2, add_sub_cancel, mul_assoc, inv_mul_cancel₀ hd2]; ring
  refine ⟨e2, e1, double_add hA hS n1 n2 n3 (by rw [← hxr]; exact e2) e1 (by rw [← hxr, hxn]; ring) (by rw [hyn]; ring)⟩

end spec

variable {p : Nat} [Fact p.Prime] {b : ZMod p} {w : Content (ZMod p)} {region : Nat} {c : Sinsemilla}

/-- The lookup holds if it does in the enabled rows. -/
theorem looksUp_of (two : (2 : ZMod p) ≠ 0) {S : List (ZMod p × ZMod p)} {G : Nat → Pt b} (hS : Generators S G)
    {calls : Calls (ZMod p)}
    (h : ∀ r : Nat, Call.enable c.qS1 r ∈ calls → ∃ m < 1024, w region (.advice c.bits) r - (w region (.fixed c.qS2) r -
        w region (.fixed c.qS2) r * (w region (.fixed c.qS2) r - 1)) * w region (.advice c.bits) (r + 1) * 1024 = (m : Nat) ∧
      w region (.advice c.da.xP) r = (coords (G m)).1 ∧
      y2 c w region r = 2 * ((coords (G m)).2 +
        w region (.advice c.da.lambda1) r * (w region (.advice c.da.xA) r - w region (.advice c.da.xP) r))) :
    LooksUp (c.lookup S) (Sinsemilla.load S) w region calls := by
  intro row
  simp only [Sinsemilla.lookup, Sinsemilla.qS3, eval_mul, eval_add, eval_sub, eval_scaled, eval_const, eval_selector,
    eval_advice, eval_fixed, eval_yA2, add_zero]
  simp only [Sinsemilla.load, List.mem_map, Prod.mk.injEq]
  by_cases he : enabled calls c.qS1 row = true
  · obtain ⟨r, hr, rfl⟩ := enabled_iff.1 he
    obtain ⟨m, hm, h1, h2, h3⟩ := h r hr
    refine ⟨(coords (G m), m), List.mk_mem_zipIdx_iff_getElem?.2 (hS.points m hm).2, ?_, ?_, ?_⟩
    · rw [he, if_pos rfl, one_mul, h1]
    · rw [he, if_pos rfl, h2]; ring
    · rw [he, if_pos rfl, h3, mul_comm 2, mul_assoc, mul_inv_cancel₀ two]; ring
  · have h0 := (hS.points 0 (by norm_num)).2
    refine ⟨(coords (G 0), 0), List.mk_mem_zipIdx_iff_getElem?.2 h0, ?_, ?_, ?_⟩
    · rw [if_neg he]; simp
    · rw [if_neg he, List.getD_eq_getElem?_getD, h0]; simp
    · rw [if_neg he, List.getD_eq_getElem?_getD, h0]; simp

/-- A row as an honest prover fills it; `v` is twice the second coordinate of the next accumulator. -/
structure StepRow (c : Sinsemilla) (w : Content (ZMod p)) (region : Nat) (S : Pt b) (r : Nat) (v : ZMod p) : Prop where
  xP : w region (.advice c.da.xP) r = (coords S).1
  yP : y2 c w region r = 2 * ((coords S).2 +
    w region (.advice c.da.lambda1) r * (w region (.advice c.da.xA) r - w region (.advice c.da.xP) r))
  secant : w region (.advice c.da.lambda2) r ^ 2 - w region (.advice c.da.xA) (r + 1) - (w region (.advice c.da.lambda1) r ^ 2 -
      w region (.advice c.da.xA) r - w region (.advice c.da.xP) r) - w region (.advice c.da.xA) r = 0
  tangent : w region (.advice c.da.lambda2) r * 4 * (w region (.advice c.da.xA) r - w region (.advice c.da.xA) (r + 1)) =
    y2 c w region r * 2 + 2 * v

theorem steps_honest {G : Nat → Pt b} : ∀ (ms : List Nat) (row : Nat) (A P : Pt b), hashOf G A ms = some P →
    ∃ calls, c.steps row (some (coords A).1) (some (coords A).2) (ms.map fun m => some (coords (G m))) =
      (calls, some (coords P).1, some (coords P).2) ∧ (∀ k ∈ calls, ∃ col o v, k = Call.advice col o v) ∧
      ∀ w : Content (ZMod p), Follows w region calls → w region (.advice c.da.xA) row = (coords A).1 →
        w region (.advice c.da.xA) ((row + ms.length : Nat) : Int) = (coords P).1 ∧
        (ms ≠ [] → y2 c w region row = 2 * (coords A).2) ∧
        ∀ i (hi : i < ms.length), ∃ v, StepRow c w region (G ms[i]) (row + i) v ∧
          (i + 1 < ms.length → v = y2 c w region ((row + i + 1 : Nat) : Int)) ∧ (i + 1 = ms.length → v = 2 * (coords P).2)
  | [], row, A, P, h => by
    obtain rfl := Option.some.inj h
    exact ⟨[], rfl, by simp, fun w _ hx => ⟨hx, fun h => absurd rfl h, fun i hi => by simp at hi⟩⟩
  | m :: ms, row, A, P, h => by
    rw [hashOf, Option.bind_eq_bind, Option.bind_eq_some_iff] at h
    obtain ⟨B, h1, h2⟩ := h
    obtain ⟨more, i1, i2, i3⟩ := steps_honest ms (row + 1) B P h2
    generalize hl1 : ((coords A).2 - (coords (G m)).2) * ((coords A).1 - (coords (G m)).1)⁻¹ = l1
    generalize hxr : l1 ^ 2 - (coords A).1 - (coords (G m)).1 = xr
    generalize hl2 : (coords A).2 * 2 * ((coords A).1 - xr)⁻¹ - l1 = l2
    obtain ⟨e2, e1, e3⟩ := step_honest h1 hl1.symm hxr.symm hl2.symm rfl rfl
    have ex : l2 ^ 2 - (coords A).1 - xr = (coords B).1 := (Prod.ext_iff.1 e3).1
    have ey : l2 * ((coords A).1 - (l2 ^ 2 - (coords A).1 - xr)) - (coords A).2 = (coords B).2 := (Prod.ext_iff.1 e3).2
    have ey' := ey
    rw [ex] at ey'
    refine ⟨[.advice c.da.xP row (some (coords (G m)).1), .advice c.da.lambda1 row (some l1), .advice c.da.lambda2 row (some l2),
      .advice c.da.xA (row + 1) (some (coords B).1)] ++ more, ?_, ?_, ?_⟩
    · rw [List.map_cons, Sinsemilla.steps]
      simp only [Option.map_some, bind, Option.bind, pure, hl1, hxr, hl2, ex, ey', i1]
    · intro k hk
      rcases List.mem_append.1 hk with hk | hk
      · simp only [List.mem_cons, List.not_mem_nil, or_false] at hk
        rcases hk with rfl | rfl | rfl | rfl <;> exact ⟨_, _, _, rfl⟩
      · exact i2 k hk
    · intro w hf hx
      have f1 := follows_at hf (col := c.da.xP) (o := row) (v := (coords (G m)).1) (List.mem_append_left _ (by simp))
      have f2 := follows_at hf (col := c.da.lambda1) (o := row) (v := l1) (List.mem_append_left _ (by simp))
      have f3 := follows_at hf (col := c.da.lambda2) (o := row) (v := l2) (List.mem_append_left _ (by simp))
      have f4 := follows_at hf (col := c.da.xA) (o := row + 1) (v := (coords B).1) (List.mem_append_left _ (by simp))
      obtain ⟨j1, j2, j3⟩ := i3 w (follows_mono hf fun x hx => List.mem_append_right _ hx) f4
      have hy2 : y2 c w region row = 2 * (coords A).2 := by
        rw [y2, f1, f2, f3, hx, hxr, e2]
      refine ⟨?_, fun _ => hy2, ?_⟩
      · rw [← j1, List.length_cons, show row + (ms.length + 1) = row + 1 + ms.length by omega]
      · rintro (_ | i) hi
        · have f4' : w region (.advice c.da.xA) ((row : Int) + 1) = (coords B).1 := by exact_mod_cast f4
          refine ⟨2 * (coords B).2, ⟨?_, ?_, ?_, ?_⟩, ?_, ?_⟩
          · exact f1
          · rw [Nat.add_zero, hy2, f1, f2, hx]
            rw [List.getElem_cons_zero]
            linear_combination (-2 : ZMod p) * e1
          · rw [Nat.add_zero, f1, f2, f3, hx, f4']
            linear_combination ex - hxr
          · rw [Nat.add_zero, f3, hx, f4', hy2]
            linear_combination (4 : ZMod p) * ey'
          · intro hlen
            rw [← j2 (by rintro rfl; simp at hlen)]
          · intro hlen
            have : ms = [] := List.eq_nil_of_length_eq_zero (by simpa using hlen.symm)
            subst this
            rw [Option.some.inj h2]
        · obtain ⟨v, k1, k2, k3⟩ := j3 i (by simpa using hi)
          refine ⟨v, ?_, ?_, ?_⟩
          · rw [show row + (i + 1) = row + 1 + i by omega]
            exact k1
          · intro hlen
            rw [k2 (by simpa using hlen), show row + 1 + i + 1 = row + (i + 1) + 1 by omega]
          · intro hlen
            exact k3 (by simpa using hlen)

theorem sumCells_digits {col offset : Nat} {inv : ZMod p} (hinv : inv * 1024 = 1) : ∀ (ms : List Nat) (i : Nat) (z : Assigned (ZMod p)),
    ms ≠ [] → z.value = some ((Nat.ofDigits 1024 ms : Nat) : ZMod p) → ∀ (j : Nat)
      (h : j < (z :: sumCells region col offset inv i z (ms.dropLast.map fun (n : Nat) => some (n : ZMod p))).length),
      ((z :: sumCells region col offset inv i z (ms.dropLast.map fun (n : Nat) => some (n : ZMod p)))[j]).value =
        some ((Nat.ofDigits 1024 (ms.drop j) : Nat) : ZMod p)
  | [], _, _, h, _, _, _ => absurd rfl h
  | ms, _, z, _, hz, 0, _ => by simpa using hz
  | [m], _, z, _, hz, j + 1, h => by simp [sumCells] at h
  | m :: m' :: t, i, z, _, hz, j + 1, h => by
    have hd : (m :: m' :: t).dropLast = m :: (m' :: t).dropLast := rfl
    have hnext : (do let x ← z.value; let k ← some (m : ZMod p); return (x - k) * inv) =
        some ((Nat.ofDigits 1024 (m' :: t) : Nat) : ZMod p) := by
      rw [hz]
      simp only [bind, Option.bind, pure, Option.some.injEq]
      rw [Nat.ofDigits_cons]
      generalize Nat.ofDigits 1024 (m' :: t) = d
      push_cast
      linear_combination (d : ZMod p) * hinv
    have := sumCells_digits (col := col) (offset := offset) hinv (m' :: t) (i + 1)
      ⟨⟨region, offset + i + 1, .advice col⟩, do let x ← z.value; let k ← some (m : ZMod p); return (x - k) * inv⟩
      (by simp) hnext j (by simpa [sumCells] using h)
    simpa [sumCells] using this

omit [Fact p.Prime] in
theorem words_digits {n : Nat} {x : ZMod p} {ms : List Nat} (hn : n * 10 ≤ 256) (hl : ms.length = n) (hlt : ∀ m ∈ ms, m < 1024)
    (hx : x.val = Nat.ofDigits 1024 ms) : Sinsemilla.words n x = ms := by
  obtain ⟨ks, h1, h2, h3, h4⟩ := words_ok (k := 10) (n := n) (by norm_num) (by norm_num) hn x
  have hof : ∀ l : List Nat, ofChunks 10 l = Nat.ofDigits 1024 l := by
    intro l
    induction l with
    | nil => rfl
    | cons a l ih => rw [ofChunks, Nat.ofDigits_cons, ih]; norm_num
  have heq : Sinsemilla.words n x = ks := by
    have hk : RangeCheck.words 10 n x = .ok (Sinsemilla.words n x) := by
      unfold RangeCheck.words Sinsemilla.words
      rw [assert_ok.2 (by decide), mul_comm 10 n]
      generalize hL : chunksExact 10 ((toLeBits x).take (n * 10)) = L
      have hc : ∀ ch ∈ L, ch.length = 10 := fun ch hch => by rw [← hL] at hch; exact chunk_length hch
      clear hL
      show L.mapM lebs2ip = _
      induction L with
      | nil => rfl
      | cons a L ih =>
        rw [List.mapM_cons, ih fun ch hch => hc ch (List.mem_cons_of_mem _ hch), lebs2ip,
          assert_ok.2 (by rw [hc a List.mem_cons_self]; decide)]
        rfl
    rw [h1] at hk
    exact (Except.ok.inj hk).symm
  rw [heq]
  refine Nat.ofDigits_inj_of_len_eq (b := 1024) (by norm_num) (by rw [h2, hl]) (fun m hm => by simpa using h3 m hm) hlt ?_
  rw [← hof, h4, hx, Nat.mod_eq_of_lt]
  have := ofDigits_lt hlt
  rwa [hl, mul_comm] at this

theorem generators_ok {S : List (ZMod p × ZMod p)} {G : Nat → Pt b} (hS : Generators S G) : ∀ {ms : List Nat}, (∀ m ∈ ms, m < 1024) →
    Sinsemilla.generators S ms = .ok (ms.map fun m => coords (G m))
  | [], _ => rfl
  | m :: ms, h => by
    have ih := generators_ok hS (ms := ms) fun x hx => h x (List.mem_cons_of_mem _ hx)
    unfold Sinsemilla.generators at ih ⊢
    rw [List.mapM_cons, ih, (hS.points m (h m List.mem_cons_self)).2]
    rfl

/-- What the lookup takes to be the word of a row. -/
def wordAt (c : Sinsemilla) (w : Content (ZMod p)) (region r : Nat) : ZMod p :=
  w region (.advice c.bits) r - (w region (.fixed c.qS2) r -
    w region (.fixed c.qS2) r * (w region (.fixed c.qS2) r - 1)) * w region (.advice c.bits) (r + 1) * 1024

/-- The piece has a known value with these words. -/
def Words (piece : Piece p) (ms : List Nat) : Prop := ms.length = piece.numWords ∧ (∀ m ∈ ms, m < 1024) ∧
  ∃ x, piece.value.value = some x ∧ x.val = Nat.ofDigits 1024 ms

theorem hashPiece_honest (hinv : (Sinsemilla.invTwoPowK : ZMod p) * 1024 = 1) {S : List (ZMod p × ZMod p)} {G : Nat → Pt b}
    (hS : Generators S G) {piece : Piece p} {ms : List Nat} (hw : Words piece ms) (h0 : 0 < piece.numWords)
    (hsz : piece.numWords * 10 ≤ 256) {A B : Pt b} (h : hashOf G A ms = some B) (offset : Nat) (final : Bool) :
    ∃ calls zs, c.hashPiece S region offset piece (some (coords A).1) (some (coords A).2) final =
        .ok (calls, some (coords B).1, some (coords B).2, zs) ∧
      (∀ s o, Call.enable s o ∈ calls → s = c.qS1 ∧ offset ≤ o ∧ o < offset + piece.numWords) ∧
      ∀ w : Content (ZMod p), Follows w region calls → Known w piece.value → w region (.advice c.da.xA) offset = (coords A).1 →
        (∀ k ∈ calls, Enforced w region k) ∧
        w region (.advice c.da.xA) ((offset + piece.numWords : Nat) : Int) = (coords B).1 ∧
        y2 c w region offset = 2 * (coords A).2 ∧
        ∀ i (hi : i < ms.length), ∃ v, StepRow c w region (G ms[i]) (offset + i) v ∧ wordAt c w region (offset + i) = (ms[i] : Nat) ∧
          (i + 1 < ms.length → w region (.fixed c.qS2) ((offset + i : Nat) : Int) = 1 ∧
            v = y2 c w region ((offset + i + 1 : Nat) : Int)) ∧
          (i + 1 = ms.length → w region (.fixed c.qS2) ((offset + i : Nat) : Int) = (if final then 2 else 0) ∧
            v = 2 * (coords B).2) := by
  obtain ⟨hl, hlt, x, hx, hv⟩ := hw
  have hms : ms ≠ [] := by rintro rfl; simp at hl; omega
  have hwords := words_digits hsz hl hlt hv
  have hgens := generators_ok hS hlt
  obtain ⟨calls, s1, s2, s3⟩ := steps_honest (c := c) (region := region) ms offset A B h
  have hxe : x = ((Nat.ofDigits 1024 ms : Nat) : ZMod p) := by
    rw [← hv, ZMod.natCast_val, ZMod.cast_id', id]
  set z0 : Assigned (ZMod p) := ⟨⟨region, offset, .advice c.bits⟩, some x⟩ with hz0
  set cells := sumCells region c.bits offset (Sinsemilla.invTwoPowK : ZMod p) 0 z0
    (ms.dropLast.map fun (n : Nat) => some (n : ZMod p)) with hcells
  have hcl : cells.length = ms.length - 1 := by rw [hcells, sumCells_length, List.length_map, List.length_dropLast]
  have hdig := sumCells_digits (region := region) (col := c.bits) (offset := offset) hinv ms 0 z0 hms (by rw [hz0, hxe])
  rw [← hcells] at hdig
  refine ⟨(List.range piece.numWords).map (fun row => .enable c.qS1 (offset + row)) ++
    (List.range (piece.numWords - 1)).map (fun row => .fixed c.qS2 (offset + row) (some 1)) ++
    [.fixed c.qS2 (offset + piece.numWords - 1) (some (if final then 2 else 0))] ++
    [.advice c.bits offset (some x), .equal ⟨region, offset, .advice c.bits⟩ piece.value.cell] ++
    cells.map (fun a => .advice c.bits a.cell.offset a.value) ++ calls, z0 :: cells, ?_, ?_, ?_⟩
  · unfold Sinsemilla.hashPiece
    dsimp only
    rw [assert_ok.2 (by simpa using h0), hx]
    simp only [Option.map_some, hwords, onKnown, hgens, Except.map, ok_then, transposeVec]
    rw [assert_ok.2 (by simpa using hl)]
    simp only [ok_then, pure, Except.pure]
    rw [assert_ok.2 (by simpa using hl)]
    simp only [ok_then, copyAdvice, hx]
    have e1 : (List.map some ms).dropLast.map (fun w => w.map fun (m : Nat) => (m : ZMod p)) =
        ms.dropLast.map fun (n : Nat) => some (n : ZMod p) := by
      rw [← List.map_dropLast, List.map_map]; rfl
    have e2 : List.map some (ms.map fun m => coords (G m)) = ms.map fun m => some (coords (G m)) := by
      rw [List.map_map]; rfl
    simp only [ok_then, e1, e2, ← hz0, ← hcells, s1]
  · intro s o hm
    simp only [List.mem_append, List.mem_map, List.mem_range, List.mem_cons, List.not_mem_nil, or_false, reduceCtorEq, and_false,
      exists_false, false_or, or_self, Call.enable.injEq] at hm
    rcases hm with ⟨i, hi, rfl, rfl⟩ | hm
    · exact ⟨rfl, by omega, by omega⟩
    · obtain ⟨_, _, _, e⟩ := s2 _ hm
      cases e
  · intro w hf hk hxa
    obtain ⟨t1, t2, t3⟩ := s3 w (follows_mono hf fun k hk => List.mem_append_right _ hk) hxa
    have fb : ∀ j, (hj : j < ms.length) → w region (.advice c.bits) ((offset + j : Nat) : Int) =
        ((Nat.ofDigits 1024 (ms.drop j) : Nat) : ZMod p) := by
      rintro (_ | j) hj
      · rw [Nat.add_zero, List.drop_zero, ← hxe]
        exact follows_at hf (by simp)
      · have hj' : j < cells.length := by omega
        have hd := hdig (j + 1) (by simpa using hj')
        rw [List.getElem_cons_succ] at hd
        have hc : cells[j].cell = ⟨region, offset + 0 + 1 + j, .advice c.bits⟩ := sumCells_cell _ _ _ _ _ _ _ _ _
        have hmem : Call.advice c.bits (offset + (j + 1)) (some ((Nat.ofDigits 1024 (ms.drop (j + 1)) : Nat) : ZMod p)) ∈
            cells.map (fun a => (.advice c.bits a.cell.offset a.value : Call (Option (ZMod p)))) := by
          refine List.mem_map.2 ⟨cells[j], List.getElem_mem _, ?_⟩
          rw [hd, hc]
          show Call.advice c.bits (offset + 0 + 1 + j) _ = _
          rw [show offset + 0 + 1 + j = offset + (j + 1) by omega]
        exact follows_at hf (by simp only [List.mem_append]; exact Or.inl (Or.inr hmem))
    have q1 : ∀ i, i + 1 < ms.length → w region (.fixed c.qS2) ((offset + i : Nat) : Int) = 1 := fun i hi =>
      (Option.some.inj (hf.2.2 c.qS2 (offset + i) (some 1) (by
        simp only [List.mem_append, List.mem_map, List.mem_range]
        exact Or.inl (Or.inl (Or.inl (Or.inl (Or.inr ⟨i, by omega, rfl⟩))))))).symm
    have q2 : w region (.fixed c.qS2) ((offset + (ms.length - 1) : Nat) : Int) = if final then 2 else 0 :=
      (Option.some.inj (hf.2.2 c.qS2 (offset + (ms.length - 1)) (some (if final then 2 else 0)) (by
        rw [hl, show offset + (piece.numWords - 1) = offset + piece.numWords - 1 by omega]
        simp))).symm
    refine ⟨?_, by rw [← hl]; exact t1, t2 hms, ?_⟩
    · intro k hk'
      cases k with
      | fixed col o v => exact hf.2.2 _ _ _ hk'
      | constant col o v => exact hf.2.1 _ _ _ hk'
      | equal a a' =>
        simp only [List.mem_append, List.mem_map, List.mem_range, List.mem_cons, List.not_mem_nil, or_false, reduceCtorEq, and_false,
          exists_false, false_or, or_self, Call.equal.injEq] at hk'
        rcases hk' with ⟨rfl, rfl⟩ | hk'
        · have := fb 0 (by omega)
          rw [List.drop_zero, ← hxe, Nat.add_zero] at this
          unfold Known at hk
          rw [hx] at hk
          show w region (.advice c.bits) offset = _
          rw [this]
          exact Option.some.inj hk
        · obtain ⟨_, _, _, e⟩ := s2 _ hk'
          cases e
      | equalConstant a v =>
        exfalso
        simp only [List.mem_append, List.mem_map, List.mem_range, List.mem_cons, List.not_mem_nil, or_false, reduceCtorEq, and_false,
          exists_false, false_or, or_self] at hk'
        obtain ⟨_, _, _, e⟩ := s2 _ hk'
        cases e
      | _ => trivial
    · intro i hi
      obtain ⟨v, v1, v2, v3⟩ := t3 i hi
      refine ⟨v, v1, ?_, fun e => ⟨q1 i e, v2 e⟩, fun e => ⟨?_, v3 e⟩⟩
      · have hd : ms.drop i = ms[i] :: ms.drop (i + 1) := List.drop_eq_getElem_cons hi
        unfold wordAt
        by_cases hlast : i + 1 < ms.length
        · have b2 := fb (i + 1) hlast
          rw [q1 i hlast, fb i hi, hd, Nat.ofDigits_cons, show ((offset + i : Nat) : Int) + 1 = ((offset + (i + 1) : Nat) : Int) by
            push_cast; ring, b2]
          generalize Nat.ofDigits 1024 (ms.drop (i + 1)) = d
          push_cast
          ring
        · obtain rfl : i = ms.length - 1 := by omega
          rw [q2, fb _ hi, hd, Nat.ofDigits_cons, List.drop_eq_nil_of_le (by omega)]
          cases final
          · simp
          · simp only [if_true, Nat.ofDigits_nil]
            push_cast
            ring
      · obtain rfl : i = ms.length - 1 := by omega
        exact q2

theorem hashPieces_honest (hinv : (Sinsemilla.invTwoPowK : ZMod p) * 1024 = 1) {S : List (ZMod p × ZMod p)} {G : Nat → Pt b}
    (hS : Generators S G) : ∀ (pieces : List (Piece p)) (mss : List (List Nat)) (offset : Nat) (A P : Pt b),
    List.Forall₂ Words pieces mss → (∀ piece ∈ pieces, 0 < piece.numWords ∧ piece.numWords * 10 ≤ 256) →
    hashOf G A mss.flatten = some P →
    ∃ calls o zss, c.hashPieces S region offset (some (coords A).1) (some (coords A).2) pieces =
        .ok (calls, o, some (coords P).1, some (coords P).2, zss) ∧ offset ≤ o ∧ (pieces ≠ [] → offset < o) ∧ (pieces = [] → o = offset) ∧
      (∀ s r, Call.enable s r ∈ calls → s = c.qS1 ∧ offset ≤ r ∧ r < o) ∧
      ∀ w : Content (ZMod p), Follows w region calls → (∀ piece ∈ pieces, Known w piece.value) →
        w region (.advice c.da.xA) offset = (coords A).1 →
        (∀ k ∈ calls, Enforced w region k) ∧ w region (.advice c.da.xA) o = (coords P).1 ∧
        (pieces ≠ [] → y2 c w region offset = 2 * (coords A).2) ∧
        ∀ r, offset ≤ r → r < o → ∃ m < 1024, wordAt c w region r = (m : Nat) ∧ ∃ v, StepRow c w region (G m) r v ∧
          (r + 1 < o → (w region (.fixed c.qS2) r = 1 ∨ w region (.fixed c.qS2) r = 0) ∧ v = y2 c w region (r + 1)) ∧
          (r + 1 = o → w region (.fixed c.qS2) r = 2 ∧ v = 2 * (coords P).2)
  | [], _, offset, A, P, .nil, _, h => by
    obtain rfl := Option.some.inj h
    exact ⟨[], offset, [], rfl, le_rfl, fun h => absurd rfl h, fun _ => rfl, by simp,
      fun w _ _ hx => ⟨by simp, hx, fun h => absurd rfl h, fun r h1 h2 => by omega⟩⟩
  | piece :: rest, ms :: mss, offset, A, P, .cons hw hws, hsz, h => by
    rw [List.flatten_cons] at h
    obtain ⟨B, h1, h2⟩ := hashOf_append G _ _ _ _ h
    obtain ⟨n0, nsz⟩ := hsz piece List.mem_cons_self
    obtain ⟨calls1, zs, a1, a2, a3⟩ := hashPiece_honest (c := c) (region := region) hinv hS hw n0 nsz h1 offset rest.isEmpty
    obtain ⟨calls2, o, zss, b1, b2, b3, b4, b5, b6⟩ := hashPieces_honest hinv hS rest mss (offset + piece.numWords) B P hws
      (fun q hq => hsz q (List.mem_cons_of_mem _ hq)) h2
    refine ⟨calls1 ++ calls2, o, zs :: zss, ?_, by omega, fun _ => by omega, fun e => absurd e (List.cons_ne_nil _ _), ?_, ?_⟩
    · unfold Sinsemilla.hashPieces
      rw [a1, ok_then]
      dsimp only
      rw [b1]
      rfl
    · intro s r hm
      rcases List.mem_append.1 hm with hm | hm
      · obtain ⟨e1, e2, e3⟩ := a2 s r hm
        exact ⟨e1, e2, by omega⟩
      · obtain ⟨e1, e2, e3⟩ := b5 s r hm
        exact ⟨e1, by omega, e3⟩
    · intro w hf hk hx
      obtain ⟨c1, c2, c3, c4⟩ := a3 w (follows_mono hf fun k hk => List.mem_append_left _ hk) (hk piece List.mem_cons_self) hx
      obtain ⟨d1, d2, d3, d4⟩ := b6 w (follows_mono hf fun k hk => List.mem_append_right _ hk)
        (fun q hq => hk q (List.mem_cons_of_mem _ hq)) c2
      refine ⟨fun k hk => (List.mem_append.1 hk).elim (c1 k) (d1 k), d2, fun _ => c3, fun r hr hro => ?_⟩
      by_cases hin : r < offset + piece.numWords
      · obtain ⟨i, rfl⟩ := Nat.exists_eq_add_of_le hr
        have hi : i < ms.length := by rw [hw.1]; omega
        obtain ⟨v, v1, v2, v3, v4⟩ := c4 i hi
        refine ⟨ms[i], hw.2.1 _ (List.getElem_mem _), v2, v, v1, fun e => ?_, fun e => ?_⟩
        · by_cases hl : i + 1 < ms.length
          · obtain ⟨q, e⟩ := v3 hl
            refine ⟨Or.inl q, ?_⟩
            rw [e]; push_cast; rfl
          · have hl' : i + 1 = ms.length := by omega
            obtain ⟨q, e'⟩ := v4 hl'
            have hne : rest ≠ [] := by
              intro e0
              have := b4 e0
              have := hw.1
              omega
            have hem : rest.isEmpty = false := by cases rest <;> simp_all
            rw [hem] at q
            refine ⟨Or.inr q, ?_⟩
            rw [e', ← d3 hne, ← hw.1, ← hl']
            push_cast
            rw [add_assoc]
        · have he : rest = [] := by
            by_contra hne
            have := b3 hne
            omega
          subst he
          have hl' : i + 1 = ms.length := by have := hw.1; omega
          obtain ⟨q, e'⟩ := v4 hl'
          cases hws
          rw [Option.some.inj h2] at e'
          exact ⟨by simpa using q, e'⟩
      · exact d4 r (by omega) hro

/-- The hash of a message in a circuit is complete. -/
theorem hashToPoint_complete (us : Usable b) (hinv : (Sinsemilla.invTwoPowK : ZMod p) * 1024 = 1) {S : List (ZMod p × ZMod p)}
    {G : Nat → Pt b} (hS : Generators S G) (hsel : c.qS1 ≠ c.qS4) {pieces : List (Piece p)} {mss : List (List Nat)}
    (hne : pieces ≠ []) (hw : List.Forall₂ Words pieces mss)
    (hsz : ∀ piece ∈ pieces, 0 < piece.numWords ∧ piece.numWords * 10 ≤ 256) {Q P : Pt b} (hQ : Q ≠ 0)
    (h : hashOf G Q mss.flatten = some P) (region : Nat) (table : Nat → List (ZMod p)) :
    ∃ calls out zss, c.hashToPoint S region (affine Q) pieces = .ok (calls, out, zss) ∧
      ∀ w : Content (ZMod p), Follows w region calls → (∀ piece ∈ pieces, Known w piece.value) →
        Sat c.chip table w region calls ∧ LooksUp (c.lookup S) (Sinsemilla.load S) w region calls ∧ KnownPoint w out ∧ Holds w out P := by
  have two : (2 : ZMod p) ≠ 0 := us.smooth.two
  have hP := hashOf_ne hQ h
  obtain ⟨calls, o, zss, a1, -, a2, -, a3, a4⟩ := hashPieces_honest (c := c) (region := region) hinv hS pieces mss 0 Q P hw hsz h
  have ho := a2 hne
  match Q, hQ, a1, a4 with
  | .some xQ yQ hc, _, a1, a4 =>
    refine ⟨[.enable c.qS4 0, .fixed c.fixedYQ 0 (some yQ), .constant c.da.xA 0 (some xQ)] ++ calls ++
        [.advice c.da.lambda1 o (some (coords P).2), .advice c.da.lambda2 o (some 0), .advice c.da.xP o (some 0)],
        ⟨⟨⟨region, o, .advice c.da.xA⟩, some (coords P).1⟩, ⟨⟨region, o, .advice c.da.lambda1⟩, some (coords P).2⟩⟩, zss, ?_, ?_⟩
    · unfold Sinsemilla.hashToPoint
      simp only [affine]
      change c.hashPieces S region 0 (some xQ) (some yQ) pieces = _ at a1
      rw [a1, ok_then]
      dsimp only
      rw [if_neg]
      · rfl
      · simp only [bind, Option.bind, pure]
        rw [show ((coords P).1 == 0 || (coords P).2 == 0) = false by simp [coords_x_ne us hP, coords_y_ne us hP]]
        decide
    · intro w hf hk
      have hx0 : w region (.advice c.da.xA) 0 = xQ := (Option.some.inj (hf.2.1 c.da.xA 0 (some xQ) (by simp))).symm
      have hf0 : w region (.fixed c.fixedYQ) 0 = yQ := (Option.some.inj (hf.2.2 c.fixedYQ 0 (some yQ) (by simp))).symm
      have hlo : w region (.advice c.da.lambda1) o = (coords P).2 := follows_at hf (by simp)
      obtain ⟨b1, b2, b3, b4⟩ := a4 w (follows_mono hf fun k hk => by simp [hk]) hk hx0
      have hy0 := b3 hne
      have hen : ∀ r, Call.enable c.qS1 r ∈ [Call.enable c.qS4 0, .fixed c.fixedYQ 0 (some yQ), .constant c.da.xA 0 (some xQ)] ++ calls ++
          [.advice c.da.lambda1 o (some (coords P).2), .advice c.da.lambda2 o (some 0), .advice c.da.xP o (some 0)] → r < o := by
        intro r hr
        simp only [List.mem_append, List.mem_cons, List.not_mem_nil, or_false, reduceCtorEq, Call.enable.injEq] at hr
        rcases hr with ⟨e, -⟩ | hr
        · exact absurd e hsel
        · exact (a3 _ _ hr).2.2
      refine ⟨⟨?_, gates_of ?_, by simp [Sinsemilla.chip]⟩, looksUp_of two hS ?_, ⟨?_, ?_⟩, ?_⟩
      · intro k hk
        simp only [List.mem_append, List.mem_cons, List.not_mem_nil, or_false] at hk
        rcases hk with ((rfl | rfl | rfl) | hk) | rfl | rfl | rfl
        · trivial
        · exact congrArg some hf0.symm
        · exact congrArg some hx0.symm
        · exact b1 k hk
        all_goals trivial
      · intro g hg e he r hr
        simp only [Sinsemilla.chip, List.mem_cons, List.not_mem_nil, or_false] at hg
        rcases hg with rfl | rfl
        · have : r = 0 := by
            simp only [List.mem_append, List.mem_cons, List.not_mem_nil, or_false, reduceCtorEq, Call.enable.injEq, true_and] at hr
            rcases hr with e | hr
            · exact e
            · exact absurd (a3 _ _ hr).1.symm hsel
          subst this
          rw [List.mem_singleton.1 he]
          simp only [eval_sub, eval_scaled, eval_fixed, eval_yA2, add_zero, Nat.cast_zero, hf0]
          simp only [Nat.cast_zero, coords] at hy0
          rw [hy0]
          ring
        · obtain ⟨m, -, -, v, s, v1, v2⟩ := b4 r (Nat.zero_le _) (hen r hr)
          have htan : w region (.advice c.da.lambda2) r * 4 * (w region (.advice c.da.xA) r - w region (.advice c.da.xA) (r + 1)) =
              y2 c w region r * 2 + (2 - w region (.fixed c.qS2) r * (w region (.fixed c.qS2) r - 1)) * y2 c w region (r + 1) +
              w region (.fixed c.qS2) r * (w region (.fixed c.qS2) r - 1) * 2 * w region (.advice c.da.lambda1) (r + 1) := by
            rw [s.tangent]
            by_cases hl : r + 1 = o
            · obtain ⟨q, rfl⟩ := v2 hl
              have : w region (.advice c.da.lambda1) ((r : Int) + 1) = (coords P).2 := by rw [← hlo, ← hl]; push_cast; rfl
              rw [q, this]
              ring
            · obtain ⟨q, rfl⟩ := v1 (by have := hen r hr; omega)
              rcases q with q | q <;> rw [q] <;> ring
          simp only [List.mem_cons, List.not_mem_nil, or_false] at he
          rcases he with rfl | rfl
          · simp only [DoubleAndAdd.xR, eval_add, eval_sub, eval_square, eval_advice, add_zero]
            linear_combination s.secant
          · simp only [Sinsemilla.qS3, eval_mul, eval_add, eval_sub, eval_scaled, eval_const, eval_advice, eval_fixed, eval_yA2, add_zero]
            linear_combination htan
      · intro r hr
        obtain ⟨m, hm, hword, v, s, -⟩ := b4 r (Nat.zero_le _) (hen r hr)
        exact ⟨m, hm, hword, s.xP, s.yP⟩
      · exact congrArg some b2.symm
      · exact congrArg some hlo.symm
      · exact Prod.ext b2 hlo

end Verif.Lemmas.Sinsemilla

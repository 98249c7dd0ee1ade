import Verif.Spec.Sinsemilla
import Verif.Lemmas.EccMulLoop

/-! The Sinsemilla hash in circuits. -/

namespace Verif.Lemmas.Sinsemilla

open Verif.Gadget Verif.Spec.Gadget Verif.Spec Verif.Spec.Ecc Verif.Spec.Sinsemilla Verif.Lemmas.Gadget Verif.Lemmas.Ecc
open Verif.FloorPlanner (Call)

section spec

variable {F : Type} [Field F] [DecidableEq F] {b : F}

theorem plus_some {P Q R : Pt b} (h : plus P Q = some R) : P ≠ 0 ∧ Q ≠ 0 ∧ P ≠ Q ∧ P ≠ -Q ∧ R = P + Q := by
  unfold plus at h
  split at h
  · cases h
  · rename_i hn
    push Not at hn
    exact ⟨hn.1, hn.2.1, hn.2.2.1, hn.2.2.2, (Option.some.inj h).symm⟩

theorem step_some {A S B : Pt b} (h : step A S = some B) :
    A ≠ 0 ∧ S ≠ 0 ∧ S ≠ A ∧ S ≠ -A ∧ A + S ≠ -A ∧ B = A + (A + S) ∧ B ≠ 0 := by
  unfold step at h
  rw [Option.bind_eq_bind, Option.bind_eq_some_iff] at h
  obtain ⟨R, h1, h2⟩ := h
  obtain ⟨a1, a2, a3, a4, rfl⟩ := plus_some h1
  obtain ⟨b1, b2, b3, b4, rfl⟩ := plus_some h2
  refine ⟨a1, a2, a3.symm, fun e => a4 (by rw [e, neg_neg]), b4, add_comm _ _, fun e => b4 (eq_neg_of_add_eq_zero_left e)⟩

end spec

variable {p : Nat} [Fact p.Prime] {b : ZMod p} {w : Content (ZMod p)} {region : Nat} {c : Sinsemilla}

/-- Twice the second coordinate of the accumulator in a row. -/
def y2 (c : Sinsemilla) (w : Content (ZMod p)) (region : Nat) (row : Int) : ZMod p :=
  (w region (.advice c.da.lambda1) row + w region (.advice c.da.lambda2) row) * (w region (.advice c.da.xA) row -
    (w region (.advice c.da.lambda1) row ^ 2 - w region (.advice c.da.xA) row - w region (.advice c.da.xP) row))

theorem eval_yA2 {sel : Selector → Int → Bool} {row rot : Int} :
    (c.da.yA2 rot : Verif.Gadget.Expr (ZMod p)).eval sel (w region) row = y2 c w region (row + rot) := by
  simp only [DoubleAndAdd.yA2, DoubleAndAdd.xR, eval_mul, eval_add, eval_sub, eval_advice, eval_square, y2]
  ring

/-- What the lookup says of an enabled row. -/
theorem lookup_row {S : List (ZMod p × ZMod p)} {G : Nat → Pt b} (hS : Generators S G) {calls : Calls (ZMod p)}
    (hl : LooksUp (c.lookup S) (Sinsemilla.load S) w region calls) {r : Nat} (hr : Call.enable c.qS1 r ∈ calls) :
    ∃ m < 1024, w region (.advice c.bits) r - (w region (.fixed c.qS2) r - w region (.fixed c.qS2) r *
        (w region (.fixed c.qS2) r - 1)) * w region (.advice c.bits) (r + 1) * 1024 = (m : Nat) ∧
      w region (.advice c.da.xP) r = (coords (G m)).1 ∧
      y2 c w region r * 2⁻¹ - w region (.advice c.da.lambda1) r * (w region (.advice c.da.xA) r - w region (.advice c.da.xP) r) =
        (coords (G m)).2 := by
  have h := hl r
  have he : enabled calls c.qS1 (r : Int) = true := enabled_iff.2 ⟨r, hr, rfl⟩
  simp only [Sinsemilla.lookup, Sinsemilla.qS3, eval_mul, eval_add, eval_sub, eval_scaled, eval_const, eval_selector, he, if_true,
    eval_advice, eval_fixed, eval_yA2, add_zero, one_mul, sub_self, zero_mul] at h
  simp only [Sinsemilla.load, List.mem_map, Prod.mk.injEq] at h
  obtain ⟨⟨s, i⟩, hi, h1, h2, h3⟩ := h
  rw [List.mk_mem_zipIdx_iff_getElem?] at hi
  have hlt : i < 1024 := by
    rw [← hS.length]
    exact (List.getElem?_eq_some_iff.1 hi).1
  have hs := (hS.points i hlt).2
  rw [hi] at hs
  obtain rfl := Option.some.inj hs
  exact ⟨i, hlt, h1.symm, h2.symm, h3.symm⟩

/-- What the gate says of an enabled row. -/
theorem gate_row {calls : Calls (ZMod p)} {chip : Chip (ZMod p)} {table : Nat → List (ZMod p)}
    (hg : ∀ g ∈ (c.chip : Chip (ZMod p)).gates, g ∈ chip.gates) (hs : Sat chip table w region calls) {r : Nat}
    (hr : Call.enable c.qS1 r ∈ calls) :
    w region (.advice c.da.lambda2) r ^ 2 - w region (.advice c.da.xA) (r + 1) - (w region (.advice c.da.lambda1) r ^ 2 -
      w region (.advice c.da.xA) r - w region (.advice c.da.xP) r) - w region (.advice c.da.xA) r = 0 ∧
    w region (.advice c.da.lambda2) r * 4 * (w region (.advice c.da.xA) r - w region (.advice c.da.xA) (r + 1)) =
      y2 c w region r * 2 + (2 - w region (.fixed c.qS2) r * (w region (.fixed c.qS2) r - 1)) * y2 c w region (r + 1) +
      w region (.fixed c.qS2) r * (w region (.fixed c.qS2) r - 1) * 2 * w region (.advice c.da.lambda1) (r + 1) := by
  have hm := hg _ (List.mem_cons_of_mem _ List.mem_cons_self)
  have h1 := sat_gate hs hm List.mem_cons_self hr
  have h2 := sat_gate hs hm (List.mem_cons_of_mem _ List.mem_cons_self) hr
  simp only [Sinsemilla.qS3, DoubleAndAdd.xR, eval_mul, eval_add, eval_sub, eval_scaled, eval_const, eval_square,
    eval_advice, eval_fixed, eval_yA2, add_zero] at h1 h2
  exact ⟨by linear_combination h1, by linear_combination h2⟩

theorem range_map_cons {A : Type} (f : Nat → A) (n : Nat) :
    (List.range (n + 1)).map f = f 0 :: (List.range n).map (fun i => f (i + 1)) := by
  rw [List.range_succ_eq_map, List.map_cons, List.map_map]; rfl

/-- The accumulator through the rows. -/
theorem rows_hash {G : Nat → Pt b} {m : Nat → Nat} {N : Nat} {xa ya xp l1 l2 : Nat → ZMod p}
    (hl : ∀ r < N, xp r = (coords (G (m r))).1 ∧ ya r - l1 r * (xa r - xp r) = (coords (G (m r))).2 ∧
      2 * ya r = (l1 r + l2 r) * (xa r - (l1 r ^ 2 - xa r - xp r)) ∧
      l2 r ^ 2 - xa (r + 1) - (l1 r ^ 2 - xa r - xp r) - xa r = 0 ∧ l2 r * (xa r - xa (r + 1)) = ya r + ya (r + 1)) :
    ∀ (k r : Nat) (A P : Pt b), r + k = N → (xa r, ya r) = coords A →
      hashOf G A ((List.range k).map fun i => m (r + i)) = some P → (xa N, ya N) = coords P
  | 0, r, A, P, hr, hA, h => by
    obtain rfl : r = N := hr
    simp only [List.range_zero, List.map_nil, hashOf, Option.some.injEq] at h
    rw [← h, hA]
  | k + 1, r, A, P, hr, hA, h => by
    rw [range_map_cons, hashOf, Option.bind_eq_bind, Option.bind_eq_some_iff] at h
    obtain ⟨B, h1, h2⟩ := h
    obtain ⟨a1, a2, a3, a4, a5, rfl, a6⟩ := step_some h1
    obtain ⟨e1, e2, e3, e4, e5⟩ := hl r (by omega)
    have hx : xa r = (coords A).1 := by rw [← hA]
    have hy : ya r = (coords A).2 := by rw [← hA]
    rw [Nat.add_zero] at a2 a3 a4 a5
    rw [hx, hy, e1] at e2 e3
    rw [hx, e1] at e4
    rw [hx, hy] at e5
    have := double_add a1 a2 a3 a4 a5 (l1 := l1 r) (l2 := l2 r) (x' := xa (r + 1)) (y' := ya (r + 1)) e3
      (by linear_combination -e2) e4 (by linear_combination e5)
    rw [Nat.add_zero] at h2
    refine rows_hash hl k (r + 1) _ P (by omega) this ?_
    rw [← h2]
    congr 2
    funext i
    rw [show r + 1 + i = r + (i + 1) by omega]

theorem ofDigits_drop {z : Nat → ZMod p} {m : Nat → Nat} {n : Nat} (hn : 0 < n)
    (h : ∀ i, i + 1 < n → z i - z (i + 1) * 1024 = (m i : Nat)) (hl : z (n - 1) = (m (n - 1) : Nat)) :
    ∀ k i, i + k = n → 0 < k → z i = (Nat.ofDigits 1024 (((List.range n).map m).drop i) : Nat)
  | 0, _, _, hk => absurd hk (lt_irrefl _)
  | k + 1, i, hi, _ => by
    have hd : ((List.range n).map m).drop i = m i :: ((List.range n).map m).drop (i + 1) := by
      rw [List.drop_eq_getElem_cons (by simp; omega)]
      simp
    rw [hd, Nat.ofDigits_cons]
    rcases Nat.eq_zero_or_pos k with rfl | hk
    · obtain rfl : i = n - 1 := by omega
      rw [hl, List.drop_eq_nil_of_le (by simp; omega)]
      simp
    · rw [Nat.cast_add, Nat.cast_mul, ← ofDigits_drop hn h hl k (i + 1) (by omega) hk, ← h i (by omega)]
      push_cast
      ring

theorem ofDigits_lt : ∀ {ms : List Nat}, (∀ m ∈ ms, m < 1024) → Nat.ofDigits 1024 ms < 2 ^ (10 * ms.length)
  | [], _ => by simp
  | m :: ms, h => by
    have h1 := ofDigits_lt (ms := ms) fun x hx => h x (List.mem_cons_of_mem _ hx)
    have h2 := h m List.mem_cons_self
    rw [Nat.ofDigits_cons, List.length_cons, Nat.mul_add, pow_add]
    norm_num at h1 ⊢
    omega

/-- What `hash_piece` does, as far as it binds the prover. -/
theorem hashPiece_split {S : List (ZMod p × ZMod p)} {offset : Nat} {piece : Piece p} {xA yA x y : Option (ZMod p)} {final : Bool}
    {calls : Calls (ZMod p)} {zs : List (Assigned (ZMod p))}
    (h : c.hashPiece S region offset piece xA yA final = .ok (calls, x, y, zs)) :
    0 < piece.numWords ∧ (∀ i < piece.numWords, Call.enable c.qS1 (offset + i) ∈ calls) ∧
    (∀ i, i + 1 < piece.numWords → Call.fixed c.qS2 (offset + i) (some 1) ∈ calls) ∧
    Call.fixed c.qS2 (offset + (piece.numWords - 1)) (some (if final then 2 else 0)) ∈ calls ∧
    Call.equal ⟨region, offset, .advice c.bits⟩ piece.value.cell ∈ calls ∧ zs.length = piece.numWords ∧
    ∀ i (hi : i < zs.length), zs[i].cell = ⟨region, offset + i, .advice c.bits⟩ := by
  unfold Sinsemilla.hashPiece at h
  obtain ⟨_, h1, h⟩ := bind_ok h
  have hn : 0 < piece.numWords := by simpa using assert_ok.1 h1
  obtain ⟨gens, h2, h⟩ := bind_ok h
  obtain ⟨ws, h3, h⟩ := bind_ok h
  obtain ⟨gens', h4, h⟩ := bind_ok h
  have hl := transposeVec_length h3
  simp only [pure, Except.pure, Except.ok.injEq, Prod.mk.injEq] at h
  obtain ⟨rfl, -, -, rfl⟩ := h
  refine ⟨hn, ?_, ?_, ?_, ?_, ?_, ?_⟩
  · intro i hi
    simp only [List.mem_append, List.mem_map, List.mem_range]
    exact Or.inl (Or.inl (Or.inl (Or.inl (Or.inl ⟨i, hi, rfl⟩))))
  · intro i hi
    simp only [List.mem_append, List.mem_map, List.mem_range]
    exact Or.inl (Or.inl (Or.inl (Or.inl (Or.inr ⟨i, by omega, rfl⟩))))
  · rw [show offset + (piece.numWords - 1) = offset + piece.numWords - 1 by omega]
    simp
  · simp [copyAdvice]
  · rw [List.length_cons, sumCells_length, List.length_map, List.length_dropLast, hl]
    omega
  · rintro (_ | i) hi
    · rfl
    · rw [List.getElem_cons_succ, sumCells_cell]
      congr 1
      omega

/-- The rows and the words of all pieces. -/
theorem hashPieces_rows {S : List (ZMod p × ZMod p)} {all : Calls (ZMod p)} {m : Nat → Nat}
    (henf : ∀ k ∈ all, Enforced w region k)
    (hm : ∀ r : Nat, Call.enable c.qS1 r ∈ all → m r < 1024 ∧ w region (.advice c.bits) r - (w region (.fixed c.qS2) r -
      w region (.fixed c.qS2) r * (w region (.fixed c.qS2) r - 1)) * w region (.advice c.bits) (r + 1) * 1024 = (m r : Nat)) :
    ∀ (pieces : List (Piece p)) (offset : Nat) (xA yA : Option (ZMod p)) {calls : Calls (ZMod p)} {o : Nat} {x y : Option (ZMod p)}
      {zss : List (List (Assigned (ZMod p)))}, c.hashPieces S region offset xA yA pieces = .ok (calls, o, x, y, zss) →
      (∀ piece ∈ pieces, piece.numWords * 10 < p.size) → (∀ k ∈ calls, k ∈ all) →
      offset ≤ o ∧ (pieces ≠ [] → offset < o) ∧
      (∀ r, offset ≤ r → r < o → Call.enable c.qS1 r ∈ all ∧
        (r + 1 = o → w region (.fixed c.qS2) r = 2) ∧
        (r + 1 ≠ o → w region (.fixed c.qS2) r = 1 ∨ w region (.fixed c.qS2) r = 0)) ∧
      ∃ mss : List (List Nat), mss.flatten = (List.range (o - offset)).map (fun i => m (offset + i)) ∧
        List.Forall₂ (WordsOf w) pieces mss ∧ List.Forall₂ (SumsOf w) zss mss
  | [], offset, xA, yA, calls, o, x, y, zss, h, _, _ => by
    simp only [Sinsemilla.hashPieces, Except.ok.injEq, Prod.mk.injEq] at h
    obtain ⟨rfl, rfl, rfl, rfl, rfl⟩ := h
    exact ⟨le_rfl, fun h => absurd rfl h, fun r h1 h2 => by omega, [], by simp, .nil, .nil⟩
  | piece :: rest, offset, xA, yA, calls, o, x, y, zss, h, hsz, hsub => by
    unfold Sinsemilla.hashPieces at h
    obtain ⟨⟨calls1, x1, y1, zs⟩, h1, h⟩ := bind_ok h
    obtain ⟨⟨calls2, o2, x2, y2, zss2⟩, h2, h⟩ := bind_ok h
    simp only [pure, Except.pure, Except.ok.injEq, Prod.mk.injEq] at h
    obtain ⟨rfl, rfl, rfl, rfl, rfl⟩ := h
    have sub1 : ∀ k ∈ calls1, k ∈ all := fun k hk => hsub k (List.mem_append_left _ hk)
    obtain ⟨i1, i2, i3, mss, i4, i5, i6⟩ := hashPieces_rows henf hm rest _ x1 y1 h2
      (fun q hq => hsz q (List.mem_cons_of_mem _ hq)) (fun k hk => hsub k (List.mem_append_right _ hk))
    obtain ⟨s1, s2, s3, s4, s5, s6, s7⟩ := hashPiece_split h1
    have q1 : ∀ i, i + 1 < piece.numWords → w region (.fixed c.qS2) ((offset + i : Nat) : Int) = 1 := fun i hi =>
      (Option.some.inj (henf _ (sub1 _ (s3 i hi)))).symm
    have q2 : w region (.fixed c.qS2) ((offset + (piece.numWords - 1) : Nat) : Int) = if rest.isEmpty then 2 else 0 :=
      (Option.some.inj (henf _ (sub1 _ s4))).symm
    have z0 : w region (.advice c.bits) offset = w.at piece.value.cell := henf _ (sub1 _ s5)
    have hz := ofDigits_drop (z := fun i => w region (.advice c.bits) ((offset + i : Nat) : Int)) (m := fun i => m (offset + i)) s1
      (fun i hi => by
        have := (hm _ (sub1 _ (s2 i (by omega)))).2
        rw [q1 i hi] at this
        rw [← this]
        push_cast
        rw [← add_assoc]
        ring)
      (by
        have := (hm _ (sub1 _ (s2 (piece.numWords - 1) (by omega)))).2
        rw [q2] at this
        rw [← this]
        split <;> ring)
    have hlt : ∀ k ∈ (List.range piece.numWords).map (fun i => m (offset + i)), k < 1024 := by
      intro k hk
      obtain ⟨i, hi, rfl⟩ := List.mem_map.1 hk
      exact (hm _ (sub1 _ (s2 i (List.mem_range.1 hi)))).1
    have last : rest ≠ [] → rest.isEmpty = false := by cases rest <;> simp
    refine ⟨by omega, fun _ => by omega, ?_, (List.range piece.numWords).map (fun i => m (offset + i)) :: mss, ?_, .cons ?_ i5,
      .cons ?_ i6⟩
    · intro r hr hro
      by_cases hlt : r < offset + piece.numWords
      · obtain ⟨i, rfl⟩ := Nat.exists_eq_add_of_le hr
        refine ⟨sub1 _ (s2 i (by omega)), fun e => ?_, fun e => ?_⟩
        · have : rest = [] := by
            by_contra hne
            have := i2 hne
            omega
          subst this
          obtain rfl : i = piece.numWords - 1 := by omega
          simpa using q2
        · by_cases hi : i + 1 < piece.numWords
          · exact Or.inl (q1 i hi)
          · obtain rfl : i = piece.numWords - 1 := by omega
            have : rest ≠ [] := by
              rintro rfl
              simp only [Sinsemilla.hashPieces, Except.ok.injEq, Prod.mk.injEq] at h2
              omega
            right
            rw [q2, last this]
            rfl
      · exact i3 r (by omega) hro
    · rw [List.flatten_cons, i4, show o2 - offset = piece.numWords + (o2 - (offset + piece.numWords)) by omega, List.range_add,
        List.map_append, List.map_map]
      congr 2
      funext i
      simp only [Function.comp]
      rw [add_assoc]
    · refine ⟨by simp, hlt, ?_⟩
      have := hz piece.numWords 0 (by omega) s1
      simp only [Nat.add_zero, List.drop_zero] at this
      rw [z0] at this
      rw [this, ZMod.val_natCast, Nat.mod_eq_of_lt]
      have h1 := ofDigits_lt hlt
      rw [List.length_map, List.length_range] at h1
      have h2 := hsz piece List.mem_cons_self
      exact h1.trans_le (Nat.lt_size.1 (by omega))
    · refine ⟨by simp [s6], fun i hi => ?_⟩
      have := hz (piece.numWords - i) i (by omega) (by omega)
      rw [s7 i hi, ← this]
      rfl

/-- The hash of a message in a circuit is sound. -/
theorem hashToPoint_sound (two : (2 : ZMod p) ≠ 0) {S : List (ZMod p × ZMod p)} {G : Nat → Pt b} (hS : Generators S G) {Q : Pt b}
    {pieces : List (Piece p)} (hne : pieces ≠ []) (hsz : ∀ piece ∈ pieces, piece.numWords * 10 < p.size)
    {calls all : Calls (ZMod p)} {out : EccPoint (ZMod p)} {zss : List (List (Assigned (ZMod p)))}
    (h : c.hashToPoint S region (affine Q) pieces = .ok (calls, out, zss))
    {chip : Chip (ZMod p)} {table : Nat → List (ZMod p)} (hg : ∀ g ∈ (c.chip : Chip (ZMod p)).gates, g ∈ chip.gates)
    (hsub : ∀ k ∈ calls, k ∈ all) (hs : Sat chip table w region all)
    (hl : LooksUp (c.lookup S) (Sinsemilla.load S) w region all) :
    ∃ mss : List (List Nat), List.Forall₂ (WordsOf w) pieces mss ∧ List.Forall₂ (SumsOf w) zss mss ∧
      ∀ P, hashOf G Q mss.flatten = some P → Holds w out P := by
  unfold Sinsemilla.hashToPoint at h
  match Q, h with
  | .some xQ yQ hQ, h =>
    simp only [affine] at h
    obtain ⟨⟨calls1, o, x, y, zss1⟩, h1, h⟩ := bind_ok h
    dsimp only at h
    split at h
    · cases h
    · simp only [pure, Except.pure, Except.ok.injEq, Prod.mk.injEq] at h
      obtain ⟨rfl, rfl, rfl⟩ := h
      have hex : ∀ r : Nat, ∃ m : Nat, Call.enable c.qS1 r ∈ all → m < 1024 ∧ w region (.advice c.bits) r -
          (w region (.fixed c.qS2) r - w region (.fixed c.qS2) r *
            (w region (.fixed c.qS2) r - 1)) * w region (.advice c.bits) (r + 1) * 1024 = (m : Nat) ∧
          w region (.advice c.da.xP) r = (coords (G m)).1 ∧
          y2 c w region r * 2⁻¹ - w region (.advice c.da.lambda1) r * (w region (.advice c.da.xA) r -
            w region (.advice c.da.xP) r) = (coords (G m)).2 := by
        intro r
        by_cases hr : Call.enable c.qS1 r ∈ all
        · obtain ⟨m, h1, h2⟩ := lookup_row hS hl hr
          exact ⟨m, fun _ => ⟨h1, h2⟩⟩
        · exact ⟨0, fun h => absurd h hr⟩
      choose m hm using hex
      obtain ⟨-, i2, i3, mss, i4, i5, i6⟩ := hashPieces_rows (m := m) hs.enforced (fun r hr => ⟨(hm r hr).1, (hm r hr).2.1⟩) pieces 0 _ _ h1
        hsz (fun k hk => hsub k (by simp [hk]))
      have ho := i2 hne
      refine ⟨mss, i5, i6, fun P hP => ?_⟩
      have hx : w region (.advice c.da.xA) 0 = xQ := (Option.some.inj (hs.enforced (.constant c.da.xA 0 (some xQ)) (hsub _ (by simp)))).symm
      have hf : w region (.fixed c.fixedYQ) 0 = yQ := (Option.some.inj (hs.enforced (.fixed c.fixedYQ 0 (some yQ)) (hsub _ (by simp)))).symm
      have hy := sat_gate hs (hg _ List.mem_cons_self) List.mem_cons_self (o := 0) (hsub _ (by simp))
      simp only [eval_sub, eval_scaled, eval_fixed, eval_yA2, add_zero, Nat.cast_zero, hf] at hy
      rw [i4] at hP
      have := rows_hash (G := G) (m := m) (N := o) (xa := fun r => w region (.advice c.da.xA) r)
        (ya := fun r => if r < o then y2 c w region r * 2⁻¹ else w region (.advice c.da.lambda1) r)
        (xp := fun r => w region (.advice c.da.xP) r) (l1 := fun r => w region (.advice c.da.lambda1) r)
        (l2 := fun r => w region (.advice c.da.lambda2) r) (fun r hr => by
          obtain ⟨j1, j2, j3⟩ := i3 r (Nat.zero_le _) hr
          obtain ⟨-, -, k1, k2⟩ := hm r j1
          obtain ⟨g1, g2⟩ := gate_row hg hs j1
          have inv : (2 : ZMod p) * 2⁻¹ = 1 := mul_inv_cancel₀ two
          have four : (4 : ZMod p) ≠ 0 := by
            rw [show (4 : ZMod p) = 2 * 2 by norm_num]; exact mul_ne_zero two two
          simp only [if_pos hr]
          refine ⟨k1, k2, ?_, ?_, ?_⟩
          · have : y2 c w region r = (w region (.advice c.da.lambda1) r + w region (.advice c.da.lambda2) r) *
              (w region (.advice c.da.xA) r - (w region (.advice c.da.lambda1) r ^ 2 - w region (.advice c.da.xA) r -
                w region (.advice c.da.xP) r)) := rfl
            rw [← this]
            linear_combination y2 c w region r * inv
          · push_cast
            exact g1
          · push_cast
            refine mul_left_cancel₀ four ?_
            by_cases he : r + 1 = o
            · rw [if_neg (by omega)]
              rw [j2 he] at g2
              linear_combination g2 - 2 * y2 c w region r * inv
            · rw [if_pos (by omega)]
              rcases j3 he with e | e <;> rw [e] at g2 <;>
                linear_combination g2 - 2 * y2 c w region r * inv - 2 * y2 c w region (r + 1) * inv)
        o 0 (.some xQ yQ hQ) P (by omega) (by
          simp only [Nat.cast_zero, if_pos ho, hx, coords, Prod.mk.injEq, true_and]
          linear_combination (-2⁻¹ : ZMod p) * hy + yQ * mul_inv_cancel₀ two) (by simpa using hP)
      simpa [Holds, Content.at] using this

end Verif.Lemmas.Sinsemilla

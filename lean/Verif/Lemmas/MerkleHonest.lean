import Verif.Lemmas.Merkle
import Verif.Lemmas.SinsemillaHonest

/-! The hash of a layer of a Merkle tree is complete. -/

namespace Verif.Lemmas.Merkle

open Verif.Gadget Verif.Spec.Gadget Verif.Spec Verif.Spec.Ecc Verif.Spec.Pow5 Verif.Spec.Sinsemilla Verif.Spec.Merkle
open Verif.Lemmas.Gadget Verif.Lemmas.Ecc Verif.Lemmas.Sinsemilla Verif.Props
open Verif.FloorPlanner (Call)

theorem sat_lift {c : Merkle} {sub : Chip Fp} {table : Nat → List Fp} (ht : IsTable 10 (table c.lookup.tableIdx)) {w : Content Fp}
    {region : Nat} {calls : Calls Fp} (hg : ∀ g ∈ (c.chip : Chip Fp).gates, g ∈ sub.gates ∨ ∀ r, Call.enable g.1 r ∉ calls)
    (hl : sub.lookups = (c.lookup.chip 10 : Chip Fp).lookups ∨ ∀ r, Call.enable c.lookup.qLookup r ∉ calls)
    (hs : Sat sub table w region calls) : Sat c.chip table w region calls := by
  refine ⟨hs.enforced, fun g hm e he row => ?_, fun l hm row => ?_⟩
  · rcases hg g hm with h | h
    · exact hs.gates g h e he row
    · rw [eval_mul, eval_selector, enabled_false fun o ho => absurd ho (h o)]
      simp
  · rcases hl with h | h
    · exact hs.lookups l (by rw [h]; exact hm) row
    · simp only [Merkle.chip, RangeCheck.chip, List.mem_singleton] at hm
      subst hm
      rw [ht]
      refine ⟨0, by norm_num, ?_⟩
      simp only [eval_mul, eval_selector, enabled_false (calls := calls) (s := c.lookup.qLookup) (row := row) fun o ho => absurd ho (h o)]
      simp

theorem gates_cases {c : Merkle} {g : Selector × List (Verif.Gadget.Expr Fp)} (h : g ∈ (c.chip : Chip Fp).gates) :
    (g ∈ (c.sins.chip : Chip Fp).gates ∧ (g.1 = c.sins.qS1 ∨ g.1 = c.sins.qS4)) ∨
    (g ∈ (c.lookup.chip 10 : Chip Fp).gates ∧ g.1 = c.lookup.qBitshift) ∨ g.1 = c.swap.qSwap ∨ g = (c.qDecompose, c.polys) := by
  simp only [Merkle.chip, List.mem_append, List.mem_singleton] at h
  rcases h with ((h | h) | h) | h
  · refine Or.inl ⟨h, ?_⟩
    simp only [Sinsemilla.chip, List.mem_cons, List.not_mem_nil, or_false] at h
    rcases h with rfl | rfl
    · exact Or.inr rfl
    · exact Or.inl rfl
  · refine Or.inr (Or.inl ⟨h, ?_⟩)
    simp only [RangeCheck.chip, List.mem_singleton] at h
    rw [h]
  · simp only [CondSwap.chip, List.mem_singleton] at h
    exact Or.inr (Or.inr (Or.inl (by rw [h])))
  · exact Or.inr (Or.inr (Or.inr h))

theorem steps_enable {c : Sinsemilla} : ∀ (gens : List (Option (Fp × Fp))) (row : Nat) (x y : Option Fp) (s : Selector) (r : Nat),
    Call.enable s r ∉ (c.steps row x y gens).1
  | [], _, _, _, _, _ => by simp [Sinsemilla.steps]
  | g :: gens, row, x, y, s, r => by
    unfold Sinsemilla.steps
    simp only [List.mem_append, List.mem_cons, List.not_mem_nil, or_false, reduceCtorEq, false_or]
    exact steps_enable gens _ _ _ s r

/-- The enabled selectors, and the running sums, which are assigned. -/
theorem hashPiece_parts {c : Sinsemilla} {S : List (Fp × Fp)} {region offset : Nat} {piece : Piece pallasBase} {xA yA x y : Option Fp}
    {final : Bool} {calls : Calls Fp} {zs : List (Assigned Fp)} (h : c.hashPiece S region offset piece xA yA final = .ok (calls, x, y, zs)) :
    (∀ s r, Call.enable s r ∈ calls → s = c.qS1) ∧
    ∀ a ∈ zs.tail, a.cell = ⟨region, a.cell.offset, .advice c.bits⟩ ∧ Call.advice c.bits a.cell.offset a.value ∈ calls := by
  obtain ⟨-, -, -, -, -, -, hc⟩ := hashPiece_split h
  unfold Sinsemilla.hashPiece at h
  obtain ⟨_, h1, h⟩ := bind_ok h
  obtain ⟨gens, h2, h⟩ := bind_ok h
  obtain ⟨ws, h3, h⟩ := bind_ok h
  obtain ⟨gens', h4, h⟩ := bind_ok h
  simp only [pure, Except.pure, Except.ok.injEq, Prod.mk.injEq] at h
  obtain ⟨rfl, -, -, rfl⟩ := h
  refine ⟨fun s r hm => ?_, fun a ha => ⟨?_, ?_⟩⟩
  · simp only [List.mem_append, List.mem_map, List.mem_range, copyAdvice, List.mem_cons, List.not_mem_nil, or_false, reduceCtorEq,
      and_false, exists_false, Call.enable.injEq] at hm
    rcases hm with ⟨_, _, e, _⟩ | hm
    · exact e.symm
    · exact absurd hm (steps_enable _ _ _ _ _ _)
  · obtain ⟨i, hi, rfl⟩ := List.getElem_of_mem (List.mem_of_mem_tail ha)
    rw [hc i hi]
  · simp only [List.mem_append]
    exact Or.inl (Or.inr (List.mem_map.2 ⟨a, ha, rfl⟩))

theorem hashPieces_parts {c : Sinsemilla} {S : List (Fp × Fp)} {region : Nat} : ∀ (pieces : List (Piece pallasBase)) (offset : Nat)
    (xA yA : Option Fp) (calls : Calls Fp) (o : Nat) (x y : Option Fp) (zss : List (List (Assigned Fp))),
    c.hashPieces S region offset xA yA pieces = .ok (calls, o, x, y, zss) → (∀ s r, Call.enable s r ∈ calls → s = c.qS1) ∧
    (∀ zs ∈ zss, ∀ a ∈ zs.tail, a.cell = ⟨region, a.cell.offset, .advice c.bits⟩ ∧ Call.advice c.bits a.cell.offset a.value ∈ calls) ∧
    List.Forall₂ (fun (piece : Piece pallasBase) zs => zs.length = piece.numWords) pieces zss
  | [], _, _, _, _, _, _, _, _, h => by
    simp only [Sinsemilla.hashPieces, Except.ok.injEq, Prod.mk.injEq] at h
    obtain ⟨rfl, -, -, -, rfl⟩ := h
    simp
  | piece :: rest, offset, xA, yA, _, _, _, _, _, h => by
    unfold Sinsemilla.hashPieces at h
    obtain ⟨⟨calls1, x1, y1, zs1⟩, h1, h⟩ := bind_ok h
    obtain ⟨⟨calls2, o2, x2, y2, zss2⟩, h2, h⟩ := bind_ok h
    simp only [pure, Except.pure, Except.ok.injEq, Prod.mk.injEq] at h
    obtain ⟨rfl, -, -, -, rfl⟩ := h
    obtain ⟨a1, a2⟩ := hashPiece_parts h1
    obtain ⟨b1, b2, b3⟩ := hashPieces_parts rest _ _ _ _ _ _ _ _ h2
    obtain ⟨-, -, -, -, -, hlen, -⟩ := hashPiece_split h1
    refine ⟨fun s r hm => (List.mem_append.1 hm).elim (a1 s r) (b1 s r), fun zs hz a ha => ?_, .cons hlen b3⟩
    rcases List.mem_cons.1 hz with rfl | hz
    · exact ⟨(a2 a ha).1, List.mem_append_left _ (a2 a ha).2⟩
    · exact ⟨(b2 zs hz a ha).1, List.mem_append_right _ (b2 zs hz a ha).2⟩

theorem hashToPoint_parts {c : Sinsemilla} {S : List (Fp × Fp)} {region : Nat} {Q : AffinePoint Fp} {pieces : List (Piece pallasBase)}
    {calls : Calls Fp} {out : EccPoint Fp} {zss : List (List (Assigned Fp))} (h : c.hashToPoint S region Q pieces = .ok (calls, out, zss)) :
    (∀ s r, Call.enable s r ∈ calls → s = c.qS1 ∨ s = c.qS4) ∧
    (∀ zs ∈ zss, ∀ a ∈ zs.tail, ∀ w : Content Fp, Follows w region calls → Known w a) ∧
    List.Forall₂ (fun (piece : Piece pallasBase) zs => zs.length = piece.numWords) pieces zss := by
  unfold Sinsemilla.hashToPoint at h
  match Q, h with
  | some (xQ, yQ), h =>
    simp only at h
    obtain ⟨⟨calls1, o1, x1, y1, zss1⟩, h1, h⟩ := bind_ok h
    simp only at h
    split at h
    · cases h
    simp only [pure, Except.pure, Except.ok.injEq, Prod.mk.injEq] at h
    obtain ⟨rfl, -, rfl⟩ := h
    obtain ⟨a1, a2, a3⟩ := hashPieces_parts _ _ _ _ _ _ _ _ _ h1
    refine ⟨fun s r hm => ?_, fun zs hz a ha w hf => ?_, a3⟩
    · simp only [List.mem_append, List.mem_cons, List.not_mem_nil, or_false, reduceCtorEq, Call.enable.injEq] at hm
      rcases hm with ⟨e, -⟩ | hm
      · exact Or.inr e
      · exact Or.inl (a1 s r hm)
    · obtain ⟨e1, e2⟩ := a2 zs hz a ha
      have := hf.1 _ _ _ (List.mem_append_left _ (List.mem_append_right _ e2))
      unfold Known Content.at
      rw [this, e1]

/-- A range check of known bits is complete. -/
theorem witnessBits_complete {c : RangeCheck} (hd : RangeCheckDistinct c) {table : Nat → List Fp} (ht : IsTable 10 (table c.tableIdx))
    (region : Nat) (x : Fp) {start stop : Nat} (h1 : start ≤ stop) (h2 : stop ≤ 255) (h3 : stop - start < 10) :
    ∃ calls, c.witnessBits 10 region (some x) start stop =
        .ok (calls, ⟨⟨region, 0, .advice c.runningSum⟩, some ((x.val / 2 ^ start % 2 ^ (stop - start) : Nat) : Fp)⟩) ∧
      Call.advice c.runningSum 0 (some ((x.val / 2 ^ start % 2 ^ (stop - start) : Nat) : Fp)) ∈ calls ∧
      (∀ s r, Call.enable s r ∈ calls → s = c.qLookup ∨ s = c.qBitshift) ∧
      ∀ w : Content Fp, Follows w region calls → Sat (c.chip 10) table w region calls := by
  have hp : pallasBase < 2 ^ 256 := by decide +kernel
  have hne : (2 : Fp) ^ (stop - start) ≠ 0 := pow_ne_zero _ (by decide +kernel)
  have hlt : x.val / 2 ^ start % 2 ^ (stop - start) < 2 ^ (stop - start) := Nat.mod_lt _ (by positivity)
  generalize hv : x.val / 2 ^ start % 2 ^ (stop - start) = v at *
  have hvp : v < pallasBase := hlt.trans ((Nat.pow_lt_pow_right (by norm_num) h3).trans (by decide +kernel))
  refine ⟨[.advice c.runningSum 0 (some (v : Fp)), .enable c.qLookup 0, .enable c.qLookup 1, .enable c.qBitshift 1,
      .advice c.runningSum 1 (some ((v : Fp) * (2 : Fp) ^ (10 - (stop - start)))),
      .constant c.runningSum 2 (some ((2 : Fp) ^ (stop - start))⁻¹)], ?_, by simp, ?_, fun w hf => ?_⟩
  · unfold RangeCheck.witnessBits RangeCheck.witnessShort RangeCheck.shortRangeCheck onKnown
    rw [assert_ok.2 (by simpa using h3), ok_then]
    simp only
    rw [C100_bitrange hp, if_pos ⟨h1, by rw [size_pallas]; exact h2⟩, hv]
    simp only [Except.map, ok_then]
    rw [assert_ok.2 (by simpa using h3.le), assert_ok.2 (by simpa using hne)]
    rfl
  · intro s r hm
    simp only [List.mem_cons, List.not_mem_nil, or_false, reduceCtorEq, false_or, Call.enable.injEq] at hm
    rcases hm with ⟨e, -⟩ | ⟨e, -⟩ | ⟨e, -⟩
    · exact Or.inl e
    · exact Or.inl e
    · exact Or.inr e
  · have hw : Known w (⟨⟨region, 0, .advice c.runningSum⟩, some (v : Fp)⟩ : Assigned Fp) := hf.1 c.runningSum 0 _ (by simp)
    obtain ⟨calls, e1, e2⟩ := C103_short_complete c hd 10 region ⟨⟨region, 0, .advice c.runningSum⟩, some (v : Fp)⟩ (v : Fp)
      (stop - start) table ht w (by decide +kernel) h3 rfl (by rwa [ZMod.val_natCast, Nat.mod_eq_of_lt hvp]) hw
    unfold RangeCheck.copyShort RangeCheck.shortRangeCheck at e1
    rw [assert_ok.2 (by simpa using h3), assert_ok.2 (by simpa using hne)] at e1
    have e3 := Except.ok.inj e1
    subst e3
    simp only [List.cons_append, List.nil_append, Option.map_some] at e2
    have e4 := e2 ⟨fun col o u hm => hf.1 col o u (by simpa using hm), fun col o u hm => hf.2.1 col o u (by simpa using hm),
      fun col o u hm => by simp at hm⟩
    have hen : ∀ rest : Calls Fp, enabled (Call.advice c.runningSum 0 (some (v : Fp)) :: Call.equal ⟨region, 0, .advice c.runningSum⟩
        ⟨region, 0, .advice c.runningSum⟩ :: rest) = enabled (Call.advice c.runningSum 0 (some (v : Fp)) :: rest) := by
      intro rest
      funext s row
      rfl
    refine ⟨fun k hk => e4.enforced k ?_, ?_, ?_⟩
    · simp only [List.mem_cons] at hk ⊢
      tauto
    · have := e4.gates
      rw [hen] at this
      exact this
    · have := e4.lookups
      rw [hen] at this
      exact this

theorem piece_known {c : Merkle} {region n : Nat} {subs : List (Option Fp × Nat)} {v : Fp}
    (h : subpieces (some 0) 0 subs = .ok (some v, 10 * n)) (hn : n * 10 < 255) :
    c.piece region subs = .ok ([.advice c.witness 0 (some v)], ⟨⟨⟨region, 0, .advice c.witness⟩, some v⟩, n⟩) := by
  unfold Merkle.piece
  rw [h, ok_then]
  simp only
  rw [assert_ok.2 (by simp), ok_then]
  unfold Piece.new
  rw [show 10 * n / 10 = n by omega, assert_ok.2 (by rw [size_pallas]; simpa using hn)]
  rfl

theorem subpieces_cons {acc v : Fp} {bits n : Nat} {rest : List (Option Fp × Nat)} (h : bits < 64) :
    subpieces (some acc) bits ((some v, n) :: rest) = subpieces (some (acc + ((2 ^ bits : Nat) : Fp) * v)) (bits + n) rest := by
  rw [subpieces, assert_ok.2 (by simpa using h)]
  rfl

theorem bitrangeOf_known (x : Fp) {start stop : Nat} (h1 : start ≤ stop) (h2 : stop ≤ 255) :
    bitrangeOf (some x) start stop = .ok (some ((x.val / 2 ^ start % 2 ^ (stop - start) : Nat) : Fp), stop - start) := by
  unfold bitrangeOf onKnown
  simp only
  rw [C100_bitrange (by decide +kernel), if_pos ⟨h1, by rw [size_pallas]; exact h2⟩]
  rfl

/-- A piece of words with the digits of a number. -/
theorem words_of {region n v : Nat} {col : Nat} {ms : List Nat} (hlen : ms.length = n) (hm : ∀ m ∈ ms, m < 1024) (hn : n ≤ 25)
    (hv : v = Nat.ofDigits 1024 ms) : Words (⟨⟨⟨region, 0, .advice col⟩, some (v : Fp)⟩, n⟩ : Piece pallasBase) ms := by
  refine ⟨hlen, hm, _, rfl, ?_⟩
  rw [ZMod.val_natCast, Nat.mod_eq_of_lt, hv]
  rw [hv]
  refine (digits_lt hm).trans_le ((Nat.pow_le_pow_right (by norm_num) (by omega : 10 * ms.length ≤ 250)).trans (by decide +kernel))

theorem layer_complete {c : Merkle} (hd : RangeCheckDistinct c.lookup) (hsel : MerkleDistinct c) {S : List (Fp × Fp)}
    {G : Nat → Pt (5 : Fp)} (hS : Generators S G) {Q P : Pt (5 : Fp)} (hQ : Q ≠ 0) {start l : Nat} (hl : l < 2 ^ 10)
    {left right : Assigned Fp} {x y : Fp} (hx : left.value = some x) (hy : right.value = some y) {ms : List Nat}
    (hms : LayerWords l x.val y.val ms) (hP : hashOf G Q ms = some P) {table : Nat → List Fp}
    (ht : IsTable 10 (table c.lookup.tableIdx)) :
    ∃ regions out, c.hashLayer S start (affine Q) l left right = .ok (regions, out) ∧
      ∀ w : Content Fp, FollowsAll w start regions → Known w left → Known w right →
        SatAll c.chip table w start regions ∧
        (∀ i (h : i < regions.length), LooksUp (c.sins.lookup S) (Sinsemilla.load S) w (start + i) regions[i]) ∧
        Known w out ∧ w.at out.cell = (coords P).1 := by
  have hpp : pallasBase < 2 ^ 255 := by decide +kernel
  have hpl : 2 ^ 254 < pallasBase := by decide +kernel
  have hL : x.val < 2 ^ 255 := (ZMod.val_lt x).trans hpp
  have hR : y.val < 2 ^ 255 := (ZMod.val_lt y).trans hpp
  have exL : x = ((x.val : Nat) : Fp) := (ZMod.natCast_zmod_val x).symm
  have exR : y = ((y.val : Nat) : Fp) := (ZMod.natCast_zmod_val y).symm
  obtain ⟨hlen, hm, hdig⟩ := hms
  -- the three pieces
  obtain ⟨msa, msb, msd, rfl, la, lb, ld⟩ : ∃ a b d : List Nat, ms = a ++ b ++ d ∧ a.length = 25 ∧ b.length = 2 ∧ d.length = 25 :=
    ⟨ms.take 25, (ms.drop 25).take 2, ms.drop 27, by
      rw [List.append_assoc, show ms.drop 27 = (ms.drop 25).drop 2 by rw [List.drop_drop], List.take_append_drop, List.take_append_drop],
      by simp; omega, by simp; omega, by simp; omega⟩
  have ma : ∀ m ∈ msa, m < 1024 := fun m h => hm m (by simp [h])
  have mb : ∀ m ∈ msb, m < 1024 := fun m h => hm m (by simp [h])
  have md : ∀ m ∈ msd, m < 1024 := fun m h => hm m (by simp [h])
  have wa := digits_lt ma
  have wb := digits_lt mb
  have wd := digits_lt md
  rw [la] at wa
  rw [lb] at wb
  rw [ld] at wd
  rw [Nat.ofDigits_append, Nat.ofDigits_append, List.length_append, la, lb] at hdig
  generalize hL' : x.val = L at *
  generalize hR' : y.val = R at *
  obtain ⟨L0, hL0⟩ : ∃ n, n = L / 2 ^ 0 % 2 ^ (240 - 0) := ⟨_, rfl⟩
  obtain ⟨L1, hL1⟩ : ∃ n, n = L / 2 ^ 240 % 2 ^ (250 - 240) := ⟨_, rfl⟩
  obtain ⟨L2, hL2⟩ : ∃ n, n = L / 2 ^ 250 % 2 ^ (255 - 250) := ⟨_, rfl⟩
  obtain ⟨R0, hR0⟩ : ∃ n, n = R / 2 ^ 0 % 2 ^ (5 - 0) := ⟨_, rfl⟩
  obtain ⟨R1, hR1⟩ : ∃ n, n = R / 2 ^ 5 % 2 ^ (255 - 5) := ⟨_, rfl⟩
  have eL : L = L0 + 2 ^ 240 * L1 + 2 ^ 250 * L2 := by omega
  have eR : R = R0 + 32 * R1 := by omega
  have bL0 : L0 < 2 ^ 240 := by omega
  have bL1 : L1 < 2 ^ 10 := by omega
  have bL2 : L2 < 2 ^ 5 := by omega
  have bR0 : R0 < 2 ^ 5 := by omega
  have bR1 : R1 < 2 ^ 250 := by omega
  have e265 : (2 : Nat) ^ 265 = 2 ^ 255 * 1024 := pow_add 2 255 10
  have e250 : (1024 : Nat) ^ 25 = 2 ^ 250 := by norm_num
  have e270 : (1024 : Nat) ^ (25 + 2) = 2 ^ 250 * 2 ^ 20 := by norm_num
  rw [e265, e250, e270] at hdig
  generalize hA : Nat.ofDigits 1024 msa = A at *
  generalize hB : Nat.ofDigits 1024 msb = B at *
  generalize hD : Nat.ofDigits 1024 msd = D at *
  have vA : A = l + 2 ^ 10 * L0 := by omega
  have vB : B = L1 + 2 ^ 10 * L2 + 2 ^ 15 * R0 := by omega
  have vD : D = R1 := by omega
  have szp : ∀ n : Nat, n < 2 ^ 250 → ((n : Nat) : Fp).val = n := fun n hn => by
    rw [ZMod.val_natCast, Nat.mod_eq_of_lt (by omega)]
  simp only [MerkleDistinct, List.nodup_cons, List.mem_cons, List.not_mem_nil, or_false, not_or, not_false_eq_true, List.nodup_nil,
    and_true] at hsel
  obtain ⟨⟨n12, n13, n14, n15, n16⟩, ⟨n23, n24, n25, n26⟩, ⟨n34, n35, n36⟩, ⟨n45, n46⟩, n56⟩ := hsel
  obtain ⟨c1, w1, w1a, w1e, w1s⟩ := witnessBits_complete hd ht (start + 1) x (start := 250) (stop := 255) (by norm_num) le_rfl (by norm_num)
  obtain ⟨c2, w2, w2a, w2e, w2s⟩ := witnessBits_complete hd ht (start + 2) y (start := 0) (stop := 5) (by norm_num) (by norm_num) (by norm_num)
  rw [hL', ← hL2] at w1 w1a
  rw [hR', ← hR0] at w2 w2a
  obtain ⟨pa, hpa⟩ : ∃ q : Piece pallasBase, q = ⟨⟨⟨start, 0, .advice c.witness⟩, some (A : Fp)⟩, 25⟩ := ⟨_, rfl⟩
  obtain ⟨pb, hpb⟩ : ∃ q : Piece pallasBase, q = ⟨⟨⟨start + 3, 0, .advice c.witness⟩, some (B : Fp)⟩, 2⟩ := ⟨_, rfl⟩
  obtain ⟨pd, hpd⟩ : ∃ q : Piece pallasBase, q = ⟨⟨⟨start + 4, 0, .advice c.witness⟩, some (D : Fp)⟩, 25⟩ := ⟨_, rfl⟩
  obtain ⟨ch, pt, zss, hh, hsat⟩ := hashToPoint_complete (c := c.sins) usable_pallas (by decide +kernel) hS n12
    (pieces := [pa, pb, pd]) (mss := [msa, msb, msd]) (List.cons_ne_nil _ _)
    (.cons (hpa ▸ words_of la ma le_rfl hA.symm) (.cons (hpb ▸ words_of lb mb (by norm_num) hB.symm)
      (.cons (hpd ▸ words_of ld md le_rfl hD.symm) .nil)))
    (fun q hq => by
      simp only [List.mem_cons, List.not_mem_nil, or_false] at hq
      rcases hq with rfl | rfl | rfl
      · rw [hpa]; norm_num
      · rw [hpb]; norm_num
      · rw [hpd]; norm_num) hQ (by simpa using hP) (start + 5) table
  obtain ⟨hen, hkn, hzl⟩ := hashToPoint_parts hh
  obtain ⟨za, rest, lza, hzl2, rfl⟩ := List.forall₂_cons_left_iff.1 hzl
  obtain ⟨zb, more, lzb, hzl3, rfl⟩ := List.forall₂_cons_left_iff.1 hzl2
  obtain ⟨z0a, z1a, zsa, rfl⟩ : ∃ a b r, za = a :: b :: r := by
    rw [hpa] at lza
    match za, lza with
    | a :: b :: r, _ => exact ⟨a, b, r, rfl⟩
  obtain ⟨z0b, z1b, zsb, rfl⟩ : ∃ a b r, zb = a :: b :: r := by
    rw [hpb] at lzb
    match zb, lzb with
    | a :: b :: r, _ => exact ⟨a, b, r, rfl⟩
  obtain ⟨b1, hb1⟩ : ∃ q : Assigned Fp, q = ⟨⟨start + 1, 0, .advice c.lookup.runningSum⟩, some (L2 : Fp)⟩ := ⟨_, rfl⟩
  obtain ⟨b2, hb2⟩ : ∃ q : Assigned Fp, q = ⟨⟨start + 2, 0, .advice c.lookup.runningSum⟩, some (R0 : Fp)⟩ := ⟨_, rfl⟩
  rw [← hb1] at w1
  rw [← hb2] at w2
  refine ⟨[[.advice c.witness 0 (some (A : Fp))], c1, c2, [.advice c.witness 0 (some (B : Fp))], [.advice c.witness 0 (some (D : Fp))], ch,
    c.decompose (start + 6) l pa.value pb.value pd.value left right z1a z1b b1 b2], pt.x, ?_, fun w hf kl kr => ?_⟩
  · have ea : subpieces (some 0) 0 [(some (((l : Fp).val / 2 ^ 0 % 2 ^ (10 - 0) : Nat) : Fp), 10 - 0), (some (L0 : Fp), 240 - 0)] =
        .ok (some (A : Fp), 10 * 25) := by
      rw [subpieces_cons (by norm_num), subpieces_cons (by norm_num), subpieces]
      rw [szp l (by omega), show l / 2 ^ 0 % 2 ^ (10 - 0) = l by omega, vA]
      exact congrArg Except.ok (Prod.ext (congrArg some (by push_cast; ring)) (by norm_num))
    have eb : subpieces (some 0) 0 [(some (L1 : Fp), 250 - 240), (some (L2 : Fp), 255 - 250), (some (R0 : Fp), 5)] =
        .ok (some (B : Fp), 10 * 2) := by
      rw [subpieces_cons (by norm_num), subpieces_cons (by norm_num), subpieces_cons (by norm_num), subpieces]
      rw [vB]
      exact congrArg Except.ok (Prod.ext (congrArg some (by push_cast; ring)) (by norm_num))
    have ed : subpieces (some 0) 0 [(some (R1 : Fp), 255 - 5)] = .ok (some (D : Fp), 10 * 25) := by
      rw [subpieces_cons (by norm_num), subpieces]
      rw [vD]
      exact congrArg Except.ok (Prod.ext (congrArg some (by push_cast; ring)) (by norm_num))
    have v1 : b1.value = some (L2 : Fp) := by rw [hb1]
    have v2 : b2.value = some (R0 : Fp) := by rw [hb2]
    unfold Merkle.hashLayer
    rw [hx, hy, size_pallas, bitrangeOf_known _ (by norm_num) (by norm_num), ok_then, bitrangeOf_known _ (by norm_num) (by norm_num),
      ok_then, hL', ← hL0, piece_known ea (by norm_num), ok_then]
    simp only
    rw [bitrangeOf_known _ (by norm_num) (by norm_num), ok_then, hL', ← hL1, w1, ok_then]
    simp only
    rw [w2, ok_then]
    simp only
    rw [v1, v2, piece_known eb (by norm_num), ok_then]
    simp only
    rw [bitrangeOf_known _ (by norm_num) (by norm_num), ok_then, hR', ← hR1, piece_known ed (by norm_num), ok_then]
    simp only
    rw [← hpa, ← hpb, ← hpd]
    have hmsg : message [pa, pb, pd] = .ok [pa, pb, pd] := by rw [hpa, hpb, hpd]; rfl
    rw [hmsg, ok_then, hh, ok_then, hpa, hpb, hpd]
    rfl
  · have f0 : Follows w start [.advice c.witness 0 (some (A : Fp))] := hf 0 (by simp)
    have f1 : Follows w (start + 1) c1 := hf 1 (by simp)
    have f2 : Follows w (start + 2) c2 := hf 2 (by simp)
    have f3 : Follows w (start + 3) [.advice c.witness 0 (some (B : Fp))] := hf 3 (by simp)
    have f4 : Follows w (start + 4) [.advice c.witness 0 (some (D : Fp))] := hf 4 (by simp)
    have f5 : Follows w (start + 5) ch := hf 5 (by simp)
    have f6 : Follows w (start + 6) (c.decompose (start + 6) l pa.value pb.value pd.value left right z1a z1b b1 b2) := hf 6 (by simp)
    have ka : Known w pa.value := by rw [hpa]; exact f0.1 c.witness 0 _ (by simp)
    have kb : Known w pb.value := by rw [hpb]; exact f3.1 c.witness 0 _ (by simp)
    have kd : Known w pd.value := by rw [hpd]; exact f4.1 c.witness 0 _ (by simp)
    have k1 : Known w b1 := by rw [hb1]; exact f1.1 c.lookup.runningSum 0 _ w1a
    have k2 : Known w b2 := by rw [hb2]; exact f2.1 c.lookup.runningSum 0 _ w2a
    have kza : Known w z1a := hkn (z0a :: z1a :: zsa) (by simp) z1a (by simp) w f5
    have kzb : Known w z1b := hkn (z0b :: z1b :: zsb) (by simp) z1b (by simp) w f5
    obtain ⟨s5, l5, kp, hp⟩ := hsat w f5 fun q hq => by
      simp only [List.mem_cons, List.not_mem_nil, or_false] at hq
      rcases hq with rfl | rfl | rfl <;> assumption
    have va : w.at pa.value.cell = (A : Fp) := by
      have : pa.value.value = some (A : Fp) := by rw [hpa]
      exact (Option.some.inj (this.symm.trans ka)).symm
    have vb : w.at pb.value.cell = (B : Fp) := by
      have : pb.value.value = some (B : Fp) := by rw [hpb]
      exact (Option.some.inj (this.symm.trans kb)).symm
    have vd : w.at pd.value.cell = (D : Fp) := by
      have : pd.value.value = some (D : Fp) := by rw [hpd]
      exact (Option.some.inj (this.symm.trans kd)).symm
    have v1 : w.at b1.cell = (L2 : Fp) := by
      have : b1.value = some (L2 : Fp) := by rw [hb1]
      exact (Option.some.inj (this.symm.trans k1)).symm
    have v2 : w.at b2.cell = (R0 : Fp) := by
      have : b2.value = some (R0 : Fp) := by rw [hb2]
      exact (Option.some.inj (this.symm.trans k2)).symm
    have vl : w.at left.cell = (L : Fp) := by rw [← exL]; exact (Option.some.inj (hx.symm.trans kl)).symm
    have vr : w.at right.cell = (R : Fp) := by rw [← exR]; exact (Option.some.inj (hy.symm.trans kr)).symm
    -- the running sums
    obtain ⟨mss, r1, r2, -⟩ := hashToPoint_sound smooth_five.two hS (List.cons_ne_nil _ _) (fun q hq => by
      rw [size_pallas]
      simp only [List.mem_cons, List.not_mem_nil, or_false] at hq
      rcases hq with rfl | rfl | rfl
      · rw [hpa]; norm_num
      · rw [hpb]; norm_num
      · rw [hpd]; norm_num) hh (fun _ h => h) (fun _ h => h) s5 l5
    obtain ⟨ma', ms1, ⟨ga1, ga2, ga3⟩, r4, rfl⟩ := List.forall₂_cons_left_iff.1 r1
    obtain ⟨mb', ms2, ⟨gb1, gb2, gb3⟩, -, rfl⟩ := List.forall₂_cons_left_iff.1 r4
    obtain ⟨⟨ta, ua⟩, r7⟩ := List.forall₂_cons.1 r2
    obtain ⟨⟨tb, ub⟩, -⟩ := List.forall₂_cons.1 r7
    have xa := ua 1 (by simp)
    have xb := ub 1 (by simp)
    rw [va, szp A wa] at ga3
    rw [vb, szp B (by omega)] at gb3
    obtain ⟨m0, ma', rfl⟩ : ∃ m ms, ma' = m :: ms := by
      cases ma' with
      | nil => simp at ta
      | cons m ms => exact ⟨m, ms, rfl⟩
    obtain ⟨m1, mb', rfl⟩ : ∃ m ms, mb' = m :: ms := by
      cases mb' with
      | nil => simp at tb
      | cons m ms => exact ⟨m, ms, rfl⟩
    simp only [List.getElem_cons_succ, List.getElem_cons_zero, List.drop_succ_cons, List.drop_zero] at xa xb
    rw [Nat.ofDigits_cons] at ga3 gb3
    have i0 : m0 < 1024 := ga2 _ List.mem_cons_self
    have i1 : m1 < 1024 := gb2 _ List.mem_cons_self
    rw [show Nat.ofDigits 1024 ma' = L0 by omega] at xa
    rw [show Nat.ofDigits 1024 mb' = L2 + 32 * R0 by omega] at xb
    -- the decomposition
    have cell : ∀ (col o : Nat) (e : Assigned Fp), Known w e → Call.advice col o e.value ∈
        c.decompose (start + 6) l pa.value pb.value pd.value left right z1a z1b b1 b2 →
        w.at ⟨start + 6, o, .advice col⟩ = w.at e.cell := fun col o e he hm' =>
      (Option.some.inj (he.symm.trans (f6.1 col o _ hm'))).symm
    have q1 := cell c.sins.da.xA 0 pa.value ka (by simp [Merkle.decompose, copyAdvice])
    have q2 := cell c.sins.da.xP 0 pb.value kb (by simp [Merkle.decompose, copyAdvice])
    have q3 := cell c.sins.bits 0 pd.value kd (by simp [Merkle.decompose, copyAdvice])
    have q4 := cell c.sins.da.lambda1 0 left kl (by simp [Merkle.decompose, copyAdvice])
    have q5 := cell c.sins.da.lambda2 0 right kr (by simp [Merkle.decompose, copyAdvice])
    have q6 := cell c.sins.da.xA 1 z1a kza (by simp [Merkle.decompose, copyAdvice])
    have q7 := cell c.sins.da.xP 1 z1b kzb (by simp [Merkle.decompose, copyAdvice])
    have q8 := cell c.sins.bits 1 b1 k1 (by simp [Merkle.decompose, copyAdvice])
    have q9 := cell c.sins.da.lambda1 1 b2 k2 (by simp [Merkle.decompose, copyAdvice])
    have ql : w (start + 6) (.advice c.sins.da.lambda2) ((1 : Nat) : Int) = (l : Fp) :=
      (Option.some.inj (f6.2.1 c.sins.da.lambda2 1 (some (l : Fp)) (by simp [Merkle.decompose]))).symm
    have e6 : ∀ s r, Call.enable s r ∈ c.decompose (start + 6) l pa.value pb.value pd.value left right z1a z1b b1 b2 →
        s = c.qDecompose ∧ r = 0 := by
      intro s r hm'
      simpa [Merkle.decompose, copyAdvice] using hm'
    have s6' : Sat (⟨[(c.qDecompose, c.polys)], []⟩ : Chip Fp) table w (start + 6)
        (c.decompose (start + 6) l pa.value pb.value pd.value left right z1a z1b b1 b2) := by
      refine ⟨?_, gates_of ?_, by simp⟩
      · simp only [Merkle.decompose, copyAdvice, List.forall_mem_append, List.forall_mem_cons, Enforced, q1, q2, q3, q4, q5, q6, q7, q8, q9,
          ql, true_and, and_true]
        simp
      · intro g hg e he r hr
        obtain rfl := List.mem_singleton.1 hg
        obtain rfl := (e6 _ _ hr).2
        have o0 : ((0 : Nat) : Int) + 0 = ((0 : Nat) : Int) := by norm_num
        have o1 : ((0 : Nat) : Int) + 1 = ((1 : Nat) : Int) := by norm_num
        unfold Content.at at q1 q2 q3 q4 q5 q6 q7 q8 q9
        unfold Content.at at va vb vd v1 v2 vl vr xa xb
        simp only at q1 q2 q3 q4 q5 q6 q7 q8 q9
        rw [va, vA] at q1
        rw [vb, vB] at q2
        rw [vd, vD] at q3
        rw [vl, eL] at q4
        rw [vr, eR] at q5
        rw [xa] at q6
        rw [xb] at q7
        rw [v1] at q8
        rw [v2] at q9
        simp only [Merkle.polys, List.mem_cons, List.not_mem_nil, or_false] at he
        rcases he with rfl | rfl | rfl | rfl
        all_goals
          simp only [eval_sub, eval_add, eval_advice, eval_scaled, o0, o1]
          simp only [q1, q2, q3, q4, q5, q6, q7, q8, q9, ql]
          push_cast
          ring
    have plain : ∀ region v, Sat c.chip table w region [.advice c.witness 0 v] := fun region v =>
      sat_lift (sub := ⟨[], []⟩) ht (fun g _ => Or.inr (by simp)) (Or.inr (by simp)) ⟨by simp [Enforced], by simp, by simp⟩
    have short : ∀ region calls, (∀ s r, Call.enable s r ∈ calls → s = c.lookup.qLookup ∨ s = c.lookup.qBitshift) →
        Sat (c.lookup.chip 10) table w region calls → Sat c.chip table w region calls := by
      intro region calls he hs
      refine sat_lift ht (fun g hg => ?_) (Or.inl rfl) hs
      rcases gates_cases hg with ⟨-, e⟩ | ⟨h, -⟩ | e | e
      · refine Or.inr fun r hm' => ?_
        rcases e with e | e <;> rcases he _ _ hm' with e' | e' <;> exact absurd (e.symm.trans e') (by assumption)
      · exact Or.inl h
      · refine Or.inr fun r hm' => ?_
        rcases he _ _ hm' with e' | e' <;> exact absurd (e'.symm.trans e) (by assumption)
      · refine Or.inr fun r hm' => ?_
        rw [e] at hm'
        rcases he _ _ hm' with e' | e' <;> exact absurd e'.symm (by assumption)
    have s5' : Sat c.chip table w (start + 5) ch := by
      refine sat_lift ht (fun g hg => ?_) (Or.inr fun r hm' => ?_) s5
      · rcases gates_cases hg with ⟨h, -⟩ | ⟨-, e⟩ | e | e
        · exact Or.inl h
        · refine Or.inr fun r hm' => ?_
          rcases hen _ _ hm' with e' | e' <;> exact absurd (e'.symm.trans e) (by assumption)
        · refine Or.inr fun r hm' => ?_
          rcases hen _ _ hm' with e' | e' <;> exact absurd (e'.symm.trans e) (by assumption)
        · refine Or.inr fun r hm' => ?_
          rw [e] at hm'
          rcases hen _ _ hm' with e' | e' <;> exact absurd e'.symm (by assumption)
      · rcases hen _ _ hm' with e' | e' <;> exact absurd e'.symm (by assumption)
    have s6 : Sat c.chip table w (start + 6) (c.decompose (start + 6) l pa.value pb.value pd.value left right z1a z1b b1 b2) := by
      refine sat_lift ht (fun g hg => ?_) (Or.inr fun r hm' => absurd (e6 _ _ hm').1 n36) s6'
      rcases gates_cases hg with ⟨-, e⟩ | ⟨-, e⟩ | e | e
      · refine Or.inr fun r hm' => ?_
        rcases e with e | e <;> exact absurd (e.symm.trans (e6 _ _ hm').1) (by assumption)
      · exact Or.inr fun r hm' => absurd (e.symm.trans (e6 _ _ hm').1) n46
      · exact Or.inr fun r hm' => absurd (e.symm.trans (e6 _ _ hm').1) n56
      · exact Or.inl (by rw [e]; simp)
    have none : ∀ region calls, (∀ r, Call.enable c.sins.qS1 r ∉ calls) →
        LooksUp (c.sins.lookup S) (Sinsemilla.load S) w region calls := fun region calls h =>
      looksUp_of smooth_five.two hS fun r hr => absurd hr (h r)
    refine ⟨?_, ?_, kp.1, congrArg Prod.fst hp⟩
    · intro i hi
      simp only [List.length_cons, List.length_nil] at hi
      match i, hi with
      | 0, _ => exact plain _ _
      | 1, _ => exact short _ _ w1e (w1s w f1)
      | 2, _ => exact short _ _ w2e (w2s w f2)
      | 3, _ => exact plain _ _
      | 4, _ => exact plain _ _
      | 5, _ => exact s5'
      | 6, _ => exact s6
    · intro i hi
      simp only [List.length_cons, List.length_nil] at hi
      match i, hi with
      | 0, _ => exact none _ _ (by simp)
      | 1, _ => exact none _ _ fun r hm' => by rcases w1e _ _ hm' with e' | e' <;> exact absurd e' (by assumption)
      | 2, _ => exact none _ _ fun r hm' => by rcases w2e _ _ hm' with e' | e' <;> exact absurd e' (by assumption)
      | 3, _ => exact none _ _ (by simp)
      | 4, _ => exact none _ _ (by simp)
      | 5, _ => exact l5
      | 6, _ => exact none _ _ fun r hm' => absurd (e6 _ _ hm').1 n16

end Verif.Lemmas.Merkle

import Verif.Lemmas.Pow5

namespace Verif.Lemmas.Pow5

open Verif.FloorPlanner (Call)
open Verif.Gadget Verif.Gadget.Pow5 Verif.Spec.Gadget Verif.Spec Verif.Lemmas.Gadget

variable {F : Type} [Field F] {t : Nat}

/-- The constants of a round. -/
def rcAt (c : Pow5 F t) (r : Nat) : Fin (t + 1) → F := c.constants[r]?.getD 0

section sound

variable {c : Pow5 F t} {table : Nat → List F} {w : Content F} {region : Nat} {all : Calls F}

theorem full_sound (hs : Sat c.chip table w region all) {rnd o : Nat} {s s' : State F t} {k : Calls F}
    (h : c.fullRound region rnd o s = .ok (k, s')) (hall : ∀ x ∈ k, x ∈ all) :
    CellsAt c region (o + 1) s' ∧ rnd < c.constants.length ∧
      stateRow c w region (o + 1) = Poseidon.fullRound (Matrix.of c.mReg) (stateRow c w region o) (rcAt c rnd) := by
  obtain ⟨rc, h1, h2⟩ := fullRound_ok.1 h
  have hk : k = _ := congrArg Prod.fst h2
  have hs' : s' = _ := congrArg Prod.snd h2
  have hrc : ∀ i, w region (.fixed (c.rcA i)) o = rc i := fun i => by
    have : some (rc i) = some (w region (.fixed (c.rcA i)) o) :=
      hs.enforced (.fixed (c.rcA i) o (some (rc i))) (hall _ (by rw [hk, mem_round]; exact Or.inr (Or.inl ⟨i, rfl⟩)))
    exact (Option.some.inj this).symm
  refine ⟨fun i => by rw [hs']; rfl, (List.getElem?_eq_some_iff.1 h1).1, ?_⟩
  rw [show rcAt c rnd = rc by unfold rcAt; rw [h1]; rfl]
  refine (full_gate hrc (sel := enabled all)).1 fun e he => ?_
  exact sat_gate hs (s := c.sFull) (List.mem_cons_self ..) he (hall _ (by rw [hk, mem_round]; exact Or.inl rfl))

theorem partial_sound (hinv : Matrix.of c.mReg * Matrix.of c.mInv = 1) (hs : Sat c.chip table w region all) {rnd o : Nat}
    {s s' : State F t} {k : Calls F} (h : c.partialRound region rnd o s = .ok (k, s')) (hall : ∀ x ∈ k, x ∈ all) :
    CellsAt c region (o + 1) s' ∧ rnd + 1 < c.constants.length ∧
      stateRow c w region (o + 1) = Poseidon.partialRound (Matrix.of c.mReg)
        (Poseidon.partialRound (Matrix.of c.mReg) (stateRow c w region o) (rcAt c rnd)) (rcAt c (rnd + 1)) := by
  obtain ⟨rc, rc', h1, h1', h2⟩ := partialRound_ok.1 h
  have hk : k = _ := congrArg Prod.fst h2
  have hs' : s' = _ := congrArg Prod.snd h2
  have hrc : ∀ i, w region (.fixed (c.rcA i)) o = rc i := fun i => by
    have : some (rc i) = some (w region (.fixed (c.rcA i)) o) :=
      hs.enforced (.fixed (c.rcA i) o (some (rc i))) (hall _ (by rw [hk, mem_round]; exact Or.inr (Or.inl ⟨i, rfl⟩)))
    exact (Option.some.inj this).symm
  have hrc' : ∀ i, w region (.fixed (c.rcB i)) o = rc' i := fun i => by
    have : some (rc' i) = some (w region (.fixed (c.rcB i)) o) :=
      hs.enforced (.fixed (c.rcB i) o (some (rc' i)))
        (hall _ (by rw [hk, mem_round]; exact Or.inr (Or.inr (Or.inl (List.mem_append_right _ (List.mem_map.2 ⟨i, List.mem_finRange i, rfl⟩))))))
    exact (Option.some.inj this).symm
  refine ⟨fun i => by rw [hs']; rfl, (List.getElem?_eq_some_iff.1 h1').1, ?_⟩
  rw [show rcAt c rnd = rc by unfold rcAt; rw [h1]; rfl, show rcAt c (rnd + 1) = rc' by unfold rcAt; rw [h1']; rfl]
  have := ((partial_gate hrc hrc' (sel := enabled all)).1 fun e he =>
    sat_gate hs (s := c.sPartial) (List.mem_cons_of_mem _ (List.mem_cons_self ..)) he
      (hall _ (by rw [hk, mem_round]; exact Or.inl rfl))).2
  rw [partial_eq _ (Poseidon.partialRound _ _ _), ← this, Matrix.mulVec_mulVec, hinv, Matrix.one_mulVec]

theorem permute_split {initial out : State F t} {calls : Calls F} (h : c.permute region initial = .ok (calls, out)) :
    ∃ k₁ k₂ k₃ s₁ s₂,
      rounds (fun r => c.fullRound region r r) (List.range' 0 c.halfFull) (c.load region initial).2 = .ok (k₁, s₁) ∧
      rounds (fun r => c.partialRound region (c.halfFull + 2 * r) (c.halfFull + r)) (List.range' 0 c.halfPartial) s₁ =
        .ok (k₂, s₂) ∧
      rounds (fun r => c.fullRound region (c.halfFull + 2 * c.halfPartial + r) (c.halfFull + c.halfPartial + r))
        (List.range' 0 c.halfFull) s₂ = .ok (k₃, out) ∧
      calls = (c.load region initial).1 ++ k₁ ++ k₂ ++ k₃ := by
  unfold permute at h
  obtain ⟨⟨k₁, s₁⟩, h1, h⟩ := bind_ok h
  obtain ⟨⟨k₂, s₂⟩, h2, h⟩ := bind_ok h
  obtain ⟨⟨k₃, s₃⟩, h3, h⟩ := bind_ok h
  simp only [pure, Except.pure, Except.ok.injEq, Prod.mk.injEq] at h
  obtain ⟨rfl, rfl⟩ := h
  simp only [List.range_eq_range'] at h1 h2 h3
  exact ⟨k₁, k₂, k₃, s₁, s₂, h1, h2, h3, rfl⟩

omit [Field F] in
theorem mem_load {s : State F t} {x : Call (Option F)} : x ∈ (c.load region s).1 ↔
    ∃ i, x = .advice (c.state i) 0 (s i).value ∨ x = .equal ⟨region, 0, .advice (c.state i)⟩ (s i).cell := by
  simp [load, copyAdvice]

theorem foldl_two {α : Type} {n a : Nat} {g : α → Nat → α} {v : α} :
    (List.range' a (n + 2)).foldl g v = g (g ((List.range' a n).foldl g v) (a + n)) (a + n + 1) := by
  rw [show n + 2 = n + 1 + 1 from rfl, List.range'_1_concat, List.range'_1_concat]
  simp [add_assoc]

/-- The rounds of the chip are those of the specification. -/
theorem permute_sound (hinv : Matrix.of c.mReg * Matrix.of c.mInv = 1) {initial out : State F t}
    (h : c.permute region initial = .ok (all, out)) (hs : Sat c.chip table w region all) :
    (fun i => w.at (out i).cell) = Poseidon.permutation (Matrix.of c.mReg) c.halfFull (2 * c.halfPartial)
      (c.constants.take (2 * c.halfFull + 2 * c.halfPartial)) (fun i => w.at (initial i).cell) := by
  obtain ⟨k₁, k₂, k₃, s₁, s₂, h1, h2, h3, hall⟩ := permute_split h
  have m0 : ∀ x ∈ (c.load region initial).1, x ∈ all := fun x hx => by rw [hall]; simp [hx]
  have m1 : ∀ x ∈ k₁, x ∈ all := fun x hx => by rw [hall]; simp [hx]
  have m2 : ∀ x ∈ k₂, x ∈ all := fun x hx => by rw [hall]; simp [hx]
  have m3 : ∀ x ∈ k₃, x ∈ all := fun x hx => by rw [hall]; simp [hx]
  have e0 : stateRow c w region 0 = fun i => w.at (initial i).cell := by
    funext i
    exact sat_copy hs (a := ⟨region, 0, .advice (c.state i)⟩) (m0 _ (mem_load.2 ⟨i, Or.inr rfl⟩))
  obtain ⟨⟨a1, b1, d1⟩, -⟩ := rounds_inv (all := all)
    (fun r s => CellsAt c region r s ∧ (r ≤ c.constants.length ∧ stateRow c w region r =
      (List.range' 0 r).foldl (fun v r => Poseidon.fullRound (Matrix.of c.mReg) v (rcAt c r)) (stateRow c w region 0)))
    (fun _ => True) (fun r s k s' hi hf hk => by
      obtain ⟨f1, f2, f3⟩ := full_sound hs hf hk
      refine ⟨⟨f1, f2, ?_⟩, fun _ _ => trivial⟩
      rw [f3, List.range'_1_concat, List.foldl_append, hi.2.2]
      simp) c.halfFull 0 _ _ _ ⟨fun i => rfl, Nat.zero_le _, rfl⟩ h1 m1
  rw [Nat.zero_add] at a1 b1 d1
  obtain ⟨⟨a2, b2, d2⟩, -⟩ := rounds_inv (all := all)
    (fun r s => CellsAt c region (c.halfFull + r) s ∧ (c.halfFull + 2 * r ≤ c.constants.length ∧
      stateRow c w region (c.halfFull + r) = (List.range' c.halfFull (2 * r)).foldl
        (fun v r => Poseidon.partialRound (Matrix.of c.mReg) v (rcAt c r)) (stateRow c w region c.halfFull)))
    (fun _ => True) (fun r s k s' hi hf hk => by
      obtain ⟨f1, f2, f3⟩ := partial_sound hinv hs hf hk
      refine ⟨⟨f1, by omega, ?_⟩, fun _ _ => trivial⟩
      rw [show 2 * (r + 1) = 2 * r + 2 by ring, foldl_two, ← hi.2.2]
      exact f3) c.halfPartial 0 _ _ _ ⟨a1, b1, rfl⟩ h2 m2
  rw [Nat.zero_add] at a2 b2 d2
  obtain ⟨⟨a3, b3, d3⟩, -⟩ := rounds_inv (all := all)
    (fun r s => CellsAt c region (c.halfFull + c.halfPartial + r) s ∧
      (c.halfFull + 2 * c.halfPartial + r ≤ c.constants.length ∧
      stateRow c w region (c.halfFull + c.halfPartial + r) = (List.range' (c.halfFull + 2 * c.halfPartial) r).foldl
        (fun v r => Poseidon.fullRound (Matrix.of c.mReg) v (rcAt c r)) (stateRow c w region (c.halfFull + c.halfPartial))))
    (fun _ => True) (fun r s k s' hi hf hk => by
      obtain ⟨f1, f2, f3⟩ := full_sound hs hf hk
      refine ⟨⟨f1, f2, ?_⟩, fun _ _ => trivial⟩
      rw [List.range'_1_concat, List.foldl_append, ← hi.2.2]
      exact f3) c.halfFull 0 _ _ _ ⟨a2, b2, rfl⟩ h3 m3
  rw [Nat.zero_add] at a3 b3 d3
  have hout : (fun i => w.at (out i).cell) = stateRow c w region (c.halfFull + c.halfPartial + c.halfFull) := by
    funext i
    rw [a3 i]
    rfl
  unfold rcAt at d1 d2 d3
  rw [foldl_range _ _ _ _ _ _ (by omega)] at d1 d2 d3
  rw [hout, d3, d2, d1, e0]
  unfold Poseidon.permutation
  congr 1
  · congr 1
    · congr 1
      rw [List.take_take]
      simp
      omega
    · rw [List.drop_take, List.take_take]
      congr 1
      omega
  · rw [List.drop_take]
    congr 1
    omega

end sound

section complete

variable {c : Pow5 F t} {w : Content F} {region : Nat} {all : Calls F}

omit [Field F] in
theorem values_known {s : State F t} {v : Fin (t + 1) → F} (h : ∀ i, (s i).value = some (v i)) : values s = some v := by
  unfold values collect
  have h' : ∀ i, ((s i).value).isSome := fun i => by rw [h i]; rfl
  rw [dif_pos h']
  simp [h]

/-- A state in a row, whose values are known and are in the row. -/
def KnownAt (c : Pow5 F t) (w : Content F) (region o : Nat) (s : State F t) : Prop :=
  ∀ i, s i = ⟨⟨region, o, .advice (c.state i)⟩, some (stateRow c w region o i)⟩

/-- What the constraints ask of a call. -/
def Holds (c : Pow5 F t) (w : Content F) (region : Nat) (all : Calls F) (x : Call (Option F)) : Prop :=
  Enforced w region x ∧ ∀ g ∈ c.chip.gates, ∀ o : Nat, x = .enable g.1 o →
    ∀ e ∈ g.2, e.eval (enabled all) (w region) o = 0

theorem holds_of {x : Call (Option F)} (hf : Follows w region all) (hx : x ∈ all) (h1 : ∀ s o, x ≠ .enable s o)
    (h2 : ∀ a b, x ≠ .equal a b) (h3 : ∀ a b, x ≠ .equalConstant a b) : Holds c w region all x := by
  refine ⟨?_, fun g _ o h => absurd h (h1 _ _)⟩
  cases x with
  | constant col o v => exact hf.2.1 col o v hx
  | fixed col o v => exact hf.2.2 col o v hx
  | equal a b => exact absurd rfl (h2 a b)
  | equalConstant a b => exact absurd rfl (h3 a b)
  | _ => trivial

/-- The selectors are distinct. -/
def Distinct (c : Pow5 F t) : Prop := c.sFull ≠ c.sPartial ∧ c.sFull ≠ c.sPadAndAdd ∧ c.sPartial ≠ c.sPadAndAdd

omit [Field F] in
theorem next_known (hf : Follows w region all) {o : Nat} {next : Fin (t + 1) → F}
    (h : ∀ i, Call.advice (c.state i) (o + 1) ((some next).map (· i)) ∈ all) : stateRow c w region (o + 1) = next := by
  funext i
  have := hf.1 _ _ _ (h i)
  simp only [Option.map_some, Option.some.injEq] at this
  exact this.symm

theorem full_complete (hd : Distinct c) (hf : Follows w region all) {rnd o : Nat} {s s' : State F t} {k : Calls F}
    (hi : KnownAt c w region o s) (h : c.fullRound region rnd o s = .ok (k, s')) (hall : ∀ x ∈ k, x ∈ all) :
    KnownAt c w region (o + 1) s' ∧ ∀ x ∈ k, Holds c w region all x := by
  obtain ⟨rc, h1, h2⟩ := fullRound_ok.1 h
  have hk : k = _ := congrArg Prod.fst h2
  have hs' : s' = _ := congrArg Prod.snd h2
  rw [values_known (v := stateRow c w region o) (fun i => by rw [hi i])] at hk hs'
  rw [Option.map_some] at hk hs'
  have hnext := next_known (c := c) hf (o := o) (next := applyMds c.mReg fun i => pow5 (stateRow c w region o i + rc i))
    (fun i => hall _ (by rw [hk, mem_round]; exact Or.inr (Or.inr (Or.inr ⟨i, rfl⟩))))
  have hrc : ∀ i, w region (.fixed (c.rcA i)) o = rc i := fun i => by
    have := hf.2.2 _ _ _ (hall (.fixed (c.rcA i) o (some (rc i))) (by rw [hk, mem_round]; exact Or.inr (Or.inl ⟨i, rfl⟩)))
    exact (Option.some.inj this).symm
  refine ⟨fun i => ?_, fun x hx => ?_⟩
  · rw [hs', hnext]; rfl
  · rw [hk, mem_round] at hx
    have hx' := hx
    rcases hx with rfl | ⟨i, rfl⟩ | h | ⟨i, rfl⟩
    · refine ⟨trivial, fun g hg o' h e he => ?_⟩
      simp only [Call.enable.injEq] at h
      obtain ⟨h, rfl⟩ := h
      simp only [chip, List.mem_cons, List.not_mem_nil, or_false] at hg
      rcases hg with rfl | rfl | rfl
      · refine (full_gate hrc).2 ?_ e he
        rw [hnext, applyMds_eq]
        rfl
      · exact absurd h hd.1
      · exact absurd h hd.2.1
    · exact holds_of hf (hall _ (by rw [hk, mem_round]; exact hx')) (by simp) (by simp) (by simp)
    · cases h
    · exact holds_of hf (hall _ (by rw [hk, mem_round]; exact hx')) (by simp) (by simp) (by simp)

theorem partialSboxes_eq (rc v : Fin (t + 1) → F) : partialSboxes rc v = halfBox rc v := rfl

theorem partial_complete (hinv : Matrix.of c.mInv * Matrix.of c.mReg = 1) (hd : Distinct c) (hf : Follows w region all)
    {rnd o : Nat} {s s' : State F t} {k : Calls F}
    (hi : KnownAt c w region o s) (h : c.partialRound region rnd o s = .ok (k, s')) (hall : ∀ x ∈ k, x ∈ all) :
    KnownAt c w region (o + 1) s' ∧ ∀ x ∈ k, Holds c w region all x := by
  obtain ⟨rc, rc', h1, h1', h2⟩ := partialRound_ok.1 h
  have hk : k = _ := congrArg Prod.fst h2
  have hs' : s' = _ := congrArg Prod.snd h2
  rw [values_known (v := stateRow c w region o) (fun i => by rw [hi i])] at hk hs'
  simp only [Option.map_some] at hk hs'
  have hnext := next_known (c := c) hf (o := o)
    (next := applyMds c.mReg (partialSboxes rc' (applyMds c.mReg (partialSboxes rc (stateRow c w region o)))))
    (fun i => hall _ (by rw [hk, mem_round]; exact Or.inr (Or.inr (Or.inr ⟨i, rfl⟩))))
  have hrc : ∀ i, w region (.fixed (c.rcA i)) o = rc i := fun i => by
    have := hf.2.2 _ _ _ (hall (.fixed (c.rcA i) o (some (rc i))) (by rw [hk, mem_round]; exact Or.inr (Or.inl ⟨i, rfl⟩)))
    exact (Option.some.inj this).symm
  have hrc' : ∀ i, w region (.fixed (c.rcB i)) o = rc' i := fun i => by
    have := hf.2.2 _ _ _ (hall (.fixed (c.rcB i) o (some (rc' i))) (by
      rw [hk, mem_round]
      exact Or.inr (Or.inr (Or.inl (List.mem_append_right _ (List.mem_map.2 ⟨i, List.mem_finRange i, rfl⟩))))))
    exact (Option.some.inj this).symm
  have hbox : w region (.advice c.partialSbox) o = (stateRow c w region o 0 + rc 0) ^ 5 := by
    have := hf.1 _ _ _ (hall (.advice c.partialSbox o (some (partialSboxes rc (stateRow c w region o) 0))) (by
      rw [hk, mem_round]
      exact Or.inr (Or.inr (Or.inl (by simp)))))
    exact (Option.some.inj this).symm
  refine ⟨fun i => ?_, fun x hx => ?_⟩
  · rw [hs', hnext]; rfl
  · rw [hk, mem_round] at hx
    have hx' : x ∈ all := hall _ (by rw [hk, mem_round]; exact hx)
    rcases hx with rfl | ⟨i, rfl⟩ | h | ⟨i, rfl⟩
    · refine ⟨trivial, fun g hg o' h e he => ?_⟩
      simp only [Call.enable.injEq] at h
      obtain ⟨h, rfl⟩ := h
      simp only [chip, List.mem_cons, List.not_mem_nil, or_false] at hg
      rcases hg with rfl | rfl | rfl
      · exact absurd h.symm hd.1
      · refine (partial_gate hrc hrc').2 ⟨hbox, ?_⟩ e he
        rw [hnext, applyMds_eq, applyMds_eq, Matrix.mulVec_mulVec, hinv, Matrix.one_mulVec]
        rfl
      · exact absurd h hd.2.2
    · exact holds_of hf hx' (by simp) (by simp) (by simp)
    · simp only [List.cons_append, List.nil_append, List.mem_cons, List.mem_map, List.mem_finRange, true_and] at h
      rcases h with rfl | ⟨i, rfl⟩
      · exact holds_of hf hx' (by simp) (by simp) (by simp)
      · exact holds_of hf hx' (by simp) (by simp) (by simp)
    · exact holds_of hf hx' (by simp) (by simp) (by simp)

theorem permute_complete (hinv : Matrix.of c.mInv * Matrix.of c.mReg = 1) (hd : Distinct c) {table : Nat → List F}
    {initial out : State F t} (h : c.permute region initial = .ok (all, out)) (hi : ∀ i, Known w (initial i))
    (hf : Follows w region all) : Sat c.chip table w region all ∧ ∀ i, Known w (out i) := by
  obtain ⟨k₁, k₂, k₃, s₁, s₂, h1, h2, h3, hall⟩ := permute_split h
  have m0 : ∀ x ∈ (c.load region initial).1, x ∈ all := fun x hx => by rw [hall]; simp [hx]
  have m1 : ∀ x ∈ k₁, x ∈ all := fun x hx => by rw [hall]; simp [hx]
  have m2 : ∀ x ∈ k₂, x ∈ all := fun x hx => by rw [hall]; simp [hx]
  have m3 : ∀ x ∈ k₃, x ∈ all := fun x hx => by rw [hall]; simp [hx]
  have hv : ∀ i, (initial i).value = some (stateRow c w region 0 i) := fun i =>
    hf.1 _ _ _ (m0 _ (mem_load.2 ⟨i, Or.inl rfl⟩))
  have e0 : KnownAt c w region 0 (c.load region initial).2 := fun i => by
    rw [← hv i]
    rfl
  obtain ⟨a1, b1⟩ := rounds_inv (all := all) (fun r s => KnownAt c w region r s) (Holds c w region all)
    (fun r s k s' hi hr hk => full_complete hd hf hi hr hk) c.halfFull 0 _ _ _ e0 h1 m1
  rw [Nat.zero_add] at a1
  obtain ⟨a2, b2⟩ := rounds_inv (all := all) (fun r s => KnownAt c w region (c.halfFull + r) s) (Holds c w region all)
    (fun r s k s' hi hr hk => partial_complete hinv hd hf hi hr hk) c.halfPartial 0 _ _ _ a1 h2 m2
  rw [Nat.zero_add] at a2
  obtain ⟨a3, b3⟩ := rounds_inv (all := all) (fun r s => KnownAt c w region (c.halfFull + c.halfPartial + r) s)
    (Holds c w region all)
    (fun r s k s' hi hr hk => full_complete hd hf hi hr hk) c.halfFull 0 _ _ _ a2 h3 m3
  have hholds : ∀ x ∈ all, Holds c w region all x := by
    intro x hx
    have hx' := hx
    rw [hall, List.mem_append, List.mem_append, List.mem_append] at hx
    rcases hx with ((hx | hx) | hx) | hx
    · obtain ⟨i, rfl | rfl⟩ := mem_load.1 hx
      · exact holds_of hf hx' (by simp) (by simp) (by simp)
      · refine ⟨?_, fun g _ o h => by cases h⟩
        have : (initial i).value = some (w.at (initial i).cell) := hi i
        rw [hv i] at this
        exact Option.some.inj this
    · exact b1 x hx
    · exact b2 x hx
    · exact b3 x hx
  refine ⟨⟨fun x hx => (hholds x hx).1, gates_of fun g hg e he o ho => (hholds _ ho).2 g hg o rfl e he, fun l hl => by cases hl⟩,
    fun i => ?_⟩
  rw [a3 i]
  rfl

end complete

section keys

variable {c : Pow5 F t} {region : Nat} {all : Calls F}

omit [Field F] in
theorem round_same {o : Nat} {rc : Fin (t + 1) → F} {gate : Selector} {inner inner' : Calls F}
    {next next' : Option (Fin (t + 1) → F)} (hi : List.Forall₂ SameCall inner inner') :
    List.Forall₂ SameCall (c.round region o rc gate inner next).1 (c.round region o rc gate inner' next').1 := by
  unfold Pow5.round
  refine List.rel_append (List.rel_append (List.rel_append ?_ ?_) hi) ?_
  · exact List.forall₂_same.2 fun x _ => .refl x
  · exact List.forall₂_same.2 fun x _ => .refl x
  · rw [List.forall₂_map_left_iff, List.forall₂_map_right_iff]
    exact List.forall₂_same.2 fun i _ => .advice ..

theorem full_same {rnd o : Nat} {s s₂ s' : State F t} {k : Calls F} (h : c.fullRound region rnd o s = .ok (k, s')) :
    ∃ k₂ s₂', c.fullRound region rnd o s₂ = .ok (k₂, s₂') ∧ (∀ i, (s' i).cell = (s₂' i).cell) ∧ List.Forall₂ SameCall k k₂ := by
  obtain ⟨rc, h1, h2⟩ := fullRound_ok.1 h
  have hk : k = _ := congrArg Prod.fst h2
  have hs' : s' = _ := congrArg Prod.snd h2
  refine ⟨_, _, fullRound_ok.2 ⟨rc, h1, rfl⟩, fun i => ?_, ?_⟩
  · rw [hs']; rfl
  · rw [hk]; exact round_same .nil

theorem partial_same {rnd o : Nat} {s s₂ s' : State F t} {k : Calls F} (h : c.partialRound region rnd o s = .ok (k, s')) :
    ∃ k₂ s₂', c.partialRound region rnd o s₂ = .ok (k₂, s₂') ∧ (∀ i, (s' i).cell = (s₂' i).cell) ∧
      List.Forall₂ SameCall k k₂ := by
  obtain ⟨rc, rc', h1, h1', h2⟩ := partialRound_ok.1 h
  have hk : k = _ := congrArg Prod.fst h2
  have hs' : s' = _ := congrArg Prod.snd h2
  refine ⟨_, _, partialRound_ok.2 ⟨rc, rc', h1, h1', rfl⟩, fun i => ?_, ?_⟩
  · rw [hs']; rfl
  · rw [hk]
    refine round_same (List.Forall₂.cons (.advice ..) ?_)
    exact List.forall₂_same.2 fun x _ => .refl x

theorem permute_same {initial initial' out : State F t} {calls : Calls F} (hc : ∀ i, (initial i).cell = (initial' i).cell)
    (h : c.permute region initial = .ok (calls, out)) :
    ∃ calls' out', c.permute region initial' = .ok (calls', out') ∧ (∀ i, (out i).cell = (out' i).cell) ∧
      List.Forall₂ SameCall calls calls' := by
  obtain ⟨k₁, k₂, k₃, s₁, s₂, h1, h2, h3, hall⟩ := permute_split h
  let R : State F t → State F t → Prop := fun s s' => ∀ i, (s i).cell = (s' i).cell
  obtain ⟨j₁, r₁, e1, f1, g1⟩ := rounds_same (f := fun r => c.fullRound region r r) R
    (fun r s₁ s₂ k₁ s₁' _ h => full_same h) _ (c.load region initial).2 (c.load region initial').2 _ _
    (fun _ => rfl) h1
  obtain ⟨j₂, r₂, e2, f2, g2⟩ := rounds_same
    (f := fun r => c.partialRound region (c.halfFull + 2 * r) (c.halfFull + r)) R
    (fun r s₁ s₂ k₁ s₁' _ h => partial_same h) _ _ _ _ _ f1 h2
  obtain ⟨j₃, r₃, e3, f3, g3⟩ := rounds_same
    (f := fun r => c.fullRound region (c.halfFull + 2 * c.halfPartial + r) (c.halfFull + c.halfPartial + r)) R
    (fun r s₁ s₂ k₁ s₁' _ h => full_same h) _ _ _ _ _ f2 h3
  refine ⟨(c.load region initial').1 ++ j₁ ++ j₂ ++ j₃, r₃, ?_, f3, ?_⟩
  · unfold permute
    simp only [List.range_eq_range']
    show (rounds (fun r => c.fullRound region r r) (List.range' 0 c.halfFull) (c.load region initial').2 >>= _) = _
    rw [e1]
    show (rounds _ (List.range' 0 c.halfPartial) r₁ >>= _) = _
    rw [e2]
    show (rounds _ (List.range' 0 c.halfFull) r₂ >>= _) = _
    rw [e3]
    rfl
  · rw [hall]
    refine List.rel_append (List.rel_append (List.rel_append ?_ g1) g2) g3
    unfold load
    have : ∀ l : List (Fin (t + 1)), List.Forall₂ SameCall
        (l.flatMap fun i => (copyAdvice region (initial i) (c.state i) 0).1)
        (l.flatMap fun i => (copyAdvice region (initial' i) (c.state i) 0).1) := by
      intro l
      induction l with
      | nil => exact .nil
      | cons i l ih =>
        rw [List.flatMap_cons, List.flatMap_cons]
        refine List.rel_append (List.Forall₂.cons (.advice ..) (List.Forall₂.cons ?_ .nil)) ih
        rw [hc i]
        exact .refl _
    exact this _

omit [Field F] in
theorem queries_foldl {α : Type} (g : α → Verif.Gadget.Expr F) (q : Col × Int) : ∀ (l : List α) (a : Verif.Gadget.Expr F),
    q ∈ (l.foldl (fun acc j => acc + g j) a).queries → q ∈ a.queries ∨ ∃ j, q ∈ (g j).queries
  | [], a, h => Or.inl h
  | x :: l, a, h => by
    rcases queries_foldl g q l _ h with h | h
    · rw [queries_add, List.mem_append] at h
      rcases h with h | h
      · exact Or.inl h
      · exact Or.inr ⟨x, h⟩
    · exact Or.inr h

omit [Field F] in
theorem queries_sumExprs {f : Fin (t + 1) → Verif.Gadget.Expr F} {q : Col × Int} (h : q ∈ (sumExprs f).queries) :
    ∃ i, q ∈ (f i).queries := by
  rcases queries_foldl _ _ _ _ h with h | ⟨i, h⟩
  · exact ⟨0, h⟩
  · exact ⟨i.succ, h⟩

/-- The cells that the gates of the rounds read. -/
def Reads (c : Pow5 F t) (q : Col × Int) : Prop :=
  (∃ i, q = (.advice (c.state i), 0)) ∨ (∃ i, q = (.advice (c.state i), 1)) ∨ (∃ i, q = (.fixed (c.rcA i), 0))

omit [Field F] in
theorem queries_full {next : Fin (t + 1)} {q : Col × Int} (h : q ∈ (sumExprs (fun idx => .scaled (pow5Expr
      (Verif.Gadget.Expr.advice (c.state idx) 0 + Verif.Gadget.Expr.fixed (c.rcA idx) 0)) (c.mReg next idx))
      - Verif.Gadget.Expr.advice (c.state next) 1).queries) : Reads c q := by
  rw [queries_sub, List.mem_append] at h
  rcases h with h | h
  · obtain ⟨i, h⟩ := queries_sumExprs h
    simp only [pow5Expr, queries_scaled, queries_mul, queries_add, queries_advice, queries_fixed, List.mem_append,
      List.mem_singleton] at h
    have : q = (.advice (c.state i), 0) ∨ q = (.fixed (c.rcA i), 0) := by tauto
    rcases this with rfl | rfl
    · exact Or.inl ⟨i, rfl⟩
    · exact Or.inr (Or.inr ⟨i, rfl⟩)
  · rw [queries_advice, List.mem_singleton] at h
    exact Or.inr (Or.inl ⟨next, h⟩)

omit [Field F] in
theorem queries_mid {idx : Fin (t + 1)} {q : Col × Int} (h : q ∈ (midExpr c idx).queries) :
    Reads c q ∨ q = (.advice c.partialSbox, 0) := by
  rcases queries_foldl _ _ _ _ h with h | ⟨i, h⟩
  · right
    simpa using h
  · simp only [queries_scaled, queries_add, queries_advice, queries_fixed, List.mem_append, List.mem_singleton] at h
    rcases h with rfl | rfl
    · exact Or.inl (Or.inl ⟨i.succ, rfl⟩)
    · exact Or.inl (Or.inr (Or.inr ⟨i.succ, rfl⟩))

omit [Field F] in
theorem queries_next {idx : Fin (t + 1)} {q : Col × Int} (h : q ∈ (nextExpr c idx).queries) : Reads c q := by
  obtain ⟨i, h⟩ := queries_sumExprs h
  simp only [queries_scaled, queries_advice, List.mem_singleton] at h
  exact Or.inr (Or.inl ⟨i, h⟩)

omit [Field F] in
theorem queries_partial {e : Verif.Gadget.Expr F} (he : e ∈ [pow5Expr (Verif.Gadget.Expr.advice (c.state 0) 0 +
        Verif.Gadget.Expr.fixed (c.rcA 0) 0) - Verif.Gadget.Expr.advice c.partialSbox 0,
      pow5Expr (midExpr c 0 + Verif.Gadget.Expr.fixed (c.rcB 0) 0) - nextExpr c 0] ++
      (List.finRange t).map fun i => midExpr c i.succ + Verif.Gadget.Expr.fixed (c.rcB i.succ) 0 - nextExpr c i.succ)
    {q : Col × Int} (hq : q ∈ e.queries) :
    Reads c q ∨ q = (.advice c.partialSbox, 0) ∨ ∃ i, q = (.fixed (c.rcB i), 0) := by
  simp only [List.cons_append, List.nil_append, List.mem_cons, List.mem_map, List.mem_finRange, true_and] at he
  rcases he with rfl | rfl | ⟨i, rfl⟩
  · simp only [pow5Expr, queries_sub, queries_mul, queries_add, queries_advice, queries_fixed, List.mem_append,
      List.mem_singleton] at hq
    have : q = (.advice (c.state 0), 0) ∨ q = (.fixed (c.rcA 0), 0) ∨ q = (.advice c.partialSbox, 0) := by tauto
    rcases this with rfl | rfl | rfl
    · exact Or.inl (Or.inl ⟨0, rfl⟩)
    · exact Or.inl (Or.inr (Or.inr ⟨0, rfl⟩))
    · exact Or.inr (Or.inl rfl)
  · simp only [pow5Expr, queries_sub, queries_mul, queries_add, queries_fixed, List.mem_append, List.mem_singleton] at hq
    have : q ∈ (midExpr c 0).queries ∨ q = (.fixed (c.rcB 0), 0) ∨ q ∈ (nextExpr c 0).queries := by tauto
    rcases this with h | h | h
    · rcases queries_mid h with h | h
      · exact Or.inl h
      · exact Or.inr (Or.inl h)
    · exact Or.inr (Or.inr ⟨0, h⟩)
    · exact Or.inl (queries_next h)
  · simp only [queries_sub, queries_add, queries_fixed, List.mem_append, List.mem_singleton] at hq
    rcases hq with (h | h) | h
    · rcases queries_mid h with h | h
      · exact Or.inl h
      · exact Or.inr (Or.inl h)
    · exact Or.inr (Or.inr ⟨i.succ, h⟩)
    · exact Or.inl (queries_next h)

/-- The words of the state are assigned in a row. -/
def RowAssigned (c : Pow5 F t) (all : Calls F) (o : Nat) : Prop := ∀ i, assigns all (.advice (c.state i)) o

/-- Where a call enables a gate, its cells are assigned. -/
def Reached (c : Pow5 F t) (all : Calls F) (x : Call (Option F)) : Prop :=
  ∀ g ∈ c.chip.gates, ∀ o : Nat, x = .enable g.1 o → ∀ e ∈ g.2, ∀ q ∈ e.queries, assigns all q.1 (o + q.2)

omit [Field F] in
theorem reads_assigned {o : Nat} {q : Col × Int} (h0 : RowAssigned c all o) (h1 : RowAssigned c all (o + 1))
    (hrc : ∀ i, assigns all (.fixed (c.rcA i)) o) (h : Reads c q) : assigns all q.1 (o + q.2) := by
  rcases h with ⟨i, rfl⟩ | ⟨i, rfl⟩ | ⟨i, rfl⟩
  · simpa using h0 i
  · simpa using h1 i
  · simpa using hrc i

theorem full_reached (hd : Distinct c) {rnd o : Nat} {s s' : State F t} {k : Calls F}
    (hi : RowAssigned c all o) (h : c.fullRound region rnd o s = .ok (k, s')) (hall : ∀ x ∈ k, x ∈ all) :
    RowAssigned c all (o + 1) ∧ ∀ x ∈ k, Reached c all x := by
  obtain ⟨rc, h1, h2⟩ := fullRound_ok.1 h
  have hk : k = _ := congrArg Prod.fst h2
  have hr : RowAssigned c all (o + 1) := fun i =>
    Or.inl ⟨_, _, _, hall _ (by rw [hk, mem_round]; exact Or.inr (Or.inr (Or.inr ⟨i, rfl⟩))), rfl, rfl⟩
  have hrc : ∀ i, assigns all (.fixed (c.rcA i)) o := fun i =>
    Or.inr (Or.inr ⟨_, _, _, hall _ (by rw [hk, mem_round]; exact Or.inr (Or.inl ⟨i, rfl⟩)), rfl, rfl⟩)
  refine ⟨hr, fun x hx g hg o' ho e he q hq => ?_⟩
  rw [ho, hk, mem_round] at hx
  simp only [Call.enable.injEq, reduceCtorEq, exists_false, List.not_mem_nil, or_false] at hx
  obtain ⟨h, rfl⟩ := hx
  simp only [chip, List.mem_cons, List.not_mem_nil, or_false] at hg
  rcases hg with rfl | rfl | rfl
  · obtain ⟨n, _, rfl⟩ := List.mem_map.1 he
    exact reads_assigned hi hr hrc (queries_full hq)
  · exact absurd h.symm hd.1
  · exact absurd h.symm hd.2.1

theorem partial_reached (hd : Distinct c) {rnd o : Nat} {s s' : State F t} {k : Calls F}
    (hi : RowAssigned c all o) (h : c.partialRound region rnd o s = .ok (k, s')) (hall : ∀ x ∈ k, x ∈ all) :
    RowAssigned c all (o + 1) ∧ ∀ x ∈ k, Reached c all x := by
  obtain ⟨rc, rc', h1, h1', h2⟩ := partialRound_ok.1 h
  have hk : k = _ := congrArg Prod.fst h2
  have hr : RowAssigned c all (o + 1) := fun i =>
    Or.inl ⟨_, _, _, hall _ (by rw [hk, mem_round]; exact Or.inr (Or.inr (Or.inr ⟨i, rfl⟩))), rfl, rfl⟩
  have hrc : ∀ i, assigns all (.fixed (c.rcA i)) o := fun i =>
    Or.inr (Or.inr ⟨_, _, _, hall _ (by rw [hk, mem_round]; exact Or.inr (Or.inl ⟨i, rfl⟩)), rfl, rfl⟩)
  have hrc' : ∀ i, assigns all (.fixed (c.rcB i)) o := fun i =>
    Or.inr (Or.inr ⟨_, _, some (rc' i), hall _ (by
      rw [hk, mem_round]
      exact Or.inr (Or.inr (Or.inl (List.mem_append_right _ (List.mem_map.2 ⟨i, List.mem_finRange i, rfl⟩))))), rfl, rfl⟩)
  have hbox : assigns all (.advice c.partialSbox) o :=
    Or.inl ⟨_, _, _, hall _ (by
      rw [hk, mem_round]
      exact Or.inr (Or.inr (Or.inl (List.mem_append_left _ (List.mem_singleton.2 rfl))))), rfl, rfl⟩
  refine ⟨hr, fun x hx g hg o' ho e he q hq => ?_⟩
  rw [ho, hk, mem_round] at hx
  simp only [Call.enable.injEq, reduceCtorEq, exists_false, List.cons_append, List.nil_append, List.mem_cons, List.mem_map,
    and_false, or_false] at hx
  obtain ⟨h, rfl⟩ := hx
  simp only [chip, List.mem_cons, List.not_mem_nil, or_false] at hg
  rcases hg with rfl | rfl | rfl
  · exact absurd h hd.1
  · rcases queries_partial he hq with h | rfl | ⟨i, rfl⟩
    · exact reads_assigned hi hr hrc h
    · simpa using hbox
    · simpa using hrc' i
  · exact absurd h.symm hd.2.2

theorem permute_covered (hd : Distinct c) {initial out : State F t}
    (h : c.permute region initial = .ok (all, out)) : Covered c.chip all := by
  obtain ⟨k₁, k₂, k₃, s₁, s₂, h1, h2, h3, hall⟩ := permute_split h
  have m0 : ∀ x ∈ (c.load region initial).1, x ∈ all := fun x hx => by rw [hall]; simp [hx]
  have m1 : ∀ x ∈ k₁, x ∈ all := fun x hx => by rw [hall]; simp [hx]
  have m2 : ∀ x ∈ k₂, x ∈ all := fun x hx => by rw [hall]; simp [hx]
  have m3 : ∀ x ∈ k₃, x ∈ all := fun x hx => by rw [hall]; simp [hx]
  have e0 : RowAssigned c all 0 := fun i => Or.inl ⟨_, _, _, m0 _ (mem_load.2 ⟨i, Or.inl rfl⟩), rfl, rfl⟩
  obtain ⟨a1, b1⟩ := rounds_inv (all := all) (fun r _ => RowAssigned c all r) (Reached c all)
    (fun r s k s' hi hr hk => full_reached hd hi hr hk) c.halfFull 0 _ _ _ e0 h1 m1
  rw [Nat.zero_add] at a1
  obtain ⟨a2, b2⟩ := rounds_inv (all := all) (fun r _ => RowAssigned c all (c.halfFull + r)) (Reached c all)
    (fun r s k s' hi hr hk => partial_reached hd hi hr hk) c.halfPartial 0 _ _ _ a1 h2 m2
  rw [Nat.zero_add] at a2
  obtain ⟨a3, b3⟩ := rounds_inv (all := all) (fun r _ => RowAssigned c all (c.halfFull + c.halfPartial + r)) (Reached c all)
    (fun r s k s' hi hr hk => full_reached hd hi hr hk) c.halfFull 0 _ _ _ a2 h3 m3
  intro g hg row hrow e he q hq
  obtain ⟨o, ho, rfl⟩ := enabled_iff.1 hrow
  have : Reached c all (.enable g.1 o) := by
    have ho' := ho
    rw [hall, List.mem_append, List.mem_append, List.mem_append] at ho
    rcases ho with ((hx | hx) | hx) | hx
    · obtain ⟨i, h | h⟩ := mem_load.1 hx <;> cases h
    · exact b1 _ hx
    · exact b2 _ hx
    · exact b3 _ hx
  exact this g hg o rfl e he q hq

end keys

end Verif.Lemmas.Pow5

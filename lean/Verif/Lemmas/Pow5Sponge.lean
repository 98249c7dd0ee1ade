import Verif.Lemmas.Pow5Hash

namespace Verif.Lemmas.Pow5

open Verif.FloorPlanner (Call)
open Verif.Gadget Verif.Gadget.Pow5 Verif.Spec.Gadget Verif.Spec Verif.Spec.Pow5 Verif.Lemmas.Gadget

variable {F : Type} [Field F] {t : Nat}

/-- What is in the cell of a word, or the padding. -/
def content (w : Content F) : Pow5.Word F → F
  | .message a => w.at a.cell
  | .padding x => x

/-- A word whose value is known. -/
def KnownWord (w : Content F) : Pow5.Word F → Prop
  | .message a => Known w a
  | .padding _ => True

/-- Words in the same cells. -/
def SameWord : Pow5.Word F → Pow5.Word F → Prop
  | .message a, .message b => a.cell = b.cell
  | .padding x, .padding y => x = y
  | _, _ => False

theorem mapM_ok {α β : Type} {f : α → Except Stop β} {g : α → β} : ∀ l : List α, (∀ x ∈ l, f x = .ok (g x)) →
    l.mapM f = .ok (l.map g)
  | [], _ => rfl
  | x :: l, h => by
    rw [List.mapM_cons, h x (by simp)]
    show (l.mapM f >>= _) = _
    rw [mapM_ok l fun y hy => h y (by simp [hy])]
    rfl

section shape

variable {c : Pow5 F t} {region : Nat}

/-- The values of the state after adding words. -/
def sumValues (c : Pow5 F t) (region : Nat) (s : State F t) (b : List (Pow5.Word F)) (hb : b.length = t) :
    Fin (t + 1) → Option F := fun i =>
  match ((List.finRange t).map fun j => c.loadInput region j (b[j.val]'(by omega)))[i.val]? with
  | some x => (s i).value.bind fun a => x.2.value.map fun b => a + b
  | none => (s i).value.map (· + 0)

theorem addInput_eq (s : State F t) (b : List (Pow5.Word F)) (hb : b.length = t) :
    c.addInput region s (b.map some) =
      .ok ([.enable c.sPadAndAdd 1] ++ (c.load region s).1 ++
          ((List.finRange t).map fun j => c.loadInput region j (b[j.val]'(by omega))).flatMap (·.1) ++
          (List.finRange (t + 1)).map (fun i => .advice (c.state i) 2 (sumValues c region s b hb i)),
        fun i => ⟨⟨region, 2, .advice (c.state i)⟩, sumValues c region s b hb i⟩) := by
  unfold addInput
  rw [mapM_ok (g := fun j : Fin t => c.loadInput region j (b[j.val]'(by omega))) _ (fun j _ => by
    rw [List.getElem?_map, List.getElem?_eq_getElem (by omega)]
    rfl)]
  rfl

theorem mem_addInput {s : State F t} {b : List (Pow5.Word F)} {hb : b.length = t} {x : Call (Option F)} :
    x ∈ ([.enable c.sPadAndAdd 1] ++ (c.load region s).1 ++
          ((List.finRange t).map fun j => c.loadInput region j (b[j.val]'(by omega))).flatMap (·.1) ++
          (List.finRange (t + 1)).map (fun i => .advice (c.state i) 2 (sumValues c region s b hb i)) : Calls F) ↔
      x = .enable c.sPadAndAdd 1 ∨ x ∈ (c.load region s).1 ∨
      (∃ j : Fin t, x ∈ (c.loadInput region j (b[j.val]'(by omega))).1) ∨
      ∃ i, x = .advice (c.state i) 2 (sumValues c region s b hb i) := by
  simp [eq_comm, List.flatMap_map]

end shape

section sound

variable {c : Pow5 F t} {table : Nat → List F} {w : Content F} {region : Nat} {all : Calls F}

/-- What the gate of additions says. -/
theorem pad_gate {sel : Selector → Int → Bool} :
    (∀ e ∈ ((List.finRange t).map fun i => Verif.Gadget.Expr.advice (c.state i.castSucc) (-1) +
          Verif.Gadget.Expr.advice (c.state i.castSucc) 0 - Verif.Gadget.Expr.advice (c.state i.castSucc) 1) ++
        [Verif.Gadget.Expr.advice (c.state (Fin.last t)) (-1) - Verif.Gadget.Expr.advice (c.state (Fin.last t)) 1],
        e.eval sel (w region) ((1 : Nat) : Int) = 0) ↔
      ∀ i, stateRow c w region 2 i = if i = Fin.last t then stateRow c w region 0 i
        else stateRow c w region 0 i + stateRow c w region 1 i := by
  simp only [List.mem_append, List.mem_map, List.mem_finRange, true_and, List.mem_singleton, or_imp, forall_and,
    forall_exists_index, forall_apply_eq_imp_iff, forall_eq]
  simp only [eval_sub, eval_add, eval_advice]
  norm_num
  constructor
  · rintro ⟨h1, h2⟩ i
    refine Fin.lastCases ?_ (fun i => ?_) i
    · rw [if_pos rfl]
      exact (sub_eq_zero.1 h2).symm
    · rw [if_neg (Fin.castSucc_ne_last i)]
      exact (sub_eq_zero.1 (h1 i)).symm
  · intro h
    refine ⟨fun i => ?_, ?_⟩
    · have := h i.castSucc
      rw [if_neg (Fin.castSucc_ne_last i)] at this
      exact sub_eq_zero.2 this.symm
    · have := h (Fin.last t)
      rw [if_pos rfl] at this
      exact sub_eq_zero.2 this.symm

theorem addInput_sound {s out : State F t} {b : List (Pow5.Word F)} (hb : b.length = t)
    (h : c.addInput region s (b.map some) = .ok (all, out)) (hs : Sat c.chip table w region all) :
    (fun i => w.at (out i).cell) = addRate (fun i => w.at (s i).cell) (b.map (content w)) := by
  rw [addInput_eq s b hb] at h
  simp only [Except.ok.injEq, Prod.mk.injEq] at h
  obtain ⟨hall, hout⟩ := h
  have hm : ∀ x, _ → x ∈ all := fun x hx => by rw [← hall]; exact (mem_addInput (hb := hb)).2 hx
  have e0 : ∀ i, stateRow c w region 0 i = w.at (s i).cell := fun i =>
    sat_copy hs (a := ⟨region, 0, .advice (c.state i)⟩) (hm _ (Or.inr (Or.inl (mem_load.2 ⟨i, Or.inr rfl⟩))))
  have e1 : ∀ j : Fin t, stateRow c w region 1 j.castSucc = content w (b[j.val]'(by omega)) := by
    intro j
    have hj : ∀ x ∈ (c.loadInput region j (b[j.val]'(by omega))).1, x ∈ all := fun x hx =>
      hm _ (Or.inr (Or.inr (Or.inl ⟨j, hx⟩)))
    cases hw : b[j.val]'(by omega) with
    | message a =>
      rw [hw] at hj
      exact sat_copy hs (a := ⟨region, 1, .advice (c.state j.castSucc)⟩) (hj _ (by simp [loadInput, copyAdvice]))
    | padding x =>
      rw [hw] at hj
      have h1 : w region (.advice (c.state j.castSucc)) (1 : Nat) = w region (.fixed (c.rcB j.castSucc)) (1 : Nat) :=
        sat_copy hs (a := ⟨region, 1, .advice (c.state j.castSucc)⟩) (b := ⟨region, 1, .fixed (c.rcB j.castSucc)⟩)
          (hj _ (by simp [loadInput, copyAdvice]))
      have h2 : some x = some (w region (.fixed (c.rcB j.castSucc)) (1 : Nat)) :=
        hs.enforced (.fixed (c.rcB j.castSucc) 1 (some x)) (hj _ (by simp [loadInput, copyAdvice]))
      show w region (.advice (c.state j.castSucc)) ((1 : Nat) : Int) = x
      rw [h1]
      exact (Option.some.inj h2).symm
  have e2 := (pad_gate (c := c) (w := w) (region := region) (sel := enabled all)).1 fun e he =>
    sat_gate hs (s := c.sPadAndAdd) (List.mem_cons_of_mem _ (List.mem_cons_of_mem _ (List.mem_cons_self ..))) he
      (hm _ (Or.inl rfl))
  funext i
  rw [← hout]
  show stateRow c w region 2 i = _
  rw [e2 i]
  unfold addRate
  refine Fin.lastCases ?_ (fun j => ?_) i
  · rw [if_pos rfl, if_pos rfl, e0]
  · rw [if_neg (Fin.castSucc_ne_last j), if_neg (Fin.castSucc_ne_last j), e0, e1]
    have : j.val < b.length := by omega
    simp [this]

/-- The permutation that the chip is made for. -/
def perm (c : Pow5 F t) : (Fin (t + 1) → F) → Fin (t + 1) → F :=
  Poseidon.permutation (Matrix.of c.mReg) c.halfFull (2 * c.halfPartial)
    (c.constants.take (2 * c.halfFull + 2 * c.halfPartial))

theorem process_split {start : Nat} {regs regs' : List (Calls F)} {s s' : State F t} {b : List (Option (Pow5.Word F))}
    (h : c.process start (regs, s) b = .ok (regs', s')) : ∃ k₁ s₁ k₂,
      c.addInput (start + regs.length) s b = .ok (k₁, s₁) ∧
      c.permute (start + regs.length + 1) s₁ = .ok (k₂, s') ∧ regs' = regs ++ [k₁, k₂] := by
  unfold process at h
  obtain ⟨⟨k, s₂, out⟩, h1, h2⟩ := bind_ok h
  simp only [pure, Except.pure, Except.ok.injEq, Prod.mk.injEq] at h2
  obtain ⟨rfl, rfl⟩ := h2
  unfold sponge at h1
  obtain ⟨⟨k₁, s₁⟩, h3, h4⟩ := bind_ok h1
  obtain ⟨⟨k₀, s₀⟩, h5, h6⟩ := bind_ok h4
  simp only [pure, Except.pure, Except.ok.injEq, Prod.mk.injEq] at h5
  obtain ⟨rfl, rfl⟩ := h5
  obtain ⟨⟨k₂, s₃⟩, h7, h8⟩ := bind_ok h6
  simp only [pure, Except.pure, Except.ok.injEq, Prod.mk.injEq] at h8
  obtain ⟨rfl, rfl, -⟩ := h8
  exact ⟨k₁, s₁, k₂, h3, h7, by simp⟩

theorem satAll_two {first : Nat} {regs : List (Calls F)} {k₁ k₂ : Calls F} :
    SatAll c.chip table w first (regs ++ [k₁, k₂]) ↔ SatAll c.chip table w first regs ∧
      Sat c.chip table w (first + regs.length) k₁ ∧ Sat c.chip table w (first + regs.length + 1) k₂ := by
  unfold SatAll
  constructor
  · intro h
    refine ⟨fun i hi => ?_, ?_, ?_⟩
    · have := h i (by simp; omega)
      rwa [List.getElem_append_left hi] at this
    · have := h regs.length (by simp)
      simpa using this
    · have := h (regs.length + 1) (by simp)
      simpa [add_assoc] using this
  · rintro ⟨h1, h2, h3⟩ i hi
    simp only [List.length_append, List.length_cons, List.length_nil] at hi
    rcases Nat.lt_or_ge i regs.length with h | h
    · rw [List.getElem_append_left h]
      exact h1 i h
    · obtain rfl | rfl : i = regs.length ∨ i = regs.length + 1 := by omega
      · simpa using h2
      · simpa [add_assoc] using h3

omit [Field F] in
theorem followsAll_two {first : Nat} {regs : List (Calls F)} {k₁ k₂ : Calls F}
    (h : FollowsAll w first (regs ++ [k₁, k₂])) : FollowsAll w first regs ∧ Follows w (first + regs.length) k₁ ∧
      Follows w (first + regs.length + 1) k₂ := by
  unfold FollowsAll at *
  refine ⟨fun i hi => ?_, ?_, ?_⟩
  · have := h i (by simp; omega)
    rwa [List.getElem_append_left hi] at this
  · have := h regs.length (by simp)
    simpa using this
  · have := h (regs.length + 1) (by simp)
    simpa [add_assoc] using this

/-- Blocks after blocks, from the last to the first. -/
theorem blocks_sound (hinv : Matrix.of c.mReg * Matrix.of c.mInv = 1) {start : Nat} : ∀ (bs : List (List (Pow5.Word F)))
    (regs regs' : List (Calls F)) (s s' : State F t), (∀ b ∈ bs, b.length = t) →
    bs.foldlM (fun st b => c.process start st (b.map some)) (regs, s) = .ok (regs', s') →
    SatAll c.chip table w start regs' →
    SatAll c.chip table w start regs ∧ (fun i => w.at (s' i).cell) =
      (bs.map (List.map (content w))).foldl (fun v b => perm c (addRate v b)) fun i => w.at (s i).cell
  | [], regs, regs', s, s', _, h, hs => by
    simp only [List.foldlM_nil, pure, Except.pure, Except.ok.injEq, Prod.mk.injEq] at h
    obtain ⟨rfl, rfl⟩ := h
    exact ⟨hs, rfl⟩
  | b :: bs, regs, regs', s, s', hb, h, hs => by
    rw [List.foldlM_cons] at h
    obtain ⟨⟨regs₁, s₁⟩, h1, h2⟩ := bind_ok h
    obtain ⟨hs₁, e⟩ := blocks_sound hinv bs regs₁ regs' s₁ s' (fun b h => hb b (by simp [h])) h2 hs
    obtain ⟨k₁, s₀, k₂, h3, h4, rfl⟩ := process_split h1
    obtain ⟨f1, f2, f3⟩ := satAll_two.1 hs₁
    refine ⟨f1, ?_⟩
    rw [e, List.map_cons, List.foldl_cons, permute_sound hinv h4 f3, addInput_sound (hb b (by simp)) h3 f2]
    rfl

theorem addInput_complete (hd : Distinct c) {s out : State F t} {b : List (Pow5.Word F)} (hb : b.length = t)
    (h : c.addInput region s (b.map some) = .ok (all, out)) (hi : ∀ i, Known w (s i)) (hw : ∀ x ∈ b, KnownWord w x)
    (hf : Follows w region all) : Sat c.chip table w region all ∧ ∀ i, Known w (out i) := by
  rw [addInput_eq s b hb] at h
  simp only [Except.ok.injEq, Prod.mk.injEq] at h
  obtain ⟨hall, hout⟩ := h
  have hm : ∀ x, _ → x ∈ all := fun x hx => by rw [← hall]; exact (mem_addInput (hb := hb)).2 hx
  have hv0 : ∀ i, (s i).value = some (stateRow c w region 0 i) := fun i =>
    hf.1 _ _ _ (hm _ (Or.inr (Or.inl (mem_load.2 ⟨i, Or.inl rfl⟩))))
  have hj : ∀ j : Fin t, ∀ x ∈ (c.loadInput region j (b[j.val]'(by omega))).1, x ∈ all := fun j x hx =>
      hm _ (Or.inr (Or.inr (Or.inl ⟨j, hx⟩)))
  have hv1 : ∀ j : Fin t, (c.loadInput region j (b[j.val]'(by omega))).2.value = some (stateRow c w region 1 j.castSucc) := by
    intro j
    have := hj j
    cases hw : b[j.val]'(by omega) with
    | message a =>
      rw [hw] at this
      exact hf.1 _ _ _ (this (.advice (c.state j.castSucc) 1 a.value) (by simp [loadInput, copyAdvice]))
    | padding x =>
      rw [hw] at this
      exact hf.1 _ _ _ (this (.advice (c.state j.castSucc) 1 (some x)) (by simp [loadInput, copyAdvice]))
  have hv2 : ∀ i, sumValues c region s b hb i = some (stateRow c w region 2 i) := fun i =>
    hf.1 _ _ _ (hm _ (Or.inr (Or.inr (Or.inr ⟨i, rfl⟩))))
  have hsum : ∀ i, stateRow c w region 2 i = if i = Fin.last t then stateRow c w region 0 i
        else stateRow c w region 0 i + stateRow c w region 1 i := by
    intro i
    have h2 := hv2 i
    unfold sumValues at h2
    refine Fin.lastCases ?_ (fun j => ?_) i
    · have h2 := hv2 (Fin.last t)
      unfold sumValues at h2
      rw [List.getElem?_eq_none (by simp)] at h2
      simp only [hv0, Option.map_some, add_zero, Option.some.injEq] at h2
      rw [if_pos rfl, h2]
    · have h2 := hv2 j.castSucc
      unfold sumValues at h2
      have hlt : j.castSucc.val < ((List.finRange t).map fun j => c.loadInput region j (b[j.val]'(by omega))).length := by
        simp
      rw [List.getElem?_eq_getElem hlt] at h2
      simp only [List.getElem_map, List.getElem_finRange, hv0, Option.bind_some, Fin.val_castSucc] at h2
      have h3 := hv1 j
      simp only [Fin.cast_mk, Fin.eta] at h2
      rw [h3] at h2
      simp only [Option.map_some, Option.some.injEq] at h2
      rw [if_neg (Fin.castSucc_ne_last j), h2]
  refine ⟨⟨fun x hx => ?_, gates_of fun g hg e he o ho => ?_, fun l hl => by cases hl⟩, fun i => ?_⟩
  · have hx' := hx
    rw [← hall] at hx
    rcases (mem_addInput (hb := hb)).1 hx with rfl | h | ⟨j, h⟩ | ⟨i, rfl⟩
    · trivial
    · obtain ⟨i, rfl | rfl⟩ := mem_load.1 h
      · trivial
      · have : (s i).value = some (w.at (s i).cell) := hi i
        rw [hv0 i] at this
        exact Option.some.inj this
    · have hk := hw (b[j.val]'(by omega)) (List.getElem_mem _)
      have h1 := hv1 j
      cases hw : b[j.val]'(by omega) with
      | message a =>
        rw [hw] at h h1 hk
        simp only [loadInput, copyAdvice, List.mem_cons, List.not_mem_nil, or_false] at h
        rcases h with rfl | rfl
        · trivial
        · have h2 : a.value = some (w.at a.cell) := hk
          have h3 : a.value = some (stateRow c w region 1 j.castSucc) := h1
          rw [h3] at h2
          exact Option.some.inj h2
      | padding y =>
        rw [hw] at h h1 hk
        simp only [loadInput, copyAdvice, List.mem_cons, List.not_mem_nil, or_false] at h
        have h4 : some y = some (w region (.fixed (c.rcB j.castSucc)) (1 : Nat)) := hf.2.2 _ _ _ (hj j (.fixed (c.rcB j.castSucc) 1 (some y)) (by
          rw [hw]; simp [loadInput]))
        rcases h with rfl | rfl | rfl
        · exact h4
        · trivial
        · have h3 : some y = some (stateRow c w region 1 j.castSucc) := h1
          show stateRow c w region 1 j.castSucc = w region (.fixed (c.rcB j.castSucc)) (1 : Nat)
          rw [← Option.some.inj h3, ← Option.some.inj h4]
    · trivial
  · have hx := ho
    rw [← hall] at ho
    rcases (mem_addInput (hb := hb)).1 ho with h | h | ⟨j, h⟩ | ⟨i, h⟩
    · simp only [Call.enable.injEq] at h
      obtain ⟨h, rfl⟩ := h
      simp only [chip, List.mem_cons, List.not_mem_nil, or_false] at hg
      rcases hg with rfl | rfl | rfl
      · exact absurd h hd.2.1
      · exact absurd h hd.2.2
      · exact pad_gate.2 hsum e he
    · obtain ⟨i, h | h⟩ := mem_load.1 h <;> cases h
    · cases hw : b[j.val]'(by omega) <;> rw [hw] at h <;> simp [loadInput, copyAdvice] at h
    · cases h
  · rw [← hout]
    exact hv2 i

theorem blocks_complete (hinv : Matrix.of c.mInv * Matrix.of c.mReg = 1) (hd : Distinct c) {start : Nat} :
    ∀ (bs : List (List (Pow5.Word F))) (regs regs' : List (Calls F)) (s s' : State F t), (∀ b ∈ bs, b.length = t) →
    (∀ b ∈ bs, ∀ x ∈ b, KnownWord w x) →
    bs.foldlM (fun st b => c.process start st (b.map some)) (regs, s) = .ok (regs', s') →
    FollowsAll w start regs' →
    FollowsAll w start regs ∧ ((FollowsAll w start regs → SatAll c.chip table w start regs ∧ ∀ i, Known w (s i)) →
      SatAll c.chip table w start regs' ∧ ∀ i, Known w (s' i))
  | [], regs, regs', s, s', _, _, h, hs => by
    simp only [List.foldlM_nil, pure, Except.pure, Except.ok.injEq, Prod.mk.injEq] at h
    obtain ⟨rfl, rfl⟩ := h
    exact ⟨hs, fun h => h hs⟩
  | b :: bs, regs, regs', s, s', hb, hw, h, hs => by
    rw [List.foldlM_cons] at h
    obtain ⟨⟨regs₁, s₁⟩, h1, h2⟩ := bind_ok h
    obtain ⟨hs₁, e⟩ := blocks_complete hinv hd bs regs₁ regs' s₁ s' (fun b h => hb b (by simp [h]))
      (fun b h => hw b (by simp [h])) h2 hs
    obtain ⟨k₁, s₀, k₂, h3, h4, rfl⟩ := process_split h1
    obtain ⟨f1, f2, f3⟩ := followsAll_two hs₁
    refine ⟨f1, fun hi => e fun _ => ?_⟩
    obtain ⟨g1, g2⟩ := hi f1
    obtain ⟨i1, i2⟩ := addInput_complete (table := table) hd (hb b (by simp)) h3 g2 (hw b (by simp)) f2
    obtain ⟨j1, j2⟩ := permute_complete (table := table) hinv hd h4 i2 f3
    exact ⟨satAll_two.2 ⟨g1, i1, j1⟩, j2⟩

end sound

end Verif.Lemmas.Pow5

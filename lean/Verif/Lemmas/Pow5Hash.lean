import Verif.Lemmas.Pow5Rounds
import Verif.Spec.Pow5

namespace Verif.Lemmas.Pow5

open Verif.FloorPlanner (Call)
open Verif.Gadget Verif.Gadget.Pow5 Verif.Spec.Gadget Verif.Spec Verif.Spec.Pow5 Verif.Lemmas.Gadget

section absorb

variable {α σ : Type}

theorem fill_some (x : α) : ∀ (b : List α) (m : Nat),
    fill x (b.map some ++ List.replicate (m + 1) none) = some ((b ++ [x]).map some ++ List.replicate m none)
  | [], m => by simp [List.replicate_succ, fill]
  | y :: b, m => by
    have := fill_some x b m
    simp only [List.map_cons, List.cons_append, fill, this, Option.map_some]

theorem fill_full (x : α) : ∀ b : List α, fill x (b.map some) = none
  | [] => rfl
  | y :: b => by simp [fill, fill_full x b]

theorem absorb_rest (t : Nat) (process : σ → List (Option α) → Except Stop σ) (s : σ) : ∀ (l b : List α),
    l.foldlM (absorbWith t process) (s, b.map some ++ List.replicate l.length none) = .ok (s, (b ++ l).map some)
  | [], b => by simp [pure, Except.pure]
  | x :: l, b => by
    rw [List.foldlM_cons, List.length_cons]
    have : absorbWith t process (s, b.map some ++ List.replicate (l.length + 1) none) x =
        .ok (s, (b ++ [x]).map some ++ List.replicate l.length none) := by
      unfold absorbWith
      simp only [fill_some]
    rw [this]
    show l.foldlM (absorbWith t process) (s, (b ++ [x]).map some ++ List.replicate l.length none) = _
    rw [absorb_rest t process s l (b ++ [x])]
    simp

theorem absorb_block (t : Nat) (process : σ → List (Option α) → Except Stop σ) (s : σ) (b l : List α) (hl : l.length = t)
    (ht : 0 < t) : l.foldlM (absorbWith t process) (s, b.map some) =
      (process s (b.map some)).bind fun s' => .ok (s', l.map some) := by
  cases l with
  | nil => simp at hl; omega
  | cons x l =>
    rw [List.foldlM_cons]
    have : absorbWith t process (s, b.map some) x = (process s (b.map some)).bind fun s' => .ok (s', initWith t x) := by
      unfold absorbWith
      simp only [fill_full]
      rfl
    rw [this]
    cases process s (b.map some) with
    | error e => rfl
    | ok s' =>
      show l.foldlM (absorbWith t process) (s', initWith t x) = .ok (s', (x :: l).map some)
      have h1 : (initWith t x : List (Option α)) = [x].map some ++ List.replicate l.length none := by
        simp only [List.length_cons] at hl
        unfold initWith
        rw [show t - 1 = l.length by omega]
        rfl
      rw [h1, absorb_rest t process s' l [x]]
      rfl

/-- All blocks after the first. -/
theorem absorb_more (t : Nat) (ht : 0 < t) (process : σ → List (Option α) → Except Stop σ) : ∀ (bs : List (List α)) (s : σ)
    (b : List α), (∀ l ∈ bs, l.length = t) → bs.flatten.foldlM (absorbWith t process) (s, b.map some) =
      ((b :: bs).dropLast.foldlM (fun s b => process s (b.map some)) s).bind fun s' =>
        .ok (s', ((b :: bs).getLast (by simp)).map some)
  | [], s, b, _ => by simp [pure, Except.pure, Except.bind]
  | l :: bs, s, b, h => by
    rw [List.flatten_cons, List.foldlM_append, absorb_block t process s b l (h l (by simp)) ht, List.dropLast_cons_cons,
      List.foldlM_cons]
    cases hp : process s (b.map some) with
    | error e => rfl
    | ok s' =>
      show bs.flatten.foldlM (absorbWith t process) (s', l.map some) = _
      rw [absorb_more t ht process bs s' l fun l hl => h l (by simp [hl])]
      rfl

/-- All blocks, from the start. -/
theorem absorb_all (t : Nat) (ht : 0 < t) (process : σ → List (Option α) → Except Stop σ) (s : σ) (b : List α)
    (bs : List (List α)) (h : ∀ l ∈ b :: bs, l.length = t) :
    (b :: bs).flatten.foldlM (absorbWith t process) (s, emptyMode t) =
      ((b :: bs).dropLast.foldlM (fun s b => process s (b.map some)) s).bind fun s' =>
        .ok (s', ((b :: bs).getLast (by simp)).map some) := by
  rw [List.flatten_cons, List.foldlM_append]
  have h1 : (emptyMode t : List (Option α)) = ([] : List α).map some ++ List.replicate b.length none := by
    rw [h b (by simp)]; rfl
  rw [h1, absorb_rest t process s b []]
  exact absorb_more t ht process bs s b fun l hl => h l (by simp [hl])

/-- Absorbing everything and then processing what is in the mode is processing all blocks. -/
theorem absorb_finish (t : Nat) (ht : 0 < t) (process : σ → List (Option α) → Except Stop σ) (s : σ) (b : List α)
    (bs : List (List α)) (h : ∀ l ∈ b :: bs, l.length = t) :
    ((b :: bs).flatten.foldlM (absorbWith t process) (s, emptyMode t)).bind (fun st => process st.1 st.2) =
      (b :: bs).foldlM (fun s b => process s (b.map some)) s := by
  rw [absorb_all t ht process s b bs h]
  conv_rhs => rw [← List.dropLast_append_getLast (l := b :: bs) (by simp), List.foldlM_append]
  cases (b :: bs).dropLast.foldlM (fun s b => process s (b.map some)) s with
  | error e => rfl
  | ok s' =>
    show process s' _ = [(b :: bs).getLast _].foldlM (fun s b => process s (b.map some)) s'
    rw [List.foldlM_cons]
    cases hp : process s' (((b :: bs).getLast (by simp)).map some) <;> rfl

end absorb

section pad

variable {α β : Type}

/-- The blocks of a list that is padded. -/
def padBlocks (t : Nat) (x : α) (l : List α) : List (List α) :=
  (List.range ((l.length + t - 1) / t)).map fun i =>
    (l.drop (i * t)).take t ++ List.replicate (t - ((l.drop (i * t)).take t).length) x

theorem padBlocks_map (t : Nat) (x : α) (f : α → β) (l : List α) :
    padBlocks t (f x) (l.map f) = (padBlocks t x l).map (List.map f) := by
  unfold padBlocks
  rw [List.map_map, List.length_map]
  refine List.map_congr_left fun i _ => ?_
  simp [← List.map_drop, ← List.map_take]

theorem padBlocks_length (t : Nat) (x : α) (l : List α) : ∀ b ∈ padBlocks t x l, b.length = t := by
  intro b hb
  obtain ⟨i, _, rfl⟩ := List.mem_map.1 hb
  simp only [List.length_append, List.length_take, List.length_drop, List.length_replicate]
  omega

theorem pad_flatten_aux (t : Nat) (x : α) : ∀ (n : Nat) (l : List α), l.length ≤ n * t →
    ((List.range n).map fun i =>
      (l.drop (i * t)).take t ++ List.replicate (t - ((l.drop (i * t)).take t).length) x).flatten =
      l ++ List.replicate (n * t - l.length) x
  | 0, l, h => by
    have : l = [] := List.length_eq_zero_iff.1 (by omega)
    simp [this]
  | n + 1, l, h => by
    rw [List.range_succ_eq_map, List.map_cons, List.flatten_cons, List.map_map]
    have := pad_flatten_aux t x n (l.drop t) (by
      rw [List.length_drop]
      have : (n + 1) * t = n * t + t := by ring
      omega)
    have h2 : (List.map ((fun i => (l.drop (i * t)).take t ++
        List.replicate (t - ((l.drop (i * t)).take t).length) x) ∘ Nat.succ) (List.range n)) =
        (List.range n).map fun i => ((l.drop t).drop (i * t)).take t ++
          List.replicate (t - (((l.drop t).drop (i * t)).take t).length) x := by
      refine List.map_congr_left fun i _ => ?_
      simp only [Function.comp, List.drop_drop, Nat.succ_eq_add_one]
      rw [show (i + 1) * t = t + i * t by ring]
    rw [h2, this]
    simp only [Nat.zero_mul, List.drop_zero]
    by_cases hl : t ≤ l.length
    · rw [List.length_take, min_eq_left hl, Nat.sub_self, List.replicate_zero, List.append_nil, ← List.append_assoc,
        List.take_append_drop]
      congr 2
      rw [List.length_drop]
      have : (n + 1) * t = n * t + t := by ring
      omega
    · rw [List.take_of_length_le (by omega), List.drop_of_length_le (by omega)]
      rw [List.nil_append, List.append_assoc, List.replicate_append_replicate]
      congr 2
      simp only [List.length_nil]
      have : (n + 1) * t = n * t + t := by ring
      omega

theorem pad_flatten (t : Nat) (ht : 0 < t) (x : α) (l : List α) :
    l ++ List.replicate (PoseidonSpec.paddingLength t l.length) x = (padBlocks t x l).flatten := by
  unfold padBlocks PoseidonSpec.paddingLength
  rw [pad_flatten_aux]
  have := Nat.div_add_mod (l.length + t - 1) t
  have h2 := Nat.mod_lt (l.length + t - 1) ht
  rw [mul_comm] at this
  omega

theorem padBlocks_cons (t : Nat) (ht : 0 < t) (x : α) (l : List α) (hl : l ≠ []) :
    ∃ b bs, padBlocks t x l = b :: bs := by
  have hpos : 0 < l.length := List.length_pos_of_ne_nil hl
  have : 0 < (l.length + t - 1) / t := Nat.div_pos (by omega) ht
  cases h : padBlocks t x l with
  | nil =>
    have := congrArg List.length h
    simp [padBlocks] at this
    omega
  | cons b bs => exact ⟨b, bs, rfl⟩

end pad

variable {F : Type} [Field F] {t : Nat}

theorem addRate_pad (v : Fin (t + 1) → F) (b : List F) (n : Nat) :
    addRate v (b ++ List.replicate n 0) = addRate v b := by
  funext i
  unfold addRate
  have : (b ++ List.replicate n 0).getD i 0 = b.getD i 0 := by
    rw [List.getD_eq_getElem?_getD, List.getD_eq_getElem?_getD, List.getElem?_append]
    split
    · rfl
    · rename_i h
      rw [List.getElem?_eq_none (l := b) (by omega), List.getElem?_replicate]
      split <;> rfl
  rw [this]

/-- The hash with padded blocks. -/
theorem hash_pad (perm : (Fin (t + 1) → F) → Fin (t + 1) → F) (m : List F) :
    Spec.Pow5.hash perm m = (padBlocks t 0 m).foldl (fun v b => perm (addRate v b)) (start t m.length) 0 := by
  unfold Spec.Pow5.hash Spec.Pow5.blocks padBlocks
  rw [List.foldl_map, List.foldl_map]
  simp only [addRate_pad]

/-! Functions on field elements. -/

theorem prim_addInput (v : Fin (t + 1) → F) (b : List F) (hb : b.length = t) :
    PoseidonSpec.addInput v (b.map some) = .ok (addRate v b) := by
  unfold PoseidonSpec.addInput
  rw [if_pos (by simp)]
  congr 1
  funext i
  unfold addRate
  by_cases hi : i = Fin.last t
  · rw [if_pos hi, List.getElem?_eq_none (by rw [List.length_map, hb, hi]; simp)]
  · rw [if_neg hi]
    have : i.val < b.length := by
      rw [hb]
      exact Fin.val_lt_last hi
    simp [this]

theorem prim_process (s : PoseidonSpec F t) (v : Fin (t + 1) → F) (b : List F) (hb : b.length = t) :
    s.process v (b.map some) = .ok (s.permute (addRate v b)) := by
  unfold PoseidonSpec.process PoseidonSpec.sponge
  simp only [prim_addInput v b hb]
  rfl

theorem prim_blocks (s : PoseidonSpec F t) : ∀ (bs : List (List F)) (v : Fin (t + 1) → F), (∀ b ∈ bs, b.length = t) →
    bs.foldlM (fun v b => s.process v (b.map some)) v = .ok (bs.foldl (fun v b => s.permute (addRate v b)) v)
  | [], v, _ => rfl
  | b :: bs, v, h => by
    rw [List.foldlM_cons, prim_process s v b (h b (by simp)), List.foldl_cons]
    exact prim_blocks s bs _ fun l hl => h l (by simp [hl])

theorem prim_hash (s : PoseidonSpec F t) (ht : 0 < t) (m : List F) (hm : m ≠ []) :
    s.hash m = .ok (Spec.Pow5.hash s.permute m) := by
  obtain ⟨b, bs, hb⟩ := padBlocks_cons t ht (0 : F) m hm
  have hlen := padBlocks_length t (0 : F) m
  rw [hb] at hlen
  unfold PoseidonSpec.hash
  rw [if_neg (by omega), pad_flatten t ht, hash_pad, hb]
  have h1 := absorb_finish t ht s.process (start t m.length) b bs hlen
  rw [prim_blocks s _ _ hlen] at h1
  show ((b :: bs).flatten.foldlM (absorbWith t s.process) (start t m.length, emptyMode t)).bind _ = _
  cases hr : (b :: bs).flatten.foldlM (absorbWith t s.process) (start t m.length, emptyMode t) with
  | error e => rw [hr] at h1; cases h1
  | ok st =>
    rw [hr] at h1
    have h2 : s.process st.1 st.2 = .ok _ := h1
    unfold PoseidonSpec.process at h2
    obtain ⟨⟨v, out⟩, h3, h4⟩ := bind_ok h2
    simp only [pure, Except.pure, Except.ok.injEq] at h4
    show (s.sponge st.1 (some st.2)).bind _ = _
    rw [h3]
    have hout : out = (List.finRange t).map fun i => some (v i.castSucc) := by
      unfold PoseidonSpec.sponge at h3
      obtain ⟨u, _, h5⟩ := bind_ok h3
      simp only [pure, Except.pure, Except.ok.injEq, Prod.mk.injEq] at h5
      rw [← h5.2, h5.1]
    obtain ⟨n, rfl⟩ : ∃ n, t = n + 1 := ⟨t - 1, by omega⟩
    show (s.squeeze (v, out)).bind _ = _
    unfold PoseidonSpec.squeeze
    rw [hout, List.finRange_succ, List.map_cons]
    show Except.ok (v (0 : Fin (n + 1)).castSucc) = _
    rw [← h4]
    rfl

theorem prim_hash_nil (s : PoseidonSpec F t) : s.hash [] = .error .panic := by
  unfold PoseidonSpec.hash
  split
  · rfl
  · rename_i ht
    obtain ⟨n, rfl⟩ : ∃ n, t = n + 1 := ⟨t - 1, by omega⟩
    have : PoseidonSpec.paddingLength (n + 1) ([] : List F).length = 0 := by
      unfold PoseidonSpec.paddingLength
      simp
    rw [this]
    rfl

end Verif.Lemmas.Pow5

import Mathlib.Tactic.Module
import Verif.Lemmas.KzgLemmas
import Verif.Lemmas.PolyLemmas
import Verif.Spec.Ipa

/-! The inner product argument. -/

namespace Verif.Spec.Ipa

open Verif.Ipa

variable {M K : Type} [AddCommGroup M] [Module Fr M]

theorem dot_nil (g : List M) : dot [] g = 0 := by simp [dot]

theorem dot_nil_right (p : List Fr) : dot p ([] : List M) = 0 := by simp [dot]

theorem dot_cons (a : Fr) (p : List Fr) (b : M) (g : List M) : dot (a :: p) (b :: g) = a • b + dot p g := by simp [dot]

theorem dot_append {p : List Fr} {g : List M} (h : p.length = g.length) (p' : List Fr) (g' : List M) :
    dot (p ++ p') (g ++ g') = dot p g + dot p' g' := by
  unfold dot
  rw [List.zip_append h, List.map_append, List.sum_append]

theorem dot_mul (c : Fr) (p : List Fr) (g : List M) : dot (p.map (· * c)) g = c • dot p g := by
  induction p generalizing g with
  | nil => simp [dot_nil]
  | cons a p ih =>
    cases g with
    | nil => simp [dot_nil_right]
    | cons b g => rw [List.map_cons, dot_cons, dot_cons, ih, smul_add, smul_smul, mul_comm c a]

theorem dot_add {p p' : List Fr} (h : p.length = p'.length) (g : List M) :
    dot (List.zipWith (· + ·) p p') g = dot p g + dot p' g := by
  induction p generalizing p' g with
  | nil => cases p' with
    | nil => simp [dot_nil]
    | cons => simp at h
  | cons a p ih => cases p' with
    | nil => simp at h
    | cons a' p' => cases g with
      | nil => simp [dot_nil_right]
      | cons b g =>
        rw [List.zipWith_cons_cons, dot_cons, dot_cons, dot_cons, ih (by simpa using h), add_smul]
        abel

theorem dot_fold_left {p p' : List Fr} (h : p.length = p'.length) (c : Fr) (g : List M) :
    dot (List.zipWith (fun a a' => a + a' * c) p p') g = dot p g + c • dot p' g := by
  rw [← dot_mul, ← dot_add (by simp [h]), List.zipWith_map_right]

theorem dot_fold_right (p : List Fr) {g g' : List M} (h : g.length = g'.length) (c : Fr) :
    dot p (List.zipWith (fun a a' => a + c • a') g g') = dot p g + c • dot p g' := by
  induction p generalizing g g' with
  | nil => simp [dot_nil]
  | cons a p ih => cases g with
    | nil => cases g' with
      | nil => simp [dot_nil_right]
      | cons => simp at h
    | cons b g => cases g' with
      | nil => simp at h
      | cons b' g' =>
        rw [List.zipWith_cons_cons, dot_cons, dot_cons, dot_cons, ih (by simpa using h), smul_add, smul_add, smul_smul, smul_smul,
          mul_comm c a]
        abel

theorem multiexp_dot {p : List Fr} {g : List M} (h : p.length = g.length) : bestMultiexp p g = .ok (dot p g) := by
  unfold bestMultiexp
  rw [if_neg (by simp [h]), multiexpSerial_eq]
  rfl

theorem multiexp_ok {p : List Fr} {g : List M} {a : M} (h : bestMultiexp p g = .ok a) : p.length = g.length ∧ a = dot p g := by
  have hl : p.length = g.length := by
    by_contra hc
    unfold bestMultiexp at h
    rw [if_pos (by simpa using hc)] at h
    cases h
  rw [multiexp_dot hl] at h
  exact ⟨hl, (Except.ok.inj h).symm⟩

theorem inner_dot {a b : List Fr} (h : a.length = b.length) : computeInnerProduct a b = .ok (dot a b) := by
  unfold computeInnerProduct
  rw [if_neg (by simp [h])]
  have : ∀ (l : List (Fr × Fr)) (acc : Fr), l.foldl (fun acc p => acc + p.1 * p.2) acc = acc + (l.map fun q => q.1 • q.2).sum := by
    intro l
    induction l with
    | nil => intro acc; simp
    | cons e l ih => intro acc; rw [List.foldl_cons, ih, List.map_cons, List.sum_cons, smul_eq_mul, add_assoc]
  rw [this, zero_add]
  rfl

theorem dot_mul_right (c : Fr) (p l : List Fr) : dot p (l.map (c * ·)) = c * dot p l := by
  induction p generalizing l with
  | nil => simp [dot_nil]
  | cons a p ih => cases l with
    | nil => simp [dot_nil_right]
    | cons b l => rw [List.map_cons, dot_cons, dot_cons, ih, smul_eq_mul, smul_eq_mul]; ring

theorem polyAt_dot (p : List Fr) (x : Fr) : polyAt p x = dot p ((List.range p.length).map (x ^ ·)) := by
  induction p with
  | nil => rw [polyAt_nil]; rfl
  | cons a p ih =>
    rw [polyAt_cons, List.length_cons, List.range_succ_eq_map, List.map_cons, dot_cons, ih, smul_eq_mul x]
    rw [← dot_mul_right, List.map_map, List.map_map, pow_zero, smul_eq_mul, mul_one]
    congr 3
    funext i
    simp only [Function.comp, pow_succ, mul_comm]

/-! ### The folded vectors -/

theorem coeffs_length (us : List Fr) : (coeffs us).length = 2 ^ us.length := by
  induction us with
  | nil => rfl
  | cons u us ih =>
    show (coeffs us ++ (coeffs us).map (· * u)).length = _
    rw [List.length_append, List.length_map, ih, List.length_cons, pow_succ]
    omega

theorem computeS_eq {us : List Fr} (h : us ≠ []) (init : Fr) : computeS us init = .ok ((coeffs us).map (· * init)) := by
  unfold computeS
  rw [if_neg h, List.foldl_reverse]
  refine congrArg Except.ok ?_
  clear h
  induction us with
  | nil => simp [coeffs]
  | cons u us ih =>
    rw [List.foldr_cons, ih]
    show _ = (coeffs us ++ (coeffs us).map (· * u)).map (· * init)
    rw [List.map_append, List.map_map, List.map_map]
    congr 2
    funext a
    simp only [Function.comp]
    ring

theorem coeffs_fold (u : Fr) (us : List Fr) {lo hi : List M} (h : lo.length = 2 ^ us.length) (h' : hi.length = 2 ^ us.length) :
    dot (coeffs (u :: us)) (lo ++ hi) = dot (coeffs us) (List.zipWith (fun a a' => a + u • a') lo hi) := by
  show dot (coeffs us ++ (coeffs us).map (· * u)) (lo ++ hi) = _
  rw [dot_append (by rw [coeffs_length, h]), dot_mul, dot_fold_right _ (by rw [h, h'])]

theorem powers_double (x : Fr) (m : Nat) : (List.range (2 ^ (m + 1))).map (x ^ ·) =
    (List.range (2 ^ m)).map (x ^ ·) ++ ((List.range (2 ^ m)).map (x ^ ·)).map (x ^ 2 ^ m * ·) := by
  rw [pow_succ, mul_two, List.range_add, List.map_append, List.map_map, List.map_map]
  congr 2
  funext a
  simp only [Function.comp, pow_add]

theorem computeB_eq (x : Fr) (us : List Fr) : computeB x us = dot (coeffs us) ((List.range (2 ^ us.length)).map (x ^ ·)) := by
  have key : us.reverse.foldl (fun (s : Fr × Fr) u => (s.1 * (1 + u * s.2), s.2 * s.2)) (1, x) =
      (dot (coeffs us) ((List.range (2 ^ us.length)).map (x ^ ·)), x ^ 2 ^ us.length) := by
    rw [List.foldl_reverse]
    induction us with
    | nil => simp [coeffs, dot]
    | cons u us ih =>
      rw [List.foldr_cons, ih, List.length_cons, powers_double]
      show _ = (dot (coeffs us ++ (coeffs us).map (· * u)) _, _)
      rw [dot_append (by simp [coeffs_length]), dot_mul, dot_mul_right, smul_eq_mul, pow_succ 2, pow_mul]
      refine Prod.ext ?_ ?_
      · show _ * _ = _
        ring
      · show _ * _ = _
        ring
  unfold computeB
  rw [key]

/-! ### The prover -/

/-- What the rounds keep. -/
def total (params : Params M) (z : Fr) (st : State M) : M :=
  dot st.p st.g + (z * dot st.p st.b) • params.u + st.f • params.w

theorem upTo_ok {α : Type} {l : List α} {n : Nat} (h : l.length = n + n) : upTo l n = .ok (l.take n) := by
  unfold upTo
  rw [if_neg (by omega)]

theorem starting_ok {α : Type} {l : List α} {n : Nat} (h : l.length = n + n) : starting l n = .ok (l.drop n) := by
  unfold starting
  rw [if_neg (by omega)]

theorem message_ok (params : Params M) (z : Fr) {half : Nat} {st : State M} (hp : st.p.length = half + half)
    (hb : st.b.length = half + half) (hg : st.g.length = half + half) (l r : Fr) :
    message params z half st l r =
      .ok (dot (st.p.drop half) (st.g.take half) + ((dot (st.p.drop half) (st.b.take half) * z) • params.u + l • params.w),
        dot (st.p.take half) (st.g.drop half) + ((dot (st.p.take half) (st.b.drop half) * z) • params.u + r • params.w)) := by
  have two : ∀ a b : Fr, bestMultiexp [a, b] [params.u, params.w] = .ok (a • params.u + b • params.w) := by
    intro a b
    rw [multiexp_dot (by simp), dot_cons, dot_cons, dot_nil, add_zero]
  unfold message
  rw [upTo_ok hp, upTo_ok hb, upTo_ok hg, starting_ok hp, starting_ok hb, starting_ok hg]
  simp only [bind, Except.bind, pure, Except.pure]
  rw [multiexp_dot (by simp [hp, hg]), multiexp_dot (by simp [hp, hg]), inner_dot (by simp [hp, hb]), inner_dot (by simp [hp, hb])]
  simp only [two]

theorem fold_ok {half : Nat} {st : State M} (hp : st.p.length = half + half)
    (hb : st.b.length = half + half) (hg : st.g.length = half + half) (l r : Fr) {u : Fr} (hu : u ≠ 0) :
    fold half st l r u = .ok ⟨List.zipWith (fun a a' => a + a' * u⁻¹) (st.p.take half) (st.p.drop half),
      List.zipWith (fun a a' => a + a' * u) (st.b.take half) (st.b.drop half),
      List.zipWith (fun a a' => a + u • a') (st.g.take half) (st.g.drop half), st.f + l * u⁻¹ + r * u⟩ := by
  have hc : ∀ v : List Fr, v.length = half + half → ∀ c, collapse half v c =
      .ok (List.zipWith (fun a a' => a + a' * c) (v.take half) (v.drop half)) := by
    intro v hv c
    unfold collapse
    rw [if_neg (by omega)]
  have hG : collapseG half st.g u = List.zipWith (fun a a' => a + u • a') (st.g.take half) (st.g.drop half) := by
    unfold collapseG
    have : st.g.length / 2 = half := by omega
    simp only [this]
    rw [List.take_left']
    simp [hg]
  unfold fold
  rw [if_neg hu]
  dsimp only
  rw [hc _ hp, hc _ hb, hG]
  rfl

theorem split_half {α : Type} {l : List α} {half : Nat} (h : l.length = half + half) :
    ∃ a b, l = a ++ b ∧ a.length = half ∧ b.length = half :=
  ⟨l.take half, l.drop half, (List.take_append_drop half l).symm, by simp [h], by simp [h]⟩

/-- One round keeps the total, up to the points that were sent. -/
theorem round_total (params : Params M) (z : Fr) {half : Nat} {st : State M} (hp : st.p.length = half + half)
    (hb : st.b.length = half + half) (hg : st.g.length = half + half) (l r : Fr) {u : Fr} (hu : u ≠ 0) :
    ∃ m st', message params z half st l r = .ok m ∧ fold half st l r u = .ok st' ∧ st'.p.length = half ∧ st'.b.length = half ∧
      st'.g.length = half ∧ total params z st' = total params z st + u⁻¹ • m.1 + u • m.2 ∧
      st'.b = List.zipWith (fun a a' => a + a' * u) (st.b.take half) (st.b.drop half) ∧
      st'.g = List.zipWith (fun a a' => a + u • a') (st.g.take half) (st.g.drop half) := by
  refine ⟨_, _, message_ok params z hp hb hg l r, fold_ok hp hb hg l r hu, by simp [hp], by simp [hb], by simp [hg], ?_, rfl, rfl⟩
  obtain ⟨p, b, g, f⟩ := st
  dsimp only at hp hb hg ⊢
  obtain ⟨p0, p1, rfl, hp0, hp1⟩ := split_half hp
  obtain ⟨b0, b1, rfl, hb0, hb1⟩ := split_half hb
  obtain ⟨g0, g1, rfl, hg0, hg1⟩ := split_half hg
  simp only [List.take_left' hp0, List.drop_left' hp0, List.take_left' hb0, List.drop_left' hb0, List.take_left' hg0,
    List.drop_left' hg0]
  unfold total
  dsimp only
  have e : List.zipWith (fun a a' => a + a' * u) b0 b1 = List.zipWith (fun a a' => a + u • a') b0 b1 := by
    congr 1
    funext a a'
    rw [smul_eq_mul, mul_comm]
  rw [e, dot_fold_left (by rw [hp0, hp1]), dot_fold_left (by rw [hp0, hp1]), dot_fold_right _ (by rw [hg0, hg1]),
    dot_fold_right _ (by rw [hg0, hg1]), dot_fold_right _ (by rw [hb0, hb1]), dot_fold_right _ (by rw [hb0, hb1]),
    dot_append (by rw [hp0, hg0]), dot_append (by rw [hp0, hb0])]
  have h1 : u⁻¹ * u = 1 := inv_mul_cancel₀ hu
  simp only [smul_add, smul_smul, smul_eq_mul, h1, one_smul]
  have h2 : u⁻¹ * (dot p1 b0 + u * dot p1 b1) = u⁻¹ * dot p1 b0 + dot p1 b1 := by
    rw [mul_add, ← mul_assoc, h1, one_mul]
  rw [h2]
  module

/-- All rounds. -/
theorem rounds_ok (params : Params M) (z : Fr) : ∀ (j : Nat) (st : State M) (rand : List (Fr × Fr)) (us : List Fr),
    st.p.length = 2 ^ j → st.b.length = 2 ^ j → st.g.length = 2 ^ j → rand.length = j → us.length = j → (∀ u ∈ us, u ≠ 0) →
    ∃ ms c f, rounds params z j st rand us = .ok (ms, ⟨[c], [dot (coeffs us) st.b], [dot (coeffs us) st.g], f⟩) ∧ ms.length = j ∧
      total params z st + sent ms us = c • dot (coeffs us) st.g + (z * (c * dot (coeffs us) st.b)) • params.u + f • params.w
  | 0, st, rand, us, hp, hb, hg, hr, hu, _ => by
    obtain ⟨p, b, g, f⟩ := st
    dsimp only at hp hb hg ⊢
    obtain ⟨c, rfl⟩ := List.length_eq_one_iff.1 hp
    obtain ⟨b, rfl⟩ := List.length_eq_one_iff.1 hb
    obtain ⟨g, rfl⟩ := List.length_eq_one_iff.1 hg
    rw [List.length_eq_zero_iff] at hu hr
    subst hu hr
    refine ⟨[], c, f, ?_, rfl, ?_⟩
    · unfold rounds
      simp [coeffs, dot]
    · simp [total, sent, coeffs, dot]
  | j + 1, st, [], us, _, _, _, hr, _, _ => by simp at hr
  | j + 1, st, r :: rand, [], _, _, _, _, hu, _ => by simp at hu
  | j + 1, st, (l, r) :: rand, u :: us, hp, hb, hg, hr, hu, h0 => by
    have two : 2 ^ (j + 1) = 2 ^ j + 2 ^ j := by rw [pow_succ]; omega
    rw [two] at hp hb hg
    obtain ⟨m, st', h1, h2, hp', hb', hg', ht, eb, eg⟩ := round_total params z hp hb hg l r (h0 u (by simp))
    obtain ⟨ms, c, f, h3, h4, h5⟩ := rounds_ok params z j st' rand us hp' hb' hg' (by simpa using hr) (by simpa using hu)
      (fun v hv => h0 v (by simp [hv]))
    have hus : us.length = j := by simpa using hu
    have hG : dot (coeffs us) st'.g = dot (coeffs (u :: us)) st.g := by
      rw [eg, ← coeffs_fold u us (by simp [hg, hus]) (by simp [hg, hus]), List.take_append_drop]
    have hB : dot (coeffs us) st'.b = dot (coeffs (u :: us)) st.b := by
      have e : st'.b = List.zipWith (fun a a' => a + u • a') (st.b.take (2 ^ j)) (st.b.drop (2 ^ j)) := by
        rw [eb]
        congr 1
        funext a a'
        rw [smul_eq_mul, mul_comm]
      rw [e, ← coeffs_fold u us (by simp [hb, hus]) (by simp [hb, hus]), List.take_append_drop]
    rw [hG, hB] at h3 h5
    refine ⟨m :: ms, c, f, ?_, by simp [h4], ?_⟩
    · unfold rounds
      simp only [h1, h2, h3, bind, Except.bind, pure, Except.pure]
    · rw [← h5, ht]
      unfold sent
      rw [List.zip_cons_cons, List.map_cons, List.sum_cons]
      abel

/-- A challenge zero makes the prover panic. -/
theorem rounds_panic (params : Params M) (z : Fr) : ∀ (j : Nat) (st : State M) (rand : List (Fr × Fr)) (us : List Fr),
    st.p.length = 2 ^ j → st.b.length = 2 ^ j → st.g.length = 2 ^ j → rand.length = j → us.length = j → (∃ u ∈ us, u = 0) →
    rounds params z j st rand us = .error .unwrap
  | 0, _, _, us, _, _, _, _, hu, h0 => by
    rw [List.length_eq_zero_iff] at hu
    subst hu
    simp at h0
  | j + 1, st, [], us, _, _, _, hr, _, _ => by simp at hr
  | j + 1, st, r :: rand, [], _, _, _, _, hu, _ => by simp at hu
  | j + 1, st, (l, r) :: rand, u :: us, hp, hb, hg, hr, hu, h0 => by
    have two : 2 ^ (j + 1) = 2 ^ j + 2 ^ j := by rw [pow_succ]; omega
    rw [two] at hp hb hg
    by_cases hz : u = 0
    · unfold rounds
      have hf : fold (2 ^ j) st l r u = .error .unwrap := by
        unfold fold
        rw [if_pos hz]
      rw [message_ok params z hp hb hg, hf]
      rfl
    · obtain ⟨m, st', h1, h2, hp', hb', hg', -, -, -⟩ := round_total params z hp hb hg l r hz
      have h3 := rounds_panic params z j st' rand us hp' hb' hg' (by simpa using hr) (by simpa using hu) (by
        obtain ⟨v, hv, rfl⟩ := h0
        rcases List.mem_cons.1 hv with h | h
        · exact absurd h.symm hz
        · exact ⟨0, h, rfl⟩)
      unfold rounds
      simp only [h1, h2, h3, bind, Except.bind]

omit [AddCommGroup M] [Module Fr M] in
theorem g_cons {params : Params M} (ok : Ok params) : ∃ g0 gs, params.g = g0 :: gs := by
  have h := ok.g
  rw [ok.n] at h
  cases hg : params.g with
  | nil =>
    rw [hg] at h
    have := Nat.one_le_two_pow (n := params.k)
    rw [List.length_nil] at h
    omega
  | cons a l => exact ⟨a, l, rfl⟩

theorem dot_scale_add (xi : Fr) : ∀ {s p : List Fr}, s.length = p.length → ∀ g : List M,
    dot (List.zipWith (fun a b => a * xi + b) s p) g = xi • dot s g + dot p g := by
  intro s p h g
  rw [← dot_mul, ← dot_add (by simp [h]), List.zipWith_map_left]

theorem commit_eq (params : Params M) (ok : Ok params) {p : List Fr} (hp : p.length = params.n) (r : Fr) :
    commit params p r = .ok (dot p params.g + r • params.w) := by
  unfold commit
  rw [multiexp_dot (by simp [hp, ok.g]), dot_append (by rw [hp, ok.g]), dot_cons, dot_nil, add_zero]

/-- The part of the prover before the rounds. -/
theorem prove_start (params : Params M) (ok : Ok params) (draws : Draws) (hs : draws.s.length = params.n) (p : List Fr)
    (hp : p.length = params.n) (blind x xi z : Fr) (us : List Fr) :
    ∃ (sc : M) (st : State M), prove params draws p blind x xi z us = (do
        let (ms, st) ← rounds params z params.k st draws.rounds us
        match st.p with
        | [c] => return ⟨sc, ms, c, st.f⟩
        | _ => .error .assert) ∧ st.p.length = params.n ∧ st.b = (List.range (2 ^ params.k)).map (x ^ ·) ∧
      st.g = params.g ∧ ∀ g0 gs, params.g = g0 :: gs → ∀ a, commit params p blind = .ok a →
        total params z st = a - polyAt p x • g0 + xi • sc := by
  obtain ⟨s, sBlind, rand⟩ := draws
  dsimp only at hs
  have hn : 1 ≤ params.n := by rw [ok.n]; exact Nat.one_le_two_pow
  cases s with
  | nil => simp at hs; omega
  | cons s0 ss =>
    cases p with
    | nil => simp at hp; omega
    | cons p0 ps =>
      set v := polyAt (s0 :: ss) x with hv
      have hs' : ((s0 - v) :: ss).length = params.n := by simpa using hs
      have hz : polyAt ((s0 - v) :: ss) x = 0 := by
        rw [polyAt_cons] at hv ⊢
        rw [hv]
        ring
      have hzip : List.zipWith (fun a b => a * xi + b) ((s0 - v) :: ss) (p0 :: ps) =
          ((s0 - v) * xi + p0) :: List.zipWith (fun a b => a * xi + b) ss ps := rfl
      have hps : ps.length = ss.length := by
        simp at hs hp
        omega
      set w := polyAt (((s0 - v) * xi + p0) :: List.zipWith (fun a b => a * xi + b) ss ps) x with hw
      have hw' : w = polyAt (p0 :: ps) x := by
        rw [hw, polyAt_dot, ← hzip, dot_scale_add xi (by simp [hps])]
        have e : (List.zipWith (fun a b => a * xi + b) ((s0 - v) :: ss) (p0 :: ps)).length = params.n := by
          rw [List.length_zipWith, hs', hp, min_self]
        rw [polyAt_dot, hs'] at hz
        rw [e, hz, polyAt_dot, hp, smul_zero, zero_add]
      refine ⟨dot ((s0 - v) :: ss) params.g + sBlind • params.w,
        ⟨((s0 - v) * xi + p0 - w) :: List.zipWith (fun a b => a * xi + b) ss ps, (List.range (2 ^ params.k)).map (x ^ ·), params.g,
          sBlind * xi + blind⟩, ?_, ?_, rfl, rfl, ?_⟩
      · unfold prove
        dsimp only
        rw [if_neg (by simpa using hp), evalPolynomial_eq]
        simp only [bind, Except.bind]
        rw [← hv, commit_eq params ok hs']
        dsimp only
        rw [if_neg (show ¬ ((s0 - v) :: ss).length ≠ (p0 :: ps).length by rw [hs', hp]; simp), hzip, evalPolynomial_eq, ← hw]
        rfl
      · simp [hps]
        simpa using hs
      · intro g0 gs hg a ha
        rw [commit_eq params ok hp] at ha
        have ha := Except.ok.inj ha
        unfold total
        dsimp only
        have e1 : dot (((s0 - v) * xi + p0 - w) :: List.zipWith (fun a b => a * xi + b) ss ps) params.g =
            xi • dot ((s0 - v) :: ss) params.g + dot (p0 :: ps) params.g - w • g0 := by
          rw [← dot_scale_add xi (by simp [hps]), hzip, hg, dot_cons, dot_cons]
          module
        have e2 : dot (((s0 - v) * xi + p0 - w) :: List.zipWith (fun a b => a * xi + b) ss ps) ((List.range (2 ^ params.k)).map (x ^ ·)) =
            0 := by
          have e : (((s0 - v) * xi + p0 - w) :: List.zipWith (fun a b => a * xi + b) ss ps).length = 2 ^ params.k := by
            rw [← ok.n, ← hs']
            simp [hps]
          rw [← e, ← polyAt_dot, polyAt_cons]
          rw [polyAt_cons] at hw
          rw [hw]
          ring
        rw [e1, e2, ← ha, ← hw']
        module

/-! ### Sums -/

section Sums

variable [DecidableEq K] [Neg K] [DecidableEq M]

/-- The points can be rebuilt, and there is a scalar for each of the generators. -/
structure Good (cs : Coords K M) (n : Nat) (m : Msm K) : Prop where
  other : ∀ e ∈ m.other, ∃ p, cs.fromXY e.1 e.2.2 = some p
  g : ∀ g, m.g = some g → g.length = n

/-- The points of the map. -/
def others (cs : Coords K M) (es : List (K × Fr × K)) : M := (es.map fun e => e.2.1 • (cs.fromXY e.1 e.2.2).getD 0).sum

/-- What the sum stands for. -/
def val (cs : Coords K M) (params : Params M) (m : Msm K) : M :=
  others cs m.other + m.w.getD 0 • params.w + m.u.getD 0 • params.u + dot (m.g.getD []) params.g

omit [DecidableEq K] [Neg K] [DecidableEq M] [Module Fr M] in
theorem mapM_points (cs : Coords K M) {es : List (K × Fr × K)} (h : ∀ e ∈ es, ∃ p, cs.fromXY e.1 e.2.2 = some p) :
    es.mapM cs.point =
      .ok (es.map fun e => (cs.fromXY e.1 e.2.2).getD 0) := by
  induction es with
  | nil => rfl
  | cons e es ih =>
    obtain ⟨p, hp⟩ := h e (by simp)
    rw [List.mapM_cons, ih (fun a ha => h a (by simp [ha])), Coords.point, hp]
    simp [bind, Except.bind, pure, Except.pure, hp]

omit [DecidableEq K] [Neg K] [DecidableEq M] [AddCommGroup M] [Module Fr M] in
theorem mapM_points_inv (cs : Coords K M) {es : List (K × Fr × K)} {ps : List M}
    (h : es.mapM cs.point = .ok ps) :
    ∀ e ∈ es, ∃ p, cs.fromXY e.1 e.2.2 = some p := by
  induction es generalizing ps with
  | nil => simp
  | cons e es ih =>
    rw [List.mapM_cons, Coords.point] at h
    cases hp : cs.fromXY e.1 e.2.2 with
    | none => rw [hp] at h; simp [bind, Except.bind] at h
    | some p =>
      rw [hp] at h
      simp only [bind, Except.bind] at h
      split at h
      · cases h
      · rename_i ps' hps
        intro a ha
        rcases List.mem_cons.1 ha with rfl | ha
        · exact ⟨p, hp⟩
        · exact ih hps a ha

omit [DecidableEq K] [Neg K] [DecidableEq M] in
theorem dot_others (cs : Coords K M) (es : List (K × Fr × K)) :
    dot (es.map (·.2.1)) (es.map fun e => (cs.fromXY e.1 e.2.2).getD 0) = others cs es := by
  induction es with
  | nil => simp [dot_nil, others]
  | cons e es ih => rw [List.map_cons, List.map_cons, dot_cons, ih]; simp [others]

omit [DecidableEq K] [Neg K] [DecidableEq M] in
theorem eval_eq (cs : Coords K M) (params : Params M) {m : Msm K} (h : Good cs params.g.length m) :
    m.eval cs params = .ok (val cs params m) := by
  unfold Msm.eval
  rw [mapM_points cs h.other]
  obtain ⟨g, w, u, es⟩ := m
  have hl : (es.map (·.2.1)).length = (es.map fun e => (cs.fromXY e.1 e.2.2).getD (0 : M)).length := by simp
  have hg := h.g
  dsimp only at hg
  have key : ∀ {s : List Fr} {b : List M}, s.length = b.length → (match g with
      | some g => (s ++ g, b ++ params.g) | none => (s, b)) = (s ++ g.getD [], b ++ match g with | some _ => params.g | none => []) := by
    intro s b hs
    cases g <;> simp
  simp only [bind, Except.bind]
  rw [show val cs params ⟨g, w, u, es⟩ = others cs es + w.getD 0 • params.w + u.getD 0 • params.u + dot (g.getD []) params.g from rfl,
    ← dot_others]
  cases g with
  | none =>
    cases w <;> cases u <;> dsimp only [Option.getD] <;> rw [multiexp_dot (by simp)] <;> congr 1 <;>
      simp [dot_append, dot_cons, dot_nil, add_assoc]
  | some g =>
    have hg' := hg g rfl
    cases w <;> cases u <;> dsimp only [Option.getD] <;> rw [multiexp_dot (by simp [hg'])] <;> congr 1 <;>
      simp [dot_append, dot_cons, add_assoc]

omit [DecidableEq K] [Neg K] [DecidableEq M] in
/-- A sum that can be evaluated is good. -/
theorem eval_inv (cs : Coords K M) (params : Params M) {m : Msm K} {a : M} (h : m.eval cs params = .ok a) :
    Good cs params.g.length m := by
  obtain ⟨g, w, u, es⟩ := m
  unfold Msm.eval at h
  dsimp only at h
  cases hps : es.mapM cs.point with
  | error e => rw [hps] at h; cases h
  | ok ps =>
    have ho := mapM_points_inv cs hps
    refine ⟨ho, ?_⟩
    intro g' hg'
    dsimp only at hg'
    subst hg'
    rw [mapM_points cs ho] at h
    simp only [bind, Except.bind] at h
    cases w <;> cases u <;> (have := (multiexp_ok h).1; simpa using this)

omit [DecidableEq M] in
/-- Terms of the same x coordinate are put together. -/
theorem upsert_ok {cs : Coords K M} (law : Lawful cs) {x y : K} {p : M} (hp : cs.fromXY x y = some p) (c : Fr) :
    ∀ {es : List (K × Fr × K)}, (∀ e ∈ es, ∃ p, cs.fromXY e.1 e.2.2 = some p) →
    ∃ es', upsert x c y es = .ok es' ∧ (∀ e ∈ es', ∃ p, cs.fromXY e.1 e.2.2 = some p) ∧ others cs es' = others cs es + c • p
  | [], _ => ⟨[(x, c, y)], rfl, by simp [hp], by simp [others, hp]⟩
  | (x', s', y') :: es, h => by
    have htail : ∀ e ∈ es, ∃ p, cs.fromXY e.1 e.2.2 = some p := fun e he => h e (by simp [he])
    obtain ⟨p', hp'⟩ := h (x', s', y') (by simp)
    dsimp only at hp'
    by_cases hx : x' = x
    · subst hx
      unfold upsert
      rw [if_pos rfl]
      by_cases hy : y' = y
      · subst hy
        rw [if_pos rfl]
        rw [hp] at hp'
        cases hp'
        refine ⟨_, rfl, ?_, ?_⟩
        · intro e he
          rcases List.mem_cons.1 he with rfl | he
          · exact ⟨p, hp⟩
          · exact htail e he
        · simp only [others, List.map_cons, List.sum_cons, hp, Option.getD_some]
          module
      · rw [if_neg hy]
        rcases law.sign x' y' y p' p hp' hp with h1 | ⟨h1, h2⟩
        · exact absurd h1 hy
        · rw [if_pos h1]
          refine ⟨_, rfl, ?_, ?_⟩
          · intro e he
            rcases List.mem_cons.1 he with rfl | he
            · exact ⟨p', hp'⟩
            · exact htail e he
          · simp only [others, List.map_cons, List.sum_cons, hp', Option.getD_some, h2]
            module
    · obtain ⟨es', h1, h2, h3⟩ := upsert_ok law hp c htail
      refine ⟨(x', s', y') :: es', ?_, ?_, ?_⟩
      · unfold upsert
        rw [if_neg hx, h1]
        rfl
      · intro e he
        rcases List.mem_cons.1 he with rfl | he
        · exact ⟨p', hp'⟩
        · exact h2 e he
      · have e1 : ∀ (l : List (K × Fr × K)), others cs ((x', s', y') :: l) = s' • p' + others cs l := by
          intro l
          simp [others, hp']
        rw [e1, e1, h3]
        abel

theorem appendTerm_ok {cs : Coords K M} (law : Lawful cs) (params : Params M) {n : Nat} {m : Msm K} (h : Good cs n m) (c : Fr) (p : M) :
    ∃ m', m.appendTerm cs c p = .ok m' ∧ Good cs n m' ∧ val cs params m' = val cs params m + c • p := by
  unfold Msm.appendTerm
  by_cases h0 : p = 0
  · rw [if_pos h0]
    exact ⟨m, rfl, h, by simp [h0]⟩
  · obtain ⟨x, y, h1, h2⟩ := law.coords p h0
    obtain ⟨es', h3, h4, h5⟩ := upsert_ok law h2 c h.other
    rw [if_neg h0, h1]
    dsimp only
    rw [h3]
    refine ⟨_, rfl, ⟨h4, h.g⟩, ?_⟩
    unfold val
    dsimp only
    rw [h5]
    abel

omit [DecidableEq K] [Neg K] [DecidableEq M] in
theorem addToG_ok {cs : Coords K M} (params : Params M) {n : Nat} {m : Msm K} (h : Good cs n m) {s : List Fr}
    (hs : s.length = n) :
    ∃ m', m.addToG n s = .ok m' ∧ Good cs n m' ∧ val cs params m' = val cs params m + dot s params.g := by
  unfold Msm.addToG
  rw [if_neg (by simp [hs])]
  refine ⟨_, rfl, ⟨h.other, ?_⟩, ?_⟩
  · intro g hg
    dsimp only at hg
    cases hm : m.g with
    | none =>
      rw [hm] at hg
      cases hg
      exact hs
    | some g' =>
      have hg' := h.g g' hm
      rw [hm] at hg
      cases hg
      simp [hg', hs]
  · unfold val
    dsimp only
    cases hm : m.g with
    | none => simp [dot_nil]
    | some g' =>
      have hg' := h.g g' hm
      simp only [Option.getD_some]
      rw [List.drop_of_length_le (by omega), List.append_nil, dot_add (by omega)]
      abel

omit [DecidableEq K] [Neg K] [DecidableEq M] in
theorem addConstant_ok {cs : Coords K M} (params : Params M) {n : Nat} (hn : 1 ≤ n) {m : Msm K} (h : Good cs n m)
    {g0 : M} {gs : List M} (hg : params.g = g0 :: gs) (c : Fr) :
    ∃ m', m.addConstant n c = .ok m' ∧ Good cs n m' ∧ val cs params m' = val cs params m + c • g0 := by
  have hl : ∀ l : List Fr, dot (l.getD 0 0 :: l.tail) params.g = dot l params.g := by
    intro l
    cases l with
    | nil =>
      rw [hg, dot_cons, List.tail_nil, dot_nil, dot_nil]
      simp
    | cons a l => rfl
  have hz : ∀ j (l : List M), dot (List.replicate j 0) l = 0 := by
    intro j
    induction j with
    | zero => simp [dot_nil]
    | succ j ih => intro l; cases l with
      | nil => simp [dot_nil_right]
      | cons a l => rw [List.replicate_succ, dot_cons, ih]; simp
  unfold Msm.addConstant
  cases hm : m.g with
  | none =>
    obtain ⟨j, rfl⟩ : ∃ j, n = j + 1 := ⟨n - 1, by omega⟩
    rw [Option.getD_none, List.replicate_succ]
    refine ⟨_, rfl, ⟨h.other, ?_⟩, ?_⟩
    · intro g hg
      cases hg
      simp
    · unfold val
      dsimp only
      rw [hm, hg, Option.getD_none, Option.getD_some, dot_cons, hz, dot_nil, zero_add]
      abel
  | some g =>
    have hg' := h.g g hm
    cases g with
    | nil => simp at hg'; omega
    | cons a as =>
      rw [Option.getD_some]
      refine ⟨_, rfl, ⟨h.other, ?_⟩, ?_⟩
      · intro g hg
        cases hg
        simpa using hg'
      · unfold val
        dsimp only
        rw [hm, hg, Option.getD_some, Option.getD_some, dot_cons, dot_cons]
        module

omit [DecidableEq K] [Neg K] [DecidableEq M] in
theorem addToU_ok {cs : Coords K M} (params : Params M) {n : Nat} {m : Msm K} (h : Good cs n m) (c : Fr) :
    Good cs n (m.addToU c) ∧ val cs params (m.addToU c) = val cs params m + c • params.u := by
  refine ⟨⟨h.other, h.g⟩, ?_⟩
  unfold val Msm.addToU
  cases m.u <;> simp only [Option.getD_some, Option.getD_none] <;> module

omit [DecidableEq K] [Neg K] [DecidableEq M] in
theorem addToW_ok {cs : Coords K M} (params : Params M) {n : Nat} {m : Msm K} (h : Good cs n m) (c : Fr) :
    Good cs n (m.addToW c) ∧ val cs params (m.addToW c) = val cs params m + c • params.w := by
  refine ⟨⟨h.other, h.g⟩, ?_⟩
  unfold val Msm.addToW
  cases m.w <;> simp only [Option.getD_some, Option.getD_none] <;> module

omit [DecidableEq K] [Neg K] [DecidableEq M] in
theorem scale_ok {cs : Coords K M} (params : Params M) {n : Nat} {m : Msm K} (h : Good cs n m) (c : Fr) :
    Good cs n (m.scale c) ∧ val cs params (m.scale c) = c • val cs params m := by
  obtain ⟨g, w, u, es⟩ := m
  refine ⟨⟨?_, ?_⟩, ?_⟩
  · intro e he
    obtain ⟨e', he', rfl⟩ := List.mem_map.1 he
    exact h.other e' he'
  · intro g' hg'
    cases g with
    | none => cases hg'
    | some g =>
      cases hg'
      simpa using h.g g rfl
  · have ho : others cs (es.map fun e => (e.1, e.2.1 * c, e.2.2)) = c • others cs es := by
      unfold others
      rw [List.map_map, List.smul_sum, List.map_map]
      congr 2
      funext e
      simp only [Function.comp, smul_smul, mul_comm]
    have hd : dot ((g.map fun g => g.map (· * c)).getD []) params.g = c • dot (g.getD []) params.g := by
      cases g with
      | none => simp [dot_nil]
      | some g => exact dot_mul c g params.g
    have hf : ∀ (a : Option Fr) (p : M), (a.map (· * c)).getD 0 • p = c • a.getD 0 • p := by
      intro a p
      cases a <;> simp [smul_smul, mul_comm]
    unfold val Msm.scale
    dsimp only
    rw [ho, hd, hf, hf, smul_add, smul_add, smul_add]

omit [DecidableEq M] in
/-- `add_msm` adds. -/
theorem add_ok {cs : Coords K M} (law : Lawful cs) (params : Params M) {n : Nat} {m o : Msm K} (h : Good cs n m) (h' : Good cs n o) :
    ∃ m', m.add n o = .ok m' ∧ Good cs n m' ∧ val cs params m' = val cs params m + val cs params o := by
  have fold : ∀ (l es : List (K × Fr × K)), (∀ e ∈ l, ∃ p, cs.fromXY e.1 e.2.2 = some p) →
      (∀ e ∈ es, ∃ p, cs.fromXY e.1 e.2.2 = some p) →
      ∃ es', l.foldlM (fun es (e : K × Fr × K) => upsert e.1 e.2.1 e.2.2 es) es = .ok es' ∧
        (∀ e ∈ es', ∃ p, cs.fromXY e.1 e.2.2 = some p) ∧ others cs es' = others cs es + others cs l := by
    intro l
    induction l with
    | nil => intro es _ h; exact ⟨es, rfl, h, by simp [others]⟩
    | cons e l ih =>
      intro es hl hes
      obtain ⟨p, hp⟩ := hl e (by simp)
      obtain ⟨es1, h1, h2, h3⟩ := upsert_ok law hp e.2.1 hes
      obtain ⟨es2, h4, h5, h6⟩ := ih es1 (fun a ha => hl a (by simp [ha])) h2
      refine ⟨es2, ?_, h5, ?_⟩
      · rw [List.foldlM_cons, h1]
        exact h4
      · rw [h6, h3]
        simp only [others, List.map_cons, List.sum_cons, hp, Option.getD_some]
        abel
  obtain ⟨es, h1, h2, h3⟩ := fold o.other m.other h'.other h.other
  have g1 : Good cs n { m with other := es } := ⟨h2, h.g⟩
  have v1 : val cs params { m with other := es } = val cs params m + others cs o.other := by
    unfold val
    dsimp only
    rw [h3]
    abel
  have : ∃ m2, (match o.g with | some g => Msm.addToG { m with other := es } n g | none => .ok { m with other := es }) = .ok m2 ∧
      Good cs n m2 ∧ val cs params m2 = val cs params m + others cs o.other + dot (o.g.getD []) params.g := by
    cases hg : o.g with
    | none => exact ⟨_, rfl, g1, by rw [v1]; simp [dot_nil]⟩
    | some g =>
      obtain ⟨m2, e1, e2, e3⟩ := addToG_ok params g1 (h'.g g hg)
      exact ⟨m2, e1, e2, by rw [e3, v1]; rfl⟩
  obtain ⟨m2, e1, e2, e3⟩ := this
  have : ∃ m3, (match o.w with | some w => m2.addToW w | none => m2) = m3 ∧
      Good cs n m3 ∧ val cs params m3 = val cs params m + others cs o.other + dot (o.g.getD []) params.g + o.w.getD 0 • params.w := by
    cases o.w with
    | none => exact ⟨_, rfl, e2, by rw [e3]; simp⟩
    | some w => exact ⟨_, rfl, (addToW_ok params e2 w).1, by rw [(addToW_ok params e2 w).2, e3]; rfl⟩
  obtain ⟨m3, f1, f2, f3⟩ := this
  have : ∃ m4, (match o.u with | some u => m3.addToU u | none => m3) = m4 ∧
      Good cs n m4 ∧ val cs params m4 = val cs params m + others cs o.other + dot (o.g.getD []) params.g + o.w.getD 0 • params.w +
        o.u.getD 0 • params.u := by
    cases o.u with
    | none => exact ⟨_, rfl, f2, by rw [f3]; simp⟩
    | some u => exact ⟨_, rfl, (addToU_ok params f2 u).1, by rw [(addToU_ok params f2 u).2, f3]; rfl⟩
  obtain ⟨m4, k1, k2, k3⟩ := this
  refine ⟨m4, ?_, k2, ?_⟩
  · unfold Msm.add
    simp only [h1, bind, Except.bind, pure, Except.pure]
    rw [← k1, ← f1]
    cases hg : o.g with
    | none =>
      rw [hg] at e1
      cases e1
      rfl
    | some g =>
      rw [hg] at e1
      dsimp only at e1 ⊢
      rw [e1]
      rfl
  · rw [k3]
    unfold val
    abel

/-! ### The verifier -/

/-- The rounds of the verifier. -/
theorem messages_ok {cs : Coords K M} (law : Lawful cs) (params : Params M) {n : Nat} :
    ∀ (l : List ((M × M) × Fr)) {m : Msm K}, Good cs n m →
    ∃ m', l.foldlM (fun (m : Msm K) (e : (M × M) × Fr) => do
      (← m.appendTerm cs e.2⁻¹ e.1.1).appendTerm cs e.2 e.1.2) m = .ok m' ∧ Good cs n m' ∧
      val cs params m' = val cs params m + (l.map fun e => e.2⁻¹ • e.1.1 + e.2 • e.1.2).sum
  | [], m, h => ⟨m, rfl, h, by simp⟩
  | e :: l, m, h => by
    obtain ⟨m1, h1, h2, h3⟩ := appendTerm_ok law params h e.2⁻¹ e.1.1
    obtain ⟨m2, h4, h5, h6⟩ := appendTerm_ok law params h2 e.2 e.1.2
    obtain ⟨m3, h7, h8, h9⟩ := messages_ok law params l h5
    refine ⟨m3, ?_, h8, ?_⟩
    · rw [List.foldlM_cons]
      simp only [h1, h4, bind, Except.bind] at h7 ⊢
      exact h7
    · rw [h9, h6, h3, List.map_cons, List.sum_cons]
      abel

theorem verify_ok {cs : Coords K M} (law : Lawful cs) (params : Params M) (ok : Ok params) {m : Msm K} (h : Good cs params.n m)
    {g0 : M} {gs : List M} (hg : params.g = g0 :: gs) (proof : Proof M) (x v xi z : Fr) (us : List Fr) :
    ∃ m', verify cs params m proof x v xi z us = .ok ⟨m', -proof.c, us⟩ ∧ Good cs params.n m' ∧
      val cs params m' = val cs params m + rest params g0 proof x v xi z us := by
  obtain ⟨m1, h1, h2, h3⟩ := addConstant_ok params (by rw [ok.n]; exact Nat.one_le_two_pow) h hg (-v)
  obtain ⟨m2, h4, h5, h6⟩ := appendTerm_ok law params h2 xi proof.s
  obtain ⟨m3, h7, h8, h9⟩ := messages_ok law params (proof.rounds.zip us) h5
  obtain ⟨h10, h11⟩ := addToU_ok params h8 (-proof.c * computeB x us * z)
  obtain ⟨h12, h13⟩ := addToW_ok params h10 (-proof.f)
  refine ⟨_, ?_, h12, ?_⟩
  · unfold verify
    simp only [bind, Except.bind] at h7 ⊢
    simp only [h1, h4, h7]
    rfl
  · rw [h13, h11, h9, h6, h3, computeB_eq]
    unfold rest sent
    module

omit [DecidableEq K] [Neg K] [DecidableEq M] in
theorem useChallenges_ok {cs : Coords K M} (params : Params M) (ok : Ok params) {m : Msm K} (h : Good cs params.n m) (c : Fr)
    {us : List Fr} (hu : us.length = params.k) :
    ∃ m', Guard.useChallenges ⟨m, c, us⟩ params.n = .ok m' ∧ Good cs params.n m' ∧
      val cs params m' = val cs params m + c • dot (coeffs us) params.g := by
  have hne : us ≠ [] := by
    rintro rfl
    have := ok.k
    simp at hu
    omega
  obtain ⟨m', h1, h2, h3⟩ := addToG_ok params h (s := (coeffs us).map (· * c)) (by rw [List.length_map, coeffs_length, hu, ok.n])
  refine ⟨m', ?_, h2, ?_⟩
  · unfold Guard.useChallenges
    dsimp only
    rw [computeS_eq hne]
    exact h1
  · rw [h3, dot_mul]

/-- The verifier tests one equation. -/
theorem accepts_eq {cs : Coords K M} (law : Lawful cs) (params : Params M) (ok : Ok params) {m : Msm K} {a : M}
    (h : m.eval cs params = .ok a) {g0 : M} {gs : List M} (hg : params.g = g0 :: gs) (proof : Proof M) (x v xi z : Fr) {us : List Fr}
    (hu : us.length = params.k) :
    accepts cs params m proof x v xi z us =
      .ok (decide (a + rest params g0 proof x v xi z us - proof.c • dot (coeffs us) params.g = 0)) := by
  have hgood := eval_inv cs params h
  have ha : a = val cs params m := by
    rw [eval_eq cs params hgood] at h
    exact (Except.ok.inj h).symm
  rw [ok.g] at hgood
  obtain ⟨m1, h1, h2, h3⟩ := verify_ok law params ok hgood hg proof x v xi z us
  obtain ⟨m2, h4, h5, h6⟩ := useChallenges_ok params ok h2 (-proof.c) hu
  have h7 := eval_eq cs params (m := m2) (by rw [ok.g]; exact h5)
  unfold accepts Msm.check
  simp only [h1, h4, h7, bind, Except.bind, pure, Except.pure]
  rw [h6, h3, ha, neg_smul, ← sub_eq_add_neg]

omit [Module Fr M] in
/-- There is a scalar for each of the generators at the end. -/
theorem appendTerm_g {cs : Coords K M} {m m' : Msm K} {c : Fr} {p : M} (h : m.appendTerm cs c p = .ok m') : m'.g = m.g := by
  unfold Msm.appendTerm at h
  split at h
  · cases h
    rfl
  · split at h
    · cases h
    · cases hu : upsert _ c _ m.other with
      | error e => rw [hu] at h; cases h
      | ok es => rw [hu] at h; cases h; rfl

omit [Module Fr M] in
theorem accepts_inv {cs : Coords K M} {params : Params M} {m : Msm K} (hm : ∀ g, m.g = some g → g.length = params.n) {proof : Proof M}
    {x v xi z : Fr} {us : List Fr} {b : Bool} (h : accepts cs params m proof x v xi z us = .ok b) :
    ∃ (m' : Msm K) (a : M) (g : List Fr), m'.eval cs params = .ok a ∧ m'.g = some g ∧ g.length = params.n := by
  unfold accepts at h
  cases h1 : verify cs params m proof x v xi z us with
  | error e => rw [h1] at h; cases h
  | ok guard =>
    rw [h1] at h
    cases h2 : guard.useChallenges params.n with
    | error e => simp only [bind, Except.bind, h2] at h; cases h
    | ok m2 =>
      simp only [bind, Except.bind, h2] at h
      unfold Msm.check at h
      cases h3 : m2.eval cs params with
      | error e => rw [h3] at h; cases h
      | ok a =>
        have hv : ∃ g, guard.msm.g = some g ∧ g.length = params.n := by
          unfold verify at h1
          cases k1 : m.addConstant params.n (-v) with
          | error e => rw [k1] at h1; cases h1
          | ok m3 =>
            rw [k1] at h1
            have k2 : ∃ g, m3.g = some g ∧ g.length = params.n := by
              unfold Msm.addConstant at k1
              split at k1
              · cases k1
              · rename_i a as ha
                cases k1
                refine ⟨_, rfl, ?_⟩
                cases hmg : m.g with
                | none =>
                  rw [hmg, Option.getD_none] at ha
                  have := congrArg List.length ha
                  simpa using this.symm
                | some g =>
                  rw [hmg, Option.getD_some] at ha
                  have := hm g hmg
                  rw [ha] at this
                  simpa using this
            cases k3 : m3.appendTerm cs xi proof.s with
            | error e => simp only [bind, Except.bind, k3] at h1; cases h1
            | ok m4 =>
              have k4 := appendTerm_g k3
              have fold : ∀ (l : List ((M × M) × Fr)) (m m' : Msm K), l.foldlM (fun (m : Msm K) (e : (M × M) × Fr) => do
                  (← m.appendTerm cs e.2⁻¹ e.1.1).appendTerm cs e.2 e.1.2) m = .ok m' → m'.g = m.g := by
                intro l
                induction l with
                | nil => intro m m' h; cases h; rfl
                | cons e l ih =>
                  intro m m' h
                  rw [List.foldlM_cons] at h
                  cases f1 : m.appendTerm cs e.2⁻¹ e.1.1 with
                  | error e => simp only [bind, Except.bind, f1] at h; cases h
                  | ok n1 =>
                    cases f2 : n1.appendTerm cs e.2 e.1.2 with
                    | error e => simp only [bind, Except.bind, f1, f2] at h; cases h
                    | ok n2 =>
                      simp only [bind, Except.bind, f1, f2] at h
                      rw [ih n2 m' (by simp only [bind, Except.bind]; exact h), appendTerm_g f2, appendTerm_g f1]
              cases k5 : (proof.rounds.zip us).foldlM (fun (m : Msm K) (e : (M × M) × Fr) => do
                  (← m.appendTerm cs e.2⁻¹ e.1.1).appendTerm cs e.2 e.1.2) m4 with
              | error e => simp only [bind, Except.bind] at k5; simp only [bind, Except.bind, k3, k5] at h1; cases h1
              | ok m5 =>
                have k6 := fold _ _ _ k5
                simp only [bind, Except.bind] at k5
                simp only [bind, Except.bind, k3, k5, pure, Except.pure] at h1
                cases h1
                show ∃ g, m5.g = some g ∧ _
                rw [k6, k4]
                exact k2
        obtain ⟨g, hg, hgl⟩ := hv
        unfold Guard.useChallenges at h2
        cases k1 : computeS guard.us guard.negC with
        | error e => rw [k1] at h2; cases h2
        | ok sc =>
          rw [k1] at h2
          simp only [bind, Except.bind] at h2
          unfold Msm.addToG at h2
          split at h2
          · cases h2
          · rename_i hl
            cases h2
            refine ⟨_, a, _, h3, rfl, ?_⟩
            rw [hg]
            have : sc.length = params.n := by simpa using hl
            simp [hgl, this]

end Sums

/-! ### Batches -/

section Batches

variable [DecidableEq K] [Neg K] [DecidableEq M]

/-- What an opening adds to the sum. -/
def defect (params : Params M) (g0 : M) (i : Item M) : M :=
  i.commitment + rest params g0 i.proof i.x i.v i.xi i.z i.us - i.proof.c • dot (coeffs i.us) params.g

omit [DecidableEq K] [Neg K] [DecidableEq M] in
theorem empty_good (cs : Coords K M) (params : Params M) (n : Nat) : Good cs n {} ∧ val cs params {} = 0 :=
  ⟨⟨by simp, by simp⟩, by simp [val, others, dot_nil]⟩

/-- A batch tests one equation, with powers of 42. -/
theorem batch_eq {cs : Coords K M} (law : Lawful cs) (params : Params M) (ok : Ok params) {g0 : M} {gs : List M}
    (hg : params.g = g0 :: gs) (items : List (Item M)) (hu : ∀ i ∈ items, i.us.length = params.k) :
    acceptsBatch cs params items =
      .ok (decide (items.foldl (fun acc i => (42 : Fr) • acc + defect params g0 i) 0 = 0)) := by
  have key : ∀ (items : List (Item M)) (m : Msm K), (∀ i ∈ items, i.us.length = params.k) → Good cs params.n m →
      ∃ m', items.foldlM (fun (m : Msm K) (i : Item M) => do
        let m ← (m.scale 42).appendTerm cs 1 i.commitment
        let guard ← verify cs params m i.proof i.x i.v i.xi i.z i.us
        guard.useChallenges params.n) m = .ok m' ∧ Good cs params.n m' ∧
        val cs params m' = items.foldl (fun acc i => (42 : Fr) • acc + defect params g0 i) (val cs params m) := by
    intro items
    induction items with
    | nil => intro m _ h; exact ⟨m, rfl, h, rfl⟩
    | cons i items ih =>
      intro m hu h
      obtain ⟨s1, s2⟩ := scale_ok params h 42
      obtain ⟨m1, h1, h2, h3⟩ := appendTerm_ok law params s1 1 i.commitment
      obtain ⟨m2, h4, h5, h6⟩ := verify_ok law params ok h2 hg i.proof i.x i.v i.xi i.z i.us
      obtain ⟨m3, h7, h8, h9⟩ := useChallenges_ok params ok h5 (-i.proof.c) (hu i (by simp))
      obtain ⟨m4, h10, h11, h12⟩ := ih m3 (fun j hj => hu j (by simp [hj])) h8
      refine ⟨m4, ?_, h11, ?_⟩
      · rw [List.foldlM_cons]
        simp only [bind, Except.bind] at h10 ⊢
        simp only [h1, h4, h7]
        exact h10
      · rw [h12, List.foldl_cons, h9, h6, h3, s2]
        congr 1
        unfold defect
        module
  obtain ⟨h1, h2⟩ := empty_good cs params params.n
  obtain ⟨m, h3, h4, h5⟩ := key items {} hu h1
  unfold acceptsBatch Msm.check
  simp only [bind, Except.bind] at h3 ⊢
  simp only [h3]
  rw [eval_eq cs params (by rw [ok.g]; exact h4), h5, h2]
  rfl

theorem accepts_defect {cs : Coords K M} (law : Lawful cs) (params : Params M) (ok : Ok params) {g0 : M} {gs : List M}
    (hg : params.g = g0 :: gs) (i : Item M) (hu : i.us.length = params.k) {m : Msm K} (hm : m.eval cs params = .ok i.commitment) :
    accepts cs params m i.proof i.x i.v i.xi i.z i.us = .ok (decide (defect params g0 i = 0)) :=
  accepts_eq law params ok hm hg _ _ _ _ _ hu

end Batches

/-! ### Soundness -/

open Polynomial in
/-- A vector outside a subspace: at most two combinations of this kind are in it. -/
theorem two_roots (T : Submodule Fr M) {p : M} (h : p ∉ T) (l r : M) :
    ∃ B : Finset Fr, B.card ≤ 2 ∧ ∀ u, p + u⁻¹ • l + u • r ∈ T → u ∈ B := by
  have hne : T.mkQ p ≠ 0 := by
    intro hc
    exact h ((Submodule.Quotient.mk_eq_zero T).1 hc)
  obtain ⟨φ, hφ⟩ : ∃ φ : Module.Dual Fr (M ⧸ T), φ (T.mkQ p) ≠ 0 := by
    by_contra hc
    push Not at hc
    exact hne ((Module.forall_dual_apply_eq_zero_iff Fr _).1 hc)
  let f : Fr[X] := C (φ (T.mkQ r)) * X ^ 2 + C (φ (T.mkQ p)) * X + C (φ (T.mkQ l))
  have hf : f ≠ 0 := by
    intro hc
    have := congrArg (fun q => coeff q 1) hc
    simp [f, coeff_C] at this
    exact hφ this
  refine ⟨f.roots.toFinset, ?_, ?_⟩
  · refine (Multiset.toFinset_card_le _).trans ((card_roots' f).trans ?_)
    exact natDegree_quadratic_le
  · intro u hu
    by_cases h0 : u = 0
    · subst h0
      simp at hu
      exact absurd hu h
    · rw [Multiset.mem_toFinset, mem_roots hf, IsRoot]
      have h1 : u • p + l + u ^ 2 • r ∈ T := by
        have := T.smul_mem u hu
        rw [smul_add, smul_add, smul_smul, smul_smul, mul_inv_cancel₀ h0, one_smul, ← pow_two] at this
        exact this
      have h2 : T.mkQ (u • p + l + u ^ 2 • r) = 0 := (Submodule.Quotient.mk_eq_zero T).2 h1
      have h3 := congrArg φ h2
      simp only [map_add, map_smul, map_zero, smul_eq_mul] at h3
      simp only [f, eval_add, eval_mul, eval_pow, eval_X, eval_C]
      linear_combination h3

/-- What is spanned by `w` and the points of the list. -/
def spanOf (w : M) (l : List M) : Submodule Fr M := Submodule.span Fr (insert w {a | a ∈ l})

theorem mem_spanOf (w : M) (l : List M) {a : M} (h : a ∈ spanOf w l) :
    ∃ (p : List Fr) (r : Fr), p.length = l.length ∧ a = dot p l + r • w := by
  induction l generalizing a with
  | nil =>
    unfold spanOf at h
    simp only [List.not_mem_nil, Set.ofPred_false, insert_empty_eq] at h
    obtain ⟨r, rfl⟩ := Submodule.mem_span_singleton.1 h
    exact ⟨[], r, rfl, by simp [dot_nil]⟩
  | cons b l ih =>
    have e : (insert w {a | a ∈ b :: l} : Set M) = insert b (insert w {a | a ∈ l}) := by
      ext a
      simp only [Set.mem_insert_iff, Set.mem_ofPred_eq, List.mem_cons]
      tauto
    unfold spanOf at h
    rw [e, Submodule.mem_span_insert] at h
    obtain ⟨c, a', ha', rfl⟩ := h
    obtain ⟨p, r, h1, rfl⟩ := ih ha'
    exact ⟨c :: p, r, by simp [h1], by rw [dot_cons, add_assoc]⟩

theorem spanOf_fold (w : M) (u : Fr) (lo hi : List M) :
    spanOf w (List.zipWith (fun a a' => a + u • a') lo hi) ≤ spanOf w (lo ++ hi) := by
  unfold spanOf
  rw [Submodule.span_le]
  intro a ha
  rcases ha with rfl | ha
  · exact Submodule.subset_span (Set.mem_insert _ _)
  · obtain ⟨i, hi', rfl⟩ := List.mem_iff_getElem.1 ha
    rw [List.getElem_zipWith]
    refine Submodule.add_mem _ (Submodule.subset_span (Set.mem_insert_of_mem _ ?_))
      (Submodule.smul_mem _ _ (Submodule.subset_span (Set.mem_insert_of_mem _ ?_)))
    · exact List.mem_append_left _ (List.getElem_mem _)
    · exact List.mem_append_right _ (List.getElem_mem _)

/-- The rounds: from a point outside the span, no prover gets into the last span but for few challenges. -/
theorem rounds_sound (w : M) : ∀ (k : Nat) (l : List M) (p : M) (lr : List Fr → M × M), l.length = 2 ^ k → p ∉ spanOf w l →
    ∃ bad : List Fr → Finset Fr, (∀ us, (bad us).card ≤ 2) ∧ ∀ us : List Fr, us.length = k →
      p + sent ((List.range k).map fun j => lr (us.take j)) us ∈ spanOf w [dot (coeffs us) l] →
      ∃ j, ∃ h : j < us.length, us[j] ∈ bad (us.take j)
  | 0, l, p, lr, hl, hp => by
    obtain ⟨g, rfl⟩ := List.length_eq_one_iff.1 hl
    refine ⟨fun _ => ∅, by simp, ?_⟩
    intro us hus hm
    rw [List.length_eq_zero_iff] at hus
    subst hus
    simp [sent, coeffs, dot] at hm
    exact absurd hm hp
  | k + 1, l, p, lr, hl, hp => by
    have two : 2 ^ (k + 1) = 2 ^ k + 2 ^ k := by rw [pow_succ]; omega
    rw [two] at hl
    obtain ⟨lo, hi, rfl, hlo, hhi⟩ := split_half hl
    obtain ⟨B, hB, hB'⟩ := two_roots (spanOf w (lo ++ hi)) hp (lr []).1 (lr []).2
    have step : ∀ u, ∃ bad : List Fr → Finset Fr, (∀ us, (bad us).card ≤ 2) ∧ (u ∉ B → ∀ us : List Fr, us.length = k →
        p + u⁻¹ • (lr []).1 + u • (lr []).2 + sent ((List.range k).map fun j => lr (u :: us.take j)) us ∈
          spanOf w [dot (coeffs us) (List.zipWith (fun a a' => a + u • a') lo hi)] →
        ∃ j, ∃ h : j < us.length, us[j] ∈ bad (us.take j)) := by
      intro u
      by_cases hu : u ∈ B
      · exact ⟨fun _ => ∅, by simp, fun h => absurd hu h⟩
      · obtain ⟨bad, h1, h2⟩ := rounds_sound w k (List.zipWith (fun a a' => a + u • a') lo hi)
          (p + u⁻¹ • (lr []).1 + u • (lr []).2) (fun us => lr (u :: us)) (by simp [hlo, hhi])
          (fun hc => hu (hB' u (spanOf_fold w u lo hi hc)))
        exact ⟨bad, h1, fun _ => h2⟩
    choose bad hbad1 hbad2 using step
    refine ⟨fun us => match us with | [] => B | u :: us => bad u us, ?_, ?_⟩
    · intro us
      cases us with
      | nil => exact hB
      | cons u us => exact hbad1 u us
    · intro us hus hm
      cases us with
      | nil => simp at hus
      | cons u us =>
        have hus' : us.length = k := by simpa using hus
        by_cases hu : u ∈ B
        · exact ⟨0, by simp, hu⟩
        · rw [coeffs_fold u us (by rw [hlo, hus']) (by rw [hhi, hus']), List.range_succ_eq_map, List.map_cons, List.map_map] at hm
          have e : sent (lr (List.take 0 (u :: us)) :: List.map ((fun j => lr (List.take j (u :: us))) ∘ Nat.succ) (List.range k)) (u :: us) =
              u⁻¹ • (lr []).1 + u • (lr []).2 + sent ((List.range k).map fun j => lr (u :: us.take j)) us := by
            unfold sent
            rw [List.zip_cons_cons, List.map_cons, List.sum_cons]
            rfl
          rw [e, ← add_assoc, ← add_assoc] at hm
          obtain ⟨j, hj, h⟩ := hbad2 u hu us hus' hm
          exact ⟨j + 1, by simpa using hj, by simpa using h⟩

/-- The generators for `z`. -/
def gens (params : Params M) (x z : Fr) : List M :=
  List.zipWith (fun g b => g + (z * b) • params.u) params.g ((List.range params.n).map (x ^ ·))

theorem dot_gens (params : Params M) (z : Fr) : ∀ (p : List Fr) (g : List M) (b : List Fr), g.length = b.length →
    dot p (List.zipWith (fun g b => g + (z * b) • params.u) g b) = dot p g + (z * dot p b) • params.u
  | [], _, _, _ => by simp [dot_nil]
  | _ :: _, [], [], _ => by simp [dot_nil_right]
  | _ :: _, [], _ :: _, h => by simp at h
  | _ :: _, _ :: _, [], h => by simp at h
  | a :: p, g :: gs, b :: bs, h => by
    rw [List.zipWith_cons_cons, dot_cons, dot_cons, dot_cons, dot_gens params z p gs bs (by simpa using h), smul_eq_mul]
    module

/-- The commitments to polynomials that vanish at `x`. -/
def vanishing (params : Params M) (x : Fr) : Submodule Fr M where
  carrier := {a | ∃ (p : List Fr) (r : Fr), p.length = params.n ∧ a = dot p params.g + r • params.w ∧
    dot p ((List.range params.n).map (x ^ ·)) = 0}
  zero_mem' := ⟨List.replicate params.n 0, 0, by simp, by
    have hz : ∀ {N : Type} [AddCommGroup N] [Module Fr N] (l : List N) j, dot (List.replicate j 0) l = 0 := by
      intro N _ _ l j
      have := dot_mul (0 : Fr) (List.replicate j 0) l
      rw [zero_smul] at this
      simpa using this
    rw [hz, hz]
    simp⟩
  add_mem' := by
    rintro a b ⟨p, r, h1, rfl, h2⟩ ⟨q, s, h3, rfl, h4⟩
    refine ⟨List.zipWith (· + ·) p q, r + s, by simp [h1, h3], ?_, ?_⟩
    · rw [dot_add (by rw [h1, h3])]
      module
    · rw [dot_add (by rw [h1, h3]), h2, h4, add_zero]
  smul_mem' := by
    rintro c a ⟨p, r, h1, rfl, h2⟩
    refine ⟨p.map (· * c), c * r, by simp [h1], ?_, ?_⟩
    · rw [dot_mul]
      module
    · rw [dot_mul, h2, smul_zero]

/-- Two lists of coefficients that give the same point are the same. -/
theorem coeffs_unique {params : Params M} (ind : Independent params) {p q : List Fr} {r s t t' : Fr} (hp : p.length = params.n)
    (hq : q.length = params.n)
    (h : dot p params.g + t • params.u + r • params.w = dot q params.g + t' • params.u + s • params.w) : p = q ∧ t = t' ∧ r = s := by
  have h1 := ind (List.zipWith (· + ·) p (q.map (· * (-1)))) (r - s) (t - t') (by simp [hp, hq]) (by
    rw [dot_add (by simp [hp, hq]), dot_mul]
    rw [← sub_eq_zero] at h
    rw [← h]
    module)
  obtain ⟨h2, h3, h4⟩ := h1
  refine ⟨?_, sub_eq_zero.1 h4, sub_eq_zero.1 h3⟩
  refine List.ext_getElem (by rw [hp, hq]) ?_
  intro i hi hi'
  have := h2 _ (List.getElem_mem (n := i) (h := by simp [hi, hi']))
  rw [List.getElem_zipWith, List.getElem_map] at this
  linear_combination this

/-- At most one value satisfies it. -/
theorem one_value {p : Fr → Prop} (h : ∀ a b, p a → p b → a = b) : ∃ B : Finset Fr, B.card ≤ 1 ∧ ∀ a, p a → a ∈ B := by
  by_cases hc : ∃ a, p a
  · obtain ⟨a, ha⟩ := hc
    exact ⟨{a}, by simp, fun b hb => by simp [h b a hb ha]⟩
  · exact ⟨∅, by simp, fun a ha => absurd ⟨a, ha⟩ hc⟩

/-- A point that is outside for one `z` is inside for at most one. -/
theorem one_z {params : Params M} (ok : Ok params) (ind : Independent params) {x : Fr} {a : M} (h : a ∉ vanishing params x) :
    ∃ B : Finset Fr, B.card ≤ 1 ∧ ∀ z, a ∈ spanOf params.w (gens params x z) → z ∈ B := by
  refine one_value ?_
  intro z z' h1 h2
  by_contra hne
  obtain ⟨p, r, hp, e1⟩ := mem_spanOf _ _ h1
  obtain ⟨q, s, hq, e2⟩ := mem_spanOf _ _ h2
  have hl : params.g.length = ((List.range params.n).map (x ^ ·)).length := by simp [ok.g]
  unfold gens at hp hq e1 e2
  rw [dot_gens _ _ _ _ _ hl] at e1 e2
  have hp' : p.length = params.n := by simpa [ok.g] using hp
  have hq' : q.length = params.n := by simpa [ok.g] using hq
  obtain ⟨rfl, h3, rfl⟩ := coeffs_unique ind hp' hq' (e1.symm.trans e2)
  have h4 : (z - z') * dot p ((List.range params.n).map (x ^ ·)) = 0 := by linear_combination h3
  have h5 := (mul_eq_zero.1 h4).resolve_left (sub_ne_zero.2 hne)
  refine h ⟨p, r, hp', ?_, h5⟩
  rw [e1, h5, mul_zero, zero_smul, add_zero]

/-- A point outside a subspace is moved into it by at most one multiple. -/
theorem one_xi (T : Submodule Fr M) {a : M} (h : a ∉ T) (s : M) : ∃ B : Finset Fr, B.card ≤ 1 ∧ ∀ xi, a + xi • s ∈ T → xi ∈ B := by
  refine one_value ?_
  intro c c' h1 h2
  by_contra hne
  have h3 : (c - c') • s ∈ T := by
    have := T.sub_mem h1 h2
    rwa [add_sub_add_left_eq_sub, ← sub_smul] at this
  have h4 : s ∈ T := by
    have := T.smul_mem (c - c')⁻¹ h3
    rwa [smul_smul, inv_mul_cancel₀ (sub_ne_zero.2 hne), one_smul] at this
  have := T.sub_mem h1 (T.smul_mem c h4)
  rw [add_sub_cancel_right] at this
  exact h this

/-- A wrong claim is outside. -/
theorem not_vanishing {params : Params M} (ok : Ok params) {g0 : M} {gs : List M} (hg : params.g = g0 :: gs) {a : M} {x v : Fr}
    (h : ¬ Opens params a x v) : a - v • g0 ∉ vanishing params x := by
  rintro ⟨p, r, h1, h2, h3⟩
  have hn : 1 ≤ params.n := by rw [ok.n]; exact Nat.one_le_two_pow
  cases p with
  | nil => simp at h1; omega
  | cons b p =>
    rw [← h1, ← polyAt_dot] at h3
    refine h ⟨(b + v) :: p, r, by simpa using h1, ?_, ?_⟩
    · rw [hg, dot_cons] at h2 ⊢
      rw [← sub_add_cancel a (v • g0), h2]
      module
    · rw [polyAt_cons] at h3 ⊢
      linear_combination h3

/-- Outside of few challenges the equation of the verifier does not hold. -/
theorem sound_core {params : Params M} (ok : Ok params) (ind : Independent params) {g0 : M} {gs : List M} (hg : params.g = g0 :: gs)
    {a : M} {x v : Fr} (h : ¬ Opens params a x v) (σ : Strategy M) :
    ∃ (bx : Finset Fr) (bz : Fr → Finset Fr) (bu : Fr → Fr → List Fr → Finset Fr),
      bx.card ≤ 1 ∧ (∀ xi, (bz xi).card ≤ 1) ∧ (∀ xi z us, (bu xi z us).card ≤ 2) ∧
      ∀ xi z (us : List Fr), us.length = params.k →
        a + rest params g0 (σ.proof xi z us) x v xi z us - (σ.proof xi z us).c • dot (coeffs us) params.g = 0 →
        xi ∈ bx ∨ z ∈ bz xi ∨ ∃ j, ∃ hj : j < us.length, us[j] ∈ bu xi z (us.take j) := by
  have h1 := not_vanishing ok hg h
  obtain ⟨bx, hbx, hbx'⟩ := one_xi (vanishing params x) h1 σ.s
  have hz : ∀ xi, ∃ B : Finset Fr, B.card ≤ 1 ∧ (xi ∉ bx → ∀ z, a - v • g0 + xi • σ.s ∈ spanOf params.w (gens params x z) → z ∈ B) := by
    intro xi
    by_cases hxi : xi ∈ bx
    · exact ⟨∅, by simp, fun h => absurd hxi h⟩
    · obtain ⟨B, hB, hB'⟩ := one_z ok ind (fun hc => hxi (hbx' xi hc))
      exact ⟨B, hB, fun _ => hB'⟩
  choose bz hbz hbz' using hz
  have hu : ∀ xi z, ∃ bad : List Fr → Finset Fr, (∀ us, (bad us).card ≤ 2) ∧ (xi ∉ bx → z ∉ bz xi → ∀ us : List Fr,
      us.length = params.k → a - v • g0 + xi • σ.s + sent ((List.range params.k).map fun j => σ.lr xi z (us.take j)) us ∈
        spanOf params.w [dot (coeffs us) (gens params x z)] → ∃ j, ∃ hj : j < us.length, us[j] ∈ bad (us.take j)) := by
    intro xi z
    by_cases hc : xi ∉ bx ∧ z ∉ bz xi
    · obtain ⟨bad, hb, hb'⟩ := rounds_sound params.w params.k (gens params x z) (a - v • g0 + xi • σ.s) (σ.lr xi z)
        (by simp [gens, ok.g, ok.n]) (fun h => hc.2 (hbz' xi hc.1 z h))
      exact ⟨bad, hb, fun _ _ => hb'⟩
    · exact ⟨fun _ => ∅, by simp, fun h1 h2 => absurd ⟨h1, h2⟩ hc⟩
  choose bu hbu hbu' using hu
  refine ⟨bx, bz, bu, hbx, hbz, hbu, ?_⟩
  intro xi z us hus hacc
  by_cases hxi : xi ∈ bx
  · exact .inl hxi
  by_cases hzz : z ∈ bz xi
  · exact .inr (.inl hzz)
  refine .inr (.inr (hbu' xi z hxi hzz us hus ?_))
  have he := hacc
  have hl : params.g.length = ((List.range params.n).map (x ^ ·)).length := by simp [ok.g]
  have hd := dot_gens params z (coeffs us) params.g _ hl
  have : a - v • g0 + xi • σ.s + sent ((List.range params.k).map fun j => σ.lr xi z (us.take j)) us =
      (σ.last xi z us).1 • dot (coeffs us) (gens params x z) + (σ.last xi z us).2 • params.w := by
    rw [gens, hd, ← sub_eq_zero, ← he]
    unfold rest Strategy.proof
    dsimp only
    rw [hus, ok.n]
    module
  rw [this]
  unfold spanOf
  refine Submodule.add_mem _ (Submodule.smul_mem _ _ (Submodule.subset_span ?_)) (Submodule.smul_mem _ _ (Submodule.subset_span ?_))
  · simp
  · simp

/-! ### Points of which coefficients are known -/

theorem dot_ofFn {n : Nat} (p : Fin n → Fr) (f : Fin n → M) : dot (List.ofFn p) (List.ofFn f) = ∑ i, p i • f i := by
  unfold dot
  rw [← List.sum_ofFn]
  congr 1
  refine List.ext_getElem (by simp) ?_
  intro i h1 h2
  simp

theorem dot_map {N : Type} [AddCommGroup N] [Module Fr N] (φ : M →ₗ[Fr] N) (p : List Fr) (g : List M) :
    dot p (g.map φ) = φ (dot p g) := by
  induction p generalizing g with
  | nil => simp [dot_nil]
  | cons a p ih => cases g with
    | nil => simp [dot_nil_right]
    | cons b g => rw [List.map_cons, dot_cons, dot_cons, ih, map_add, map_smul]

/-- `value` as a linear map. -/
def valueMap (params : Params M) : Rep params.n →ₗ[Fr] M where
  toFun := Rep.value params
  map_add' a b := by
    unfold Rep.value
    have : List.ofFn (a + b).1 = List.zipWith (· + ·) (List.ofFn a.1) (List.ofFn b.1) := by
      refine List.ext_getElem (by simp) ?_
      intro i h1 h2
      simp
    rw [this, dot_add (by simp)]
    simp only [Prod.snd_add, Prod.fst_add]
    module
  map_smul' c a := by
    unfold Rep.value
    have : List.ofFn (c • a).1 = (List.ofFn a.1).map (· * c) := by
      refine List.ext_getElem (by simp) ?_
      intro i h1 h2
      simp [mul_comm]
    rw [this, dot_mul]
    simp only [Prod.smul_snd, Prod.smul_fst, smul_eq_mul, RingHom.id_apply]
    module

theorem dot_units {n : Nat} (p : Fin n → Fr) :
    dot (List.ofFn p) (List.ofFn fun i => ((Pi.single i 1, 0, 0) : Rep n)) = (p, 0, 0) := by
  rw [dot_ofFn]
  refine Prod.ext ?_ ?_
  · rw [Prod.fst_sum]
    funext j
    rw [Finset.sum_apply]
    simp [Pi.single_apply]
  · rw [Prod.snd_sum]
    simp

theorem ofFn_of_length {n : Nat} {p : List Fr} (h : p.length = n) : ∃ f : Fin n → Fr, p = List.ofFn f := by
  subst h
  exact ⟨p.get, (List.ofFn_get p).symm⟩

omit [AddCommGroup M] [Module Fr M] in
theorem rep_ok {params : Params M} (ok : Ok params) : Ok (Rep.params params.k params.n) :=
  ⟨ok.k, ok.n, by simp [Rep.params]⟩

theorem rep_independent (k n : Nat) : Independent (Rep.params k n) := by
  intro p r t hp h
  obtain ⟨f, rfl⟩ := ofFn_of_length hp
  have e : dot (List.ofFn f) (Rep.params k n).g = (f, 0, 0) := dot_units f
  rw [e] at h
  have h1 := congrArg Prod.fst h
  have h2 := congrArg (fun a => a.2.1) h
  have h3 := congrArg (fun a => a.2.2) h
  simp [Rep.params] at h1 h2 h3
  refine ⟨?_, h2, h3⟩
  intro c hc
  obtain ⟨i, rfl⟩ := (List.mem_ofFn' _ _).1 hc
  exact congrFun ((add_zero f).symm.trans h1) i

/-- A commitment with known coefficients opens to the values of the polynomial that they are, if there is no part of `u`. -/
theorem rep_opens {k n : Nat} {a : Rep n} {x v : Fr} (h : Opens (Rep.params k n) a x v) :
    a.2.2 = 0 ∧ polyAt (List.ofFn a.1) x = v := by
  obtain ⟨p, r, hp, rfl, hv⟩ := h
  obtain ⟨f, rfl⟩ := ofFn_of_length hp
  have e : dot (List.ofFn f) (Rep.params k n).g = (f, 0, 0) := dot_units f
  rw [e]
  simp [Rep.params]
  exact (congrArg (fun q => polyAt (List.ofFn q) x) (add_zero f)).trans hv

theorem value_gens {params : Params M} (ok : Ok params) : (Rep.params params.k params.n).g.map (valueMap params) = params.g := by
  refine List.ext_getElem (by simp [Rep.params, ok.g]) ?_
  intro i h1 h2
  have hi : i < params.n := by rw [← ok.g]; exact h2
  have e : params.g = List.ofFn (fun j : Fin params.n => params.g[j.val]'(by rw [ok.g]; exact j.2)) := by
    refine List.ext_getElem (by simp [ok.g]) ?_
    intro j h3 h4
    simp
  simp only [List.getElem_map, Rep.params, List.getElem_ofFn]
  show Rep.value params _ = _
  unfold Rep.value
  simp only [zero_smul, add_zero]
  conv_lhs => rw [e]
  rw [dot_ofFn, Finset.sum_eq_single (⟨i, hi⟩ : Fin params.n)]
  · simp
  · intro j _ hj
    rw [Pi.single_eq_of_ne hj, zero_smul]
  · intro hc
    exact absurd (Finset.mem_univ _) hc

theorem value_w (params : Params M) : valueMap params ((Rep.params params.k params.n).w) = params.w := by
  show Rep.value params _ = _
  unfold Rep.value Rep.params
  have : dot (List.ofFn (0 : Fin params.n → Fr)) params.g = 0 := by
    have := dot_mul (0 : Fr) (List.ofFn (0 : Fin params.n → Fr)) params.g
    rw [zero_smul] at this
    rw [← this]
    congr 1
    refine List.ext_getElem (by simp) ?_
    intro i h1 h2
    simp
  simp [this]

theorem value_u (params : Params M) : valueMap params ((Rep.params params.k params.n).u) = params.u := by
  show Rep.value params _ = _
  unfold Rep.value Rep.params
  have : dot (List.ofFn (0 : Fin params.n → Fr)) params.g = 0 := by
    have := dot_mul (0 : Fr) (List.ofFn (0 : Fin params.n → Fr)) params.g
    rw [zero_smul] at this
    rw [← this]
    congr 1
    refine List.ext_getElem (by simp) ?_
    intro i h1 h2
    simp
  simp [this]

theorem value_sent {params : Params M} (ms : List (Rep params.n × Rep params.n)) (us : List Fr) :
    valueMap params (sent ms us) = sent (ms.map fun m => (valueMap params m.1, valueMap params m.2)) us := by
  induction ms generalizing us with
  | nil => simp [sent]
  | cons m ms ih => cases us with
    | nil => simp [sent]
    | cons u us =>
      have := ih us
      unfold sent at this ⊢
      rw [List.zip_cons_cons, List.map_cons, List.sum_cons, List.map_cons, List.zip_cons_cons, List.map_cons, List.sum_cons, map_add, this,
        map_add, map_smul, map_smul]

end Verif.Spec.Ipa

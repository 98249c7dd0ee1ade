import Verif.Lemmas.Combined
import Verif.Lemmas.CombinedCircuit
import Verif.Lemmas.PiopSound
import Verif.Lemmas.ShplonkComplete

/-! The verifier can make its queries from any scalars, and check any opening. -/

namespace Verif.Plonk

open Spec Shplonk Polynomial Transcript

variable {C : Type} {key : Key C} {com : Commitments C} {e : Evals} {ch : Challenges} {k : Nat}
  {instances : List (List Fr)}

theorem eq_map_idxOf {α : Type} [BEq α] [LawfulBEq α] (l : List Fr) (qs : List α) (hn : qs.Nodup)
    (hl : l.length = qs.length) : l = qs.map fun q => l.getD (qs.idxOf q) 0 := by
  apply List.ext_getElem
  · simp [hl]
  · intro i h1 h2
    rw [List.getElem_map, List.Nodup.idxOf_getElem hn, List.getD_eq_getElem?_getD, List.getElem?_eq_getElem h1,
      Option.getD_some]

theorem eq_map_range {α : Type} (l : List α) (z : α) (m : Nat) (hl : l.length = m) :
    l = (List.range m).map fun i => l.getD i z := by
  apply List.ext_getElem
  · simp [hl]
  · intro i h1 h2
    rw [List.getElem_map, List.getElem_range, List.getD_eq_getElem?_getD, List.getElem?_eq_getElem h1,
      Option.getD_some]

theorem claims_poly {key : Key Poly} {com : Commitments Poly} {j : Nat} (hd : IsDomain key.domain j k)
    (hc : Closed key.cs) (n1 : key.cs.adviceQueries.Nodup) (n2 : key.cs.fixedQueries.Nodup) (hs : Shaped key com e)
    (hu : ch.user.length = key.cs.numChallenges) (hi : instances.length = key.cs.numInstance)
    (hx : ch.x ^ 2 ^ k ≠ 1) : ∃ Q, claims key (2 ^ k) instances com ch e = .ok Q := by
  obtain ⟨L, -, -, hL⟩ := exists_basis hd
  have hns : e.sets.length = numSets key.cs := by
    rw [hs.sets, hs.products, chunks_length]
    rfl
  rw [claims_eq (L := L) (hL _ hx) hx hc hs hi]
  let O := polyOpened L key instances com ch.user ch.theta ch.beta ch.gamma
  let o : Opened Fr :=
    { advice := fun c r => e.advice.getD (key.cs.adviceQueries.idxOf (c, r)) 0
      fixed := fun c r => e.fixed.getD (key.cs.fixedQueries.idxOf (c, r)) 0
      inst := fun c r => (O.inst c r).eval ch.x
      user := fun i => ch.user.getD i 0
      sigma := fun i => e.sigma.getD i 0
      z := fun t => (e.sets.getD t ⟨0, 0, none⟩).product
      zNext := fun t => (e.sets.getD t ⟨0, 0, none⟩).next
      zLast := fun t => (e.sets.getD t ⟨0, 0, none⟩).last.getD 0
      lz := fun t => (e.lookups.getD t ⟨0, 0, 0, 0, 0⟩).product
      lzNext := fun t => (e.lookups.getD t ⟨0, 0, 0, 0, 0⟩).next
      la := fun t => (e.lookups.getD t ⟨0, 0, 0, 0, 0⟩).input
      laInv := fun t => (e.lookups.getD t ⟨0, 0, 0, 0, 0⟩).inputInv
      ls := fun t => (e.lookups.getD t ⟨0, 0, 0, 0, 0⟩).table
      l0 := O.l0.eval ch.x
      lLast := O.lLast.eval ch.x
      lBlind := O.lBlind.eval ch.x
      theta := ch.theta
      beta := ch.beta
      gamma := ch.gamma
      x := ch.x }
  have hm : Matches key.cs (key.cs.instanceQueries.map fun q => (O.inst q.1 q.2).eval ch.x) ch.user e o := by
    refine ⟨eq_map_idxOf _ _ n1 hs.advice, eq_map_idxOf _ _ n2 hs.fixed, rfl, eq_map_range _ _ _ hu,
      eq_map_range _ _ _ (by rw [hs.sigma, hs.sigmaColumns]), ?_, ?_⟩
    · apply List.ext_getElem
      · simp [hns]
      · intro i h1 h2
        have hl := hs.lasts i h1
        rw [hns] at hl
        rw [List.getElem_map, List.getElem_range]
        simp only [o, List.getD_eq_getElem?_getD, List.getElem?_eq_getElem h1, Option.getD_some]
        generalize e.sets[i] = s at hl ⊢
        obtain ⟨p, n, l⟩ := s
        split
        · rename_i h
          obtain ⟨v, rfl⟩ := Option.isSome_iff_exists.1 (hl.2 h)
          rfl
        · rename_i h
          cases l with
          | none => rfl
          | some v => exact absurd (hl.1 rfl) h
    · exact eq_map_range _ ⟨0, 0, 0, 0, 0⟩ _ hs.lookups
  have := expressions_ok (o := o) ch hm hc rfl rfl rfl rfl
  exact ⟨_, by rw [show expressions _ _ _ _ _ _ _ = _ from this]; rfl⟩

theorem shaped_to {D : Type} (f : C → D) (h : Shaped key com e) : Shaped (mapKey f key) (mapCommitments f com) e := by
  obtain ⟨h1, h2, h3, h4, h5, h6, h7, h8, h9, h10, h11, h12, h13⟩ := h
  constructor <;> (try simp only [mapKey, mapCommitments, List.length_map]) <;> assumption

/-- The queries can be made, and all points are rotations of `x`. -/
theorem claims_total (hd : IsDomain key.domain key.cs.degree k)
    (hc : Closed key.cs) (n1 : key.cs.adviceQueries.Nodup) (n2 : key.cs.fixedQueries.Nodup) (hs : Shaped key com e)
    (hu : ch.user.length = key.cs.numChallenges) (hi : instances.length = key.cs.numInstance)
    (hx : ch.x ^ 2 ^ k ≠ 1) : ∃ Q, claims (Ref.ofKey key) (2 ^ k) instances (Ref.ofCommitments com) ch e = .ok Q ∧
      Q ≠ [] ∧ ∀ q ∈ Q, q.point ^ 2 ^ k = ch.x ^ 2 ^ k := by
  let f : C → Poly := fun _ => []
  obtain ⟨Q', hQ'⟩ := claims_poly (key := mapKey f key) (com := mapCommitments f com) (j := key.cs.degree) hd hc n1 n2
    (shaped_to f hs) hu hi hx
  have e1 := claims_map Prod.snd (Ref.ofKey (mapKey f key)) (2 ^ k) instances (Ref.ofCommitments (mapCommitments f com)) ch e
  rw [mapKey_ofKey, mapCommitments_ofCommitments, hQ', ofKey_map, ofCommitments_map, claims_map] at e1
  cases hQ : claims (Ref.ofKey key) (2 ^ k) instances (Ref.ofCommitments com) ch e with
  | error p => rw [hQ] at e1; cases e1
  | ok Q =>
    refine ⟨Q, rfl, ?_, fun q hq => ?_⟩
    · obtain ⟨advQ, permQ, fxQ, v, q1, q2, q3, rfl⟩ := claims_split hQ
      simp
    · have e2 := claims_map (fun p : Ref × C => (p.1, f p.2)) (Ref.ofKey key) (2 ^ k) instances (Ref.ofCommitments com) ch e
      rw [← ofKey_map, ← ofCommitments_map, hQ] at e2
      obtain ⟨expected, form⟩ := queries_form (h := []) (key := mapKey f key) hd n1 n2 e2
      obtain ⟨-, r, -, hp, -⟩ := form _ (List.mem_map_of_mem (List.mem_map_of_mem hq))
      have hp' : q.point = ch.x * key.domain.omega ^ r := by
        rw [show key.domain.omega = (mapKey f key).domain.omega from rfl, ← hp]
        obtain ⟨c, x, v⟩ := q
        cases c <;> rfl
      rw [hp', mul_pow, ← zpow_natCast (key.domain.omega ^ r), ← zpow_mul, mul_comm r, zpow_mul, zpow_natCast,
        hd.omega.pow_eq_one, one_zpow, mul_one]

variable {G G₂ GT ρ : Type} [AddCommGroup G] [Module Fr G] [DecidableEq ρ]
variable [AddCommGroup G₂] [Module Fr G₂] [AddCommGroup GT] [Module Fr GT] [DecidableEq GT]

/-- An opening can be checked unless `u` is a queried point. -/
theorem accepts_total (pairing : G →ₗ[Fr] G₂ →ₗ[Fr] GT) (g0 : G) (g2 sG2 : G₂) {cs : List (Claim ρ (Committed G))}
    (hne : cs ≠ []) (y v : Fr) (h1 : G) (u : Fr) (h2 : G) (hu : ∀ q ∈ cs, q.point ≠ u) :
    ∃ b, accepts pairing g0 g2 sG2 cs y v h1 u h2 = .ok b := by
  obtain ⟨sets, sup, v1, v2⟩ := intermediateSets_ok cs
  cases sets with
  | nil => exact absurd rfl (sets_ne v2 hne)
  | cons s0 rest =>
    have hz : vanishing (diffs sup s0.points) u ≠ 0 := by
      rw [Ne, vanishing_zero]
      intro hmem
      obtain ⟨q, hq, hqu⟩ := (v2.mem u).1 (List.mem_filter.1 hmem).1
      exact hu q hq hqu
    obtain ⟨left, right, w1, -, -⟩ := (verify_ok (g0 := g0) v1 v2 y v h1 u h2).2 hz
    unfold accepts
    rw [w1]
    simp only [bind, Except.bind]
    unfold check
    rw [evalMsm_eq, evalMsm_eq]
    exact ⟨_, rfl⟩

end Verif.Plonk

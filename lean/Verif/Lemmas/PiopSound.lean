import Verif.Lemmas.PiopClaims
import Verif.Lemmas.PiopRows
import Verif.Lemmas.PiopDegree
import Verif.Lemmas.GrandProduct
import Verif.Lemmas.Labels
import Verif.Props.Permutation

/-! The rounds of the argument: which challenges can hide a violated constraint. -/

namespace Verif.Plonk

open Finset Polynomial Spec

variable {L : Int → Fr[X]} {key : Key Poly} {j k : Nat} {instances : List (List Fr)}
  {user : List Fr} {advice : List Poly} {s : Strategy}

/-- All expressions vanish in all rows. -/
def Vanish (L : Int → Fr[X]) (key : Key Poly) (k : Nat) (instances : List (List Fr)) (advice : List Poly)
    (s : Strategy) (user : List Fr) (theta beta gamma : Fr) : Prop :=
  ∀ r < 2 ^ k, ∀ v ∈ exprsOf key.cs (rowOf L key instances (s.commitments advice theta beta gamma 0) user
    theta beta gamma r), v = 0

/-- The basis polynomials are one in one row and zero in the others. -/
def Basis (L : Int → Fr[X]) (d : Domain) (k : Nat) : Prop :=
  ∀ s, ∀ i < 2 ^ k, (L s).eval (d.omega ^ i) = if rotate (2 ^ k) 0 s = i then 1 else 0

theorem vanish_gates (hd : IsDomain key.domain j k) (hL : Basis L key.domain k) (hc : Closed key.cs)
    {theta beta gamma : Fr} (h : Vanish L key k instances advice s user theta beta gamma) :
    ∀ gate ∈ key.cs.gates, ∀ p ∈ gate, ∀ row, row < 2 ^ k →
      p.eval (2 ^ k) (gridOf key.domain (2 ^ k) instances key.fixed advice user) row = 0 := by
  intro gate hg p hp r hr
  refine Eq.trans (rowOf_expr (instances := instances) (com := s.commitments advice theta beta gamma 0) (user := user)
    (theta := theta) (beta := beta) (gamma := gamma) hd hL r hr p (hc.gates gate hg p hp)).symm ?_
  apply h r hr
  unfold exprsOf
  apply List.mem_append_left
  apply List.mem_append_left
  exact List.mem_map_of_mem (List.mem_flatten.2 ⟨gate, hg, hp⟩)

theorem rowOf_beta (com : Commitments Poly) (theta beta gamma : Fr) (r : Nat) :
    (rowOf L key instances com user theta beta gamma r).beta = beta := by
  show aeval _ (C beta) = _
  rw [coe_aeval_eq_eval, eval_C]

theorem rowOf_gamma (com : Commitments Poly) (theta beta gamma : Fr) (r : Nat) :
    (rowOf L key instances com user theta beta gamma r).gamma = gamma := by
  show aeval _ (C gamma) = _
  rw [coe_aeval_eq_eval, eval_C]

theorem rowOf_theta (com : Commitments Poly) (theta beta gamma : Fr) (r : Nat) :
    (rowOf L key instances com user theta beta gamma r).theta = theta := by
  show aeval _ (C theta) = _
  rw [coe_aeval_eq_eval, eval_C]

theorem rowOf_comp (hd : IsDomain key.domain j k) (hL : Basis L key.domain k) (com : Commitments Poly)
    (theta beta gamma : Fr) (r : Nat) (hr : r < 2 ^ k) (es : List Expr) (hq : ∀ e ∈ es, Queried key.cs e) :
    (rowOf L key instances com user theta beta gamma r).comp es =
      (es.map fun e => e.eval (2 ^ k) (gridOf key.domain (2 ^ k) instances key.fixed com.advice user) r).foldl
        (fun acc v => acc * theta + v) 0 := by
  unfold Opened.comp
  rw [rowOf_theta]
  congr 1
  apply List.map_congr_left
  intro e he
  exact rowOf_expr hd hL r hr e (hq e he)

/-- An input that is not in the table is noticed. -/
theorem lookup_round (hd : IsDomain key.domain j k) (hL : Basis L key.domain k) (hc : Closed key.cs)
    (hbf : key.cs.blindingFactors + 1 < 2 ^ k) (l : Lookup) (t : Nat) (hl : (l, t) ∈ key.cs.lookups.zipIdx)
    (r : Nat) (hr : r < key.cs.usableRows (2 ^ k))
    (hnot : ∀ r' < key.cs.usableRows (2 ^ k),
      l.input.map (fun e => e.eval (2 ^ k) (gridOf key.domain (2 ^ k) instances key.fixed advice user) r) ≠
      l.table.map (fun e => e.eval (2 ^ k) (gridOf key.domain (2 ^ k) instances key.fixed advice user) r')) :
    ∃ (Bθ : Finset Fr) (Bβ : Fr → Finset Fr) (Bγ : Fr → Fr → Finset Fr),
      Bθ.card ≤ key.cs.usableRows (2 ^ k) * (l.input.length - 1) ∧
      (∀ θ, (Bβ θ).card ≤ 2 * key.cs.usableRows (2 ^ k)) ∧
      (∀ θ β, (Bγ θ β).card ≤ 2 * key.cs.usableRows (2 ^ k)) ∧
      ∀ θ β γ, Vanish L key k instances advice s user θ β γ → θ ∈ Bθ ∨ β ∈ Bβ θ ∨ γ ∈ Bγ θ β := by
  classical
  have hlm : l ∈ key.cs.lookups := by
    have := List.mem_zipIdx hl
    rw [this.2.2]
    exact List.getElem_mem _
  generalize hg : gridOf key.domain (2 ^ k) instances key.fixed advice user = g at hnot
  generalize hu : key.cs.usableRows (2 ^ k) = u at hr hnot ⊢
  have hun : u < 2 ^ k := by
    have : key.cs.usableRows (2 ^ k) = 2 ^ k - (key.cs.blindingFactors + 1) := rfl
    omega
  -- compression
  have hth : ∀ r' : Nat, ∃ B : Finset Fr, B.card ≤ l.input.length - 1 ∧ (r' < u → ∀ θ ∉ B,
      (l.input.map fun e => e.eval (2 ^ k) g r).foldl (fun acc v => acc * θ + v) 0 ≠
      (l.table.map fun e => e.eval (2 ^ k) g r').foldl (fun acc v => acc * θ + v) 0) := by
    intro r'
    by_cases h : r' < u
    · obtain ⟨B, h1, h2⟩ := horner_bad _ _ (by simp [hc.widths l hlm]) (hnot r' h)
      exact ⟨B, by simpa using h1, fun _ => h2⟩
    · exact ⟨∅, by simp, fun h' => absurd h' h⟩
  choose B hB1 hB2 using hth
  -- the two products
  have hab : ∀ θ : Fr, ∃ (Bβ : Finset Fr) (Bγ : Fr → Finset Fr), Bβ.card ≤ 2 * u ∧
      (∀ β, (Bγ β).card ≤ 2 * u) ∧ ∀ β γ, Vanish L key k instances advice s user θ β γ →
        θ ∈ (range u).biUnion B ∨ β ∈ Bβ ∨ γ ∈ Bγ β := by
    intro θ
    by_cases hθ : θ ∈ (range u).biUnion B
    · exact ⟨∅, fun _ => ∅, by simp, by simp, fun _ _ _ => .inl hθ⟩
    have hnt : ∀ r' < u, (l.input.map fun e => e.eval (2 ^ k) g r).foldl (fun acc v => acc * θ + v) 0 ≠
        (l.table.map fun e => e.eval (2 ^ k) g r').foldl (fun acc v => acc * θ + v) 0 := by
      intro r' hr'
      apply hB2 r' hr'
      intro hm
      exact hθ (mem_biUnion.2 ⟨r', mem_range.2 hr', hm⟩)
    let a : Nat → Fr := fun r => polyAt ((s.permuted θ).getD t ([], [])).1 (key.domain.omega ^ r)
    let b : Nat → Fr := fun r => polyAt ((s.permuted θ).getD t ([], [])).2 (key.domain.omega ^ r)
    by_cases hrule : (0 < u → a 0 = b 0) ∧ ∀ i, i + 1 < u → a (i + 1) = b (i + 1) ∨ a (i + 1) = a i
    · obtain ⟨Bβ, Bγ, h1, h2, h3⟩ := lookup_bad u
        (fun r => (l.input.map fun e => e.eval (2 ^ k) g r).foldl (fun acc v => acc * θ + v) 0)
        (fun r => (l.table.map fun e => e.eval (2 ^ k) g r).foldl (fun acc v => acc * θ + v) 0)
        a b hrule.1 hrule.2 r hr hnt
      refine ⟨Bβ, Bγ, h1, h2, fun β γ hv => ?_⟩
      right
      by_contra hno
      rw [not_or] at hno
      have hfam := rowOf_family (L := L) (instances := instances)
        (com := s.commitments advice θ β γ 0) (user := user) (theta := θ) (beta := β) (gamma := γ) hd hL hbf
      rw [hu] at hfam
      obtain ⟨-, -, zl, hzl, hp⟩ := lookup_products hfam l t (fun r hr v hv' => hv r hr v (by
        unfold exprsOf
        apply List.mem_append_right
        exact List.mem_flatten.2 ⟨_, List.mem_map_of_mem hl, hv'⟩))
      apply h3 β γ zl hno.1 hno.2 hzl
      rw [← prod_mul_distrib, ← prod_mul_distrib]
      refine Eq.trans ?_ (Eq.trans hp ?_)
      · congr 1
        apply prod_congr rfl
        intro i _
        rw [rowOf_beta, rowOf_gamma]
        show _ = (aeval _ (toPoly _) + β) * (aeval _ (toPoly _) + γ)
        rw [coe_aeval_eq_eval, toPoly_eval, toPoly_eval]
        rfl
      · apply prod_congr rfl
        intro i hi
        rw [mem_range] at hi
        rw [rowOf_beta, rowOf_gamma, rowOf_comp hd hL _ _ _ _ _ (by omega) _ (hc.inputs l hlm),
          rowOf_comp hd hL _ _ _ _ _ (by omega) _ (hc.tables l hlm), ← hg]
        rfl
    · refine ⟨∅, fun _ => ∅, by simp, by simp, fun β γ hv => ?_⟩
      exfalso
      apply hrule
      have hfam := rowOf_family (L := L) (instances := instances)
        (com := s.commitments advice θ β γ 0) (user := user) (theta := θ) (beta := β) (gamma := γ) hd hL hbf
      rw [hu] at hfam
      obtain ⟨g1, g2, -⟩ := lookup_products hfam l t (fun r hr v hv' => hv r hr v (by
        unfold exprsOf
        apply List.mem_append_right
        exact List.mem_flatten.2 ⟨_, List.mem_map_of_mem hl, hv'⟩))
      have ea : ∀ r, (rowOf L key instances (s.commitments advice θ β γ 0) user θ β γ r).la t = a r := by
        intro r
        show aeval _ (toPoly _) = _
        rw [coe_aeval_eq_eval, toPoly_eval]
        rfl
      have eb : ∀ r, (rowOf L key instances (s.commitments advice θ β γ 0) user θ β γ r).ls t = b r := by
        intro r
        show aeval _ (toPoly _) = _
        rw [coe_aeval_eq_eval, toPoly_eval]
        rfl
      refine ⟨fun _ => ?_, fun i hi => ?_⟩
      · rw [← ea, ← eb]; exact g1
      · rw [← ea, ← eb, ← ea]; exact g2 i hi
  choose Bβ Bγ h1 h2 h3 using hab
  refine ⟨(range u).biUnion B, Bβ, Bγ, ?_, h1, h2, h3⟩
  refine le_trans card_biUnion_le ?_
  refine le_trans (sum_le_card_nsmul _ _ _ fun r' _ => hB1 r') ?_
  simp

/-- Two copied cells with different values are noticed. -/
theorem copies_round (hd : IsDomain key.domain j k) (hL : Basis L key.domain k) (hc : Closed key.cs)
    (hbf : key.cs.blindingFactors + 1 < 2 ^ k) (hodd : key.cs.permutation.length ≤ oddPart)
    (fuel : Nat) (hf : key.cs.permutation.length * 2 ^ k ≤ fuel)
    (copies : List ((Col × Nat) × (Col × Nat)))
    (hrows : ∀ p ∈ copies, p.1.2 < key.cs.usableRows (2 ^ k) ∧ p.2.2 < key.cs.usableRows (2 ^ k))
    (a : PermAssembly) (ha : PermAssembly.copyAll fuel copies (PermAssembly.new (2 ^ k) key.cs.permutation) = .ok (.ok a))
    (hsig : SigmaOf key.domain key.cs.permutation.length (2 ^ k) key.sigma a.mapping)
    (hnot : ¬ ∀ p ∈ copies, (gridOf key.domain (2 ^ k) instances key.fixed advice user).cell p.1 =
      (gridOf key.domain (2 ^ k) instances key.fixed advice user).cell p.2) :
    ∃ (Bβ : Finset Fr) (Bγ : Fr → Finset Fr),
      Bβ.card ≤ key.cs.permutation.length * key.cs.usableRows (2 ^ k) ∧
      (∀ β, (Bγ β).card ≤ 2 * (key.cs.permutation.length * key.cs.usableRows (2 ^ k))) ∧
      ∀ θ β γ, Vanish L key k instances advice s user θ β γ → β ∈ Bβ ∨ γ ∈ Bγ β := by
  classical
  have hgood : ∀ p ∈ copies, (p.1.1 ∈ key.cs.permutation ∧ p.1.2 < 2 ^ k) ∧
      (p.2.1 ∈ key.cs.permutation ∧ p.2.2 < 2 ^ k) := by
    by_contra hg
    obtain ⟨e, h1, -⟩ := Props.C33_rejects fuel (2 ^ k) key.cs.permutation hc.distinct hf copies hg
    rw [ha] at h1
    cases h1
  obtain ⟨a', ha', hperm, hloop⟩ := Props.C33_cycles fuel (2 ^ k) key.cs.permutation hc.distinct hf copies hgood
  rw [ha] at ha'
  obtain rfl : a = a' := by injection ha' with h'; injection h'
  have hval := (Props.C33_values fuel (2 ^ k) key.cs.permutation hc.distinct hf copies a ha
    (gridOf key.domain (2 ^ k) instances key.fixed advice user).cell)
  rw [hval] at hnot
  clear hval
  generalize hu : key.cs.usableRows (2 ^ k) = u at hrows ⊢
  have hun : u < 2 ^ k := by
    have : key.cs.usableRows (2 ^ k) = 2 ^ k - (key.cs.blindingFactors + 1) := rfl
    omega
  generalize hM : key.cs.permutation.length = M at *
  have cellAt : ∀ c : Nat × Nat, (h : c.1 < M) → CellAt key.cs.permutation c (key.cs.permutation[c.1], c.2) :=
    fun c h => ⟨List.getElem?_eq_getElem _, rfl⟩
  -- unusable rows are not moved
  have hfix : ∀ c d, entry a.mapping c = some d → u ≤ c.2 → c = d := by
    intro c d hcd hcu
    have hci : Inside M (2 ^ k) c := (hperm.defined c).1 (by rw [hcd]; rfl)
    have hdi : Inside M (2 ^ k) d := hperm.inside c d hcd
    have htied : Tied copies (key.cs.permutation[c.1]'(hM ▸ hci.1), c.2) (key.cs.permutation[d.1]'(hM ▸ hdi.1), d.2) :=
      (hloop c d _ _ (cellAt c hci.1) (cellAt d hdi.1) hci.2 hdi.2).1 (Relation.ReflTransGen.single hcd)
    have key' : ∀ x y, Tied copies x y → (u ≤ x.2 → x = y) ∧ (u ≤ y.2 → x = y) := by
      intro x y h
      induction h with
      | rel x y h =>
        have := hrows _ h
        dsimp only at this
        exact ⟨fun h' => by omega, fun h' => by omega⟩
      | refl x => exact ⟨fun _ => rfl, fun _ => rfl⟩
      | symm x y _ ih => exact ⟨fun h' => (ih.2 h').symm, fun h' => (ih.1 h').symm⟩
      | trans x y z _ _ ih1 ih2 =>
        refine ⟨fun h' => ?_, fun h' => ?_⟩
        · have e1 := ih1.1 h'
          rw [e1]
          exact ih2.1 (e1 ▸ h')
        · have e2 := ih2.2 h'
          rw [← e2]
          exact ih1.2 (e2 ▸ h')
    have he := (key' _ _ htied).1 hcu
    rw [Prod.mk.injEq] at he
    exact Prod.ext ((List.Nodup.getElem_inj_iff hc.distinct).1 he.1) he.2
  let σ : Nat × Nat → Nat × Nat := fun c => (entry a.mapping c).getD c
  have hσ : ∀ c, Inside M (2 ^ k) c → entry a.mapping c = some (σ c) := by
    intro c hci
    have := (hperm.defined c).2 hci
    show _ = some ((entry a.mapping c).getD c)
    cases h : entry a.mapping c with
    | none => rw [h] at this; simp at this
    | some d => rfl
  let cells : Finset (Nat × Nat) := range M ×ˢ range u
  have hin : ∀ c ∈ cells, Inside M (2 ^ k) c ∧ c.2 < u := by
    intro c hcm
    have := mem_product.1 hcm
    rw [mem_range, mem_range] at this
    exact ⟨⟨this.1, by omega⟩, this.2⟩
  have hcl : ∀ c ∈ cells, σ c ∈ cells := by
    intro c hcm
    obtain ⟨h1, h2⟩ := hin c hcm
    have h3 := hperm.inside c (σ c) (hσ c h1)
    refine mem_product.2 ⟨mem_range.2 h3.1, mem_range.2 ?_⟩
    by_contra hge
    have h4 := hfix _ _ (hσ _ h3) (by omega)
    have h5 := hperm.injective c (σ c) (σ c) (hσ c h1) (by
      have := hσ _ h3
      rwa [← h4] at this)
    rw [← h5] at hge
    omega
  let v : Nat × Nat → Fr := fun c => match key.cs.permutation[c.1]? with
    | some col => (gridOf key.domain (2 ^ k) instances key.fixed advice user).cell (col, c.2)
    | none => 0
  let lab : Nat × Nat → Fr := fun c => deltaFr ^ c.1 * key.domain.omega ^ c.2
  have hvc : ∀ c x, CellAt key.cs.permutation c x →
      v c = (gridOf key.domain (2 ^ k) instances key.fixed advice user).cell x := by
    rintro c ⟨x, r⟩ ⟨h1, h2⟩
    show (match key.cs.permutation[c.1]? with
    | some col => (gridOf key.domain (2 ^ k) instances key.fixed advice user).cell (col, c.2)
    | none => 0) = _
    rw [h1, h2]
  obtain ⟨c0, h0, hne⟩ : ∃ c0 ∈ cells, v c0 ≠ v (σ c0) := by
    by_contra hall
    push Not at hall
    apply hnot
    intro c d x y hx hy hcd
    have hci : Inside M (2 ^ k) c := (hperm.defined c).1 (by rw [hcd]; rfl)
    rw [← hvc c x hx, ← hvc d y hy]
    have hd' : d = σ c := by
      have := hσ c hci
      rw [hcd] at this
      exact Option.some.inj this
    rcases Nat.lt_or_ge c.2 u with hlt | hge
    · rw [hd']
      exact hall c (mem_product.2 ⟨mem_range.2 hci.1, mem_range.2 hlt⟩)
    · rw [hfix c d hcd hge]
  have hk := primitive_le hd.omega
  obtain ⟨Bβ, Bγ, h1, h2, h3⟩ := perm_bad cells v lab σ (by
    intro c hcm d hdm he
    obtain ⟨⟨c1, c2⟩, c3⟩ := hin c hcm
    obtain ⟨⟨d1, d2⟩, d3⟩ := hin d hdm
    have := labels_injective hd.omega hk (by omega) (by omega) c2 d2 he
    exact Prod.ext this.1 this.2) hcl c0 h0 hne
  have hcard : cells.card = M * u := by
    show (range M ×ˢ range u).card = _
    rw [card_product, card_range, card_range]
  rw [hcard] at h1 h2
  refine ⟨Bβ, Bγ, h1, h2, fun θ β γ hv => ?_⟩
  by_contra hno
  rw [not_or] at hno
  have hfam := rowOf_family (L := L) (instances := instances)
    (com := s.commitments advice θ β γ 0) (user := user) (theta := θ) (beta := β) (gamma := γ) hd hL hbf
  rw [hu] at hfam
  obtain ⟨zl, hzl, hp⟩ := perm_products key.cs hfam (fun r hr v hv' => hv r hr v (by
    unfold exprsOf
    apply List.mem_append_left
    exact List.mem_append_right _ hv'))
  rw [hM] at hp
  apply h3 β γ zl hno.1 hno.2 hzl
  have hpv : ∀ i < M, ∀ r < u, (rowOf L key instances (s.commitments advice θ β γ 0) user θ β γ r).perm key.cs i
      = v (i, r) := by
    intro i hi r hr
    rw [hvc (i, r) (key.cs.permutation[i]'(by omega), r) ⟨List.getElem?_eq_getElem _, rfl⟩]
    unfold Opened.perm
    rw [List.getElem?_eq_getElem (by omega)]
    exact rowOf_col hd hL r (by omega) _
  rw [prod_product, prod_product]
  refine Eq.trans ?_ (Eq.trans hp ?_)
  · congr 1
    apply prod_congr rfl
    intro i hi
    apply prod_congr rfl
    intro r hr
    rw [mem_range] at hi hr
    unfold leftOf
    rw [rowOf_beta, rowOf_gamma, hpv i hi r hr]
    congr 2
    show _ = β * aeval _ (pick _ _)
    rw [coe_aeval_eq_eval, pick_eval]
    congr 1
    exact (hsig i hi r (by omega) _ _ (hσ (i, r) ⟨hi, by dsimp only; omega⟩)).symm
  · apply prod_congr rfl
    intro i hi
    apply prod_congr rfl
    intro r hr
    rw [mem_range] at hi hr
    unfold rightOf
    rw [rowOf_beta, rowOf_gamma, hpv i hi r hr]
    congr 1
    show _ + β * aeval _ X * _ = v (i, r) + β * (deltaFr ^ i * key.domain.omega ^ r)
    rw [coe_aeval_eq_eval, eval_X]
    show _ + β * key.domain.omega ^ r * deltaFr ^ i = _
    ring

/-- A violated constraint is noticed, except for few challenges. -/
theorem rounds (hd : IsDomain key.domain j k) (hL : Basis L key.domain k) (hc : Closed key.cs)
    (hbf : key.cs.blindingFactors + 1 < 2 ^ k) (hodd : key.cs.permutation.length ≤ oddPart)
    (fuel : Nat) (hf : key.cs.permutation.length * 2 ^ k ≤ fuel)
    (copies : List ((Col × Nat) × (Col × Nat)))
    (hrows : ∀ p ∈ copies, p.1.2 < key.cs.usableRows (2 ^ k) ∧ p.2.2 < key.cs.usableRows (2 ^ k))
    (a : PermAssembly) (ha : PermAssembly.copyAll fuel copies (PermAssembly.new (2 ^ k) key.cs.permutation) = .ok (.ok a))
    (hsig : SigmaOf key.domain key.cs.permutation.length (2 ^ k) key.sigma a.mapping)
    (w : Nat) (hw : ∀ l ∈ key.cs.lookups, l.input.length ≤ w + 1)
    (hnot : ¬ Satisfied key.cs (2 ^ k) (gridOf key.domain (2 ^ k) instances key.fixed advice user) copies) :
    ∃ (Bθ : Finset Fr) (Bβ : Fr → Finset Fr) (Bγ : Fr → Fr → Finset Fr),
      Bθ.card ≤ w * 2 ^ k ∧
      (∀ θ, (Bβ θ).card ≤ (key.cs.permutation.length + 2) * 2 ^ k) ∧
      (∀ θ β, (Bγ θ β).card ≤ 2 * ((key.cs.permutation.length + 1) * 2 ^ k)) ∧
      ∀ θ β γ, Vanish L key k instances advice s user θ β γ → θ ∈ Bθ ∨ β ∈ Bβ θ ∨ γ ∈ Bγ θ β := by
  classical
  have hu : key.cs.usableRows (2 ^ k) ≤ 2 ^ k := Nat.sub_le _ _
  have e1 := Nat.mul_le_mul_left (key.cs.permutation.length) hu
  by_cases hg : ∀ gate ∈ key.cs.gates, ∀ p ∈ gate, ∀ row, row < 2 ^ k →
      p.eval (2 ^ k) (gridOf key.domain (2 ^ k) instances key.fixed advice user) row = 0
  · by_cases hcp : ∀ p ∈ copies, (gridOf key.domain (2 ^ k) instances key.fixed advice user).cell p.1 =
      (gridOf key.domain (2 ^ k) instances key.fixed advice user).cell p.2
    · have hlk : ¬ ∀ l ∈ key.cs.lookups, ∀ row, row < key.cs.usableRows (2 ^ k) →
          ∃ row', row' < key.cs.usableRows (2 ^ k) ∧
          l.input.map (fun e => e.eval (2 ^ k) (gridOf key.domain (2 ^ k) instances key.fixed advice user) row) =
          l.table.map (fun e => e.eval (2 ^ k) (gridOf key.domain (2 ^ k) instances key.fixed advice user) row') :=
        fun h => hnot ⟨hg, h, hcp⟩
      push Not at hlk
      obtain ⟨l, hl, r, hr, hno⟩ := hlk
      obtain ⟨t, ht, rfl⟩ := List.mem_iff_getElem.1 hl
      obtain ⟨Bθ, Bβ, Bγ, h1, h2, h3, h4⟩ := lookup_round (s := s) hd hL hc hbf key.cs.lookups[t] t
        (List.mem_zipIdx_iff_getElem?.2 (List.getElem?_eq_getElem ht)) r hr hno
      refine ⟨Bθ, Bβ, Bγ, ?_, ?_, ?_, h4⟩
      · refine le_trans h1 ?_
        rw [Nat.mul_comm w]
        have := hw _ hl
        exact Nat.mul_le_mul hu (by omega)
      · intro θ
        have := h2 θ
        rw [Nat.add_mul]
        omega
      · intro θ β
        have := h3 θ β
        rw [Nat.add_mul]
        omega
    · obtain ⟨Bβ, Bγ, h1, h2, h3⟩ := copies_round (s := s) hd hL hc hbf hodd fuel hf copies hrows a ha hsig hcp
      refine ⟨∅, fun _ => Bβ, fun _ => Bγ, by simp, ?_, ?_, fun θ β γ hv => .inr (h3 θ β γ hv)⟩
      · intro θ
        dsimp only
        rw [Nat.add_mul]
        omega
      · intro θ β
        have := h2 β
        dsimp only
        rw [Nat.add_mul]
        omega
  · exact ⟨∅, fun _ => ∅, fun _ _ => ∅, by simp, by simp, by simp,
      fun θ β γ hv => absurd (vanish_gates hd hL hc hv) hg⟩

theorem exprsOf_length (cs : CS) (o : Opened Fr) :
    (exprsOf cs o).length ≤ cs.gates.flatten.length + 3 * cs.permutation.length + 5 * cs.lookups.length := by
  have h1 : ∀ (l : List (Lookup × Nat)), ((l.map fun p => lookupOf o p.1 p.2).flatten).length = 5 * l.length := by
    intro l
    induction l with
    | nil => rfl
    | cons p l ih =>
      rw [List.map_cons, List.flatten_cons, List.length_append, ih, List.length_cons]
      show 5 + _ = _
      omega
  have h2 : numSets cs ≤ cs.permutation.length := by
    have hp := partLen_pos cs
    unfold numSets
    rcases Nat.eq_zero_or_pos cs.permutation.length with h | h
    · rw [h, Nat.div_eq_of_lt (by omega)]
    · rw [Nat.div_le_iff_le_mul_add_pred hp]
      have := Nat.mul_le_mul_right cs.permutation.length hp
      generalize partLen cs = q at *
      obtain ⟨q, rfl⟩ : ∃ q', q = q' + 1 := ⟨q - 1, by omega⟩
      rw [Nat.add_mul]
      have : q * 1 ≤ q * cs.permutation.length := Nat.mul_le_mul_left _ h
      omega
  unfold exprsOf
  rw [List.length_append, List.length_append, h1, List.length_map, List.length_zipIdx]
  have : (permOf cs o).length ≤ 3 * cs.permutation.length := by
    unfold permOf
    simp only [List.length_append, List.length_map, List.length_range]
    split
    · next h => rw [h]; simp
    · simp only [List.length_cons, List.length_nil]
      omega
  omega

/-- The combined quotient. -/
noncomputable def quotient (n : Nat) (pieces : List Poly) : Fr[X] :=
  ∑ i ∈ range pieces.length, X ^ (n * i) * pick pieces i

theorem quotient_eval (n : Nat) (pieces : List Poly) (x : Fr) : (quotient n pieces).eval x =
    ∑ i ∈ range pieces.length, (x ^ n) ^ i * polyAt (pieces.getD i []) x := by
  unfold quotient
  rw [eval_finsetSum]
  apply sum_congr rfl
  intro i _
  rw [eval_mul, eval_pow, eval_X, pick_eval, pow_mul]

theorem quotient_degree {n N : Nat} (hn : n ≤ N) {pieces : List Poly} (h : ∀ p ∈ pieces, p.length ≤ N) :
    (quotient n pieces).natDegree ≤ N * pieces.length := by
  unfold quotient
  apply natDegree_sum_le_of_forall_le
  intro i hi
  rw [mem_range] at hi
  refine le_trans (mul_le_of (natDegree_X_pow_le _) (toPoly_degree (D := N) _ ?_)) ?_
  · rcases getD_mem_or pieces i [] with h1 | h1
    · exact le_trans (h _ h1) (by omega)
    · rw [h1]; simp
  · calc n * i + N ≤ N * i + N := by have := Nat.mul_le_mul_right i hn; omega
      _ = N * (i + 1) := by ring
      _ ≤ N * pieces.length := Nat.mul_le_mul_left _ hi

/-- The value of the verifier's sum. -/
theorem sum_eval (o : Opened Fr[X]) (cs : CS) (y x : Fr) :
    (exprsOf cs (o.map (aeval (R := Fr) x))).foldl (fun acc v => acc * y + v) 0 =
      ((exprsOf cs o).foldl (fun acc v => acc * C y + v) 0).eval x := by
  rw [map_exprsOf]
  have : ∀ (l : List Fr[X]) (a : Fr[X]), (l.map (aeval (R := Fr) x)).foldl (fun acc v => acc * y + v) (a.eval x)
      = (l.foldl (fun acc v => acc * C y + v) a).eval x := by
    intro l
    induction l with
    | nil => intro a; rfl
    | cons p l ih =>
      intro a
      rw [List.map_cons, List.foldl_cons, List.foldl_cons, ← ih, eval_add, eval_mul, eval_C,
        coe_aeval_eq_eval]
  have h := this (exprsOf cs o) 0
  rwa [eval_zero] at h

/-- A convinced verifier has checked the identity at its point. -/
theorem convinces_identity (hd : IsDomain key.domain j k)
    (hls : ∀ (x : Fr), x ^ 2 ^ k ≠ 1 → ∀ rs : List Int,
      key.domain.lIRange x (x ^ 2 ^ k) rs = rs.map fun s => (L s).eval x)
    (hc : Closed key.cs) (hi : instances.length = key.cs.numInstance) {com : Commitments Poly}
    {ch : Challenges} (hu : ch.user.length = key.cs.numChallenges)
    (h : Convinces key (2 ^ k) instances com ch) :
    ch.x ^ 2 ^ k ≠ 1 ∧ com.pieces.length = key.domain.quotientPolyDegree ∧
    ((exprsOf key.cs (polyOpened L key instances com ch.user ch.theta ch.beta ch.gamma)).foldl
        (fun acc v => acc * C ch.y + v) 0).eval ch.x =
      (quotient (2 ^ k) com.pieces).eval ch.x * (ch.x ^ 2 ^ k - 1) := by
  obtain ⟨e, queries, hs, hq, hh⟩ := h
  have hx : ch.x ^ 2 ^ k ≠ 1 := by
    intro hx
    unfold claims at hq
    simp only [except_bind] at hq
    obtain ⟨inst, -, hq⟩ := hq
    split at hq
    · cases hq
    simp only [except_bind] at hq
    obtain ⟨lLast, -, l0, -, exprs, -, hq⟩ := hq
    rw [if_pos (by rw [hx, sub_self])] at hq
    cases hq
  refine ⟨hx, hs.pieces, ?_⟩
  rw [claims_eq (L := L) (hls _ hx) hx hc hs hi, except_bind] at hq
  obtain ⟨exprs, he, hq⟩ := hq
  cases hq
  obtain ⟨hm, h1, -⟩ := (queries_hold (L := L) (instances := instances) hd hx hs hu rfl).1 hh
  have := expressions_ok ch hm hc (by
    show _ = aeval _ (C ch.beta); rw [coe_aeval_eq_eval, eval_C]) (by
    show _ = aeval _ (C ch.gamma); rw [coe_aeval_eq_eval, eval_C]) (by
    show _ = aeval _ (C ch.theta); rw [coe_aeval_eq_eval, eval_C]) (by
    show _ = aeval _ X; rw [coe_aeval_eq_eval, eval_X])
  have he' := this.symm.trans he
  rw [← sum_eval, quotient_eval, Except.ok.inj he']
  exact h1

/-- The argument, round by round. -/
theorem soundness (hd : IsDomain key.domain key.cs.degree k) (hc : Closed key.cs)
    (hbf : key.cs.blindingFactors + 1 < 2 ^ k) (hodd : key.cs.permutation.length ≤ oddPart)
    (fuel : Nat) (hf : key.cs.permutation.length * 2 ^ k ≤ fuel)
    (copies : List ((Col × Nat) × (Col × Nat)))
    (hrows : ∀ p ∈ copies, p.1.2 < key.cs.usableRows (2 ^ k) ∧ p.2.2 < key.cs.usableRows (2 ^ k))
    (a : PermAssembly) (ha : PermAssembly.copyAll fuel copies (PermAssembly.new (2 ^ k) key.cs.permutation) = .ok (.ok a))
    (hsig : SigmaOf key.domain key.cs.permutation.length (2 ^ k) key.sigma a.mapping)
    (w : Nat) (hw : ∀ l ∈ key.cs.lookups, l.input.length ≤ w + 1)
    (N : Nat) (hN : 2 ^ k ≤ N) (hb : Bounded N key advice s)
    (hi : instances.length = key.cs.numInstance) (hu : user.length = key.cs.numChallenges)
    (hnot : ¬ Satisfied key.cs (2 ^ k) (gridOf key.domain (2 ^ k) instances key.fixed advice user) copies) :
    ∃ (Bθ : Finset Fr) (Bβ : Fr → Finset Fr) (Bγ : Fr → Fr → Finset Fr) (By : Fr → Fr → Fr → Finset Fr)
      (Bx : Fr → Fr → Fr → Fr → Finset Fr),
      Bθ.card ≤ w * 2 ^ k ∧
      (∀ θ, (Bβ θ).card ≤ (key.cs.permutation.length + 2) * 2 ^ k) ∧
      (∀ θ β, (Bγ θ β).card ≤ 2 * ((key.cs.permutation.length + 1) * 2 ^ k)) ∧
      (∀ θ β γ, (By θ β γ).card ≤
        key.cs.gates.flatten.length + 3 * key.cs.permutation.length + 5 * key.cs.lookups.length) ∧
      (∀ θ β γ y, (Bx θ β γ y).card ≤ key.cs.degree * N) ∧
      ∀ θ β γ y x, Convinces key (2 ^ k) instances (s.commitments advice θ β γ y) ⟨user, θ, β, γ, y, x⟩ →
        θ ∈ Bθ ∨ β ∈ Bβ θ ∨ γ ∈ Bγ θ β ∨ y ∈ By θ β γ ∨ x ∈ Bx θ β γ y := by
  classical
  obtain ⟨L, hdeg, hL, hls⟩ := exists_basis hd
  obtain ⟨Bθ, Bβ, Bγ, h1, h2, h3, h4⟩ := rounds (s := s) hd hL hc hbf hodd fuel hf copies hrows a ha hsig w hw hnot
  -- the round of `y`
  have hy : ∀ θ β γ, ∃ B : Finset Fr, B.card ≤
      key.cs.gates.flatten.length + 3 * key.cs.permutation.length + 5 * key.cs.lookups.length ∧
      (¬ Vanish L key k instances advice s user θ β γ → ∃ r < 2 ^ k, ∀ y ∉ B,
        (exprsOf key.cs (rowOf L key instances (s.commitments advice θ β γ 0) user θ β γ r)).foldl
          (fun acc v => acc * y + v) 0 ≠ 0) := by
    intro θ β γ
    by_cases hv : Vanish L key k instances advice s user θ β γ
    · exact ⟨∅, by simp, fun h => absurd hv h⟩
    · have hv' := hv
      unfold Vanish at hv'
      push Not at hv'
      obtain ⟨r, hr, v, hvm, hv0⟩ := hv'
      obtain ⟨B, hB1, hB2⟩ := combine_bad _ ⟨v, hvm, hv0⟩
      exact ⟨B, le_trans hB1 (le_trans (Nat.sub_le _ _) (exprsOf_length _ _)), fun _ => ⟨r, hr, hB2⟩⟩
  choose By hy1 hy2 using hy
  -- the round of `x`
  have hx : ∀ θ β γ y, ∃ B : Finset Fr, B.card ≤ key.cs.degree * N ∧
      (y ∉ By θ β γ → ¬ Vanish L key k instances advice s user θ β γ → ∀ x ∉ B,
        ¬ Convinces key (2 ^ k) instances (s.commitments advice θ β γ y) ⟨user, θ, β, γ, y, x⟩) := by
    intro θ β γ y
    by_cases hp : (s.pieces θ β γ y).length = key.domain.quotientPolyDegree
    · let o := polyOpened L key instances (s.commitments advice θ β γ 0) user θ β γ
      let num : Fr[X] := (exprsOf key.cs o).foldl (fun acc v => acc * C y + v) 0
      let D : Fr[X] := num - quotient (2 ^ k) (s.pieces θ β γ y) * (X ^ 2 ^ k - 1)
      by_cases hD : D = 0
      · refine ⟨∅, by simp, fun hyB hv => ?_⟩
        exfalso
        obtain ⟨r, hr, hne⟩ := hy2 θ β γ hv
        apply hne y hyB
        have he : D.eval (key.domain.omega ^ r) = 0 := by rw [hD, eval_zero]
        rw [show D = num - quotient (2 ^ k) (s.pieces θ β γ y) * (X ^ 2 ^ k - 1) from rfl, eval_sub, eval_mul,
          eval_sub, eval_pow, eval_X, eval_one, ← pow_mul, Nat.mul_comm, pow_mul, hd.omega.pow_eq_one, one_pow,
          sub_self, mul_zero, sub_zero] at he
        exact (sum_eval o key.cs y (key.domain.omega ^ r)).trans he
      · refine ⟨D.roots.toFinset, le_trans (card_zeros D) ?_, fun _ _ x hxB hcv => ?_⟩
        · have hsm : Small (N - 1 + 1) o := by
            apply polyOpened_small (k := k)
            · omega
            · omega
            · exact hdeg
            · exact ⟨fun p hp => le_trans (hb.fixed p hp) (by omega), fun p hp => le_trans (hb.sigma p hp) (by omega),
                fun p hp => le_trans (hb.advice p hp) (by omega),
                fun p hp => ⟨le_trans (hb.permuted θ p hp).1 (by omega), le_trans (hb.permuted θ p hp).2 (by omega)⟩,
                fun p hp => le_trans (hb.products θ β γ p hp) (by omega),
                fun p hp => le_trans (hb.lookupProducts θ β γ p hp) (by omega),
                fun p hp => le_trans (hb.pieces θ β γ 0 p hp) (by omega)⟩
          have hpos : 0 < 2 ^ k := by positivity
          rw [show N - 1 + 1 = N by omega] at hsm
          have hge := degree_ge key.cs
          apply sub_degree
          · exact fold_degree y _ _ _ (by simp) (exprs_degree hsm key.cs)
          · refine le_trans (mul_le_of (quotient_degree hN (hb.pieces θ β γ y))
              (b := 2 ^ k) (sub_le_of (natDegree_X_pow_le _) (one_le_of _))) ?_
            rw [hp, hd.quotient]
            obtain ⟨c, hcd⟩ : ∃ c, key.cs.degree = c + 1 := ⟨key.cs.degree - 1, by omega⟩
            rw [hcd, Nat.add_sub_cancel, Nat.add_mul, Nat.mul_comm N]
            omega
        · rw [mem_zeros hD] at hxB
          apply hxB
          obtain ⟨-, -, hid⟩ := convinces_identity hd hls hc hi hu hcv
          rw [show D = num - quotient (2 ^ k) (s.pieces θ β γ y) * (X ^ 2 ^ k - 1) from rfl, eval_sub, eval_mul,
            eval_sub, eval_pow, eval_X, eval_one, sub_eq_zero]
          exact hid
    · refine ⟨∅, by simp, fun _ _ x _ hcv => hp ?_⟩
      exact (convinces_identity hd hls hc hi hu hcv).2.1
  choose Bx hx1 hx2 using hx
  refine ⟨Bθ, Bβ, Bγ, By, Bx, h1, h2, h3, hy1, hx1, fun θ β γ y x hcv => ?_⟩
  by_cases hv : Vanish L key k instances advice s user θ β γ
  · rcases h4 θ β γ hv with h | h | h
    · exact .inl h
    · exact .inr (.inl h)
    · exact .inr (.inr (.inl h))
  · by_contra hno
    simp only [not_or] at hno
    exact hx2 θ β γ y hno.2.2.2.1 hv x hno.2.2.2.2 hcv

end Verif.Plonk

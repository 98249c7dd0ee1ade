import Verif.Lemmas.ProverRows
import Verif.Lemmas.PiopSound

/-! The expressions vanish in every row if the table satisfies the constraints. -/

namespace Verif.PlonkProver

open Finset Spec Plonk

variable {n u : Nat} {row : Nat → Opened Fr}

theorem inactive (h : RowFamily n u row) {r : Nat} (hr : u ≤ r) (hn : r < n) : (row r).active = 0 := by
  unfold Opened.active
  rw [h.lLast r hn, h.lBlind r hn]
  rcases Nat.eq_or_lt_of_le hr with h1 | h1
  · rw [if_pos h1.symm, if_neg (by omega)]; ring
  · rw [if_neg (by omega), if_pos h1]; ring

theorem startAt_prod (u : Nat) (q : Nat → Nat → Fr) (t : Nat) :
    startAt u q t = ∏ s ∈ range t, ∏ r ∈ range u, q s r := by
  induction t with
  | zero => rfl
  | succ t ih => rw [startAt, ih, prod_range_succ]

/-- The permutation argument. -/
theorem perm_vanish (cs : CS) (h : RowFamily n u row) (q : Nat → Nat → Fr)
    (hz : ∀ t < numSets cs, ∀ r ≤ u, (row r).z t = startAt u q t * ∏ i ∈ range r, q t i)
    (hq : ∀ t < numSets cs, ∀ r < u, q t r = (∏ i ∈ part cs t, leftOf cs (row r) i)⁻¹ *
      ∏ i ∈ part cs t, rightOf cs (row r) i)
    (hne : ∀ i < cs.permutation.length, ∀ r < u, leftOf cs (row r) i ≠ 0)
    (heq : ∏ i ∈ range cs.permutation.length, ∏ r ∈ range u, leftOf cs (row r) i =
      ∏ i ∈ range cs.permutation.length, ∏ r ∈ range u, rightOf cs (row r) i) :
    ∀ r < n, ∀ v ∈ permOf cs (row r), v = 0 := by
  have hu := h.usable
  have hlt := h.less
  have hpart : ∀ t < numSets cs, ∀ r < u, ∏ i ∈ part cs t, leftOf cs (row r) i ≠ 0 := by
    intro t ht r hr
    apply prod_ne_zero_iff.2
    intro i hi
    unfold part at hi
    rw [mem_Ico] at hi
    exact hne i (by omega) r hr
  have hstart : ∀ t < numSets cs, (row 0).z t = startAt u q t := by
    intro t ht
    rw [hz t ht 0 (by omega), prod_range_zero, mul_one]
  have hend : ∀ t < numSets cs, (row u).z t = startAt u q (t + 1) := by
    intro t ht
    rw [hz t ht u le_rfl, startAt]
  have htotal : startAt u q (numSets cs) = 1 := by
    rw [startAt_prod]
    have e1 : ∀ s ∈ range (numSets cs), ∏ r ∈ range u, q s r =
        ∏ r ∈ range u, ((∏ i ∈ part cs s, leftOf cs (row r) i)⁻¹ * ∏ i ∈ part cs s, rightOf cs (row r) i) := by
      intro s hs
      apply prod_congr rfl
      intro r hr
      exact hq s (mem_range.1 hs) r (mem_range.1 hr)
    rw [prod_congr rfl e1]
    have swap : ∀ f : Nat → Nat → Fr,
        ∏ s ∈ range (numSets cs), ∏ r ∈ range u, ∏ i ∈ part cs s, f r i =
        ∏ i ∈ range cs.permutation.length, ∏ r ∈ range u, f r i := by
      intro f
      rw [prod_comm, prod_comm (s := range cs.permutation.length)]
      exact prod_congr rfl fun r _ => all_parts cs _
    simp only [prod_mul_distrib, prod_inv_distrib]
    rw [swap fun r i => leftOf cs (row r) i, swap fun r i => rightOf cs (row r) i, heq]
    apply inv_mul_cancel₀
    rw [← heq]
    apply prod_ne_zero_iff.2
    intro i hi
    apply prod_ne_zero_iff.2
    intro r hr
    exact hne i (mem_range.1 hi) r (mem_range.1 hr)
  intro r hr v hv
  unfold permOf at hv
  rw [List.mem_append, List.mem_append] at hv
  rcases hv with (hv | hv) | hv
  · split at hv
    · simp at hv
    · next h0 =>
      simp only [List.mem_cons, List.not_mem_nil, or_false] at hv
      rcases hv with rfl | rfl
      · rw [h.l0 r hr]
        split
        · next hr0 => subst hr0; rw [hstart 0 (by omega)]; simp [startAt]
        · simp
      · rw [h.lLast r hr]
        split
        · next hr0 =>
          subst hr0
          rw [hend _ (by omega), show numSets cs - 1 + 1 = numSets cs by omega, htotal]
          ring
        · simp
  · obtain ⟨t, ht, rfl⟩ := List.mem_map.1 hv
    rw [List.mem_range] at ht
    rw [h.l0 r hr]
    split
    · next hr0 => subst hr0; rw [h.zLast, hstart _ (by omega), hend _ (by omega)]; ring
    · simp
  · obtain ⟨t, ht, rfl⟩ := List.mem_map.1 hv
    rw [List.mem_range] at ht
    rcases Nat.lt_or_ge r u with h1 | h1
    · rw [h.active h1, mul_one, h.zNext t r (by omega), hz t ht _ (by omega), hz t ht _ (by omega), prod_range_succ,
        hq t ht r h1]
      have := hpart t ht r h1
      field_simp
      ring
    · rw [inactive h h1 hr, mul_zero]

theorem prod_perm {a b : List Fr} (h : a.Perm b) (f : Fr → Fr) (m : Nat) (A B : Nat → Fr)
    (ha : a = (List.range m).map A) (hb : b = (List.range m).map B) :
    ∏ r ∈ range m, f (A r) = ∏ r ∈ range m, f (B r) := by
  have h1 := (h.map f).prod_eq
  rw [ha, hb, List.map_map, List.map_map] at h1
  exact h1

/-- A lookup. -/
theorem lookup_vanish (h : RowFamily n u row) (l : Lookup) (t : Nat) (beta gamma : Fr)
    (hb : ∀ r, (row r).beta = beta) (hg : ∀ r, (row r).gamma = gamma) (q : Nat → Fr)
    (hz : ∀ r ≤ u, (row r).lz t = ∏ i ∈ range r, q i)
    (hq : ∀ r < u, q r = (((row r).la t + beta) * ((row r).ls t + gamma))⁻¹ *
      (((row r).comp l.input + beta) * ((row r).comp l.table + gamma)))
    (hshow : ShowsLookup ((List.range u).map fun r => (row r).comp l.input)
      ((List.range u).map fun r => (row r).comp l.table)
      ((List.range u).map fun r => (row r).la t) ((List.range u).map fun r => (row r).ls t))
    (hbeta : ∀ r < u, (row r).comp l.input + beta ≠ 0)
    (hgamma : ∀ r < u, (row r).comp l.table + gamma ≠ 0) :
    ∀ r < n, ∀ v ∈ lookupOf (row r) l t, v = 0 := by
  have hu := h.usable
  have hlt := h.less
  have ea := prod_perm hshow.input (fun v => v + beta) u _ _ rfl rfl
  have es := prod_perm hshow.table (fun v => v + gamma) u _ _ rfl rfl
  have ha : ∏ r ∈ range u, ((row r).la t + beta) ≠ 0 := by
    rw [ea]; exact prod_ne_zero_iff.2 fun r hr => hbeta r (mem_range.1 hr)
  have hs : ∏ r ∈ range u, ((row r).ls t + gamma) ≠ 0 := by
    rw [es]; exact prod_ne_zero_iff.2 fun r hr => hgamma r (mem_range.1 hr)
  have ha' := fun r hr => prod_ne_zero_iff.1 ha r (mem_range.2 hr)
  have hs' := fun r hr => prod_ne_zero_iff.1 hs r (mem_range.2 hr)
  intro r hr v hv
  unfold lookupOf at hv
  simp only [List.mem_cons, List.not_mem_nil, or_false] at hv
  rcases hv with rfl | rfl | rfl | rfl | rfl
  · rw [h.l0 r hr]
    split
    · next hr0 => subst hr0; rw [hz 0 (by omega)]; simp
    · simp
  · rw [h.lLast r hr]
    split
    · next hr0 =>
      subst hr0
      have : (row r).lz t = 1 := by
        rw [hz r le_rfl, prod_congr rfl fun i hi => hq i (mem_range.1 hi)]
        simp only [prod_mul_distrib, prod_inv_distrib]
        rw [ea, es]
        apply inv_mul_cancel₀
        rw [← ea, ← es]
        exact mul_ne_zero ha hs
      rw [this]
      ring
    · simp
  · rcases Nat.lt_or_ge r u with h1 | h1
    · rw [h.active h1, mul_one, h.lzNext t r (by omega), hz _ (by omega), hz _ (by omega), prod_range_succ,
        hq r h1, hb, hg]
      have h2 := ha' r h1
      have h3 := hs' r h1
      field_simp
      ring
    · rw [inactive h h1 hr, mul_zero]
  · rw [h.l0 r hr]
    split
    · next hr0 =>
      subst hr0
      have := hshow.first
      simp only [List.getElem?_map, List.getElem?_range hu, Option.map_some, Option.some.injEq] at this
      rw [this]; ring
    · simp
  · rcases Nat.lt_or_ge r u with h1 | h1
    · rcases Nat.eq_zero_or_pos r with h0 | h0
      · subst h0
        have := hshow.first
        simp only [List.getElem?_map, List.getElem?_range hu, Option.map_some, Option.some.injEq] at this
        rw [this]; ring
      · obtain ⟨i, rfl⟩ : ∃ i, r = i + 1 := ⟨r - 1, by omega⟩
        have := hshow.rows i (by simpa using h1)
        simp only [List.getElem?_map, List.getElem?_range h1, List.getElem?_range (show i < u by omega), Option.map_some,
          Option.some.injEq] at this
        rw [h.laInv t i (by omega)]
        rcases this with h2 | h2
        · rw [h2]; ring
        · rw [h2]; ring
    · rw [inactive h h1 hr, mul_zero]

/-- Copy constraints that hold make the values invariant under a permutation of the usable cells. -/
theorem cells_perm {perm : List Col} (hnd : perm.Nodup) {n u : Nat} (hun : u ≤ n) (fuel : Nat)
    (hf : perm.length * n ≤ fuel) (copies : List ((Col × Nat) × (Col × Nat)))
    (hrows : ∀ p ∈ copies, p.1.2 < u ∧ p.2.2 < u) (a : PermAssembly)
    (ha : PermAssembly.copyAll fuel copies (PermAssembly.new n perm) = .ok (.ok a))
    (cell : Col × Nat → Fr) (hsat : ∀ p ∈ copies, cell p.1 = cell p.2) :
    ∃ σ : Nat × Nat → Nat × Nat, (∀ c ∈ range perm.length ×ˢ range u, σ c ∈ range perm.length ×ˢ range u) ∧
      (∀ c ∈ range perm.length ×ˢ range u, ∀ d ∈ range perm.length ×ˢ range u, σ c = σ d → c = d) ∧
      (∀ c ∈ range perm.length ×ˢ range u, entry a.mapping c = some (σ c)) ∧
      ∀ i r i' r', (i, r) ∈ range perm.length ×ˢ range u → σ (i, r) = (i', r') →
        ∀ c c', perm[i]? = some c → perm[i']? = some c' → cell (c, r) = cell (c', r') := by
  classical
  have hgood : ∀ p ∈ copies, (p.1.1 ∈ perm ∧ p.1.2 < n) ∧ (p.2.1 ∈ perm ∧ p.2.2 < n) := by
    by_contra hg
    obtain ⟨e, h1, -⟩ := Props.C33_rejects fuel n perm hnd hf copies hg
    rw [ha] at h1
    cases h1
  obtain ⟨a', ha', hperm, hloop⟩ := Props.C33_cycles fuel n perm hnd hf copies hgood
  rw [ha] at ha'
  obtain rfl : a = a' := by injection ha' with h'; injection h'
  have hval := (Props.C33_values fuel n perm hnd hf copies a ha cell).1 hsat
  have cellAt : ∀ c : Nat × Nat, (h : c.1 < perm.length) → CellAt perm c (perm[c.1], c.2) :=
    fun c h => ⟨List.getElem?_eq_getElem _, rfl⟩
  have hfix : ∀ c d, entry a.mapping c = some d → u ≤ c.2 → c = d := by
    intro c d hcd hcu
    have hci : Inside perm.length n c := (hperm.defined c).1 (by rw [hcd]; rfl)
    have hdi : Inside perm.length n d := hperm.inside c d hcd
    have htied : Tied copies (perm[c.1]'hci.1, c.2) (perm[d.1]'hdi.1, d.2) :=
      (hloop c d _ _ (cellAt c hci.1) (cellAt d hdi.1) hci.2 hdi.2).1 (Relation.ReflTransGen.single hcd)
    have key' : ∀ x y, Tied copies x y → (u ≤ x.2 → x = y) ∧ (u ≤ y.2 → x = y) := by
      intro x y h
      induction h with
      | rel x y h =>
        have := hrows _ h
        dsimp only at this
        exact ⟨fun h' => by omega, fun h' => by omega⟩
      | refl x => exact ⟨fun _ => rfl, fun _ => rfl⟩
      | symm x y _ ih => exact ⟨fun h' => (ih.2 h').symm, fun h' => (ih.1 h').symm⟩
      | trans x y z _ _ ih1 ih2 =>
        refine ⟨fun h' => ?_, fun h' => ?_⟩
        · have e1 := ih1.1 h'
          rw [e1]
          exact ih2.1 (e1 ▸ h')
        · have e2 := ih2.2 h'
          rw [← e2]
          exact ih1.2 (e2 ▸ h')
    have he := (key' _ _ htied).1 hcu
    rw [Prod.mk.injEq] at he
    exact Prod.ext ((List.Nodup.getElem_inj_iff hnd).1 he.1) he.2
  let σ : Nat × Nat → Nat × Nat := fun c => (entry a.mapping c).getD c
  have hσ : ∀ c, Inside perm.length n c → entry a.mapping c = some (σ c) := by
    intro c hci
    have := (hperm.defined c).2 hci
    show _ = some ((entry a.mapping c).getD c)
    cases h : entry a.mapping c with
    | none => rw [h] at this; simp at this
    | some d => rfl
  have hin : ∀ c ∈ range perm.length ×ˢ range u, Inside perm.length n c ∧ c.2 < u := by
    intro c hcm
    have := mem_product.1 hcm
    rw [mem_range, mem_range] at this
    exact ⟨⟨this.1, by omega⟩, this.2⟩
  refine ⟨σ, ?_, ?_, fun c hc => hσ c (hin c hc).1, ?_⟩
  · intro c hcm
    obtain ⟨h1, h2⟩ := hin c hcm
    have h3 := hperm.inside c (σ c) (hσ c h1)
    refine mem_product.2 ⟨mem_range.2 h3.1, mem_range.2 ?_⟩
    by_contra hge
    have h4 := hfix _ _ (hσ _ h3) (by omega)
    have h5 := hperm.injective c (σ c) (σ c) (hσ c h1) (by
      have := hσ _ h3
      rwa [← h4] at this)
    rw [← h5] at hge
    omega
  · intro c hc d hd hcd
    refine hperm.injective c d (σ c) (hσ c (hin c hc).1) ?_
    rw [hcd]
    exact hσ d (hin d hd).1
  · intro i r i' r' hm hs c c' hc hc'
    have := hσ _ (hin _ hm).1
    rw [hs] at this
    exact hval (i, r) (i', r') (c, r) (c', r') ⟨hc, rfl⟩ ⟨hc', rfl⟩ this

end Verif.PlonkProver

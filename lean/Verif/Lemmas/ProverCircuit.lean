import Verif.Lemmas.ProverCreate

/-! The honest prover for the brainfuck circuit; counting unlucky challenges. -/

namespace Verif.PlonkProver

open Spec Plonk Compress Keygen Props

theorem lucky_sets (pk : ProvingKey) (k : Nat) (g : Grid) (S : Nat → Nat → Fr) :
    ∃ (Bβ : Fr → Finset Fr) (Bγ : Fr → Fr → Finset Fr),
      (∀ θ, (Bβ θ).card ≤ pk.cs.lookups.length * 2 ^ k) ∧
      (∀ θ β, (Bγ θ β).card ≤ (pk.cs.permutation.length + pk.cs.lookups.length) * 2 ^ k) ∧
      ∀ θ β γ, β ∉ Bβ θ → γ ∉ Bγ θ β → Lucky pk k g S θ β γ := by
  classical
  let u := 2 ^ k - (pk.cs.blindingFactors + 1)
  have hu : u ≤ 2 ^ k := Nat.sub_le _ _
  let inp : Fr → Nat × Nat → Fr := fun θ p =>
    -(compAt (2 ^ k) g θ ((pk.cs.lookups.map (·.input)).getD p.1 []) p.2)
  let tab : Fr → Nat × Nat → Fr := fun θ p =>
    -(compAt (2 ^ k) g θ ((pk.cs.lookups.map (·.table)).getD p.1 []) p.2)
  let cel : Fr → Nat × Nat → Fr := fun β p => -(permAt pk.cs g p.1 p.2 + β * S p.1 p.2)
  refine ⟨fun θ => (Finset.range pk.cs.lookups.length ×ˢ Finset.range u).image (inp θ),
    fun θ β => (Finset.range pk.cs.permutation.length ×ˢ Finset.range u).image (cel β) ∪
      (Finset.range pk.cs.lookups.length ×ˢ Finset.range u).image (tab θ), ?_, ?_, ?_⟩
  · intro θ
    refine le_trans Finset.card_image_le ?_
    rw [Finset.card_product, Finset.card_range, Finset.card_range]
    exact Nat.mul_le_mul_left _ hu
  · intro θ β
    refine le_trans (Finset.card_union_le _ _) ?_
    rw [Nat.add_mul]
    refine Nat.add_le_add ?_ ?_
    · refine le_trans Finset.card_image_le ?_
      rw [Finset.card_product, Finset.card_range, Finset.card_range]
      exact Nat.mul_le_mul_left _ hu
    · refine le_trans Finset.card_image_le ?_
      rw [Finset.card_product, Finset.card_range, Finset.card_range]
      exact Nat.mul_le_mul_left _ hu
  · intro θ β γ hβ hγ
    have hγ' := hγ
    rw [Finset.mem_union, not_or] at hγ
    refine ⟨?_, ?_, ?_⟩
    · intro i hi r hr h
      refine hγ.1 (Finset.mem_image.2 ⟨(i, r), Finset.mem_product.2
        ⟨Finset.mem_range.2 hi, Finset.mem_range.2 hr⟩, ?_⟩)
      exact neg_eq_of_add_eq_zero_right h
    · intro l hl r hr h
      obtain ⟨i, hi, rfl⟩ := List.getElem_of_mem hl
      refine hβ (Finset.mem_image.2 ⟨(i, r), Finset.mem_product.2
        ⟨Finset.mem_range.2 hi, Finset.mem_range.2 hr⟩, ?_⟩)
      show -(compAt (2 ^ k) g θ ((pk.cs.lookups.map (·.input)).getD i []) r) = β
      have : (pk.cs.lookups.map (·.input)).getD i [] = pk.cs.lookups[i].input := by simp [hi]
      rw [this]
      exact neg_eq_of_add_eq_zero_right h
    · intro l hl r hr h
      obtain ⟨i, hi, rfl⟩ := List.getElem_of_mem hl
      refine hγ.2 (Finset.mem_image.2 ⟨(i, r), Finset.mem_product.2
        ⟨Finset.mem_range.2 hi, Finset.mem_range.2 hr⟩, ?_⟩)
      show -(compAt (2 ^ k) g θ ((pk.cs.lookups.map (·.table)).getD i []) r) = γ
      have : (pk.cs.lookups.map (·.table)).getD i [] = pk.cs.lookups[i].table := by simp [hi]
      rw [this]
      exact neg_eq_of_add_eq_zero_right h

theorem new_coset {checks : Bool} {fuel j k : Nat} {d : Domain} (h : Domain.new checks fuel j k = .ok d) :
    d.gCoset = zetaFr := by
  unfold Domain.new at h
  split at h
  · cases h
  · dsimp only at h
    rw [except_bind] at h
    obtain ⟨n, -, h⟩ := h
    rw [except_bind] at h
    obtain ⟨l, -, h⟩ := h
    rw [except_bind] at h
    obtain ⟨ek, -, h⟩ := h
    rw [except_bind] at h
    obtain ⟨ts, -, h⟩ := h
    rw [except_bind] at h
    obtain ⟨len, -, h⟩ := h
    split at h
    · cases h
    · rw [except_bind] at h
      obtain ⟨n', -, h⟩ := h
      rw [except_bind] at h
      obtain ⟨en, -, h⟩ := h
      cases h
      rfl

theorem assemblePk_eq {fuel : Nat} {cs : CS} {n : Nat}
    {d : Domain} {a : Assembly} {asm : PermAssembly}
    (h1 : PermAssembly.copyAll fuel a.copies (PermAssembly.new n cs.permutation) = .ok (.ok asm))
    {c : CS.Compressed} {cols : List (List Fr)} {as : List SelectorAssignment}
    (h2 : cs.compressSelectors (activations cs n a) = .ok (c, cols, as)) {vs : List (List Fr)}
    (h3 : permutationValues d.omega c.cs.permutation.length n asm.mapping = .ok vs)
    {sigma fixed : List Coeffs} (h4 : vs.mapM d.lagrangeToCoeff = .ok sigma)
    (h5 : (fixedValues cs n a cols).mapM d.lagrangeToCoeff = .ok fixed) {l0 l1 l2 : Coeffs}
    (h6 : d.lagrangeToCoeff (basisValues c.cs n).1 = .ok l0)
    (h7 : d.lagrangeToCoeff (basisValues c.cs n).2.1 = .ok l1)
    (h8 : d.lagrangeToCoeff (basisValues c.cs n).2.2 = .ok l2) :
    assemblePk fuel cs n d a = .ok (.ok ⟨d, c.cs, l0, l1, l2, fixedValues cs n a cols, fixed, vs, sigma⟩) := by
  unfold assemblePk
  rw [h1]
  show (cs.compressSelectors (activations cs n a) >>= _) = _
  rw [h2]
  show ((fixedValues cs n a cols).mapM d.lagrangeToCoeff >>= _) = _
  rw [h5]
  show (permutationValues d.omega c.cs.permutation.length n asm.mapping >>= _) = _
  rw [h3]
  show (vs.mapM d.lagrangeToCoeff >>= _) = _
  rw [h4]
  show (d.lagrangeToCoeff (basisValues c.cs n).1 >>= _) = _
  rw [h6]
  show (d.lagrangeToCoeff (basisValues c.cs n).2.1 >>= _) = _
  rw [h7]
  show (d.lagrangeToCoeff (basisValues c.cs n).2.2 >>= _) = _
  rw [h8]
  rfl

theorem basis_getD (cs : CS) (n : Nat) (hbf : cs.blindingFactors + 1 < n) :
    ((basisValues cs n).1.length = n ∧ (basisValues cs n).2.1.length = n ∧ (basisValues cs n).2.2.length = n) ∧
    ∀ r < n, (basisValues cs n).1[r]? = some (if r = 0 then 1 else 0) ∧
      (basisValues cs n).2.1[r]? = some (if r = cs.usableRows n then 1 else 0) ∧
      (basisValues cs n).2.2[r]? = some (if r < cs.usableRows n then 1 else 0) := by
  have hu : cs.usableRows n = n - (cs.blindingFactors + 1) := rfl
  unfold basisValues
  dsimp only
  refine ⟨by simp, ?_⟩
  intro r hr
  rw [hu]
  refine ⟨by simp [hr], ?_, ?_⟩
  · rw [List.getElem?_map, List.getElem?_range hr]
    simp only [Option.map_some]
    rw [Nat.sub_sub]
  · have hz : (((List.range n).map fun i => if i = n - cs.blindingFactors - 1 then (1 : Fr) else 0).zip
        ((List.range n).map fun i => if n - cs.blindingFactors ≤ i then (1 : Fr) else 0))[r]? =
        some (if r = n - cs.blindingFactors - 1 then (1 : Fr) else 0,
          if n - cs.blindingFactors ≤ r then (1 : Fr) else 0) :=
      List.getElem?_zip_eq_some.2 ⟨by simp [hr], by simp [hr]⟩
    rw [List.getElem?_map, hz]
    simp only [Option.map_some]
    congr 1
    by_cases h1 : r = n - cs.blindingFactors - 1
    · rw [if_pos h1, if_neg (by omega), if_neg (by omega)]; ring
    · rw [if_neg h1]
      by_cases h2 : n - cs.blindingFactors ≤ r
      · rw [if_pos h2, if_neg (by omega)]; ring
      · rw [if_neg h2, if_pos (by omega)]; ring

/-- Everything about a generated proving key. -/
theorem keygenPk_ok (checks : Bool) (fuel fuel' k : Nat) (hk : k ≤ 24) (hf : 48 ≤ fuel)
    (hf' : 16 * 2 ^ k ≤ fuel') (mx : Matrix) (ch : Nat → Fr) (inst : Nat → List Fr) (a : Assembly)
    (ha : synthesize (2 ^ k) mx ch inst = .ok a) :
    ∃ (pk : ProvingKey) (asm : PermAssembly) (c : CS.Compressed) (cols : List (List Fr))
      (as : List SelectorAssignment),
      keygenPk checks fuel fuel' k mx ch inst = .ok (.ok pk) ∧
      keygenVk pk.domain.lagrangeToCoeff checks fuel fuel' k mx ch inst = .ok (.ok (verifyingKeyOf pk)) ∧
      ProvingKeyFor pk k ∧
      PermAssembly.copyAll fuel' a.copies (PermAssembly.new (2 ^ k) mainCS.permutation) = .ok (.ok asm) ∧
      mainCS.compressSelectors (selectorTable (2 ^ k) a) = .ok (c, cols, as) ∧
      (∀ col ∈ cols, col.length = 2 ^ k) ∧
      pk.cs = c.cs ∧ pk.fixedValues = fixedValues mainCS (2 ^ k) a cols ∧
      SigmaOf pk.domain 16 (2 ^ k) pk.sigmaPolys asm.mapping := by
  obtain ⟨d, hd1, hd⟩ := Props.C40_circuit_partial checks k hk fuel hf
  obtain ⟨hl, hn⟩ := selectorTable_length (2 ^ k) a
  have hns : mainCS.numSelectors = 15 := by decide +kernel
  have hnf : mainCS.numFixed = 1 := by decide +kernel
  obtain ⟨g1, g2, g3, g4, g5, g6⟩ := gates_count
  obtain ⟨c, cols, as, hc, hcols⟩ := Props.C32_no_panic mainCS _ mainCS_sane (selectorTable (2 ^ k) a)
    (by rw [hl, hns]) (2 ^ k) hn
  obtain ⟨hnd, h16⟩ := Props.C33_circuit
  have hcr := Keygen.copies_rows ha
  obtain ⟨asm, hasm, hperm, -⟩ := Props.C33_cycles fuel' (2 ^ k) mainCS.permutation hnd
    (by rw [h16]; exact hf') a.copies (fun p hp => by
      obtain ⟨⟨h1, h2⟩, h3, h4, -⟩ := hcr p hp
      exact ⟨⟨h3, by omega⟩, h4, by omega⟩)
  obtain ⟨c1, c2, c3, c4, c5, c6, c7, c8, c9, c10⟩ := compressed_permutation mainCS_sane hc
  have hpl : c.cs.permutation.length = 16 := by rw [c1, h16]
  have hdeg : c.cs.degree = 11 := by rw [Props.C32_degree _ _ mainCS_sane _ _ _ _ hc, degree_11]
  rw [h16] at hperm
  obtain ⟨h8n, -, -, -⟩ := (synthesize_ok_iff _ _ _ _ _).1 ha
  obtain ⟨sigma, hs1, hs2, hs3, hs4⟩ := interpolate_all hd
    ((List.range 16).map fun i => (List.range (2 ^ k)).map fun j => labelOf d.omega asm.mapping i j)
    (fun c hc => by obtain ⟨i, -, rfl⟩ := List.mem_map.1 hc; simp)
  have hfl' : ∀ c ∈ fixedValues mainCS (2 ^ k) a cols, c.length = 2 ^ k := by
    intro c hc
    unfold fixedValues at hc
    rcases List.mem_append.1 hc with hc | hc
    · obtain ⟨i, -, rfl⟩ := List.mem_map.1 hc; simp
    · exact hcols c hc
  obtain ⟨fixed, hx1, hx2, hx3, hx4⟩ := interpolate_all hd (fixedValues mainCS (2 ^ k) a cols) hfl'
  have hfl : (fixedValues mainCS (2 ^ k) a cols).length = 1 + cols.length := by
    unfold fixedValues; simp [hnf, Nat.add_comm]
  obtain ⟨⟨e1, e2, e3⟩, hb⟩ := basis_getD c.cs (2 ^ k) (by rw [c10, g6]; omega)
  obtain ⟨l0, l01, l02, l03⟩ := hd.lagrangeToCoeff_values _ e1
  obtain ⟨l1, l11, l12, l13⟩ := hd.lagrangeToCoeff_values _ e2
  obtain ⟨l2, l21, l22, l23⟩ := hd.lagrangeToCoeff_values _ e3
  have hpv : permutationValues d.omega c.cs.permutation.length (2 ^ k) asm.mapping = .ok ((List.range 16).map
      fun i => (List.range (2 ^ k)).map fun j => labelOf d.omega asm.mapping i j) := by
    rw [hpl]; exact permutationValues_eq d.omega hperm
  have ok {l : List Fr} {p : Coeffs} {v : Fr} {r : Nat} (hl : l[r]? = some v)
      (hp : ∀ i (hi : i < l.length), polyAt p (d.omega ^ i) = l[i]) : polyAt p (d.omega ^ r) = v := by
    obtain ⟨h, rfl⟩ := List.getElem?_eq_some_iff.1 hl
    exact hp r h
  refine ⟨⟨d, c.cs, l0, l1, l2, fixedValues mainCS (2 ^ k) a cols, fixed,
    (List.range 16).map fun i => (List.range (2 ^ k)).map fun j => labelOf d.omega asm.mapping i j, sigma⟩, asm, c, cols, as, ?_, ?_,
    ?_, hasm, hc, hcols, rfl, rfl, ?_⟩
  rotate_left
  · unfold keygenVk
    rw [degree_11, hd1]
    have := assemble_eq (d := d) hasm hc hpv hs1 hx1
    simp only [bind, Except.bind, ha]
    exact this
  · refine ⟨by rw [hdeg]; exact hd, new_coset hd1, ⟨l02, fun r hr => ok (hb r hr).1 l03⟩,
      ⟨l12, fun r hr => ok (hb r hr).2.1 l13⟩, ⟨l22, fun r hr => ok (hb r hr).2.2 l23⟩, ?_, ?_⟩
    · dsimp only
      refine ⟨by rw [c2, hnf, hfl], by rw [hx2, hfl, c2, hnf], ?_⟩
      intro i hi
      rw [c2, hnf, ← hfl] at hi
      rw [getD_lists _ _ hi, getD_lists _ _ (by rw [hx2]; exact hi)]
      refine ⟨hfl' _ (List.getElem_mem _), hx3 _ (List.getElem_mem _), ?_⟩
      intro r hr
      have := hx4 i _ (List.getElem?_eq_getElem hi) r hr
      rw [getD_lists _ _ (by rw [hx2]; exact hi)] at this
      rw [List.getD_eq_getElem?_getD, ← this]
      rfl
    · dsimp only
      refine ⟨by rw [hpl]; simp, by rw [hs2, hpl]; simp, ?_⟩
      intro i hi
      rw [hpl] at hi
      have hi' : i < sigma.length := by rw [hs2]; simpa using hi
      rw [getD_lists sigma _ hi', getD_lists _ _ (by rw [List.length_map, List.length_range]; exact hi)]
      refine ⟨by simp, hs3 _ (List.getElem_mem _), ?_⟩
      intro r hr
      have := hs4 i _ (by rw [List.getElem?_map, List.getElem?_range hi]; rfl) r hr
      rw [getD_lists _ _ hi'] at this
      rw [List.getElem_map, List.getElem_range, List.getD_eq_getElem?_getD, ← this]
      rfl
  · intro i hi j hj i' j' he
    have := hs4 i ((List.range (2 ^ k)).map fun j => labelOf d.omega asm.mapping i j) (by
      rw [List.getElem?_map, List.getElem?_range hi]; rfl) j hj
    rw [List.getElem?_map, List.getElem?_range hj] at this
    rw [Option.some.inj this]
    show labelOf d.omega asm.mapping i j = _
    unfold labelOf
    rw [he]
  · unfold keygenPk
    rw [degree_11, hd1]
    have := assemblePk_eq (d := d) hasm hc hpv hs1 hx1 l01 l11 l21
    simp only [bind, Except.bind, ha]
    exact this

/-- The columns of the first phase are those of any synthesis, the others those of the second. -/
theorem filled_mixed {n : Nat} {mx : Matrix} {ch0 ch : Nat → Fr} {inst : Nat → List Fr}
    {as0 as : List ProcAcc} {vin0 vin vcode0 vcode : List Fr} {g0 g1 g : Grid}
    (h0 : Filled n mx ch0 inst as0 vin0 vcode0 g0) (h1 : Filled n mx ch inst as vin vcode g1)
    (hadv : ∀ c < 28, ∀ r < n - 6, g.advice c r =
      if mainCS.advicePhase[c]? = some 0 then g0.advice c r else g1.advice c r)
    (hsel : g.selector = g1.selector) (hfix : ∀ r < n - 6, g.fixed 0 r = g1.fixed 0 r)
    (hinst : ∀ i r, g.instance_ i r = (inst i).getD r 0) (hch : ∀ i, g.challenge i = ch i) :
    Filled n mx ch inst as vin vcode g := by
  have first : ∀ c ∈ [0, 1, 2, 3, 4, 5, 6, 11, 12, 13, 15, 16, 17, 20, 22, 23, 25, 26],
      mainCS.advicePhase[c]? = some 0 := by decide +kernel
  have second : ∀ c ∈ [7, 8, 9, 10, 14, 18, 19, 21, 24, 27],
      ¬ mainCS.advicePhase[c]? = some 0 := by decide +kernel
  have f : ∀ c ∈ [0, 1, 2, 3, 4, 5, 6, 11, 12, 13, 15, 16, 17, 20, 22, 23, 25, 26], ∀ r < n - 6,
      g.advice c r = g0.advice c r := by
    intro c hc r hr
    rw [hadv c (by simp at hc; omega) r hr, if_pos (first c hc)]
  have s : ∀ c ∈ [7, 8, 9, 10, 14, 18, 19, 21, 24, 27], ∀ r < n - 6, g.advice c r = g1.advice c r := by
    intro c hc r hr
    rw [hadv c (by simp at hc; omega) r hr, if_neg (second c hc)]
  have evin : vin = vin0 := by rw [h0.vinEq, h1.vinEq]
  have evc : vcode = vcode0 := by rw [h0.vcodeEq, h1.vcodeEq]
  have r1 := h1.roomP
  have r2 := h1.roomM
  have r3 := h1.roomI
  have r4 := h1.roomO
  have r5 := h1.roomN
  have r6 := h1.roomG
  have l1 := h1.alen
  have l2 := h1.vinLen
  have l3 := h1.vcodeLen
  exact {
    h1 with
    proc := fun c hc r x hx => by
      rw [f c (by simp; omega) r (by have := lt_of_some hx; omega)]; exact h0.proc c hc r x hx
    procRun := fun c hc r x hx => by
      rw [s c (by simp; omega) r (by have := lt_of_some hx; simp at this; omega)]; exact h1.procRun c hc r x hx
    procSel := by rw [hsel]; exact h1.procSel
    procStep := by rw [hsel]; exact h1.procStep
    procFirst := by rw [hsel]; exact h1.procFirst
    mem := fun c hc r x hx => by
      rw [f c (by simp; omega) r (by have := lt_of_some hx; omega)]; exact h0.mem c hc r x hx
    memRun := fun r x hx => by
      rw [s 14 (by simp) r (by have := lt_of_some hx; simp [memAccs_len] at this; omega)]; exact h1.memRun r x hx
    memSel := by rw [hsel]; exact h1.memSel
    memStep := by rw [hsel]; exact h1.memStep
    ins := fun c hc r x hx => by
      rw [f c (by simp; omega) r (by have := lt_of_some hx; omega)]; exact h0.ins c hc r x hx
    insRun := fun r x hx => by
      have hr : r < n - 6 := by have := lt_of_some hx; simp [instAccs_len] at this; omega
      rw [s 18 (by simp) r hr, s 19 (by simp) r hr]; exact h1.insRun r x hx
    insStep := by rw [hsel]; exact h1.insStep
    insAdhoc := by rw [hsel]; exact h1.insAdhoc
    out := fun r x hx => by
      rw [f 20 (by simp) r (by have := lt_of_some hx; omega)]; exact h0.out r x hx
    outRun := fun r x hx => by
      rw [s 21 (by simp) r (by have := lt_of_some hx; simp [rsAccs_len] at this; omega)]; exact h1.outRun r x hx
    outSel := by rw [hsel]; exact h1.outSel
    inp := fun r x hx => by
      rw [f 22 (by simp) r (by have := lt_of_some hx; omega)]; exact h0.inp r x (evin ▸ hx)
    inpLen := by rw [f 23 (by simp) 0 (by omega)]; exact h0.inpLen
    inpRun := fun r x hx => by
      rw [s 24 (by simp) r (by have := lt_of_some hx; simp [rsAccs_len] at this; omega)]; exact h1.inpRun r x hx
    inpSel := by rw [hsel]; exact h1.inpSel
    prog := fun r x hx => by
      rw [f 25 (by simp) r (by have := lt_of_some hx; omega)]; exact h0.prog r x (evc ▸ hx)
    progLen := by rw [f 26 (by simp) 0 (by omega)]; exact h0.progLen
    progRun := fun r x hx => by
      rw [s 27 (by simp) r (by have := lt_of_some hx; simp [rsAccs_len] at this; omega)]; exact h1.progRun r x hx
    progSel := by rw [hsel]; exact h1.progSel
    fixed := fun r hr => by rw [hfix r hr]; exact h1.fixed r hr
    instance_ := hinst
    challenge := hch }

theorem getD_getD_map {m n : Nat} (f : Nat → Nat → Fr) {c r : Nat} (hc : c < m) (hr : r < n) :
    (((List.range m).map fun c => (List.range n).map (f c)).getD c []).getD r 0 = f c r := by
  simp [List.getD_eq_getElem?_getD, hc, hr]

/-- The table of the honest prover satisfies the compressed circuit. -/
theorem honest_table {checks : Bool} {src : List UInt8} {code : List Fr} {input : List Nat} {n : Nat}
    {s : Verif.Interp} (hp : GoodProgram checks src code) (hi : GoodInput 8 input) (hn : n ≤ 2 ^ 62)
    (hlen : input.length < 2 ^ 64) (hr : runOn n 8 code input = some (.ok s)) (hread : s.input = [])
    {k : Nat} {ch : Nat → Fr} {inst : Nat → List Fr} {a0 a1 a : Assembly} {user : List Fr}
    (ha : synthesize (2 ^ k) s.matrix ch inst = .ok a)
    (h0 : synthesize (2 ^ k) s.matrix (fun _ => 0) (publicInputs code (toFr input)) = .ok a0)
    (h1 : synthesize (2 ^ k) s.matrix (fun i => user.getD i 0) (publicInputs code (toFr input)) = .ok a1)
    {c : CS.Compressed} {cols : List (List Fr)} {as : List SelectorAssignment}
    (hc : mainCS.compressSelectors (selectorTable (2 ^ k) a) = .ok (c, cols, as))
    (hcols : ∀ col ∈ cols, col.length = 2 ^ k) {witness : List (List Fr)}
    (hw : witnessColumns k s.matrix user (publicInputs code (toFr input)) = .ok witness) :
    Satisfied c.cs (2 ^ k) (tableOf (2 ^ k) (fixedValues mainCS (2 ^ k) a cols) witness
      [publicInputs code (toFr input) 0, publicInputs code (toFr input) 1] user) a.copies := by
  have hnf : mainCS.numFixed = 1 := by decide +kernel
  have hna : mainCS.numAdvice = 28 := by decide +kernel
  obtain ⟨h8, -, -, -⟩ := (synthesize_ok_iff _ _ _ _ _).1 ha
  have hsame := (Props.C30_shape_iff_lengths_partial _ _ _ _ _ _ _ _ _ ha h1).2 ⟨rfl, rfl, rfl, rfl, rfl, rfl⟩
  have hwit : witness = (List.range 28).map fun c => (List.range (2 ^ k)).map fun r =>
      if mainCS.advicePhase[c]? = some 0 then a0.advice c r else a1.advice c r := by
    unfold witnessColumns at hw
    rw [h0, h1, hna] at hw
    exact (Except.ok.inj hw).symm
  obtain ⟨g0, hg0⟩ := completion (2 ^ k) a0 (fun _ => 0) (publicInputs code (toFr input))
  obtain ⟨g1, hg1⟩ := completion (2 ^ k) a1 (fun i => user.getD i 0) (publicInputs code (toFr input))
  obtain ⟨as0, vin0, vc0, f0⟩ := filled h0 hg0
  obtain ⟨as1, vin1, vc1, f1⟩ := filled h1 hg1
  obtain ⟨wcode, hist, w, m, t, hfin⟩ := finished_of_run hp (by norm_num) hi hn hr
  set g' := tableOf (2 ^ k) (fixedValues mainCS (2 ^ k) a cols) witness
      [publicInputs code (toFr input) 0, publicInputs code (toFr input) 1] user with hg'
  have hfix0 : ∀ r < 2 ^ k, g'.fixed 0 r = a.fixed 0 r := by
    intro r hr
    show ((fixedValues mainCS (2 ^ k) a cols).getD 0 []).getD r 0 = _
    unfold fixedValues
    rw [hnf]
    simp [List.getD_eq_getElem?_getD, hr]
  let g : Grid := { g' with selector := a1.selector }
  have hrep : Replaced mainCS (2 ^ k) (selectorTable (2 ^ k) a) cols g g' := by
    refine ⟨rfl, rfl, rfl, fun _ _ => rfl, ?_, ?_⟩
    · intro i act hact r hr
      unfold selectorTable at hact
      rw [List.getElem?_map] at hact
      cases hi : (List.range mainCS.numSelectors)[i]? with
      | none => rw [hi] at hact; cases hact
      | some i' =>
        rw [hi] at hact
        obtain ⟨hlt, e⟩ := List.getElem?_eq_some_iff.1 hi
        rw [List.getElem_range] at e
        subst e
        cases hact
        rw [List.length_range] at hlt
        show a1.selector i r = true ↔ _
        rw [List.getElem?_map, List.getElem?_range hr, ← hsame.selector i hlt r]
        simp
    · intro i col hi r hr
      rw [hnf]
      have hcl := hcols col (List.mem_of_getElem? hi)
      show some (((fixedValues mainCS (2 ^ k) a cols).getD (1 + i) []).getD r 0) = _
      have : (fixedValues mainCS (2 ^ k) a cols)[1 + i]? = some col := by
        unfold fixedValues
        rw [List.getElem?_append_right (by simp [hnf])]
        simp [hnf, hi]
      have hcol : (fixedValues mainCS (2 ^ k) a cols).getD (1 + i) [] = col := by
        rw [List.getD_eq_getElem?_getD, this]; rfl
      rw [hcol, List.getD_eq_getElem?_getD, List.getElem?_eq_getElem (by rw [hcl]; exact hr)]
      rfl
  have hf : Filled (2 ^ k) s.matrix (fun i => user.getD i 0) (publicInputs code (toFr input)) as1 vin1 vc1 g := by
    refine filled_mixed f0 f1 ?_ ?_ ?_ ?_ (fun _ => rfl)
    · intro c hc r hr
      show (if r + 1 = 2 ^ k then 1 else (witness.getD c []).getD r 0) = _
      rw [if_neg (by omega), hwit, getD_getD_map _ hc (by omega)]
      have hu : r < mainCS.usableRows (2 ^ k) := by rw [mainCS_usable]; exact hr
      rw [hg0.advice c r hu, hg1.advice c r hu]
    · funext i r
      exact (hg1.selector i r).symm
    · intro r hr
      show g'.fixed 0 r = _
      have hu : r < mainCS.usableRows (2 ^ k) := by rw [mainCS_usable]; exact hr
      rw [hfix0 r (by omega), hg1.fixed 0 r hu, hsame.fixed 0 (by rw [hnf]; omega) r hu]
    · intro i r
      show ([publicInputs code (toFr input) 0, publicInputs code (toFr input) 1].getD i []).getD r 0 = _
      match i with
      | 0 => rfl
      | 1 => rfl
      | (i + 2) => rfl
  have hsat : Satisfied mainCS (2 ^ k) g a.copies := by
    refine ⟨gates_iff.2 (fun row _ => hf.rules (honest_rows hp hi hn hr) row),
      lookups_iff.2 (honest_lookup hi hfin hf), ?_⟩
    rw [synthesize_copies ha]
    exact (honest_copies hp hi hn hlen hr hf).2 hread
  have hP : mainCS.degree < P := by rw [degree_11]; decide
  refine (Props.C32_same_meaning mainCS _ mainCS_sane hP (selectorTable (2 ^ k) a) (2 ^ k)
      (selectorTable_length _ _).2 c cols as hc g g' hrep a.copies ?_).1 hsat
  intro p hp q hq i hi
  obtain ⟨-, -, -, hno⟩ := Keygen.copies_rows ha p hp
  rcases hq with rfl | rfl
  · exact absurd hi (hno i).1
  · exact absurd hi (hno i).2

end Verif.PlonkProver

import Verif.Lemmas.Sound

/-! From linked tables to genuine executions (helper for the property theorems). -/

namespace Verif

open BF Spec Props

theorem same_eq {l l' : List Fr} (h : SameUpToLeadingZeros l l')
    (hl : l.length = l'.length) : l = l' := by
  obtain ⟨k, rfl | rfl⟩ := h
  · have : k = 0 := by simp at hl; omega
    subst this; rfl
  · have : k = 0 := by simp at hl; omega
    subst this; rfl

section

variable {n : Nat} {mx : Matrix} {ws input : List Nat} {g : Grid} {p : List Cmd}

theorem mem_sorted {code inp : List Fr} (F : Facts n mx code inp g) (h : MemOrder mx g) :
    MemSorted mx.memory.length (g.advice 11) (g.advice 12) (g.advice 13) where
  first := fun _ => h.first
  step := by
    intro k hk
    rcases F.memStep k hk with ⟨e1, e2⟩ | ⟨e1, e2⟩
    · exact Or.inl ⟨e1, h.order k hk e1, e2⟩
    · exact Or.inr ⟨e1, e2⟩

theorem ins_sorted {code inp : List Fr} {len : Nat} (F : Facts n mx code inp g)
    (hI : 0 < mx.instruction.length) (h : InsOrder mx len g) :
    InsSorted mx.instruction.length len (g.advice 15) (g.advice 16) (g.advice 17) where
  pos := hI
  first := h.first
  last := h.last
  step := by
    intro k hk
    rcases F.insStep k hk with e | e
    · exact Or.inl e
    · exact Or.inr ⟨e, h.next k hk (by
        show g.advice 15 (k + 1) ≠ g.advice 15 k
        rw [e]; exact ne_add_one _)⟩

/-- Every row fetches its words from the program. -/
theorem fetch_all {code inp : List Fr} (F : Facts n mx code inp g) (hn : n < P)
    (hI : 0 < mx.instruction.length) (ho : InsOrder mx code.length g)
    (hlen : code.length < P)
    (hperm : (stayTriples g mx.instruction.length).Perm (triples g 2 1 3 mx.processor.length))
    (hprog : SameUpToLeadingZeros
      (changes (g.advice 15) (g.advice 16) (mx.instruction.length - 1)) code) :
    ∀ i, i < mx.processor.length → (row g i).ip.val ≤ code.length ∧
      (∀ v, code[(row g i).ip.val]? = some v → (row g i).ci = v) ∧
      (∀ v, code[(row g i).ip.val + 1]? = some v → (row g i).ni = v) := by
  have hs := ins_sorted F hI ho
  have hIn := F.roomI
  have hch := same_eq hprog (hs.top_eq (by omega) hlen)
  have hw := hs.word (by omega) hlen hch
  intro i hi
  have hmem : (g.advice 2 i, g.advice 1 i, g.advice 3 i) ∈ triples g 2 1 3 mx.processor.length :=
    triples_get.2 ⟨i, hi, rfl⟩
  obtain ⟨k, hk, e⟩ := stayTriples_mem hI (hperm.symm.subset hmem)
  simp only [Prod.mk.injEq] at e
  have e1 : (row g i).ip = g.advice 15 k := e.1
  have e2 : (row g i).ci = g.advice 16 k := e.2.1
  have e3 : (row g i).ni = g.advice 17 k := e.2.2
  rw [e1, e2, e3]
  exact hw k hk

theorem cast_get {l : List Nat} {i v : Nat} (h : l[i]? = some v) : (toFr l)[i]? = some (v : Fr) := by
  unfold toFr; rw [List.getElem?_map, h]; rfl

/-- The fetched words stay on command boundaries. -/
theorem on_commands {inp : List Fr} (F : Facts n mx (toFr ws) inp g) (hb : Balanced p)
    (hc : CompiledTo p ws) (hw : ws.length < P) (hrun : Running mx ws.length g)
    (hfetch : ∀ i, i < mx.processor.length →
      (∀ v, (toFr ws)[(row g i).ip.val]? = some v → (row g i).ci = v) ∧
      (∀ v, (toFr ws)[(row g i).ip.val + 1]? = some v → (row g i).ni = v)) :
    ∀ i, i < mx.processor.length → ∃ pc, pc ≤ p.length ∧ (row g i).ip = (pos p pc : Fr) ∧
      (∀ c, p[pc]? = some c → (row g i).ci = frOfByte (opOf c)) ∧
      (i + 1 < mx.processor.length → pc < p.length) := by
  have hpos : ∀ pc, pc ≤ p.length → pos p pc < P := by
    intro pc h
    have := pos_mono p h
    rw [← hc.length] at this
    omega
  have more : ∀ i, i < mx.processor.length → ∀ pc, pc ≤ p.length → (row g i).ip = (pos p pc : Fr) →
      (∀ c, p[pc]? = some c → (row g i).ci = frOfByte (opOf c)) ∧
      (i + 1 < mx.processor.length → pc < p.length) := by
    intro i hi pc hpc hip
    obtain ⟨f2, f3⟩ := hfetch i hi
    have hv : (row g i).ip.val = pos p pc := by rw [hip, Fr.val_cast (hpos pc hpc)]
    constructor
    · intro c hcm
      rw [← opOf_fr]
      apply f2
      rw [hv]
      exact cast_get (hc.opcode pc c hcm)
    · intro hi'
      by_contra hge
      have : pc = p.length := by omega
      apply hrun i hi'
      rw [hip, this, hc.length]
  intro i
  induction i with
  | zero =>
    intro hi
    have h0 : (row g 0).ip = (pos p 0 : Fr) := by rw [F.start.2.1, pos_zero]; simp
    exact ⟨0, Nat.zero_le _, h0, more 0 hi 0 (Nat.zero_le _) h0⟩
  | succ i ih =>
    intro hi
    obtain ⟨pc, h1, h2, h3, h4⟩ := ih (by omega)
    have hpc := h4 hi
    have hcmd : p[pc]? = some p[pc] := List.getElem?_eq_getElem hpc
    generalize p[pc] = c at hcmd
    have hst := F.step i hi (opOf c) (opOf_mem c) (h3 c hcmd)
    obtain ⟨f2, f3⟩ := hfetch i (by omega)
    have hv : (row g i).ip.val = pos p pc := by rw [h2, Fr.val_cast (hpos pc h1)]
    rw [hv] at f3
    have hp1 := pos_succ hcmd
    have key : ∃ pc', pc' ≤ p.length ∧ (row g (i + 1)).ip = (pos p pc' : Fr) := by
      have hnext : width c = 1 → (row g (i + 1)).ip = (row g i).ip + 1 →
          ∃ pc', pc' ≤ p.length ∧ (row g (i + 1)).ip = (pos p pc' : Fr) := by
        intro hw1 e
        exact ⟨pc + 1, hpc, by rw [e, h2, hp1, hw1]; push_cast; rfl⟩
      have hskip : width c = 2 → (row g (i + 1)).ip = (row g i).ip + 2 →
          ∃ pc', pc' ≤ p.length ∧ (row g (i + 1)).ip = (pos p pc' : Fr) := by
        intro hw2 e
        exact ⟨pc + 1, hpc, by rw [e, h2, hp1, hw2]; push_cast; rfl⟩
      cases c with
      | left => exact hnext rfl hst.ip
      | right => exact hnext rfl hst.ip
      | inc => exact hnext rfl hst.ip
      | dec => exact hnext rfl hst.ip
      | get => exact hnext rfl hst.ip
      | put => exact hnext rfl hst.ip
      | open_ =>
        have hip : (row g (i + 1)).ip = if (row g i).mv = 0 then (row g i).ni else (row g i).ip + 2 :=
          hst.ip
        by_cases hz : (row g i).mv = 0
        · rw [if_pos hz] at hip
          obtain ⟨j, hj⟩ := exists_close hb hcmd
          refine ⟨j + 1, ?_, ?_⟩
          · have := getElem?_lt_of hj.2.2.1; omega
          · rw [hip]; exact f3 _ (cast_get (hc.openTarget _ _ hj))
        · rw [if_neg hz] at hip
          exact hskip rfl hip
      | close =>
        have hip : (row g (i + 1)).ip = if (row g i).mv = 0 then (row g i).ip + 2 else (row g i).ni :=
          hst.ip
        by_cases hz : (row g i).mv = 0
        · rw [if_pos hz] at hip
          exact hskip rfl hip
        · rw [if_neg hz] at hip
          obtain ⟨j, hj⟩ := exists_open hb.1 hcmd
          refine ⟨j + 1, ?_, ?_⟩
          · have := getElem?_lt_of hj.2.1; omega
          · rw [hip]; exact f3 _ (cast_get (hc.closeTarget _ _ hj))
    obtain ⟨pc', k1, k2⟩ := key
    exact ⟨pc', k1, k2, more (i + 1) hi pc' k1 k2⟩

theorem clk_all {code inp : List Fr} (F : Facts n mx code inp g) :
    ∀ i, i < mx.processor.length → (row g i).clk = (i : Fr) := by
  intro i
  induction i with
  | zero => intro _; rw [F.start.1]; simp
  | succ i ih =>
    intro hi
    rw [F.clk i hi, ih (by omega)]; push_cast; rfl

/-- The rows of linked tables. -/
theorem rows_ok {inp : List Fr} (F : Facts n mx (toFr ws) inp g) (hn : n < P) (hmo : MemOrder mx g)
    (hrun : Running mx ws.length g)
    (hfetch : ∀ i, i < mx.processor.length → (row g i).ip.val ≤ ws.length ∧
      (∀ v, (toFr ws)[(row g i).ip.val]? = some v → (row g i).ci = v) ∧
      (∀ v, (toFr ws)[(row g i).ip.val + 1]? = some v → (row g i).ni = v))
    (hperm : (triples g 11 12 13 mx.memory.length).Perm (triples g 0 4 5 mx.processor.length))
    (hreads : readsOf (row g) (mx.processor.length - 1) <+: toFr input) :
    RowsOk ws input mx.processor.length mx.memory.length (row g) := by
  have hM := F.roomM
  have hP := F.roomP
  obtain ⟨m1, m2, m3⟩ := mem_remember (L := mx.processor.length) (mp := g.advice 4)
    (mv := g.advice 5) (clk := g.advice 0) (mem_sorted F hmo) (by omega) (by omega) (clk_all F)
    (by
      intro i hi
      have : (g.advice 0 i, g.advice 4 i, g.advice 5 i) ∈ triples g 0 4 5 mx.processor.length :=
        triples_get.2 ⟨i, hi, rfl⟩
      obtain ⟨k, hk, e⟩ := triples_get.1 (hperm.symm.subset this)
      simp only [Prod.mk.injEq] at e
      exact ⟨k, hk, e⟩)
    (by
      intro k hk
      have : (g.advice 11 k, g.advice 12 k, g.advice 13 k) ∈ triples g 11 12 13 mx.memory.length :=
        triples_get.2 ⟨k, hk, rfl⟩
      obtain ⟨i, hi, e⟩ := triples_get.1 (hperm.subset this)
      simp only [Prod.mk.injEq] at e
      exact ⟨i, hi, e.1.symm, e.2.1.symm, e.2.2.symm⟩)
    (fun _ => ⟨F.start.2.2.1, F.start.2.2.2⟩)
  exact
  { start := F.start
    step := F.step
    fetch := by
      intro i hi
      obtain ⟨f1, f2, f3⟩ := hfetch i (by omega)
      refine ⟨(row g i).ip.val, (Fr.cast_val _).symm, ?_, ?_, ?_⟩
      · rcases lt_or_eq_of_le f1 with h | h
        · exact h
        · exact absurd (by rw [← h]; exact (Fr.cast_val _).symm) (hrun i hi)
      · intro v hv; exact f2 _ (cast_get hv)
      · intro v hv; exact f3 _ (cast_get hv)
    small := m1
    visit := m2
    fresh := m3
    reads := hreads }

theorem reads_length (hcnt : commandCount mx g .get = mx.input.length) :
    (readsOf (row g) (mx.processor.length - 1)).length = mx.input.length := by
  rw [← hcnt]
  unfold readsOf commandCount
  rw [flatMap_if_length]
  rfl

theorem writes_length {k : Nat} (hcnt : commandCount mx g .put = k) :
    (writesOf (row g) (mx.processor.length - 1)).length = k := by
  rw [← hcnt]
  unfold writesOf commandCount
  rw [flatMap_if_length]
  rfl

end

end Verif

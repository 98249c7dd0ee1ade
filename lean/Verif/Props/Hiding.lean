import Verif.Lemmas.Hiding
import Verif.Props.Soundness
import Verif.Props.OnChain

/-! C90: what a proof shows of the values it was made from. -/

namespace Verif.Props

open Spec Plonk Keygen PlonkProver Shplonk Transcript

set_option synthInstance.maxSize 1000

variable {G G₂ : Type} [AddCommGroup G] [Module Fr G]
variable [AddCommGroup G₂] [Module Fr G₂]

/-- C90. For every circuit: a proof starts with the commitments to the columns of the first phase, with
their last entry set to one. Nothing random enters them. -/
theorem C90_first_bytes (checks : Bool) (codec : Codec G) (hash : Hash) (srs : Srs G G₂) (pk : ProvingKey)
    (repr : Fr) (instances : List (List Fr)) (w : Witness) (blinds : Blinds) (out : List UInt8)
    (h : prove checks codec hash srs pk repr instances w blinds = .ok out)
    (cols : List (List Fr)) (hc : w 0 (List.replicate pk.cs.numChallenges 0) = .ok cols) :
    ∃ (points : List G) (rest : List UInt8),
      List.Forall₂ (fun i p => ∃ col, cols[i]? = some col ∧ srs.commitLagrange (withOne col) = .ok p)
        (firstColumns pk.cs) points ∧ out = points.flatMap codec.toBytes ++ rest := by
  obtain ⟨r⟩ := exists_run h
  exact r.first (more := (List.range (pk.cs.advicePhase.foldl max 0)).map Nat.succ) List.range_succ_eq_map hc

/-- C90. Proofs from witnesses that differ in one cell of a first-phase column are different, whatever
random values, hash functions and public inputs are used: a proof tells from which of two witnesses it
was made. The secret of the parameters need not be known. -/
theorem C90_reveals (checks : Bool) (codec : Codec G) (hl : Lawful codec) (hash hash' : Hash) (g1 : G) (g2 : G₂)
    (k : Nat) (secret : Fr) (srs : Srs G G₂) (hsrs : Srs.setup g1 g2 k secret = .ok srs)
    (hg : ∀ x : Fr, x • g1 = 0 → x = 0) (pk : ProvingKey) (repr repr' : Fr)
    (instances instances' : List (List Fr)) (w w' : Witness) (blinds blinds' : Blinds)
    (cols cols' : List (List Fr)) (hc : w 0 (List.replicate pk.cs.numChallenges 0) = .ok cols)
    (hc' : w' 0 (List.replicate pk.cs.numChallenges 0) = .ok cols')
    (i row : Nat) (hi : i ∈ firstColumns pk.cs) (a b : List Fr) (ha : cols[i]? = some a) (hb : cols'[i]? = some b)
    (hd : DifferAt (2 ^ k) row a b) (out out' : List UInt8)
    (h : prove checks codec hash srs pk repr instances w blinds = .ok out)
    (h' : prove checks codec hash' srs pk repr' instances' w' blinds' = .ok out') : out ≠ out' := by
  rintro rfl
  obtain ⟨points, rest, h1, h2⟩ := C90_first_bytes _ _ _ _ _ _ _ _ _ _ h _ hc
  obtain ⟨points', rest', h1', h2'⟩ := C90_first_bytes _ _ _ _ _ _ _ _ _ _ h' _ hc'
  have hp : points = points' := flatMap_inj hl (h1.length_eq.symm.trans h1'.length_eq) (h2.symm.trans h2')
  subst hp
  obtain ⟨j, hj⟩ := List.getElem?_of_mem hi
  obtain ⟨p, p1, col, p2, p3⟩ := forall₂_getElem h1 j i hj
  obtain ⟨q, q1, col', q2, q3⟩ := forall₂_getElem h1' j i hj
  obtain rfl := Option.some.inj (p1.symm.trans q1)
  obtain rfl := Option.some.inj (ha.symm.trans p2)
  obtain rfl := Option.some.inj (hb.symm.trans q2)
  exact commit_differ hsrs hg hd p3 q3 rfl

/-- A witness that lists given outputs. -/
theorem witness_of_output (checks : Bool) (src : List UInt8) (code : List Fr) (input : List Nat)
    (n rows : Nat) (s : Interp) (h : HonestRun checks src code input n s) (hf : Fits rows s)
    (out : List Fr) (hl : out.length = s.matrix.output.length) :
    ∃ w, GoodWitness rows s.matrix (publicInputs code (toFr input)) w ∧
      ∃ cols a, w 0 (List.replicate mainCS.numChallenges 0) = .ok cols ∧ cols[20]? = some a ∧ a.length = rows ∧
        ∀ r, r < rows → a[r]? = some (out[r]?.getD 0) := by
  have main : ∀ ch : Nat → Fr, ∃ g, Accepts rows s.matrix (publicInputs code (toFr input)) g ∧ g.challenge = ch ∧
      ∀ c r, FirstPhase c → g.advice c r = plainAdvice { s.matrix with output := out } (toFr input) code c r := by
    intro ch
    obtain ⟨a, ha⟩ := h.synth hf ch
    obtain ⟨m1, m2⟩ := honest_products h.good h.bytes h.steps h.run ch
    have hg := honest_rows h.good h.bytes h.steps h.run
    obtain ⟨g, as, hg, hc, hfp, hcols⟩ := _root_.Verif.forge (mx' := { s.matrix with output := out })
      honestStarts ha ⟨rfl, rfl, rfl, hl, rfl, rfl⟩ h.lens.1 h.lens.2
      ⟨hg.first, hg.inv, hg.step, hg.mem, hg.ins, hg.insNe⟩
      (honest_val h.good h.bytes h.steps h.run) (honest_lastNe h.good h.bytes h.steps h.run) m1 m2
    exact ⟨g, hg, hc, hfp⟩
  choose g g1 g2 g3 using main
  have hna : mainCS.numAdvice = 28 := by decide +kernel
  have h20 : FirstPhase 20 := by unfold FirstPhase; decide +kernel
  refine ⟨fun _ user => .ok ((List.range 28).map fun c => (List.range rows).map fun r =>
    (g fun i => user.getD i 0).advice c r), ⟨_, rfl, fun ch => ⟨_, g fun i => ch.getD i 0, rfl, g1 _, ?_, ?_⟩⟩,
    _, (List.range rows).map fun r => (g fun i => (List.replicate mainCS.numChallenges 0).getD i 0).advice 20 r,
    rfl, ?_, by simp, ?_⟩
  · intro i; rw [g2]
  · intro c hc
    rw [hna] at hc
    refine ⟨_, _, by rw [List.getElem?_map, List.getElem?_range hc]; rfl,
      by rw [List.getElem?_map, List.getElem?_range hc]; rfl, by simp, by simp, ?_⟩
    intro r hr
    constructor
    · intro hf; rw [List.getElem?_map, List.getElem?_range (by omega), Option.map_some, g3 _ _ _ hf, g3 _ _ _ hf]
    · intro _; rw [List.getElem?_map, List.getElem?_range (by omega)]; rfl
  · rw [List.getElem?_map, List.getElem?_range (by norm_num)]; rfl
  · intro r hr
    rw [List.getElem?_map, List.getElem?_range hr, Option.map_some, g3 _ _ _ h20]
    rfl

/-- The witness of the honest prover is a good one. -/
theorem honest_witness (checks : Bool) (src : List UInt8) (code : List Fr) (input : List Nat)
    (n k : Nat) (s : Interp) (h : HonestRun checks src code input n s) (hf : Fits (2 ^ k) s)
    (hlen : input.length < 2 ^ 64) :
    GoodWitness (2 ^ k) s.matrix (publicInputs code (toFr input))
      (circuitSynth k s.matrix (publicInputs code (toFr input))) := by
  have hna : mainCS.numAdvice = 28 := by decide +kernel
  have synth : ∀ (p : Nat) (user : List Fr), ∃ a, synthesize (2 ^ k) s.matrix (fun i => user.getD i 0)
      (publicInputs code (toFr input)) = .ok a ∧ circuitSynth k s.matrix (publicInputs code (toFr input)) p user =
        .ok ((List.range 28).map fun c => (List.range (2 ^ k)).map fun r => a.advice c r) := by
    intro p user
    obtain ⟨a, ha⟩ := h.synth hf fun i => user.getD i 0
    exact ⟨a, ha, by unfold circuitSynth; rw [ha, hna]⟩
  obtain ⟨a0, ha0, e0⟩ := synth 0 (List.replicate mainCS.numChallenges 0)
  refine ⟨_, e0, fun ch => ?_⟩
  obtain ⟨a1, ha1, e1⟩ := synth 1 ch
  let g : Grid := ⟨fun c r => if mainCS.advicePhase[c]? = some 0 then a0.advice c r else a1.advice c r, a1.fixed,
    fun i r => (publicInputs code (toFr input) i).getD r 0, a1.selector, fun i => ch.getD i 0⟩
  obtain ⟨g0, hg0⟩ := completion (2 ^ k) a0 (fun i => (List.replicate mainCS.numChallenges (0 : Fr)).getD i 0)
    (publicInputs code (toFr input))
  obtain ⟨g1, hg1⟩ := completion (2 ^ k) a1 (fun i => ch.getD i 0) (publicInputs code (toFr input))
  obtain ⟨as0, vin0, vc0, f0⟩ := filled ha0 hg0
  obtain ⟨as1, vin1, vc1, f1⟩ := filled ha1 hg1
  have hfill : Filled (2 ^ k) s.matrix (fun i => ch.getD i 0) (publicInputs code (toFr input)) as1 vin1 vc1 g := by
    refine filled_mixed f0 f1 ?_ ?_ ?_ (fun _ _ => rfl) (fun _ => rfl)
    · intro c hc r hr
      have hu : r < mainCS.usableRows (2 ^ k) := by rw [mainCS_usable]; exact hr
      rw [hg0.advice c r hu, hg1.advice c r hu]
    · funext i r
      exact (hg1.selector i r).symm
    · intro r hr
      have hu : r < mainCS.usableRows (2 ^ k) := by rw [mainCS_usable]; exact hr
      exact (hg1.fixed 0 r hu).symm
  obtain ⟨wcode, hist, w, m, t, hfin⟩ := finished_of_run h.good (by norm_num) h.bytes h.steps h.run
  have hsat : Satisfied mainCS (2 ^ k) g a1.copies := by
    refine ⟨gates_iff.2 (fun row _ => hfill.rules (honest_rows h.good h.bytes h.steps h.run) row),
      lookups_iff.2 (honest_lookup h.bytes hfin hfill), ?_⟩
    rw [synthesize_copies ha1]
    exact (honest_copies h.good h.bytes h.steps hlen h.run hfill).2 h.read
  refine ⟨_, g, e1, ⟨a1, ha1, fun _ _ _ => rfl, fun _ _ => rfl, fun _ _ => rfl, hsat⟩, fun _ => rfl, ?_⟩
  intro c hc
  rw [hna] at hc
  refine ⟨_, _, by rw [List.getElem?_map, List.getElem?_range hc]; rfl,
    by rw [List.getElem?_map, List.getElem?_range hc]; rfl, by simp, by simp, ?_⟩
  intro r hr
  constructor
  · intro (hf : mainCS.advicePhase[c]? = some 0)
    rw [List.getElem?_map, List.getElem?_range (by omega), Option.map_some]
    exact congrArg some (if_pos hf).symm
  · intro (hf : ¬ mainCS.advicePhase[c]? = some 0)
    rw [List.getElem?_map, List.getElem?_range (by omega), Option.map_some]
    exact congrArg some (if_neg hf).symm

/-- C90 is false of the code: for every run that prints something, proofs do not hide which of the
assignments the circuit accepts they were made from — provided the honest prover makes a proof at
all, on which see C52. The verifying key, the public inputs, the parameters and the hash function are the same for
all of them. -/
theorem C90_not_hiding (checks checks' checks'' : Bool) (src : List UInt8) (code : List Fr) (input : List Nat)
    (n : Nat) (s : Interp) (h : HonestRun checks src code input n s) (fuel fuel' k : Nat) (hk : k ≤ 24)
    (hf : 48 ≤ fuel) (hf' : 16 * 2 ^ k ≤ fuel') (hfit : Fits (2 ^ k) s) (hout : s.matrix.output ≠ [])
    (ch : Nat → Fr) (pk : ProvingKey)
    (hpk : keygenPk checks' fuel fuel' k s.matrix ch (publicInputs code (toFr input)) = .ok (.ok pk))
    (g1 : G) (g2 : G₂) (secret : Fr) (srs : Srs G G₂) (hsrs : Srs.setup g1 g2 k secret = .ok srs)
    (hg : ∀ x : Fr, x • g1 = 0 → x = 0) (codec : Codec G) (hl : Lawful codec) (hash : Hash) (repr : Fr)
    (sees : Witness → List UInt8 → Prop)
    (hsees : ∀ w out, sees w out ↔ ∃ blinds, prove checks'' codec hash srs pk repr
      [publicInputs code (toFr input) 0, publicInputs code (toFr input) 1] w blinds = .ok out)
    (hlen : input.length < 2 ^ 64)
    (hsome : ∃ out, sees (circuitSynth k s.matrix (publicInputs code (toFr input))) out) :
    ¬ Hides (GoodWitness (2 ^ k) s.matrix (publicInputs code (toFr input))) sees := by
  intro hh
  obtain ⟨out, hs0⟩ := hsome
  have hw0 := honest_witness _ _ _ _ _ _ _ h hfit hlen
  obtain ⟨a, ha⟩ := h.synth hfit ch
  obtain ⟨pk', asm, c, cols, as, h1, h2, h3, h4, h5, h6, h7, h8, h10⟩ :=
    keygenPk_ok checks' fuel fuel' k hk hf hf' s.matrix ch _ a ha
  obtain rfl := Except.ok.inj (Except.ok.inj (hpk.symm.trans h1))
  obtain ⟨p1, p2⟩ := compressed_phases mainCS_sane h5
  obtain ⟨c1, c2, c3, c4, c5, c6, c7, c8, c9, c10⟩ := compressed_permutation mainCS_sane h5
  have h20 : 20 ∈ firstColumns pk.cs := by
    unfold firstColumns
    rw [h7, p1]
    decide +kernel
  obtain ⟨x, xs, hx⟩ := List.exists_cons_of_ne_nil hout
  obtain ⟨w, w1, cols1, a1, w2, w3, w4, w5⟩ := witness_of_output _ _ _ _ _ _ s h hfit (x :: xs) (by rw [hx])
  obtain ⟨w', w1', cols1', a1', w2', w3', w4', w5'⟩ :=
    witness_of_output _ _ _ _ _ _ s h hfit ((x + 1) :: xs) (by rw [hx]; rfl)
  obtain ⟨b, hb⟩ := (hsees _ _).1 (hh _ w hw0 w1 out hs0)
  obtain ⟨b', hb'⟩ := (hsees _ _).1 (hh _ w' hw0 w1' out hs0)
  have h263 : 263 ≤ 2 ^ k := hfit.1
  refine C90_reveals checks'' codec hl hash hash g1 g2 k secret srs hsrs hg pk repr repr _ _ w w' b b' cols1 cols1'
    (by rw [h7, c4]; exact w2) (by rw [h7, c4]; exact w2') 20 0 h20 a1 a1' w3 w3' ⟨w4, w4', by omega, ?_, ?_⟩
    out out hb hb' rfl
  · rw [w5 0 (by omega), w5' 0 (by omega)]
    simp
  · intro j hj hj'
    rw [w5 j (by omega), w5' j (by omega)]
    cases j with
    | zero => exact absurd rfl hj
    | succ j => rfl

theorem loop_unique {n n' : Nat} : ∀ {s : Interp} {r r' : Except Panic Interp}, Interp.loop n s = some r →
    Interp.loop n' s = some r' → r = r' := by
  induction n generalizing n' with
  | zero =>
    intro s r r' h h'
    unfold Interp.loop at h
    split at h
    · rename_i hc
      cases n' <;> unfold Interp.loop at h' <;> rw [if_pos hc] at h' <;> exact Option.some.inj (h.symm.trans h')
    · cases h
  | succ n ih =>
    intro s r r' h h'
    unfold Interp.loop at h
    by_cases hc : s.halted = true
    · rw [if_pos hc] at h
      cases n' <;> unfold Interp.loop at h' <;> rw [if_pos hc] at h' <;> exact Option.some.inj (h.symm.trans h')
    · rw [if_neg hc] at h
      cases n' with
      | zero => unfold Interp.loop at h'; rw [if_neg hc] at h'; cases h'
      | succ n' =>
        unfold Interp.loop at h'
        rw [if_neg hc] at h'
        cases he : Interp.step s with
        | error e => rw [he] at h h'; exact Option.some.inj (h.symm.trans h')
        | ok t => rw [he] at h h'; exact ih h h'

/-- C90, what is true of the code: nothing enters a proof of the honest prover but the program, its input
and the random values. Runs of the same program on the same input, from whatever sources and however
long they were allowed to take, give the same proofs. -/
theorem C90_program_input_partial (checks checks₁ checks₂ : Bool) (src₁ src₂ : List UInt8) (code : List Fr) (input : List Nat)
    (n₁ n₂ k : Nat) (s₁ s₂ : Interp) (h₁ : HonestRun checks₁ src₁ code input n₁ s₁)
    (h₂ : HonestRun checks₂ src₂ code input n₂ s₂) (codec : Codec G) (hash : Hash) (srs : Srs G G₂) (pk : ProvingKey)
    (repr : Fr) (instances : List (List Fr)) (inst : Nat → List Fr) (blinds : Blinds) :
    prove checks codec hash srs pk repr instances (circuitSynth k s₁.matrix inst) blinds =
      prove checks codec hash srs pk repr instances (circuitSynth k s₂.matrix inst) blinds := by
  have h := h₁.run
  have h' := h₂.run
  unfold runOn Interp.run at h h'
  cases hs : Interp.start (Interp.prepare 8 code (toFr input)) with
  | error e => rw [hs] at h; cases h
  | ok t =>
    rw [hs] at h h'
    dsimp only at h h'
    cases hl : Interp.loop n₁ t with
    | none => rw [hl] at h; cases h
    | some r =>
      cases hl' : Interp.loop n₂ t with
      | none => rw [hl'] at h'; cases h'
      | some r' =>
        obtain rfl := loop_unique hl hl'
        rw [hl] at h
        rw [hl'] at h'
        rw [Except.ok.inj (Option.some.inj (h.symm.trans h'))]

/-- The demo program on the input [2], with scalars in place of points: there are proofs, and they do not
hide. -/
theorem C90_demo : ∃ (s : Interp) (srs : Srs Fr Fr) (pk : ProvingKey) (hash : Hash) (blinds : Blinds) (out : List UInt8),
    prove false scalarCodec hash srs pk 7 [publicInputs demoCode (toFr [2]) 0, publicInputs demoCode (toFr [2]) 1]
      (circuitSynth 9 s.matrix (publicInputs demoCode (toFr [2]))) blinds = .ok out ∧
    ¬ Hides (GoodWitness (2 ^ 9) s.matrix (publicInputs demoCode (toFr [2]))) fun w out => ∃ blinds,
      prove false scalarCodec hash srs pk 7 [publicInputs demoCode (toFr [2]) 0, publicInputs demoCode (toFr [2]) 1]
        w blinds = .ok out := by
  have h : ((runOn 100 8 demoCode [2]).map (fun r => r.map (fun s =>
      (s.matrix.processor.length, s.input, s.matrix.output.length)))) = some (.ok (21, [], 1)) := by decide +kernel
  obtain ⟨s, hs, e⟩ := ok_of_map h
  have hp1 : s.matrix.processor.length = 21 := congrArg Prod.fst e
  have hr1 : s.input = [] := congrArg (·.2.1) e
  have ho1 : s.matrix.output.length = 1 := congrArg (·.2.2) e
  have l3 : s.matrix.instruction.length = 33 := by
    rw [(honest_lengths demo_good demo_input (by norm_num) hs).1, hp1]; rfl
  obtain ⟨srs, hsrs⟩ : ∃ srs, Srs.setup (1 : Fr) (1 : Fr) 9 GOD_PRIVATE_KEY = .ok srs := C43_secret _ _ 9 (by norm_num)
  obtain ⟨pk, key, h1, h2, h3⟩ := exists_accepted true false false demo demoCode [2] 100 s demo_good demo_input (by norm_num)
    (by norm_num) hs hr1 48 8192 9 (by norm_num) (by norm_num) (by norm_num) (by norm_num)
    (by rw [l3]; norm_num) (by norm_num) (fun _ => 0) (1 : Fr) (1 : Fr) GOD_PRIVATE_KEY srs hsrs (LinearMap.mul Fr Fr) scalarCodec
    scalarCodec_lawful (fun p => by simp [scalarCodec])
  let b : Blinds := ⟨List.replicate pk.cs.lookups.length (List.replicate (pk.cs.blindingFactors + 1) 0,
      List.replicate (pk.cs.blindingFactors + 1) 0),
    List.replicate (chunks (pk.cs.degree - 2) pk.cs.permutation).length (List.replicate pk.cs.blindingFactors 0),
    List.replicate pk.cs.lookups.length (List.replicate pk.cs.blindingFactors 0)⟩
  have hb : EnoughBlinds pk.cs b := by
    refine ⟨by simp [b], ?_, by simp [b], ?_, by simp [b], ?_⟩ <;> intro p hp <;>
      rw [List.eq_of_mem_replicate hp] <;> simp
  obtain ⟨hash, out, q1, -⟩ := h3 7 b hb
  exact ⟨s, srs, pk, hash, b, out, q1, C90_not_hiding true false false demo demoCode [2] 100 s
    ⟨demo_good, demo_input, by norm_num, hs, hr1⟩ 48 8192 9 (by norm_num) (by norm_num) (by norm_num)
    ⟨by norm_num, by rw [l3]; norm_num⟩ (by intro h; rw [h] at ho1; cases ho1) (fun _ => 0) pk h1 1 1 GOD_PRIVATE_KEY srs hsrs
    (fun x hx => by simpa using hx) scalarCodec scalarCodec_lawful hash 7 _ (fun _ _ => Iff.rfl) (by norm_num) ⟨out, b, q1⟩⟩

#print axioms C90_first_bytes
#print axioms C90_reveals
#print axioms C90_not_hiding
#print axioms C90_demo
#print axioms C90_program_input_partial

end Verif.Props

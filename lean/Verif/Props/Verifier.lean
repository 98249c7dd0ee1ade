import Verif.Lemmas.EntryLemmas
import Verif.Spec.Curve
import Verif.Props.Common

/-!
Properties C26–C29 and C39: the on-chain verifier and the parameters it reads.

`readVk` stands for the parser of the verifying key and `verify` for proof verification; the
theorems hold for all of them. `checks` is the build mode (overflow checks on or off).
-/

namespace Verif.Props

open Spec

variable {VK : Type}

/-! ### C26 -/

/-- C26. The columns rebuilt from the witnesses of a compiled program and of an input are the
prover's public inputs. -/
theorem C26_same_columns (ck : Bool) (src : List UInt8) (ws : List Nat) (input : List UInt8)
    (h : compileToU16 ck src = .ok ws) :
    codeColumn (codeBytes ws) = publicInputs (toFr ws) (easygen input) 0 ∧
    inputColumn input = publicInputs (toFr ws) (easygen input) 1 := by
  constructor
  · unfold codeColumn
    rw [words_codeBytes (compileToU16_words h)]
    rfl
  · unfold inputColumn withLength publicInputs easygen
    simp

/-- C26. On the witnesses written by the prover the verifier checks the proof against exactly the
prover's public inputs, whatever the source (up to 1023 words) and the input (up to 1023 bytes). -/
theorem C26_verifier_rebuilds (checks ck : Bool)
    (readVk : List UInt8 → Except Panic (Option VK))
    (verify : KzgParams → VK → List (List Fr) → List UInt8 → Except Panic Bool)
    (src : List UInt8) (ws : List Nat) (input params vk proof : List UInt8)
    (h : compileToU16 ck src = .ok ws) (hcode : ws.length ≤ 1023) (hinput : input.length ≤ 1023)
    (hparams : params.length ≤ 1024) (hvk : vk.length ≤ 4096) (hproof : proof.length ≤ 8192)
    (p : KzgParams) (rest : List UInt8) (key : VK)
    (hp : readVerifierParams checks params = .ok (some (p, rest)))
    (hk : readVk vk = .ok (some key)) :
    programEntry checks readVk verify (txWitnesses params vk proof (codeBytes ws) input) =
      (verify p key [publicInputs (toFr ws) (easygen input) 0,
        publicInputs (toFr ws) (easygen input) 1] proof).map (fun ok => if ok then 0 else -2) := by
  have hlen := codeBytes_length ws
  have hf : FourLoad (txWitnesses params vk proof (codeBytes ws) input) params vk proof
      (codeBytes ws) := ⟨⟨rfl, hparams⟩, ⟨rfl, hvk⟩, ⟨rfl, hproof⟩, rfl, by omega⟩
  rw [entry_fits hf ⟨by omega, by omega⟩ ⟨rfl, by omega⟩ hinput, ← (C26_same_columns ck src ws
    input h).1, ← (C26_same_columns ck src ws input h).2]
  unfold entryTail
  simp only [hp, hk]
  rcases verify p key [codeColumn (codeBytes ws), inputColumn input] proof with e | _ | _ <;> rfl

/-- C26. The capacity is exactly that: a program of 1024 words makes the verifier panic. -/
theorem C26_capacity (checks : Bool) (readVk : List UInt8 → Except Panic (Option VK))
    (verify : KzgParams → VK → List (List Fr) → List UInt8 → Except Panic Bool)
    (ws : List Nat) (input params vk proof : List UInt8) (hcode : ws.length = 1024)
    (hparams : params.length ≤ 1024) (hvk : vk.length ≤ 4096) (hproof : proof.length ≤ 8192) :
    programEntry checks readVk verify (txWitnesses params vk proof (codeBytes ws) input) =
      .error .index := by
  have hlen := codeBytes_length ws
  exact entry_full_code (params := params) (vk := vk) (proof := proof)
    ⟨⟨rfl, hparams⟩, ⟨rfl, hvk⟩, ⟨rfl, hproof⟩, rfl, by omega⟩ (by omega)

/-- The program `,.` on the input `A`. -/
example : codeColumn (codeBytes [44, 46]) = [2, 44, 46] ∧ inputColumn [65] = [1, 65] ∧
    compileToU16 true [44, 46] = .ok [44, 46] := by decide +kernel

/-! ### C27 -/

/-- C27 is false of the code: a code witness of odd length makes the verifier panic, whatever the
other witnesses, the key parser and the proof verification. -/
theorem C27_false (checks : Bool) (readVk : List UInt8 → Except Panic (Option VK))
    (verify : KzgParams → VK → List (List Fr) → List UInt8 → Except Panic Bool) :
    ∃ ws, ∃ e, programEntry checks readVk verify ws = .error e :=
  ⟨[[], [], [], [0], []], .assert, entry_odd (params := []) (vk := []) (proof := []) (code := [0])
    ⟨⟨rfl, by simp⟩, ⟨rfl, by simp⟩, ⟨rfl, by simp⟩, rfl, by simp⟩ (by simp)⟩

/-- C27, what holds: the verifier panics exactly when the first four witnesses load and the code
witness is not whole words, or is full; or the input witness is full; or the parameters ask for a
shift that overflows in a checked build; or the key parser or proof verification panics on the
data it gets. Missing for the full property: all of these are reachable. -/
theorem C27_panics_iff_partial (checks : Bool) (readVk : List UInt8 → Except Panic (Option VK))
    (verify : KzgParams → VK → List (List Fr) → List UInt8 → Except Panic Bool)
    (ws : List (List UInt8)) :
    (∃ e, programEntry checks readVk verify ws = .error e) ↔
      ∃ params vk proof code, FourLoad ws params vk proof code ∧
        (code.length % 2 = 1 ∨ code.length = 2048 ∨
          (CodeFits code ∧ ∃ input, Loads ws 4 1024 input ∧
            (input.length = 1024 ∨
              (InputFits input ∧
                ((∃ e, readVerifierParams checks params = .error e) ∨
                  ∃ p rest, readVerifierParams checks params = .ok (some (p, rest)) ∧
                    ((∃ e, readVk vk = .error e) ∨
                      ∃ key, readVk vk = .ok (some key) ∧
                        ∃ e, verify p key [codeColumn code, inputColumn input] proof =
                          .error e)))))) := by
  constructor
  · rintro ⟨e, he⟩
    rcases entry_cases checks readVk verify ws with ⟨-, h⟩ | ⟨params, vk, proof, code, hf, h⟩
    · rw [h] at he; cases he
    refine ⟨params, vk, proof, code, hf, ?_⟩
    rcases h with ⟨h, -⟩ | ⟨h, -⟩ | ⟨hc, ⟨-, h⟩ | ⟨input, hi, ⟨h, -⟩ | ⟨hfit, h⟩⟩⟩
    · exact .inl (by omega)
    · exact .inr (.inl h)
    · rw [h] at he; cases he
    · exact .inr (.inr ⟨hc, input, hi, .inl h⟩)
    · rw [h] at he
      refine .inr (.inr ⟨hc, input, hi, .inr ⟨hfit, ?_⟩⟩)
      rcases entryTail_error.mp he with h | ⟨p, rest, h, h' | ⟨key, h', h''⟩⟩
      · exact .inl ⟨e, h⟩
      · exact .inr ⟨p, rest, h, .inl ⟨e, h'⟩⟩
      · exact .inr ⟨p, rest, h, .inr ⟨key, h', e, h''⟩⟩
  · rintro ⟨params, vk, proof, code, hf, h⟩
    rcases h with h | h | ⟨hc, input, hi, h | ⟨hfit, h⟩⟩
    · exact ⟨_, entry_odd hf (by omega)⟩
    · exact ⟨_, entry_full_code hf h⟩
    · exact ⟨_, entry_full_input hf hc hi h⟩
    · rw [entry_fits hf hc hi hfit]
      rcases h with ⟨e, h⟩ | ⟨p, rest, h, ⟨e, h'⟩ | ⟨key, h', e, h''⟩⟩
      · exact ⟨e, entryTail_error.mpr (.inl h)⟩
      · exact ⟨e, entryTail_error.mpr (.inr ⟨p, rest, h, .inl h'⟩)⟩
      · exact ⟨e, entryTail_error.mpr (.inr ⟨p, rest, h, .inr ⟨key, h', h''⟩⟩)⟩

/-- C27, a consequence: without overflow checks, on witnesses the verifier can hold, it returns an
exit code provided the key parser and proof verification do. -/
theorem C27_no_panic_partial (readVk : List UInt8 → Except Panic (Option VK))
    (verify : KzgParams → VK → List (List Fr) → List UInt8 → Except Panic Bool)
    (ws : List (List UInt8))
    (hcode : ∀ code, ws[3]? = some code → code.length ≠ 2048 ∧ code.length % 2 = 0)
    (hinput : ∀ input, ws[4]? = some input → input.length ≠ 1024)
    (hvk : ∀ b e, readVk b ≠ .error e)
    (hverify : ∀ p key inst proof e, verify p key inst proof ≠ .error e) :
    ∃ n, programEntry false readVk verify ws = .ok n := by
  cases h : programEntry false readVk verify ws with
  | ok n => exact ⟨n, rfl⟩
  | error e =>
    exfalso
    obtain ⟨params, vk, proof, code, hf, h⟩ :=
      (C27_panics_iff_partial false readVk verify ws).mp ⟨e, h⟩
    have h3 := hcode code hf.2.2.2.1
    rcases h with h | h | ⟨hc, input, hi, h | ⟨hfit, h⟩⟩
    · omega
    · omega
    · exact hinput input hi.1 h
    · rcases h with ⟨e, h⟩ | ⟨p, rest, h, ⟨e, h'⟩ | ⟨key, h', e, h''⟩⟩
      · unfold readVerifierParams shiftOne at h
        split at h
        · cases h
        · simp [bind, Except.bind] at h
      · exact hvk _ _ h'
      · exact hverify _ _ _ _ _ h''

/-! ### C28 -/

/-- All five witnesses load, can be held, and parameters and key parse. -/
def Parsed (checks : Bool) (readVk : List UInt8 → Except Panic (Option VK))
    (ws : List (List UInt8)) (p : KzgParams) (key : VK) (columns : List (List Fr))
    (proof : List UInt8) : Prop :=
  ∃ params vk code input rest, FourLoad ws params vk proof code ∧ Loads ws 4 1024 input ∧
    CodeFits code ∧ InputFits input ∧ columns = [codeColumn code, inputColumn input] ∧
    readVerifierParams checks params = .ok (some (p, rest)) ∧ readVk vk = .ok (some key)

theorem exit_of_tail (checks : Bool) (readVk : List UInt8 → Except Panic (Option VK))
    (verify : KzgParams → VK → List (List Fr) → List UInt8 → Except Panic Bool)
    (ws : List (List UInt8)) {n : Int} (hn : n ≠ -1) :
    programEntry checks readVk verify ws = .ok n ↔
      ∃ p key columns proof, Parsed checks readVk ws p key columns proof ∧
        ((n = -2 ∧ verify p key columns proof = .ok false) ∨
         (n = 0 ∧ verify p key columns proof = .ok true)) := by
  constructor
  · intro he
    rcases entry_cases checks readVk verify ws with ⟨-, h⟩ | ⟨params, vk, proof, code, hf, h⟩
    · rw [h] at he; cases he; exact absurd rfl hn
    rcases h with ⟨-, h⟩ | ⟨-, h⟩ | ⟨hc, ⟨-, h⟩ | ⟨input, hi, ⟨-, h⟩ | ⟨hfit, h⟩⟩⟩
    · rw [h] at he; cases he
    · rw [h] at he; cases he
    · rw [h] at he; cases he; exact absurd rfl hn
    · rw [h] at he; cases he
    · rw [h] at he
      rcases entryTail_ok.mp he with ⟨h, -⟩ | ⟨p, rest, h, ⟨h', -⟩ | ⟨key, h', h''⟩⟩
      · exact absurd h hn
      · exact absurd h' hn
      · exact ⟨p, key, _, proof, ⟨params, vk, code, input, rest, hf, hi, hc, hfit, rfl, h, h'⟩, h''⟩
  · rintro ⟨p, key, columns, proof, ⟨params, vk, code, input, rest, hf, hi, hc, hfit, rfl, h, h'⟩,
      h''⟩
    rw [entry_fits hf hc hi hfit]
    exact entryTail_ok.mpr (.inr ⟨p, rest, h, .inr ⟨key, h', h''⟩⟩)

/-- C28. Exit code 0 exactly when everything loads and parses and proof verification of the
rebuilt public inputs succeeds. -/
theorem C28_exit_zero (checks : Bool) (readVk : List UInt8 → Except Panic (Option VK))
    (verify : KzgParams → VK → List (List Fr) → List UInt8 → Except Panic Bool)
    (ws : List (List UInt8)) :
    programEntry checks readVk verify ws = .ok 0 ↔
      ∃ p key columns proof, Parsed checks readVk ws p key columns proof ∧
        verify p key columns proof = .ok true := by
  rw [exit_of_tail checks readVk verify ws (by omega)]
  simp

/-- C28. Exit code -2 exactly when everything loads and parses and the proof is rejected. -/
theorem C28_exit_bad_proof (checks : Bool) (readVk : List UInt8 → Except Panic (Option VK))
    (verify : KzgParams → VK → List (List Fr) → List UInt8 → Except Panic Bool)
    (ws : List (List UInt8)) :
    programEntry checks readVk verify ws = .ok (-2) ↔
      ∃ p key columns proof, Parsed checks readVk ws p key columns proof ∧
        verify p key columns proof = .ok false := by
  rw [exit_of_tail checks readVk verify ws (by omega)]
  simp

/-- C28. Exit code -1 exactly when one of the first four witnesses does not load; or they do, the
code can be held, and the input does not load, or the parameters do not parse, or the key does
not parse. -/
theorem C28_exit_bad_data (checks : Bool) (readVk : List UInt8 → Except Panic (Option VK))
    (verify : KzgParams → VK → List (List Fr) → List UInt8 → Except Panic Bool)
    (ws : List (List UInt8)) :
    programEntry checks readVk verify ws = .ok (-1) ↔
      (¬ ∃ params vk proof code, FourLoad ws params vk proof code) ∨
      ∃ params vk proof code, FourLoad ws params vk proof code ∧ CodeFits code ∧
        ((¬ ∃ input, Loads ws 4 1024 input) ∨
          ∃ input, Loads ws 4 1024 input ∧ InputFits input ∧
            (readVerifierParams checks params = .ok none ∨
              ∃ p rest, readVerifierParams checks params = .ok (some (p, rest)) ∧
                readVk vk = .ok none)) := by
  constructor
  · intro he
    rcases entry_cases checks readVk verify ws with ⟨h, -⟩ | ⟨params, vk, proof, code, hf, h⟩
    · exact .inl h
    refine .inr ⟨params, vk, proof, code, hf, ?_⟩
    rcases h with ⟨-, h⟩ | ⟨-, h⟩ | ⟨hc, ⟨h, -⟩ | ⟨input, hi, ⟨-, h⟩ | ⟨hfit, h⟩⟩⟩
    · rw [h] at he; cases he
    · rw [h] at he; cases he
    · exact ⟨hc, .inl h⟩
    · rw [h] at he; cases he
    · rw [h] at he
      refine ⟨hc, .inr ⟨input, hi, hfit, ?_⟩⟩
      rcases entryTail_ok.mp he with ⟨-, h⟩ | ⟨p, rest, h, ⟨-, h'⟩ | ⟨key, h', h''⟩⟩
      · exact .inl h
      · exact .inr ⟨p, rest, h, h'⟩
      · rcases h'' with ⟨h, -⟩ | ⟨h, -⟩ <;> omega
  · rintro (h | ⟨params, vk, proof, code, hf, hc, h | ⟨input, hi, hfit, h⟩⟩)
    · exact entry_not_four h
    · exact entry_no_input hf hc h
    · rw [entry_fits hf hc hi hfit]
      rcases h with h | ⟨p, rest, h, h'⟩
      · exact entryTail_ok.mpr (.inl ⟨rfl, h⟩)
      · exact entryTail_ok.mpr (.inr ⟨p, rest, h, .inl ⟨rfl, h'⟩⟩)

/-- C28. There is no other exit code. -/
theorem C28_exit_codes (checks : Bool) (readVk : List UInt8 → Except Panic (Option VK))
    (verify : KzgParams → VK → List (List Fr) → List UInt8 → Except Panic Bool)
    (ws : List (List UInt8)) (n : Int) (h : programEntry checks readVk verify ws = .ok n) :
    n = 0 ∨ n = -1 ∨ n = -2 := by
  by_cases hn : n = -1
  · exact .inr (.inl hn)
  · obtain ⟨p, key, cols, proof, _, h' | h'⟩ := (exit_of_tail checks readVk verify ws hn).mp h
    · exact .inr (.inr h'.1)
    · exact .inl h'.1

/-! ### C29 -/

/-- C29. Reading the bytes of shrunk parameters gives those parameters back, and leaves whatever
follows them. -/
theorem C29_params_roundtrip (checks : Bool) (p : KzgParams) (hs : p.Stored)
    (hk : 1 ≤ p.k) (hk' : p.k < 31) (hn : p.n = 2 ^ p.k) (hg : 2 ≤ p.g.length)
    (hl : 2 ≤ p.gLagrange.length) (rest : List UInt8) :
    ∃ q, p.shrink SHRINK_K = .ok q ∧
      q = { p with g := p.g.take 2, gLagrange := p.gLagrange.take 2 } ∧
      readVerifierParams checks (q.write ++ rest) = .ok (some (q, rest)) := by
  let q : KzgParams := { p with g := p.g.take 2, gLagrange := p.gLagrange.take 2 }
  have hq : q.Stored := by
    refine ⟨hs.k_lt, fun x hx => hs.g x (List.mem_of_mem_take hx),
      fun x hx => hs.gLagrange x (List.mem_of_mem_take hx), hs.g2, hs.sG2⟩
  refine ⟨q, ?_, rfl, ?_⟩
  · unfold KzgParams.shrink SHRINK_K
    rw [if_pos hk]
    rfl
  · have e : q.write ++ rest = leBytes 4 p.k ++ (q.g.flatMap writeG1 ++
        (q.gLagrange.flatMap writeG1 ++ (writeG2 q.g2 ++ (writeG2 q.sG2 ++ rest)))) := by
      unfold KzgParams.write
      simp only [List.append_assoc]
      rfl
    have hk4 : p.k < 256 ^ 4 := by omega
    have hsh : shiftOne checks p.k = .ok p.n := by
      unfold shiftOne
      rw [if_neg (by simp; omega), if_neg (by omega), hn, Nat.mod_eq_of_lt (by omega)]
    unfold readVerifierParams
    rw [e, readExact_append (leBytes_length 4 p.k)]
    simp only [leNat_leBytes 4 p.k hk4, hsh, bind, Except.bind]
    have := readParamsBody_append hq (count := 2 ^ SHRINK_K)
      (by simp [q, SHRINK_K]; omega) (by simp [q, SHRINK_K]; omega) p.k p.n rest
    rw [this]

/-- C29. Only the bytes of written parameters are read: what is read has stored field elements for
coordinates, two points on each list, and is written back to the bytes it came from. -/
theorem C29_params_canonical (checks : Bool) (b rest : List UInt8) (q : KzgParams)
    (h : readVerifierParams checks b = .ok (some (q, rest))) :
    q.Stored ∧ q.g.length = 2 ∧ q.gLagrange.length = 2 ∧ b = q.write ++ rest := by
  unfold readVerifierParams at h
  cases hr : readExact 4 b with
  | none => simp [hr] at h
  | some x =>
    obtain ⟨kb, r⟩ := x
    obtain ⟨hl, rfl⟩ := readExact_some hr
    simp only [hr] at h
    cases hn : shiftOne checks (leNat kb) with
    | error e => simp only [hn, bind, Except.bind] at h; cases h
    | ok n =>
      simp only [hn, bind, Except.bind, Except.ok.injEq] at h
      obtain ⟨hk, -, h1, h2, h3, h4, h5, h6, rfl⟩ := readParamsBody_some h
      have hkl : q.k < 2 ^ 32 := by
        have := leNat_lt kb
        rw [hl] at this
        rw [hk]; omega
      refine ⟨⟨hkl, h3, h4, h5, h6⟩, h1, h2, ?_⟩
      unfold KzgParams.write
      rw [hk, leBytes_of_length hl]
      simp only [List.append_assoc]

/-- Limbs of a small number. -/
def smallLimbs (v : Nat) : Limbs := ⟨v, 0, 0, 0⟩

/-- A point with small stored coordinates. -/
def samplePoint (v : Nat) : G1Raw := ⟨smallLimbs v, smallLimbs (v + 1)⟩

/-- Parameters with `k = 2`. -/
def sampleParams : KzgParams :=
  ⟨2, 4, [samplePoint 1, samplePoint 3, samplePoint 5, samplePoint 7],
    [samplePoint 2, samplePoint 4, samplePoint 6, samplePoint 8],
    ⟨⟨smallLimbs 1, smallLimbs 2⟩, ⟨smallLimbs 3, smallLimbs 4⟩⟩,
    ⟨⟨smallLimbs 5, smallLimbs 6⟩, ⟨smallLimbs 7, smallLimbs 8⟩⟩⟩

theorem smallLimbs_stored {v : Nat} (h : v < 100) : FqStored (smallLimbs v) := by
  simp only [FqStored, Limbs.Ok, Limbs.val, smallLimbs, fqModulus, W64]
  omega

theorem samplePoint_stored {v : Nat} (h : v < 99) : (samplePoint v).Stored :=
  ⟨smallLimbs_stored (by omega), smallLimbs_stored (by omega)⟩

/-- The hypotheses of C29 hold of `sampleParams`. -/
theorem sampleParams_stored : sampleParams.Stored where
  k_lt := by decide
  g := by
    intro q hq
    simp only [sampleParams, List.mem_cons, List.not_mem_nil, or_false] at hq
    rcases hq with rfl | rfl | rfl | rfl <;> exact samplePoint_stored (by omega)
  gLagrange := by
    intro q hq
    simp only [sampleParams, List.mem_cons, List.not_mem_nil, or_false] at hq
    rcases hq with rfl | rfl | rfl | rfl <;> exact samplePoint_stored (by omega)
  g2 := ⟨smallLimbs_stored (by omega), smallLimbs_stored (by omega), smallLimbs_stored (by omega),
    smallLimbs_stored (by omega)⟩
  sG2 := ⟨smallLimbs_stored (by omega), smallLimbs_stored (by omega), smallLimbs_stored (by omega),
    smallLimbs_stored (by omega)⟩

example : ∃ q, sampleParams.shrink SHRINK_K = .ok q ∧ q.write.length = 516 ∧
    readVerifierParams true (q.write ++ [7]) = .ok (some (q, [7])) := by
  obtain ⟨q, h1, h2, h3⟩ := C29_params_roundtrip true sampleParams sampleParams_stored (by decide)
    (by decide) rfl (by decide) (by decide) [7]
  exact ⟨q, h1, by subst h2; decide +kernel, h3⟩

/-- A whole run: the witnesses of the program `,.` on `A`, with a proof that is accepted exactly
when the public inputs are those of the program and the input. -/
example : ∃ q, sampleParams.shrink SHRINK_K = .ok q ∧
    programEntry false (fun b => .ok (some b))
      (fun _ _ inst _ => .ok (decide (inst = [[2, 44, 46], [1, 65]])))
      (txWitnesses q.write [] [] (codeBytes [44, 46]) [65]) = .ok 0 := by
  obtain ⟨q, h1, h2, h3⟩ := C29_params_roundtrip false sampleParams sampleParams_stored (by decide)
    (by decide) rfl (by decide) (by decide) []
  refine ⟨q, h1, ?_⟩
  rw [List.append_nil] at h3
  rw [C26_verifier_rebuilds false true _ _ [44, 46] [44, 46] [65] q.write [] [] (by decide)
    (by decide) (by decide) (by subst h2; decide +kernel) (by decide) (by decide) q [] [] h3 rfl]
  decide +kernel

/-! ### C39 -/

/-- C39 is false of the code: `RawBytes` reading accepts a point that is not on the curve. -/
theorem C39_false : ∃ (b : List UInt8) (p : G1Raw), readG1 b = some (p, []) ∧
    ¬ OnCurve (decoded p.x) (decoded p.y) := by
  refine ⟨writeG1 (samplePoint 0) ++ [], samplePoint 0, readG1_append (samplePoint_stored
    (by omega)) [], ?_⟩
  decide +kernel

/-- C39 is false of the code also for the parameters as a whole: the verifier reads parameters none
of whose points is on the curve. -/
theorem C39_false_params : ∃ (b : List UInt8) (p : KzgParams),
    readVerifierParams false b = .ok (some (p, [])) ∧ p.g ≠ [] ∧
    (∀ q ∈ p.g, ¬ OnCurve (decoded q.x) (decoded q.y)) ∧
    ∀ q ∈ p.gLagrange, ¬ OnCurve (decoded q.x) (decoded q.y) := by
  obtain ⟨q, h1, h2, h3⟩ := C29_params_roundtrip false sampleParams sampleParams_stored (by decide)
    (by decide) rfl (by decide) (by decide) []
  refine ⟨_, q, h3, ?_⟩
  subst h2
  decide +kernel

/-- C39, what holds: the coordinates read are field elements in their only representation (limbs
below the modulus) and the bytes are the point's only encoding. Missing: the curve equation. -/
theorem C39_coordinates_partial (b rest : List UInt8) (p : G1Raw)
    (h : readG1 b = some (p, rest)) :
    p.x.val < Q ∧ p.y.val < Q ∧ b = writeG1 p ++ rest ∧
      ∀ b' rest', readG1 b' = some (p, rest') → b' = writeG1 p ++ rest' := by
  have hq : fqModulus.val = Q := by decide +kernel
  obtain ⟨h1, h2⟩ := readG1_some h
  exact ⟨hq ▸ h1.1.2, hq ▸ h1.2.2, h2, fun b' rest' h' => (readG1_some h').2⟩

end Verif.Props

#print axioms Verif.Props.C26_same_columns
#print axioms Verif.Props.C26_verifier_rebuilds
#print axioms Verif.Props.C26_capacity
#print axioms Verif.Props.C27_false
#print axioms Verif.Props.C27_panics_iff_partial
#print axioms Verif.Props.C27_no_panic_partial
#print axioms Verif.Props.C28_exit_zero
#print axioms Verif.Props.C28_exit_bad_proof
#print axioms Verif.Props.C28_exit_bad_data
#print axioms Verif.Props.C28_exit_codes
#print axioms Verif.Props.C29_params_roundtrip
#print axioms Verif.Props.C29_params_canonical
#print axioms Verif.Props.C39_false
#print axioms Verif.Props.C39_false_params
#print axioms Verif.Props.C39_coordinates_partial

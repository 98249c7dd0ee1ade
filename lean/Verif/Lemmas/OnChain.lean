import Verif.Spec.OnChain
import Verif.Props.VerifyingKey
import Verif.Props.Verifier
import Verif.Lemmas.KeyShape

/-! The pieces fit together. -/

namespace Verif

open Plonk Keygen Spec

namespace Domain

theorem shl64_checks {k x : Nat} (h : shl64 true k = .ok x) : shl64 false k = .ok x := by
  unfold shl64 at h ⊢
  split at h
  · cases h
  · exact h

theorem mul64_checks {a b x : Nat} (h : mul64 true a b = .ok x) : mul64 false a b = .ok x := by
  unfold mul64 at h ⊢
  split at h
  · cases h
  · exact h

theorem extend_checks {limit : Nat} : ∀ {fuel e x : Nat}, extend true limit fuel e = .ok x → extend false limit fuel e = .ok x
  | 0, _, _, h => by cases h
  | fuel + 1, e, x, h => by
    unfold extend at h ⊢
    obtain ⟨s, h1, h2⟩ := Transcript.bind_ok.1 h
    refine Transcript.bind_ok.2 ⟨s, shl64_checks h1, ?_⟩
    split at h2
    · rename_i hs
      rw [if_pos hs]
      split at h2
      · cases h2
      · exact extend_checks h2
    · rename_i hs
      rw [if_neg hs]
      exact h2

/-- Overflow checks only turn results into panics. -/
theorem new_checks {checks : Bool} {fuel j k : Nat} {d : Domain} (h : new checks fuel j k = .ok d) : new false fuel j k = .ok d := by
  cases checks
  · exact h
  unfold new at h ⊢
  split at h
  · cases h
  rw [if_neg (by simp)]
  obtain ⟨n, h1, h⟩ := Transcript.bind_ok.1 h
  obtain ⟨l, h2, h⟩ := Transcript.bind_ok.1 h
  obtain ⟨ek, h3, h⟩ := Transcript.bind_ok.1 h
  obtain ⟨ts, h4, h⟩ := Transcript.bind_ok.1 h
  obtain ⟨len, h5, h⟩ := Transcript.bind_ok.1 h
  refine Transcript.bind_ok.2 ⟨n, shl64_checks h1, Transcript.bind_ok.2 ⟨l, mul64_checks h2,
    Transcript.bind_ok.2 ⟨ek, extend_checks h3, Transcript.bind_ok.2 ⟨ts, h4, Transcript.bind_ok.2 ⟨len, shl64_checks h5, ?_⟩⟩⟩⟩⟩
  split at h
  · cases h
  · rename_i hl
    rw [if_neg hl]
    obtain ⟨n', h6, h⟩ := Transcript.bind_ok.1 h
    obtain ⟨en, h7, h⟩ := Transcript.bind_ok.1 h
    exact Transcript.bind_ok.2 ⟨n', shl64_checks h6, Transcript.bind_ok.2 ⟨en, shl64_checks h7, h⟩⟩

end Domain

theorem mapM_point {G Raw : Type} {r : RawForm G Raw} {stored : Raw → Prop} (hr : RawLawful r stored) :
    ∀ l : List G, (l.map r.raw).mapM r.point = some l
  | [] => rfl
  | A :: l => by
    rw [List.map_cons, List.mapM_cons, hr.point, mapM_point hr l]
    rfl

variable {G G₂ GT : Type}

/-- The raw key goes with the key. -/
theorem keygenRaw_ok {r1 : RawForm G G1Raw} (hr : RawLawful r1 G1Raw.Stored) {commit : List Fr → Except Panic G}
    {checks : Bool} {fuel fuel' k : Nat} (hk : k < 2 ^ 32) {mx : Matrix} {ch : Nat → Fr} {inst : Nat → List Fr} {key : Key G}
    (h : keygenVk commit checks fuel fuel' k mx ch inst = .ok (.ok key)) (hs : KeyShape key k) :
    ∃ vk a, keygenRaw r1 commit checks fuel fuel' k mx ch inst = .ok (.ok vk) ∧ vk.toKey r1 = some key ∧
      synthesize (2 ^ k) mx ch inst = .ok a ∧
      GeneratedFrom false fuel (selectorTable (2 ^ k) a) vk ∧ vk.domain.k = k := by
  unfold keygenVk at h
  obtain ⟨d, hd, h⟩ := Transcript.bind_ok.1 h
  split at h
  · exact absurd (Except.ok.inj h) (by simp)
  next a ha =>
  have hcalc := h
  unfold assemble at h
  obtain ⟨r, hr', h⟩ := Transcript.bind_ok.1 h
  split at h
  · exact absurd (Except.ok.inj h) (by simp)
  obtain ⟨⟨c, cols, as⟩, hc, h⟩ := Transcript.bind_ok.1 h
  dsimp only at h
  obtain ⟨sv, hsv, h⟩ := Transcript.bind_ok.1 h
  obtain ⟨sg, hsg, h⟩ := Transcript.bind_ok.1 h
  obtain ⟨fx, hfx, h⟩ := Transcript.bind_ok.1 h
  obtain rfl := Except.ok.inj (Except.ok.inj h)
  have hdk : d.k = k := hs.domain.logRows
  refine ⟨⟨d, fx.map r1.raw, sg.map r1.raw, c, as.map (WAssignment.ofAssignment c.cs)⟩, a, ?_, ?_, ha, ?_, hdk⟩
  · unfold keygenRaw
    refine Transcript.bind_ok.2 ⟨d, hd, ?_⟩
    rw [ha]
    refine Transcript.bind_ok.2 ⟨_, hcalc, ?_⟩
    exact Transcript.bind_ok.2 ⟨_, hc, rfl⟩
  · unfold VerifyingKey.toKey
    rw [mapM_point hr, mapM_point hr]
    rfl
  · refine ⟨⟨k, hk, Domain.new_checks hd, hdk⟩, ⟨cols, as, hc, rfl⟩, ⟨?_, ?_⟩, ?_, ?_⟩
    · rw [List.length_map]
      exact hs.fixedLength
    · intro p hp
      obtain ⟨A, -, rfl⟩ := List.mem_map.1 hp
      exact hr.stored A
    · rw [List.length_map]
      have := hs.sigmaLength
      obtain ⟨c1, -⟩ := compressed_permutation mainCS_sane hc
      rw [← c1]
      exact this
    · intro p hp
      obtain ⟨A, -, rfl⟩ := List.mem_map.1 hp
      exact hr.stored A

/-- A key that was written is read. -/
theorem readKey_write {fuel : Nat} {acts : List (List Bool)} {vk : VerifyingKey} (h : GeneratedFrom false fuel acts vk) :
    readKey false fuel vk.write = .ok (some vk) := by
  have := Props.C34_round_trip false fuel acts vk h []
  rw [List.append_nil] at this
  unfold readKey
  rw [this]
  rfl

theorem flatMap_length_const {α β : Type} {f : α → List β} {m : Nat} (hf : ∀ a, (f a).length = m) :
    ∀ l : List α, (l.flatMap f).length = l.length * m
  | [] => by simp
  | a :: l => by
    rw [List.flatMap_cons, List.length_append, hf, flatMap_length_const hf l, List.length_cons]
    ring

theorem writeG1_length (p : G1Raw) : (writeG1 p).length = 64 := by
  simp [writeG1, writeRaw, leBytes_length]

theorem writeG2_length (p : G2Raw) : (writeG2 p).length = 128 := by
  simp [writeG2, writeFq2, writeRaw, leBytes_length]

section
variable [AddCommGroup G] [Module Fr G] [AddCommGroup G₂] [Module Fr G₂]

/-- The parameters of the setup, written and read. -/
theorem params_written {r1 : RawForm G G1Raw} (h1 : RawLawful r1 G1Raw.Stored) {r2 : RawForm G₂ G2Raw}
    (h2 : RawLawful r2 G2Raw.Stored) {g1 : G} {g2 : G₂} {k : Nat} (hk1 : 1 ≤ k) (hk : k ≤ 24) {secret : Fr} {srs : Srs G G₂}
    (hs : Srs.setup g1 g2 k secret = .ok srs) :
    ∃ q, (srs.toRaw r1 r2).shrink SHRINK_K = .ok q ∧ q.write.length = 516 ∧
      readVerifierParams false q.write = .ok (some (q, [])) ∧ q.toVerifier r1 r2 = some ⟨2 ^ k, g1, g2, secret • g2⟩ := by
  unfold Srs.setup at hs
  split at hs
  · cases hs
  split at hs
  · cases hs
  dsimp only at hs
  split at hs
  · cases hs
  split at hs
  · cases hs
  obtain ⟨ek, en, eg, egl, e2, es⟩ : srs.k = k ∧ srs.n = 2 ^ k ∧ srs.g = (List.range (2 ^ k)).map (fun i => secret ^ i • g1) ∧
      srs.gLagrange.length = 2 ^ k ∧ srs.g2 = g2 ∧ srs.sG2 = secret • g2 := by
    rw [← Except.ok.inj hs]
    exact ⟨rfl, rfl, rfl, by simp, rfl, rfl⟩
  have hpow : 2 ≤ 2 ^ k := by
    calc 2 = 2 ^ 1 := rfl
      _ ≤ 2 ^ k := Nat.pow_le_pow_right (by norm_num) hk1
  have hgl : srs.g.length = 2 ^ k := by rw [eg]; simp
  have hst : ∀ l : List G, ∀ q ∈ l.map r1.raw, q.Stored := by
    intro l q hq
    obtain ⟨A, -, rfl⟩ := List.mem_map.1 hq
    exact h1.stored A
  obtain ⟨q, e3, e4, e5⟩ := Props.C29_params_roundtrip false (srs.toRaw r1 r2)
    ⟨by show srs.k < 2 ^ 32; omega, hst _, hst _, h2.stored _, h2.stored _⟩ (by show 1 ≤ srs.k; omega)
    (by show srs.k < 31; omega) (by show srs.n = 2 ^ srs.k; rw [en, ek])
    (by show 2 ≤ (srs.g.map r1.raw).length; rw [List.length_map, hgl]; exact hpow)
    (by show 2 ≤ (srs.gLagrange.map r1.raw).length; rw [List.length_map, egl]; exact hpow) []
  rw [List.append_nil] at e5
  refine ⟨q, e3, ?_, e5, ?_⟩
  · rw [e4]
    unfold KzgParams.write
    simp only [List.length_append, leBytes_length, flatMap_length_const writeG1_length, writeG2_length, List.length_take,
      Srs.toRaw, List.length_map, hgl, egl, Nat.min_eq_left hpow]
  · rw [e4]
    unfold KzgParams.toVerifier
    have e0 : (srs.g.map r1.raw).take 2 = [r1.raw g1, r1.raw (secret • g1)] := by
      have hr : (List.range (2 ^ k)).take 2 = [0, 1] := by
        rw [List.take_range, Nat.min_eq_left hpow]
        rfl
      rw [eg, List.map_map, ← List.map_take, hr]
      simp
    simp only [Srs.toRaw, e0, h2.point, en, e2, es]
    simp [h1.point]

variable [AddCommGroup GT] [Module Fr GT] [DecidableEq GT]

/-- The exit code of the program, when the witnesses can be read. -/
theorem program_eq (o : OnChain G G₂ GT) {ck : Bool} {src : List UInt8} {words : List Nat} (hw : compileToU16 ck src = .ok words)
    {input params vk proof : List UInt8} (hcode : words.length ≤ 1023) (hinput : input.length ≤ 1023)
    (hparams : params.length ≤ 1024) (hvk : vk.length ≤ 4096) (hproof : proof.length ≤ 8192) {fuel : Nat} {p : KzgParams}
    {rest : List UInt8} {raw : VerifyingKey} {ps : VerifierParams G G₂} {key : Key G}
    (h1 : readVerifierParams false params = .ok (some (p, rest))) (h2 : readKey false fuel vk = .ok (some raw))
    (h3 : p.toVerifier o.r1 o.r2 = some ps) (h4 : raw.toKey o.r1 = some key) :
    o.program fuel (txWitnesses params vk proof (codeBytes words) input) =
      match verifyProof o.codec o.hash o.pairing ps key (o.repr raw)
          [publicInputs (Props.toFr words) (easygen input) 0, publicInputs (Props.toFr words) (easygen input) 1] proof with
      | .ok () => .ok 0
      | .error (.error _) => .ok (-2)
      | .error (.panic e) => .error e := by
  unfold OnChain.program
  rw [Props.C26_verifier_rebuilds false ck (readKey false fuel) o.verify src words input params vk proof hw hcode hinput hparams
    hvk hproof p rest raw h1 h2]
  unfold OnChain.verify
  rw [h3, h4]
  dsimp only
  generalize verifyProof o.codec o.hash o.pairing ps key (o.repr raw) _ proof = r
  rcases r with (_ | _) | _ <;> rfl

end

end Verif

import Verif.Lemmas.Binding
import Verif.Lemmas.KeyShape
import Verif.Lemmas.PointCodec
import Verif.Props.Transcript
import Verif.Props.Curve

/-! C64: every challenge the verifier draws is the hash of everything before it: the key, both public inputs
and all earlier messages of the proof. -/

namespace Verif.Props

open Spec Plonk Transcript Verify Keygen Binding

variable {G : Type} {codec : Codec G} {hash : Hash}

/-- Generated keys have one phase for every column and every challenge. -/
theorem keygen_phases {C : Type} {commit : List Fr → Except Panic C} {checks : Bool} {fuel fuel' k : Nat} (hk : k ≤ 24)
    (hf : 48 ≤ fuel) (hf' : 16 * 2 ^ k ≤ fuel') {mx : Matrix} {ch : Nat → Fr} {inst : Nat → List Fr} {key : Key C}
    (h : keygenVk commit checks fuel fuel' k mx ch inst = .ok (.ok key)) :
    key.cs.advicePhase.length = key.cs.numAdvice ∧ key.cs.challengePhase.length = key.cs.numChallenges := by
  obtain ⟨d, a, -, ha, -⟩ := keygen_inv h
  obtain ⟨key', asm, c, cols, as, h1, h2, h3, h4, h5, h6, h7, -, -, -, -, -⟩ :=
    keygen_ok checks fuel fuel' k hk hf hf' mx ch inst a ha
  have e1 := (keygenVk_map (commit := fun _ => .ok ()) (f := fun _ => ()) (fun _ _ _ => rfl) h).1
  have e2 := (keygenVk_map (commit := fun _ => .ok ()) (f := fun _ => ()) (fun _ _ _ => rfl) h1).1
  rw [e1] at e2
  have e := Except.ok.inj (Except.ok.inj e2)
  have ec : key.cs = c.cs := (congrArg Key.cs e).trans h5
  obtain ⟨c1, c2, c3, c4, c5, c6, c7, c8, c9, c10⟩ := compressed_permutation mainCS_sane h4
  obtain ⟨p1, p2⟩ := compressed_phases mainCS_sane h4
  rw [ec, p1, p2, c4, c5]
  decide +kernel

/-- The verifier has drawn its challenges: those of the circuit in the order of the phases, then theta,
beta, gamma, y, x; then, in the opening, y, v and u. Each is the hash of all bytes of the conversation
up to it: the key, the code, the input, the commitments, the evaluations. -/
theorem C64_challenges [Zero G] {commit : List Fr → Except Panic G} {checks : Bool} {fuel fuel' k : Nat} (hk : k ≤ 24)
    (hf : 48 ≤ fuel) (hf' : 16 * 2 ^ k ≤ fuel') {mx : Matrix} {ch₀ : Nat → Fr} {inst : Nat → List Fr} {key : Key G}
    (hkey : keygenVk commit checks fuel fuel' k mx ch₀ inst = .ok (.ok key))
    {repr : Fr} {code input : List Fr} {proof : List UInt8} {com : Commitments G} {ch : Challenges} {e : Evals} {t t' t'' : Reader}
    {y v u : Fr} {h1 h2 : G}
    (hcom : readCommitments codec hash key repr [publicInputs code input 0, publicInputs code input 1] proof = .ok (com, ch, t))
    (hev : readEvals key com t = .ok (e, t')) (hop : readOpening codec hash t' = .ok (y, v, h1, u, h2, t'')) :
    drawn codec hash [] (untilU key.cs repr [publicInputs code input 0, publicInputs code input 1] com e h1) =
      inOrder key.cs ch.user ++ [ch.theta, ch.beta, ch.gamma, ch.y, ch.x, y, v, u] := by
  obtain ⟨p1, p2⟩ := keygen_phases hk hf hf' hkey
  obtain ⟨-, s1⟩ := said_commitments p1 p2 hcom
  have s2 : Said codec hash t t' _ _ := said_evals hev
  obtain ⟨t3, s3⟩ := said_opening hop
  have := ((s1.trans s2).trans s3).drawn
  unfold untilU
  rw [this]
  simp

/-- Different conversations have different bytes, if points have different coordinates. -/
theorem C64_injective (hl : Lawful codec) (hc : CoordsTell codec) (l m : List (Item G)) :
    encode codec l = encode codec m ↔ l = m :=
  ⟨fun h => encode_inj hl hc h, fun h => by rw [h]⟩

/-- If x is drawn from the same bytes in two verifications with the same key, then the key is represented by
the same number, the code and the input are the same, and all commitments are the same. -/
theorem C64_bound [Zero G] (hl : Lawful codec) (hct : CoordsTell codec) {hash' : Hash}
    {commit : List Fr → Except Panic G} {checks : Bool} {fuel fuel' k : Nat} (hk : k ≤ 24)
    (hf : 48 ≤ fuel) (hf' : 16 * 2 ^ k ≤ fuel') {mx : Matrix} {ch₀ : Nat → Fr} {inst : Nat → List Fr} {key : Key G}
    (hkey : keygenVk commit checks fuel fuel' k mx ch₀ inst = .ok (.ok key))
    {repr repr' : Fr} {code code' input input' : List Fr} (hlen : code.length < P) (hlen' : code'.length < P)
    {proof proof' : List UInt8} {com com' : Commitments G} {ch ch' : Challenges} {t t' : Reader}
    (h : readCommitments codec hash key repr [publicInputs code input 0, publicInputs code input 1] proof = .ok (com, ch, t))
    (h' : readCommitments codec hash' key repr' [publicInputs code' input' 0, publicInputs code' input' 1] proof' =
      .ok (com', ch', t'))
    (hsame : encode codec (untilX key.cs repr [publicInputs code input 0, publicInputs code input 1] com) =
      encode codec (untilX key.cs repr' [publicInputs code' input' 0, publicInputs code' input' 1] com')) :
    repr = repr' ∧ code = code' ∧ input = input' ∧ com = com' := by
  obtain ⟨p1, p2⟩ := keygen_phases hk hf hf' hkey
  obtain ⟨e1, e2, e3⟩ := untilX_inj p1 (counted p1 p2 h) (counted p1 p2 h') (encode_inj hl hct hsame)
  obtain ⟨e4, e5⟩ := publicInputs_inj hlen hlen' e2
  exact ⟨e1, e4, e5, e3⟩

/-- If the last challenge is drawn from the same bytes, then besides the evaluations and the first commitment
of the opening are the same. -/
theorem C64_bound_last [Zero G] (hl : Lawful codec) (hct : CoordsTell codec) {hash' : Hash}
    {commit : List Fr → Except Panic G} {checks : Bool} {fuel fuel' k : Nat} (hk : k ≤ 24)
    (hf : 48 ≤ fuel) (hf' : 16 * 2 ^ k ≤ fuel') {mx : Matrix} {ch₀ : Nat → Fr} {inst : Nat → List Fr} {key : Key G}
    (hkey : keygenVk commit checks fuel fuel' k mx ch₀ inst = .ok (.ok key))
    {repr repr' : Fr} {code code' input input' : List Fr} (hlen : code.length < P) (hlen' : code'.length < P)
    {proof proof' : List UInt8} {com com' : Commitments G} {ch ch' : Challenges} {e e' : Evals} {t t' s s' : Reader} {h1 h1' : G}
    (h : readCommitments codec hash key repr [publicInputs code input 0, publicInputs code input 1] proof = .ok (com, ch, t))
    (h' : readCommitments codec hash' key repr' [publicInputs code' input' 0, publicInputs code' input' 1] proof' =
      .ok (com', ch', t'))
    (he : readEvals key com t = .ok (e, s)) (he' : readEvals key com' t' = .ok (e', s'))
    (hsame : encode codec (untilU key.cs repr [publicInputs code input 0, publicInputs code input 1] com e h1) =
      encode codec (untilU key.cs repr' [publicInputs code' input' 0, publicInputs code' input' 1] com' e' h1')) :
    repr = repr' ∧ code = code' ∧ input = input' ∧ com = com' ∧ e = e' ∧ h1 = h1' := by
  obtain ⟨p1, p2⟩ := keygen_phases hk hf hf' hkey
  have c1 := counted p1 p2 h
  have c2 := counted p1 p2 h'
  obtain ⟨f1, f2⟩ := evals_inj (c1.products.trans c2.products.symm) (c1.lookupProducts.trans c2.lookupProducts.symm) he he'
  obtain ⟨g1, g2, g3⟩ := untilU_split f1 (encode_inj hl hct hsame)
  obtain ⟨e1, e2, e3⟩ := untilX_inj p1 c1 c2 g1
  obtain ⟨e4, e5⟩ := publicInputs_inj hlen hlen' e2
  exact ⟨e1, e4, e5, e3, f2 g2, g3⟩

/-- The coordinates of the points of bn256, also of the one at infinity, which are given as zeros, tell the
points apart. -/
theorem g1_coordsTell : CoordsTell g1Codec where
  some A := by
    obtain ⟨c, hc⟩ := g1Codec_coords A
    rw [hc]
    simp
  inj A B h := by
    have hz : leBytes 32 0 = List.replicate 32 0 := by decide
    have lt : ∀ z : Fq, z.val < 256 ^ 32 := fun z => lt_trans (ZMod.val_lt z) (by decide +kernel)
    have inj : ∀ y z : Fq, leBytes 32 y.val = leBytes 32 z.val → y = z := by
      intro y z h
      have := congrArg leNat h
      rw [leNat_leBytes _ _ (lt y), leNat_leBytes _ _ (lt z)] at this
      exact ZMod.val_injective Q this
    have nz : ∀ x y : Fq, leBytes 32 x.val = List.replicate 32 0 → leBytes 32 y.val = List.replicate 32 0 →
        ¬ y ^ 2 = x ^ 3 + 3 := by
      intro x y hx hy hxy
      have h0 : (0 : Fq).val = 0 := ZMod.val_zero
      rw [← hz, ← h0] at hx hy
      rw [inj x 0 hx, inj y 0 hy] at hxy
      revert hxy
      decide +kernel
    rw [C60_coordinates, C60_coordinates, Option.some.injEq] at h
    cases A with
    | zero =>
      cases B with
      | zero => rfl
      | some x y hB =>
        simp only [Prod.mk.injEq] at h
        exact absurd ((nonsingular_curve smooth_three).1 hB) (nz x y h.1.symm h.2.symm)
    | some x y hA =>
      cases B with
      | zero =>
        simp only [Prod.mk.injEq] at h
        exact absurd ((nonsingular_curve smooth_three).1 hA) (nz x y h.1 h.2)
      | some x' y' hB =>
        simp only [Prod.mk.injEq] at h
        obtain rfl := inj x x' h.1
        obtain rfl := inj y y' h.2
        rfl

/-- Sending 1 and then 2 is not sending 2 and then 1, nor sending them without a challenge between. -/
example : encode g1Codec [.scalar 1, .scalar 2] ≠ encode g1Codec [.scalar 2, .scalar 1] ∧
    encode g1Codec [.scalar 1, .draw, .scalar 2] ≠ encode g1Codec [.scalar 1, .scalar 2] := by
  constructor <;> rw [Ne, C64_injective g1Codec_lawful g1_coordsTell]
  · intro h
    have h2 : (1 : Fr) = 2 := by simpa using (List.cons.inj h).1
    revert h2
    decide +kernel
  · intro h
    have := congrArg List.length h
    simp at this

/-- A case: the proof of the demo program is read, and the challenges are those of the conversation. -/
example : ∃ (vk : Key Fr) (hash : Hash) (out : List UInt8) (com : Commitments Fr) (ch : Challenges) (e : Evals) (h1 y v u : Fr),
    drawn scalarCodec hash [] (untilU vk.cs 7 [publicInputs demoCode (toFr [2]) 0, publicInputs demoCode (toFr [2]) 1] com e h1) =
      inOrder vk.cs ch.user ++ [ch.theta, ch.beta, ch.gamma, ch.y, ch.x, y, v, u] ∧
    ∃ t, readCommitments scalarCodec hash vk 7 [publicInputs demoCode (toFr [2]) 0, publicInputs demoCode (toFr [2]) 1] out =
      .ok (com, ch, t) := by
  obtain ⟨s, pk, vk, srs, hash, blinds, out, -, -, -, hvk, -, -, -, hver⟩ := demo_proof
  unfold verifyProof at hver
  obtain ⟨⟨com, ch, t⟩, q1, hver⟩ := Transcript.bind_ok.1 hver
  obtain ⟨⟨e, t'⟩, q2, hver⟩ := Transcript.bind_ok.1 hver
  obtain ⟨cl, -, hver⟩ := Transcript.bind_ok.1 hver
  obtain ⟨⟨y, v, h1, u, h2, t''⟩, q3, -⟩ := Transcript.bind_ok.1 hver
  exact ⟨vk, hash, out, com, ch, e, h1, y, v, u,
    C64_challenges (k := 9) (by norm_num) (le_refl 48) (by norm_num) hvk q1 q2 q3, t, q1⟩

end Verif.Props

#print axioms Verif.Props.C64_challenges
#print axioms Verif.Props.C64_injective
#print axioms Verif.Props.C64_bound
#print axioms Verif.Props.C64_bound_last
#print axioms Verif.Props.g1_coordsTell

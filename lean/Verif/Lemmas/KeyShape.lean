import Verif.Lemmas.CombinedCircuit
import Verif.Spec.KeyShape
import Verif.Lemmas.ProveColumns
import Verif.Lemmas.PiopCircuit
import Verif.Lemmas.PiopClosed

/-! What the verifier relies on, of every generated key. -/

namespace Verif.Keygen

open Spec Plonk Props Transcript

theorem keygen_shape {C : Type} {commit : List Fr → Except Panic C} {checks : Bool} {fuel fuel' k : Nat} (hk : k ≤ 24)
    (hf : 48 ≤ fuel) (hf' : 16 * 2 ^ k ≤ fuel') {mx : Matrix} {ch : Nat → Fr} {inst : Nat → List Fr} {key : Key C}
    (h : keygenVk commit checks fuel fuel' k mx ch inst = .ok (.ok key)) : KeyShape key k := by
  obtain ⟨d, a, -, ha, -⟩ := keygen_inv h
  obtain ⟨key', asm, c, cols, as, h1, h2, h3, h4, h5, h6, h7, -, -, -, -, -⟩ :=
    keygen_ok checks fuel fuel' k hk hf hf' mx ch inst a ha
  have e1 := (keygenVk_map (commit := fun _ => .ok ()) (f := fun _ => ()) (fun _ _ _ => rfl) h).1
  have e2 := (keygenVk_map (commit := fun _ => .ok ()) (f := fun _ => ()) (fun _ _ _ => rfl) h1).1
  rw [e1] at e2
  have e := Except.ok.inj (Except.ok.inj e2)
  have ed : key.domain = key'.domain := congrArg Key.domain e
  have ec : key.cs = c.cs := (congrArg Key.cs e).trans h5
  have ef : key.fixed.length = key'.fixed.length := by
    have := congrArg (fun k => k.fixed.length) e
    simpa [mapKey] using this
  have es : key.sigma.length = key'.sigma.length := by
    have := congrArg (fun k => k.sigma.length) e
    simpa [mapKey] using this
  obtain ⟨g1, g2', g3, g4, g5, g6⟩ := gates_count
  obtain ⟨c1, c2, c3, c4, c5, c6, c7, c8, c9, c10⟩ := compressed_permutation mainCS_sane h4
  obtain ⟨hnd, h16⟩ := C33_circuit
  have hnf : mainCS.numFixed = 1 := by decide +kernel
  have hdeg : c.cs.degree = 11 := by rw [C32_degree _ _ mainCS_sane _ _ _ _ h4, degree_11]
  obtain ⟨q1, q2, -⟩ := circuit_queries h4
  constructor
  · rw [ec, hdeg, ed]; exact h2
  · rw [ec]; exact hdeg
  · rw [ec]; exact compressed_closed mainCS_sane mainCS_closed h4
  · rw [ec]; exact q1
  · rw [ec]; exact q2
  · rw [ef, h6, ec, c2, hnf]
  · rw [es, h7, ec, c1, h16]
  · rw [ec, c3, g4]
  · rw [ec, c4, g5]

end Verif.Keygen

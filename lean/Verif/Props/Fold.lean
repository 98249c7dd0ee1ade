import Verif.Lemmas.Fold
import Verif.Props.Forge

/-! Property C78: messages that prove a statement about public inputs prove it about no others. -/

namespace Verif.Props

open Spec Plonk Keygen Shplonk Transcript PlonkProver

variable {G G₂ GT : Type} [AddCommGroup G] [Module Fr G]
variable [AddCommGroup G₂] [Module Fr G₂] [AddCommGroup GT] [Module Fr GT] [DecidableEq GT]

/-- What holds of all public inputs: the verifier's equations see only the columns folded to `2^k` rows. For two
lists of public inputs that give the same folded columns, the same messages pass with the same challenges. -/
theorem C78_folds (key : Key G) (k : Nat) (hs : KeyShape key k) (instances instances' : List (List Fr))
    (h2 : instances.length = 2) (h2' : instances'.length = 2)
    (h : ∀ c, ∀ r < 2 ^ k, foldedColumn (2 ^ k) (instances.getD c []) r = foldedColumn (2 ^ k) (instances'.getD c []) r)
    (pairing : G →ₗ[Fr] G₂ →ₗ[Fr] GT) (params : VerifierParams G G₂) (com : Commitments G) (ch : Challenges) (e : Evals)
    (y v : Fr) (h1 : G) (u : Fr) (h2 : G) :
    Passes pairing params key instances com ch e y v h1 u h2 ↔ Passes pairing params key instances' com ch e y v h1 u h2 := by
  have hq : ∀ q ∈ key.cs.instanceQueries, q.1 < 2 := fun q hq => hs.instances ▸ hs.closed.inst q hq
  unfold Passes
  rw [claims_folded (key := Ref.ofKey key) (instances' := instances') hs.domain
    (fun q hm => ⟨by rw [‹instances.length = 2›]; exact hq q hm, by rw [h2']; exact hq q hm⟩) h]

/-- 511 commands that move right once and increment 510 times. -/
def filler : List UInt8 := 62 :: List.replicate 510 43

/-- Prints first. -/
def printsFirst : List UInt8 := 46 :: (filler ++ [43])

/-- Prints last. -/
def printsLast : List UInt8 := 43 :: (filler ++ [46])

/-- The words are the commands, there being no brackets. -/
theorem words_first : compileToU16 true printsFirst = .ok (printsFirst.map UInt8.toNat) := by decide +kernel

theorem words_last : compileToU16 true printsLast = .ok (printsLast.map UInt8.toNat) := by decide +kernel

theorem columns_differ : publicInputs (toFr (printsFirst.map UInt8.toNat)) (easygen []) 0 ≠
    publicInputs (toFr (printsLast.map UInt8.toNat)) (easygen []) 0 := by
  intro h
  have := congrArg (fun l : List Fr => l.getD 1 0) h
  revert this
  decide +kernel

theorem fold_pair {n : Nat} {a b e e' : List Fr} (he : e = e') (h : ∀ r, foldedColumn n a r = foldedColumn n b r) (c r : Nat) :
    foldedColumn n ([a, e].getD c []) r = foldedColumn n ([b, e'].getD c []) r := by
  subst he
  match c with
  | 0 => exact h r
  | 1 => rfl
  | c + 2 => rfl

theorem swap_column {n m : Nat} {a b : List Fr} (hm : m < n) (hm1 : 1 < m) (ha : a.length = n) (hb : b.length = n)
    (h : ∀ i < n, b.getD i 0 = a.getD (if i = 1 then m else if i = m then 1 else i) 0) (i : Nat) :
    b.getD i 0 = a.getD (Equiv.swap 1 m i) 0 := by
  rcases Nat.lt_or_ge i n with hi | hi
  · rw [Equiv.swap_apply_def]
    exact h i hi
  · rw [Equiv.swap_apply_of_ne_of_ne (by omega) (by omega), List.getD_eq_getElem?_getD, List.getD_eq_getElem?_getD,
      List.getElem?_eq_none (by omega), List.getElem?_eq_none (by omega)]

theorem input_column (a b i : List Fr) : publicInputs a i 1 = publicInputs b i 1 := rfl

theorem columns_fold (c r : Nat) : foldedColumn (2 ^ 9) ([publicInputs (toFr (printsFirst.map UInt8.toNat)) (easygen []) 0,
      publicInputs (toFr (printsFirst.map UInt8.toNat)) (easygen []) 1].getD c []) r =
    foldedColumn (2 ^ 9) ([publicInputs (toFr (printsLast.map UInt8.toNat)) (easygen []) 0,
      publicInputs (toFr (printsLast.map UInt8.toNat)) (easygen []) 1].getD c []) r := by
  have l1 : (publicInputs (toFr (printsFirst.map UInt8.toNat)) (easygen []) 0).length = 514 := by decide +kernel
  have l2 : (publicInputs (toFr (printsLast.map UInt8.toNat)) (easygen []) 0).length = 514 := by decide +kernel
  have hsmall : ∀ i < 514, (publicInputs (toFr (printsLast.map UInt8.toNat)) (easygen []) 0).getD i 0 =
      (publicInputs (toFr (printsFirst.map UInt8.toNat)) (easygen []) 0).getD (if i = 1 then 513 else if i = 513 then 1 else i) 0 := by
    decide +kernel
  refine fold_pair (input_column _ _ _) (fun r => ?_) c r
  generalize publicInputs (toFr (printsFirst.map UInt8.toNat)) (easygen []) 0 = a at l1 hsmall
  generalize publicInputs (toFr (printsLast.map UInt8.toNat)) (easygen []) 0 = b at l2 hsmall
  exact foldedColumn_swap (i := 1) (i' := 513) (by rw [l1, l2]) (by rw [l1]; norm_num) (by rw [l1]; norm_num) (by norm_num)
    (swap_column (by norm_num) (by norm_num) l1 l2 hsmall) r

theorem outputs : (runOn 600 8 (toFr (printsFirst.map UInt8.toNat)) []).map (fun r => r.map fun s => s.matrix.output) = some (.ok [0]) ∧
    (runOn 600 8 (toFr (printsLast.map UInt8.toNat)) []).map (fun r => r.map fun s => s.matrix.output) = some (.ok [254]) := by
  decide +kernel

/-- C78 is false: two programs, which print 0 and 254, with different public inputs. With any key for `2^9` rows,
whatever the trace it was made for, the same messages pass for both, whatever the messages, the challenges, the secret and
the pairing. (The honest prover makes a proof of neither: C78_refused.) -/
theorem C78_false : ∃ (src src' : List UInt8) (words words' : List Nat),
    compileToU16 true src = .ok words ∧ compileToU16 true src' = .ok words' ∧ words.length ≤ 1023 ∧ words'.length ≤ 1023 ∧
    (runOn 600 8 (toFr words) []).map (fun r => r.map fun s => s.matrix.output) = some (.ok [0]) ∧
    (runOn 600 8 (toFr words') []).map (fun r => r.map fun s => s.matrix.output) = some (.ok [254]) ∧
    publicInputs (toFr words) (easygen []) 0 ≠ publicInputs (toFr words') (easygen []) 0 ∧
    (∀ (commit : List Fr → Except Panic G) (checks : Bool) (fuel fuel' : Nat), 48 ≤ fuel → 16 * 2 ^ 9 ≤ fuel' →
      ∀ (mx : Matrix) (ch₀ : Nat → Fr) (inst : Nat → List Fr) (key : Key G),
      keygenVk commit checks fuel fuel' 9 mx ch₀ inst = .ok (.ok key) →
      ∀ (pairing : G →ₗ[Fr] G₂ →ₗ[Fr] GT) (params : VerifierParams G G₂) (com : Commitments G) (ch : Challenges) (e : Evals)
        (y v : Fr) (h1 : G) (u : Fr) (h2 : G),
      Passes pairing params key [publicInputs (toFr words) (easygen []) 0, publicInputs (toFr words) (easygen []) 1] com ch e y v
        h1 u h2 ↔
      Passes pairing params key [publicInputs (toFr words') (easygen []) 0, publicInputs (toFr words') (easygen []) 1] com ch e y v
        h1 u h2) := by
  refine ⟨printsFirst, printsLast, _, _, words_first, words_last, by decide +kernel, by decide +kernel, outputs.1, outputs.2, columns_differ, ?_⟩
  intro commit checks fuel fuel' hf hf' mx ch₀ inst key hkey pairing params com ch e y v h1 u h2
  exact C78_folds key 9 (keygen_shape (by norm_num) hf hf' hkey) _ _ rfl rfl (fun c r _ => columns_fold c r) pairing params com ch e
    y v h1 u h2

/-- The prover refuses public inputs that do not fit. -/
theorem C78_refused (checks : Bool) (codec : Codec G) (hash : Hash) (srs : Srs G G₂) (pk : ProvingKey) (repr : Fr)
    (code input : List Fr) (synth : Nat → List Fr → Except Stop (List (List Fr))) (blinds : Blinds) (hn : pk.cs.numInstance = 2)
    (hlong : code.length + 1 > srs.n - (pk.cs.blindingFactors + 1)) :
    prove checks codec hash srs pk repr [publicInputs code input 0, publicInputs code input 1] synth blinds =
      .error (.error .instanceTooLarge) := by
  have h0 : instanceColumn srs.n pk.cs.blindingFactors (publicInputs code input 0) = none := if_pos hlong
  unfold prove
  rw [if_neg (by rw [hn]; exact fun h => h rfl)]
  simp only [List.mapM_cons, h0]
  rfl

/-- What does hold: public inputs that fit in `2^k` rows are told apart. If two columns that are queried differ, then for
all but `2^k - 1` values of the challenge `x` outside the domain the verifier computes with different values. -/
theorem C78_partial (d : Domain) (j k : Nat) (hd : IsDomain d j k) (cs : CS) (instances instances' : List (List Fr))
    (hq : ∀ q ∈ cs.instanceQueries, q.1 < instances.length ∧ q.1 < instances'.length) (q : Nat × Int)
    (hm : q ∈ cs.instanceQueries) (hl : (instances.getD q.1 []).length ≤ 2 ^ k) (hl' : (instances'.getD q.1 []).length ≤ 2 ^ k)
    (i : Nat) (hne : (instances.getD q.1 []).getD i 0 ≠ (instances'.getD q.1 []).getD i 0) :
    ∃ B : Finset Fr, B.card ≤ 2 ^ k - 1 ∧ ∀ x, x ^ 2 ^ k ≠ 1 → x ∉ B →
      ∃ a b, instanceEvals d cs x (x ^ 2 ^ k) instances = .ok a ∧ instanceEvals d cs x (x ^ 2 ^ k) instances' = .ok b ∧ a ≠ b := by
  classical
  obtain ⟨L, h1, h2, h3⟩ := exists_basis hd
  generalize hcol : instances.getD q.1 [] = col at hl hne
  generalize hcol' : instances'.getD q.1 [] = col' at hl' hne
  let S : List Fr → Polynomial Fr := fun c => ∑ i ∈ Finset.range c.length, Polynomial.C (c.getD i 0) * L ((i : Int) - q.2)
  have hdeg : ∀ c, (S c).natDegree ≤ 2 ^ k - 1 := fun c =>
    Polynomial.natDegree_sum_le_of_forall_le _ _ fun i _ => (Polynomial.natDegree_C_mul_le _ _).trans (h1 _)
  have hval : ∀ c : List Fr, c.length ≤ 2 ^ k → ∀ r < 2 ^ k, (S c).eval (d.omega ^ r) = c.getD (rotate (2 ^ k) r q.2) 0 := by
    intro c hc r hr
    have := rowOf_inst (L := L) (key := ⟨d, cs, [], []⟩) (com := ⟨[], [], [], [], [], []⟩) (instances := [c]) (user := [])
      (theta := 0) (beta := 0) (gamma := 0) h2 0 q.2 r hr
    rw [← Polynomial.coe_aeval_eq_eval]
    exact this.trans (foldedColumn_short hc _)
  have hdiff : S col - S col' ≠ 0 := by
    intro h0
    have hi : i < 2 ^ k := by
      by_contra hc
      apply hne
      rw [List.getD_eq_getElem?_getD, List.getD_eq_getElem?_getD, List.getElem?_eq_none (by omega), List.getElem?_eq_none (by omega)]
    have hr := Plonk.rotate_lt (2 ^ k) i (-q.2) (by positivity)
    have e1 := hval col hl _ hr
    have e2 := hval col' hl' _ hr
    have hrot : rotate (2 ^ k) (rotate (2 ^ k) i (-q.2)) q.2 = i := by
      unfold rotate
      have hpos : (0 : Int) < ((2 ^ k : Nat) : Int) := by positivity
      have hm := Int.emod_nonneg ((i : Int) + -q.2) (ne_of_gt hpos)
      rw [Int.toNat_of_nonneg hm, Int.emod_add_emod, add_assoc, neg_add_cancel, add_zero,
        Int.emod_eq_of_lt (by omega) (by omega)]
      omega
    rw [hrot] at e1 e2
    apply hne
    rw [← e1, ← e2, sub_eq_zero.1 h0]
  refine ⟨(S col - S col').roots.toFinset, ?_, fun x hx hB => ?_⟩
  · exact (Multiset.toFinset_card_le _).trans ((Polynomial.card_roots' _).trans
      ((Polynomial.natDegree_sub_le _ _).trans (max_le (hdeg _) (hdeg _))))
  · refine ⟨_, _, instanceEvals_ok (L := L) d cs x _ (h3 x hx) fun q hm => (hq q hm).1,
      instanceEvals_ok (L := L) d cs x _ (h3 x hx) fun q hm => (hq q hm).2, fun he => hB ?_⟩
    have := List.map_inj_left.1 he q hm
    rw [hcol, hcol'] at this
    rw [Multiset.mem_toFinset, Polynomial.mem_roots hdiff, Polynomial.IsRoot, Polynomial.eval_sub]
    exact sub_eq_zero.2 this

/-- Not vacuous: a domain of 512 rows, the circuit, and the columns of `+` and `-`. -/
example : ∃ d, IsDomain d 11 9 ∧ ((0, 0) : Nat × Int) ∈ mainCS.instanceQueries ∧
    (publicInputs [43] [] 0).length ≤ 2 ^ 9 ∧ (publicInputs [43] [] 0).getD 1 0 ≠ (publicInputs [45] [] 0).getD 1 0 := by
  obtain ⟨d, -, hd⟩ := C40_circuit_partial false 9 (by norm_num) 48 (by norm_num)
  exact ⟨d, hd, by decide +kernel, by decide +kernel, by decide +kernel⟩

end Verif.Props

#print axioms Verif.Props.C78_folds
#print axioms Verif.Props.C78_false
#print axioms Verif.Props.C78_refused
#print axioms Verif.Props.C78_partial

import Verif.Lemmas.Pow5Cauchy
import Verif.Lemmas.PrattPasta

/-! Poseidon in circuits: the permutation (C104) and the hash (C105). -/

namespace Verif.Props

open Verif.FloorPlanner (Call)
open Verif.Gadget Verif.Spec.Gadget Verif.Spec Verif.Lemmas.Pow5

/-- The selectors differ, as those that `meta.selector()` returns do. -/
def SelectorsDiffer {t : Nat} (cols : Pow5.Columns t) : Prop :=
  cols.sFull ≠ cols.sPartial ∧ cols.sFull ≠ cols.sPadAndAdd ∧ cols.sPartial ≠ cols.sPadAndAdd

section

variable {F : Type} [Field F] {t : Nat} {cols : Pow5.Columns t} {s : PoseidonSpec F t} {c : Pow5 F t}

omit [Field F] in
theorem configure_ok (hc : Pow5.configure cols s = .ok c) : s.fullRounds % 2 = 0 ∧ s.partialRounds % 2 = 0 ∧
    c = ⟨cols.state, cols.partialSbox, cols.rcA, cols.rcB, cols.sFull, cols.sPartial, cols.sPadAndAdd,
      s.fullRounds / 2, s.partialRounds / 2, s.constants, s.mds, s.mdsInv⟩ := by
  unfold Pow5.configure at hc
  obtain ⟨_, h1, hc⟩ := Verif.Lemmas.Gadget.bind_ok hc
  obtain ⟨_, h2, hc⟩ := Verif.Lemmas.Gadget.bind_ok hc
  simp only [pure, Except.pure, Except.ok.injEq] at hc
  refine ⟨?_, ?_, hc.symm⟩
  · by_contra h
    unfold assert at h1
    rw [if_neg (by simpa using h)] at h1
    cases h1
  · by_contra h
    unfold assert at h2
    rw [if_neg (by simpa using h)] at h2
    cases h2

omit [Field F] in
/-- **C104 (configure).** A chip is made whenever both numbers of rounds are even, and not otherwise. -/
theorem C104_configure (cols : Pow5.Columns t) (s : PoseidonSpec F t) :
    (∃ c, Pow5.configure cols s = .ok c) ↔ s.fullRounds % 2 = 0 ∧ s.partialRounds % 2 = 0 := by
  constructor
  · rintro ⟨c, hc⟩
    exact ⟨(configure_ok hc).1, (configure_ok hc).2.1⟩
  · rintro ⟨h1, h2⟩
    refine ⟨⟨cols.state, cols.partialSbox, cols.rcA, cols.rcB, cols.sFull, cols.sPartial, cols.sPadAndAdd,
        s.fullRounds / 2, s.partialRounds / 2, s.constants, s.mds, s.mdsInv⟩, ?_⟩
    · unfold Pow5.configure assert
      rw [h1, h2]
      rfl

/-- **C104 (the function).** The permutation on numbers is the one of the paper. -/
theorem C104_permute (s : PoseidonSpec F t) (hs : ∀ x, s.sbox x = x ^ 5) (hf : s.fullRounds % 2 = 0) (v : Fin (t + 1) → F) :
    s.permute v = Poseidon.permutation (Matrix.of s.mds) (s.fullRounds / 2) s.partialRounds
      (s.constants.take (s.fullRounds + s.partialRounds)) v := by
  have hfull : s.fullRound = Poseidon.fullRound (Matrix.of s.mds) := by
    funext v c
    unfold PoseidonSpec.fullRound Poseidon.fullRound
    rw [applyMds_eq]
    simp only [hs]
  have hpart : s.partRound = Poseidon.partialRound (Matrix.of s.mds) := by
    funext v c
    unfold PoseidonSpec.partRound Poseidon.partialRound
    rw [applyMds_eq]
    simp only [hs]
  have hrep : ∀ (f : (Fin (t + 1) → F) → (Fin (t + 1) → F) → Fin (t + 1) → F) (n : Nat) (cs : List (Fin (t + 1) → F))
      (v : Fin (t + 1) → F), ((List.replicate n f).zip cs).foldl (fun v r => r.1 v r.2) v = (cs.take n).foldl f v := by
    intro f n
    induction n with
    | zero => intro cs v; simp
    | succ n ih =>
      intro cs v
      cases cs with
      | nil => simp
      | cons a cs => simp [List.replicate_succ, ih]
  have hzip : ∀ (a b : List ((Fin (t + 1) → F) → (Fin (t + 1) → F) → Fin (t + 1) → F)) (cs : List (Fin (t + 1) → F)),
      (a ++ b).zip cs = a.zip cs ++ b.zip (cs.drop a.length) := by
    intro a b
    induction a with
    | nil => intro cs; simp
    | cons x a ih =>
      intro cs
      cases cs with
      | nil => simp
      | cons y cs => simp [ih]
  unfold PoseidonSpec.permute Poseidon.permutation
  rw [hzip, hzip, List.foldl_append, List.foldl_append, hrep, hrep, hrep, hfull, hpart]
  have e : s.fullRounds = s.fullRounds / 2 + s.fullRounds / 2 := by omega
  simp only [List.length_append, List.length_replicate, List.drop_take, List.take_take]
  have e1 : min (s.fullRounds / 2) (s.fullRounds + s.partialRounds) = s.fullRounds / 2 := by omega
  have e2 : min s.partialRounds (s.fullRounds + s.partialRounds - s.fullRounds / 2) = s.partialRounds := by omega
  have e3 : s.fullRounds + s.partialRounds - (s.fullRounds / 2 + s.partialRounds) = s.fullRounds / 2 := by omega
  rw [e1, e2, e3]

/-- **C104 (soundness).** Whatever the prover puts into the cells: if the constraints of the region hold, the cells returned
contain the permutation of what the cells given contain. -/
theorem C104_sound (hc : Pow5.configure cols s = .ok c) (hinv : Matrix.of s.mds * Matrix.of s.mdsInv = 1)
    (region : Nat) (initial out : Pow5.State F t) (calls : Calls F) (h : c.permute region initial = .ok (calls, out))
    (table : Nat → List F) (w : Content F) (hs : Sat c.chip table w region calls) :
    (fun i => w.at (out i).cell) = Poseidon.permutation (Matrix.of s.mds) (s.fullRounds / 2) s.partialRounds
      (s.constants.take (s.fullRounds + s.partialRounds)) fun i => w.at (initial i).cell := by
  obtain ⟨h1, h2, rfl⟩ := configure_ok hc
  have := permute_sound hinv h hs
  rw [this]
  congr 2
  · show 2 * (s.partialRounds / 2) = s.partialRounds
    omega
  · show 2 * (s.fullRounds / 2) + 2 * (s.partialRounds / 2) = s.fullRounds + s.partialRounds
    omega

/-- **C104 (agreement).** With the S-box x^5 the circuit and the function on numbers compute the same. -/
theorem C104_agrees (hc : Pow5.configure cols s = .ok c) (hsb : ∀ x, s.sbox x = x ^ 5)
    (hinv : Matrix.of s.mds * Matrix.of s.mdsInv = 1)
    (region : Nat) (initial out : Pow5.State F t) (calls : Calls F) (h : c.permute region initial = .ok (calls, out))
    (table : Nat → List F) (w : Content F) (hs : Sat c.chip table w region calls) :
    (fun i => w.at (out i).cell) = s.permute fun i => w.at (initial i).cell := by
  rw [C104_sound hc hinv region initial out calls h table w hs, C104_permute s hsb (configure_ok hc).1]

omit [Field F] in
/-- **C104 (the S-box is ignored).** The chip is the same for every S-box: it always takes fifth powers. -/
theorem C104_sbox (cols : Pow5.Columns t) (s : PoseidonSpec F t) (f : F → F) :
    Pow5.configure cols { s with sbox := f } = Pow5.configure cols s := rfl

/-- **C104 (completeness).** A prover who writes what the chip assigns meets the constraints, and the cells returned contain
what they are said to. -/
theorem C104_complete (hc : Pow5.configure cols s = .ok c) (hinv : Matrix.of s.mds * Matrix.of s.mdsInv = 1)
    (hd : SelectorsDiffer cols) (region : Nat) (initial out : Pow5.State F t) (calls : Calls F)
    (h : c.permute region initial = .ok (calls, out)) (table : Nat → List F) (w : Content F)
    (hi : ∀ i, Known w (initial i)) (hf : Follows w region calls) :
    Sat c.chip table w region calls ∧ ∀ i, Known w (out i) := by
  obtain ⟨h1, h2, rfl⟩ := configure_ok hc
  refine permute_complete (mul_eq_one_comm.1 hinv) ?_ h hi hf
  exact hd

/-- **C104 (keys).** What the chip calls depends on the cells it is given, not on their values; and gates read only cells of
the region. -/
theorem C104_keys (hc : Pow5.configure cols s = .ok c) (hd : SelectorsDiffer cols) (region : Nat)
    (initial initial' out : Pow5.State F t) (calls : Calls F) (h : c.permute region initial = .ok (calls, out))
    (hcell : ∀ i, (initial i).cell = (initial' i).cell) :
    (∃ calls' out', c.permute region initial' = .ok (calls', out') ∧ (∀ i, (out i).cell = (out' i).cell) ∧
      List.Forall₂ SameCall calls calls') ∧ Covered c.chip calls := by
  obtain ⟨h1, h2, rfl⟩ := configure_ok hc
  exact ⟨permute_same hcell h, permute_covered hd h⟩

omit [Field F] in
theorem rounds_each {f : Nat → Pow5.State F t → Except Stop (Calls F × Pow5.State F t)} : ∀ (l : List Nat)
    (s : Pow5.State F t) x, Pow5.rounds f l s = .ok x → ∀ r ∈ l, ∃ s x, f r s = .ok x
  | [], _, _, _, r, hr => by cases hr
  | a :: l, s, x, h, r, hr => by
    rw [Pow5.rounds] at h
    obtain ⟨⟨k, s₁⟩, h1, h⟩ := Verif.Lemmas.Gadget.bind_ok h
    obtain ⟨⟨k', s₂⟩, h2, h⟩ := Verif.Lemmas.Gadget.bind_ok h
    rcases List.mem_cons.1 hr with rfl | hr
    · exact ⟨s, _, h1⟩
    · exact rounds_each l s₁ _ h2 r hr

/-- **C104 (when it runs).** It returns whenever there are constants for all rounds, and panics otherwise. -/
theorem C104_runs (hc : Pow5.configure cols s = .ok c) (region : Nat) (initial : Pow5.State F t) :
    (∃ r, c.permute region initial = .ok r) ↔ s.fullRounds + s.partialRounds ≤ s.constants.length := by
  obtain ⟨h1, h2, rfl⟩ := configure_ok hc
  constructor
  · rintro ⟨⟨calls, out⟩, h⟩
    obtain ⟨k₁, k₂, k₃, s₁, s₂, e1, e2, e3, -⟩ := permute_split h
    by_cases hf : s.fullRounds / 2 = 0
    · by_cases hp : s.partialRounds / 2 = 0
      · omega
      · obtain ⟨_, ⟨_, _⟩, h⟩ := rounds_each _ _ _ e2 (s.partialRounds / 2 - 1) (by
          rw [List.mem_range'_1]; show _ ≤ _ ∧ _ < 0 + s.partialRounds / 2; omega)
        obtain ⟨_, _, _, h, _⟩ := partialRound_ok.1 h
        have : _ < s.constants.length := (List.getElem?_eq_some_iff.1 h).1
        simp only at this
        omega
    · obtain ⟨_, ⟨_, _⟩, h⟩ := rounds_each _ _ _ e3 (s.fullRounds / 2 - 1) (by
        rw [List.mem_range'_1]; show _ ≤ _ ∧ _ < 0 + s.fullRounds / 2; omega)
      obtain ⟨_, h, _⟩ := fullRound_ok.1 h
      have : _ < s.constants.length := (List.getElem?_eq_some_iff.1 h).1
      simp only at this
      omega
  · intro h
    refine permute_runs ?_ initial
    show 2 * (s.fullRounds / 2) + 2 * (s.partialRounds / 2) ≤ s.constants.length
    omega

/-! C105. -/

/-- **C105 (the function).** The hash on numbers is the sponge of the paper: for each block of the message it is added and
permuted; the state starts with the length of the message. -/
theorem C105_hash (s : PoseidonSpec F t) (ht : 0 < t) (m : List F) (hm : m ≠ []) :
    s.hash m = .ok (Pow5.hash s.permute m) := prim_hash s ht m hm

/-- **C105 (empty messages).** Both panic. -/
theorem C105_empty (s : PoseidonSpec F t) (c : Pow5 F t) (start : Nat) :
    s.hash [] = .error .panic ∧ c.hash start [] = .error .panic := ⟨prim_hash_nil s, hash_nil start⟩

/-- **C105 (soundness).** Whatever the prover puts into the cells: if the constraints of all regions hold, the cell returned
contains the hash of what the cells of the message contain. -/
theorem C105_sound (hc : Pow5.configure cols s = .ok c) (hsb : ∀ x, s.sbox x = x ^ 5)
    (hinv : Matrix.of s.mds * Matrix.of s.mdsInv = 1) (start : Nat) (m : List (Assigned F)) (regions : List (Calls F))
    (out : Assigned F) (h : c.hash start m = .ok (regions, out)) (table : Nat → List F) (w : Content F)
    (hs : Pow5.SatAll c.chip table w start regions) :
    s.hash (m.map fun a => w.at a.cell) = .ok (w.at out.cell) := by
  obtain ⟨ht, hm, -⟩ := hash_split h
  rw [C105_hash s ht _ (by simpa using hm)]
  congr 1
  have hp : s.permute = perm c := by
    funext v
    rw [C104_permute s hsb (configure_ok hc).1]
    obtain ⟨h1, h2, rfl⟩ := configure_ok hc
    unfold perm
    congr 2
    · show s.partialRounds = 2 * (s.partialRounds / 2)
      omega
    · show s.fullRounds + s.partialRounds = 2 * (s.fullRounds / 2) + 2 * (s.partialRounds / 2)
      omega
  rw [hp]
  obtain ⟨h1, h2, rfl⟩ := configure_ok hc
  exact (hash_sound hinv h hs).symm

/-- **C105 (completeness).** -/
theorem C105_complete (hc : Pow5.configure cols s = .ok c) (hinv : Matrix.of s.mds * Matrix.of s.mdsInv = 1)
    (hd : SelectorsDiffer cols) (start : Nat) (m : List (Assigned F)) (regions : List (Calls F))
    (out : Assigned F) (h : c.hash start m = .ok (regions, out)) (table : Nat → List F) (w : Content F)
    (hm : ∀ a ∈ m, Known w a) (hf : Pow5.FollowsAll w start regions) :
    Pow5.SatAll c.chip table w start regions ∧ Known w out := by
  obtain ⟨h1, h2, rfl⟩ := configure_ok hc
  refine hash_complete (mul_eq_one_comm.1 hinv) ?_ h hm hf
  exact hd

/-- **C105 (keys).** The regions depend on the cells of the message, not on their values; gates read only cells of their
region. -/
theorem C105_keys (hc : Pow5.configure cols s = .ok c) (hd : SelectorsDiffer cols) (start : Nat) (m m' : List (Assigned F))
    (regions : List (Calls F)) (out : Assigned F) (h : c.hash start m = .ok (regions, out))
    (hm : List.Forall₂ (fun a b => a.cell = b.cell) m m') :
    (∃ regions' out', c.hash start m' = .ok (regions', out') ∧ out.cell = out'.cell ∧
      List.Forall₂ (List.Forall₂ SameCall) regions regions') ∧ ∀ k ∈ regions, Covered c.chip k := by
  obtain ⟨h1, h2, rfl⟩ := configure_ok hc
  obtain ⟨r, o, e1, e2, e3⟩ := hash_same h hm
  refine ⟨⟨r, o, e1, e3, e2⟩, hash_covered ?_ h⟩
  exact hd

/-- **C105 (when it runs).** With constants for all rounds and a rate of at least 1, every message that is not empty is
hashed. -/
theorem C105_runs (hc : Pow5.configure cols s = .ok c) (hl : s.fullRounds + s.partialRounds ≤ s.constants.length) (ht : 0 < t)
    (start : Nat) (m : List (Assigned F)) : (∃ r, c.hash start m = .ok r) ↔ m ≠ [] := by
  obtain ⟨h1, h2, rfl⟩ := configure_ok hc
  constructor
  · rintro ⟨r, h⟩
    exact (hash_split h).2.1
  · intro hm
    refine hash_runs ?_ ht start m hm
    show 2 * (s.fullRounds / 2) + 2 * (s.partialRounds / 2) ≤ s.constants.length
    omega

/-- **C104 (inverse).** Matrices that are generated from different numbers are MDS and come with their inverse. -/
theorem C104_inverse {n : Nat} [DecidableEq F] (xs ys : Fin n → F) (hx : Function.Injective xs)
    (hy : Function.Injective ys) (h0 : ∀ i j, xs i + ys j ≠ 0) : ∃ m m', mdsOf xs ys = .ok (m, m') ∧
      (∀ i j, m i j * (xs i + ys j) = 1) ∧ Poseidon.MDS (Matrix.of m) ∧
      Matrix.of m * Matrix.of m' = 1 ∧ Matrix.of m' * Matrix.of m = 1 := by
  have hm : ∃ m', mdsOf xs ys = .ok (fun i j => (xs i + ys j)⁻¹, m') := by
    unfold mdsOf assert
    rw [if_pos (by simpa using h0)]
    exact ⟨_, rfl⟩
  obtain ⟨m', hm⟩ := hm
  refine ⟨_, m', hm, fun i j => inv_mul_cancel₀ (h0 i j), ?_, mdsOf_inverse hx hy hm⟩
  intro k f g hf hg
  exact Pos.cauchy_det (fun i => xs (f i)) (fun i => ys (g i)) (hx.comp hf) (hy.comp hg) fun i j => h0 (f i) (g j)

end

/-- **C104, C105 (Pasta).** The parameters of `P128Pow5T3` meet all that the theorems ask for. -/
theorem C104_pallas : pallasSpec.fullRounds % 2 = 0 ∧ pallasSpec.partialRounds % 2 = 0 ∧ (∀ x, pallasSpec.sbox x = x ^ 5) ∧
    pallasSpec.constants.length = pallasSpec.fullRounds + pallasSpec.partialRounds ∧
    Matrix.of pallasSpec.mds * Matrix.of pallasSpec.mdsInv = 1 :=
  ⟨rfl, rfl, fun _ => rfl, rfl, by decide +kernel⟩

theorem C104_vesta : vestaSpec.fullRounds % 2 = 0 ∧ vestaSpec.partialRounds % 2 = 0 ∧ (∀ x, vestaSpec.sbox x = x ^ 5) ∧
    vestaSpec.constants.length = vestaSpec.fullRounds + vestaSpec.partialRounds ∧
    Matrix.of vestaSpec.mds * Matrix.of vestaSpec.mdsInv = 1 :=
  ⟨rfl, rfl, fun _ => rfl, rfl, by decide +kernel⟩

/-- **C105 (Pallas).** With `P128Pow5T3`, every message of at least one cell is hashed in the circuit, and its hash is that of
the function on numbers. -/
theorem C105_pallas (cols : Pow5.Columns 2) (start : Nat) (m : List (Assigned (ZMod pallasBase))) (hm : m ≠ []) :
    ∃ c regions out, Pow5.configure cols pallasSpec = .ok c ∧ c.hash start m = .ok (regions, out) ∧
      ∀ (table : Nat → List (ZMod pallasBase)) (w : Content (ZMod pallasBase)),
        Pow5.SatAll c.chip table w start regions → pallasSpec.hash (m.map fun a => w.at a.cell) = .ok (w.at out.cell) := by
  obtain ⟨h1, h2, h3, h4, h5⟩ := C104_pallas
  obtain ⟨c, hc⟩ := (C104_configure cols pallasSpec).2 ⟨h1, h2⟩
  obtain ⟨⟨regions, out⟩, hr⟩ := (C105_runs hc h4.ge (by norm_num) start m).2 hm
  exact ⟨c, regions, out, hc, hr, fun table w hs => C105_sound hc h3 h5 start m regions out hr table w hs⟩

/-! Examples. -/

/-- What the calls of regions write; where nothing is written there is 0. -/
def written (regions : List (Calls (ZMod 7))) (others : Content (ZMod 7)) : Content (ZMod 7) := fun r col row =>
  match regions[r]? with
  | none => others r col row
  | some calls => (calls.findSome? fun x => match x with
    | .advice c o v => if col = .advice c ∧ row = o then v else none
    | .constant c o v => if col = .advice c ∧ row = o then v else none
    | .fixed c o v => if col = .fixed c ∧ row = o then v else none
    | _ => none).getD 0

/-- A small instance: two full and two partial rounds over the field of 7 elements, width 2. -/
def smallSpec : PoseidonSpec (ZMod 7) 1 :=
  ⟨2, 2, (· ^ 5), [![1, 2], ![3, 4], ![5, 6], ![0, 1]], ![![2, 1], ![1, 1]], ![![1, -1], ![-1, 2]]⟩

def smallColumns : Pow5.Columns 1 := ⟨![0, 1], 2, ![0, 1], ![2, 3], ⟨0, false⟩, ⟨1, false⟩, ⟨2, false⟩⟩

instance : Fact (Nat.Prime 7) := ⟨by norm_num⟩

/-- The chip of the small instance. -/
def smallChip : Pow5 (ZMod 7) 1 := ⟨![0, 1], 2, ![0, 1], ![2, 3], ⟨0, false⟩, ⟨1, false⟩, ⟨2, false⟩, 1, 1,
  smallSpec.constants, smallSpec.mds, smallSpec.mdsInv⟩

/-- What `Follows` asks for, to be computed. -/
def followsB (w : Content (ZMod 7)) (region : Nat) (calls : Calls (ZMod 7)) : Bool := calls.all fun x => match x with
  | .advice c o v => v == some (w region (.advice c) o)
  | .constant c o v => v == some (w region (.advice c) o)
  | .fixed c o v => v == some (w region (.fixed c) o)
  | _ => true

theorem follows_of {w : Content (ZMod 7)} {region : Nat} {calls : Calls (ZMod 7)} (h : followsB w region calls = true) :
    Follows w region calls := by
  unfold followsB at h
  rw [List.all_eq_true] at h
  exact ⟨fun c o v hx => by simpa using h _ hx, fun c o v hx => by simpa using h _ hx, fun c o v hx => by simpa using h _ hx⟩

/-- The cells of a message of two words. -/
def smallMessage : List (Assigned (ZMod 7)) := [⟨⟨100, 0, .advice 0⟩, some 3⟩, ⟨⟨100, 1, .advice 0⟩, some 5⟩]

/-- A message of two blocks is hashed in the small instance: what the theorems ask for is met, the constraints hold for what
an honest prover writes, and the cell returned contains the hash. -/
example : ∃ c regions out w, Pow5.configure smallColumns smallSpec = .ok c ∧ c.hash 0 smallMessage = .ok (regions, out) ∧
    regions.length = 5 ∧ (∀ a ∈ smallMessage, Known w a) ∧ Pow5.SatAll c.chip (fun _ => []) w 0 regions ∧
    smallSpec.hash [3, 5] = .ok (w.at out.cell) := by
  have hc : Pow5.configure smallColumns smallSpec = .ok smallChip := rfl
  have hinv : Matrix.of smallSpec.mds * Matrix.of smallSpec.mdsInv = 1 := by decide +kernel
  have hd : SelectorsDiffer smallColumns := by unfold SelectorsDiffer; decide
  obtain ⟨⟨regions, out⟩, hr⟩ := (C105_runs hc (by decide) (by norm_num) 0 smallMessage).2 (by simp [smallMessage])
  let w := written regions fun _ _ row => if row = 0 then 3 else 5
  have hall : (match smallChip.hash 0 smallMessage with
      | .ok r => decide (r.1.length = 5) && (List.range 5).all (fun i =>
        followsB (written r.1 fun _ _ row => if row = 0 then 3 else 5) i (r.1.getD i []))
      | .error _ => false) = true := by decide +kernel
  rw [hr] at hall
  simp only [Bool.and_eq_true, decide_eq_true_eq] at hall
  obtain ⟨hlen, hf⟩ := hall
  have hk : ∀ a ∈ smallMessage, Known w a := by
    intro a ha
    have : ¬ 100 < regions.length := by omega
    simp only [smallMessage, List.mem_cons, List.not_mem_nil, or_false] at ha
    rcases ha with rfl | rfl <;> simp [Known, Content.at, w, written, this]
  have hs := C105_complete hc hinv hd 0 smallMessage regions out hr (fun _ => []) w hk (fun i hi => by
    rw [List.all_eq_true] at hf
    have := hf i (List.mem_range.2 (by omega))
    simp only [List.getD_eq_getElem?_getD, List.getElem?_eq_getElem hi, Option.getD_some] at this
    have h2 := follows_of this
    rwa [Nat.zero_add])
  refine ⟨smallChip, regions, out, w, hc, hr, hlen, hk, hs.1, ?_⟩
  have := C105_sound hc (fun _ => rfl) hinv 0 smallMessage regions out hr (fun _ => []) w hs.1
  rw [← this]
  congr 1
  have h1 := hk _ (List.mem_cons_self ..)
  have h2 := hk _ (List.mem_cons_of_mem _ (List.mem_cons_self ..))
  simp only [Known, Option.some.injEq] at h1 h2
  simp only [smallMessage, List.map_cons, List.map_nil, ← h1, ← h2]

/-- Different numbers whose sums are not 0. -/
example : Function.Injective (![1, 2] : Fin 2 → ZMod 7) ∧ Function.Injective (![3, 4] : Fin 2 → ZMod 7) ∧
    ∀ i j, (![1, 2] : Fin 2 → ZMod 7) i + (![3, 4] : Fin 2 → ZMod 7) j ≠ 0 := by decide

end Verif.Props

#print axioms Verif.Props.C104_configure
#print axioms Verif.Props.C104_permute
#print axioms Verif.Props.C104_sound
#print axioms Verif.Props.C104_agrees
#print axioms Verif.Props.C104_sbox
#print axioms Verif.Props.C104_complete
#print axioms Verif.Props.C104_keys
#print axioms Verif.Props.C104_runs
#print axioms Verif.Props.C104_inverse
#print axioms Verif.Props.C104_pallas
#print axioms Verif.Props.C104_vesta
#print axioms Verif.Props.C105_hash
#print axioms Verif.Props.C105_empty
#print axioms Verif.Props.C105_sound
#print axioms Verif.Props.C105_complete
#print axioms Verif.Props.C105_keys
#print axioms Verif.Props.C105_runs
#print axioms Verif.Props.C105_pallas

import Verif.Lemmas.StepLemmas
import Verif.Lemmas.InterpLemmas
import Verif.Props.Run

/-! One step of an honest run satisfies the row rules (helper for the property theorems). -/

namespace Verif

open BF Spec

/-- The opcode byte of a command. -/
def opOf (c : Cmd) : UInt8 := UInt8.ofNat (byteOf c)

theorem opOf_mem (c : Cmd) : opOf c ∈ OPCODES := by cases c <;> decide

theorem opOf_fr (c : Cmd) : ((byteOf c : Nat) : Fr) = frOfByte (opOf c) := by
  cases c <;> rfl

/-- What a step of the word machine does to the observable registers. -/
structure StepRow (code : List Nat) (op : UInt8) (a b : W) : Prop where
  ip : (b.ip : Fr) = nextIp op ⟨0, a.ip, 0, a.ni code, 0, a.mv⟩
  mp : (b.mp : Fr) = nextMp op ⟨0, 0, 0, 0, a.mp, 0⟩
  add : op = 43 → (b.mv : Fr) = a.mv + 1 ∨ (b.mv : Fr) = a.mv - 255
  sub : op = 45 → (b.mv : Fr) = a.mv - 1 ∨ (b.mv : Fr) = a.mv + 255
  keep : op = 46 ∨ op = 91 ∨ op = 93 → (b.mv : Fr) = a.mv
  put : op = 46 → b.out = a.out ++ [a.mv]
  noPut : op ≠ 46 → b.out = a.out
  get : op = 44 → b.read = a.read ++ [b.mv]
  noGet : op ≠ 44 → b.read = a.read

theorem mv_set {mem : List Nat} {i v : Nat} (h : i < mem.length) : (mem.set i v).getD i 0 = v := by
  rw [BFSim.getD_set h, if_pos rfl]

theorem step_row {code : List Nat} {a b : W} (c : Cmd) (hci : a.ci code = byteOf c)
    (hi : W.Inv code 8 a) (hs : W.step code 8 a = .ok b) : StepRow code (opOf c) a b := by
  have hmp := hi.mp
  have hmvlt : a.mv < 256 := W.mv_lt hi
  have hP : (1000 : Nat) < P := by decide +kernel
  have hmv0 : ((a.mv : Fr) = 0) ↔ a.mv = 0 := by
    have := Fr.cast_inj (a := a.mv) (b := 0) (by omega) (by omega)
    rwa [Nat.cast_zero] at this
  have hni : ∀ t, code[a.ip + 1]? = some t → a.ni code = t := by
    intro t ht; unfold W.ni; rw [List.getD_eq_getElem?_getD, ht]; rfl
  unfold W.step at hs
  simp only [hci] at hs
  cases c
  · -- left
    simp only [byteOf] at hs
    by_cases h0 : a.mp = 0
    · simp [h0] at hs
    · simp [h0] at hs
      subst hs
      exact
      { ip := by simp [nextIp, opOf, byteOf]
        mp := by
          simp [nextMp, opOf, byteOf]
          rw [Nat.cast_sub (by omega)]; simp
        add := by intro h; exact absurd h (by decide)
        sub := by intro h; exact absurd h (by decide)
        keep := by intro h; exact absurd h (by decide)
        put := by intro h; exact absurd h (by decide)
        noPut := fun _ => rfl
        get := by intro h; exact absurd h (by decide)
        noGet := fun _ => rfl }
  · -- right
    simp [byteOf] at hs
    subst hs
    exact
    { ip := by simp [nextIp, opOf, byteOf]
      mp := by simp [nextMp, opOf, byteOf]
      add := by intro h; exact absurd h (by decide)
      sub := by intro h; exact absurd h (by decide)
      keep := by intro h; exact absurd h (by decide)
      put := by intro h; exact absurd h (by decide)
      noPut := fun _ => rfl
      get := by intro h; exact absurd h (by decide)
      noGet := fun _ => rfl }
  · -- inc
    simp [byteOf] at hs
    subst hs
    exact
    { ip := by simp [nextIp, opOf, byteOf]
      mp := by simp [nextMp, opOf, byteOf]
      add := by
        intro _
        have e : ∀ w : W, w.mv = w.mem.getD w.mp 0 := fun _ => rfl
        rw [e]
        simp only
        rw [mv_set hmp]
        by_cases hv : a.mv = 255
        · right; rw [if_pos hv, hv]; norm_num
        · left; rw [if_neg hv]; simp
      sub := by intro h; exact absurd h (by decide)
      keep := by intro h; exact absurd h (by decide)
      put := by intro h; exact absurd h (by decide)
      noPut := fun _ => rfl
      get := by intro h; exact absurd h (by decide)
      noGet := fun _ => rfl }
  · -- dec
    simp [byteOf] at hs
    subst hs
    exact
    { ip := by simp [nextIp, opOf, byteOf]
      mp := by simp [nextMp, opOf, byteOf]
      sub := by
        intro _
        have e : ∀ w : W, w.mv = w.mem.getD w.mp 0 := fun _ => rfl
        rw [e]
        simp only
        rw [mv_set hmp]
        by_cases hv : a.mv = 0
        · right; rw [if_pos hv, hv]; norm_num
        · left; rw [if_neg hv, Nat.cast_sub (by omega)]; simp
      add := by intro h; exact absurd h (by decide)
      keep := by intro h; exact absurd h (by decide)
      put := by intro h; exact absurd h (by decide)
      noPut := fun _ => rfl
      get := by intro h; exact absurd h (by decide)
      noGet := fun _ => rfl }
  · -- get
    simp only [byteOf] at hs
    cases hin : a.inp with
    | nil => simp [hin] at hs
    | cons v rest =>
      simp [hin] at hs
      subst hs
      exact
      { ip := by simp [nextIp, opOf, byteOf]
        mp := by simp [nextMp, opOf, byteOf]
        sub := by intro h; exact absurd h (by decide)
        add := by intro h; exact absurd h (by decide)
        keep := by intro h; exact absurd h (by decide)
        put := by intro h; exact absurd h (by decide)
        noPut := fun _ => rfl
        get := by
          intro _
          have e : ∀ w : W, w.mv = w.mem.getD w.mp 0 := fun _ => rfl
          rw [e]
          simp only
          rw [mv_set hmp]
        noGet := by intro h; exact absurd rfl h }
  · -- put
    simp [byteOf] at hs
    subst hs
    exact
    { ip := by simp [nextIp, opOf, byteOf]
      mp := by simp [nextMp, opOf, byteOf]
      sub := by intro h; exact absurd h (by decide)
      add := by intro h; exact absurd h (by decide)
      keep := fun _ => rfl
      put := fun _ => rfl
      noPut := by intro h; exact absurd rfl h
      get := by intro h; exact absurd h (by decide)
      noGet := fun _ => rfl }
  · -- open
    have hb : b.mp = a.mp ∧ b.mem = a.mem ∧ b.out = a.out ∧ b.read = a.read ∧
        b.ip = (if a.mv = 0 then a.ni code else a.ip + 2) := by
      simp only [byteOf] at hs
      by_cases hz : a.mv = 0
      · cases ht : code[a.ip + 1]? with
        | none => simp [hz, ht] at hs
        | some t =>
          simp [hz, ht] at hs
          subst hs
          exact ⟨rfl, rfl, rfl, rfl, by simp [hz, hni t ht]⟩
      · simp [hz] at hs
        subst hs
        exact ⟨rfl, rfl, rfl, rfl, by simp [hz]⟩
    obtain ⟨b1, b2, b3, b4, b5⟩ := hb
    exact
    { ip := by
        simp only [nextIp, opOf, byteOf]
        rw [if_pos (by decide), b5]
        by_cases hz : a.mv = 0
        · rw [if_pos hz, if_pos (hmv0.2 hz)]
        · rw [if_neg hz, if_neg (fun e => hz (hmv0.1 e))]; simp
      mp := by rw [b1]; simp [nextMp, opOf, byteOf]
      sub := by intro h; exact absurd h (by decide)
      add := by intro h; exact absurd h (by decide)
      keep := by intro _; unfold W.mv; rw [b1, b2]
      put := by intro h; exact absurd h (by decide)
      noPut := fun _ => b3
      get := by intro h; exact absurd h (by decide)
      noGet := fun _ => b4 }
  · -- close
    have hb : b.mp = a.mp ∧ b.mem = a.mem ∧ b.out = a.out ∧ b.read = a.read ∧
        b.ip = (if a.mv = 0 then a.ip + 2 else a.ni code) := by
      simp only [byteOf] at hs
      by_cases hz : a.mv = 0
      · simp [hz] at hs
        subst hs
        exact ⟨rfl, rfl, rfl, rfl, by simp [hz]⟩
      · cases ht : code[a.ip + 1]? with
        | none => simp [hz, ht] at hs
        | some t =>
          simp [hz, ht] at hs
          subst hs
          exact ⟨rfl, rfl, rfl, rfl, by simp [hz, hni t ht]⟩
    obtain ⟨b1, b2, b3, b4, b5⟩ := hb
    exact
    { ip := by
        simp only [nextIp, opOf, byteOf]
        rw [if_neg (by decide), if_pos (by decide), b5]
        by_cases hz : a.mv = 0
        · rw [if_pos hz, if_pos (hmv0.2 hz)]; simp
        · rw [if_neg hz, if_neg (fun e => hz (hmv0.1 e))]
      mp := by rw [b1]; simp [nextMp, opOf, byteOf]
      sub := by intro h; exact absurd h (by decide)
      add := by intro h; exact absurd h (by decide)
      keep := by intro _; unfold W.mv; rw [b1, b2]
      put := by intro h; exact absurd h (by decide)
      noPut := fun _ => b3
      get := by intro h; exact absurd h (by decide)
      noGet := fun _ => b4 }

/-- Every state of a trace simulates a Brainfuck state. -/
theorem trace_rel {p : List Cmd} {code inp : List Nat} {bits : Nat} {ws : List W}
    (h : W.Trace code bits inp ws) (hc : CompiledTo p code) (hk : W.CodeOk code) (hb : Balanced p)
    (hi : ∀ v ∈ inp, v < 2 ^ bits) {i : Nat} {a : W} (ha : ws[i]? = some a) :
    ∃ t, Steps p bits i (BF.init inp) t ∧ BFSim.Rel p t a := by
  refine h.induct (Q := fun i a => ∃ t, Steps p bits i (BF.init inp) t ∧ BFSim.Rel p t a)
    ⟨_, .zero _, BFSim.rel_init p inp⟩ ?_ i a ha
  rintro i a b ⟨t, hst, ht⟩ ha - hh hs
  have hpc : t.pc < p.length := by
    by_contra hcon
    have := (BFSim.halted_iff hc ht).2 (by unfold Halted; omega)
    rw [hh] at this
    cases this
  obtain ⟨r, hr⟩ := BFSim.progress bits hb t hpc
  have := BFSim.step_sim hc ht (h.inv hk hi ha) hr
  cases r with
  | ok t' =>
    obtain ⟨w', h1, h2⟩ := this
    rw [hs] at h1
    cases h1
    exact ⟨t', .succ hst hr, h2⟩
  | error e =>
    cases e with
    | leftOfStart => simp only at this; rw [hs] at this; cases this
    | endOfInput => simp only at this; rw [hs] at this; cases this

/-- In a running state the current word is a command. -/
theorem trace_ci {p : List Cmd} {code inp : List Nat} {bits : Nat} {ws : List W}
    (h : W.Trace code bits inp ws) (hc : CompiledTo p code) (hk : W.CodeOk code) (hb : Balanced p)
    (hi : ∀ v ∈ inp, v < 2 ^ bits) {i : Nat} {a b : W} (ha : ws[i]? = some a)
    (hb' : ws[i + 1]? = some b) : ∃ c, a.ci code = byteOf c := by
  obtain ⟨t, -, ht⟩ := trace_rel h hc hk hb hi ha
  obtain ⟨hh, -⟩ := h.next i a b ha hb'
  have hpc : t.pc < p.length := by
    by_contra hcon
    have := (BFSim.halted_iff hc ht).2 (by unfold Halted; omega)
    rw [hh] at this
    cases this
  refine ⟨p[t.pc], ?_⟩
  unfold W.ci
  rw [ht.ip, List.getD_eq_getElem?_getD, hc.opcode _ _ (List.getElem?_eq_getElem hpc)]
  rfl

end Verif

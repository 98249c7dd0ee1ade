import Verif.Model.ProverTranscript
import Verif.Spec.Transcript
import Verif.Lemmas.BytesLemmas

/-! What the prover writes is what the verifier reads. -/

namespace Verif.Transcript

open Plonk Spec PlonkProver

variable {G : Type}

theorem bind_ok {ε α β : Type} {x : Except ε α} {f : α → Except ε β} {b : β} :
    (x >>= f) = .ok b ↔ ∃ a, x = .ok a ∧ f a = .ok b := by
  cases x with
  | error e => simp [bind, Except.bind]
  | ok a => simp [bind, Except.bind]

theorem total_eq {α : Type} {x : Except Panic α} {a : α} : PlonkProver.total x = .ok a ↔ x = .ok a := by
  cases x <;> simp [PlonkProver.total]

theorem orErr_eq {α : Type} {e : ProveErr} {x : Option α} {a : α} :
    PlonkProver.orErr e x = .ok a ↔ x = some a := by
  cases x <;> simp [PlonkProver.orErr]

theorem scalarBytes_length (x : Fr) : (scalarBytes x).length = 32 := leBytes_length _ _

theorem scalar_lt (x : Fr) : x.val < 256 ^ 32 := by
  have h1 : x.val < P := ZMod.val_lt x
  have h2 : P < 256 ^ 32 := by decide +kernel
  omega

/-- What is read is what was written: the values, and the state of the transcript. -/
def Reads {α : Type} (w w' : Writer) (read : Reader → Except Verify.Stop (α × Reader)) (a : α) : Prop :=
  ∃ b, w'.output = w.output ++ b ∧ ∀ rest, read ⟨w.absorbed, b ++ rest⟩ = .ok (a, ⟨w'.absorbed, rest⟩)

theorem reads_nil {α : Type} (w : Writer) (a : α) : Reads w w (fun t => .ok (a, t)) a :=
  ⟨[], by simp, fun rest => rfl⟩

theorem Reads.bind {α β : Type} {w w' w'' : Writer} {r : Reader → Except Verify.Stop (α × Reader)} {a : α}
    {k : α → Reader → Except Verify.Stop (β × Reader)} {b : β} (h1 : Reads w w' r a) (h2 : Reads w' w'' (k a) b) :
    Reads w w'' (fun t => r t >>= fun x => k x.1 x.2) b := by
  obtain ⟨b1, e1, r1⟩ := h1
  obtain ⟨b2, e2, r2⟩ := h2
  refine ⟨b1 ++ b2, by rw [e2, e1, List.append_assoc], fun rest => ?_⟩
  beta_reduce
  rw [List.append_assoc, r1]
  exact r2 rest

theorem Reads.map {α β : Type} {w w' : Writer} {r : Reader → Except Verify.Stop (α × Reader)} {a : α} (f : α → β)
    (h : Reads w w' r a) : Reads w w' (fun t => r t >>= fun x => .ok (f x.1, x.2)) (f a) :=
  h.bind (k := fun a t => .ok (f a, t)) (reads_nil w' (f a))

/-- Drawing a challenge keeps reader and writer together. -/
theorem Reads.squeeze {α : Type} {w w' : Writer} {hash : Hash} {k : Fr → Reader → Except Verify.Stop (α × Reader)} {a : α}
    (h : Reads (PlonkProver.draw hash w).2 w' (k (PlonkProver.draw hash w).1) a) :
    Reads w w' (fun t => k (Verify.draw hash t).1 (Verify.draw hash t).2) a := by
  obtain ⟨b, e, r⟩ := h
  exact ⟨b, e, r⟩

variable [Zero G] {codec : Codec G}

omit [Zero G] in
theorem writePoint_eq {w w' : Writer} {p : G} (h : writePoint codec w p = some w') :
    ∃ x y, codec.coords p = some (x, y) ∧ w' = ⟨w.absorbed ++ 1 :: (x ++ y), w.output ++ codec.toBytes p⟩ := by
  unfold writePoint commonPoint at h
  cases hc : codec.coords p with
  | none => rw [hc] at h; simp at h
  | some c =>
    obtain ⟨x, y⟩ := c
    rw [hc] at h
    simp at h
    exact ⟨x, y, rfl, h.symm⟩

theorem read_point (hl : Lawful codec) (err : Verify.Err) {w w' : Writer} {p : G} (h : writePoint codec w p = some w') :
    Reads w w' (fun t => Verify.orErr err (readPoint codec t)) p := by
  obtain ⟨x, y, hc, rfl⟩ := writePoint_eq h
  refine ⟨codec.toBytes p, rfl, fun rest => ?_⟩
  simp only [readPoint, readExact_append (hl.length p), hl.decode p, commonPoint, hc, bind, Option.bind]
  rfl

theorem read_scalar (w : Writer) (x : Fr) :
    Reads w (writeScalar w x) (fun t => Verify.orErr .io (readScalar t)) x := by
  refine ⟨scalarBytes x, rfl, fun rest => ?_⟩
  have h1 : leNat (scalarBytes x) = x.val := leNat_leBytes 32 x.val (scalar_lt x)
  simp only [readScalar, readExact_append (scalarBytes_length x), bind, Option.bind]
  rw [if_pos (by rw [h1]; exact ZMod.val_lt x)]
  simp [h1, writeScalar, Verify.orErr]

omit [Zero G] in
theorem write_commitment {err : ProveErr} {c : Except Panic G} {w w' : Writer}
    (h : writeCommitment codec err c w = .ok w') : ∃ p, c = .ok p ∧ writePoint codec w p = some w' := by
  unfold writeCommitment at h
  obtain ⟨p, h1, h2⟩ := bind_ok.1 h
  exact ⟨p, total_eq.1 h1, orErr_eq.1 h2⟩

theorem read_points (hl : Lawful codec) {α : Type} {commit : α → Except Panic G} : ∀ {ps : List α} {w w' : Writer},
    writeAll codec commit ps w = .ok w' → ∃ cs, ps.mapM commit = .ok cs ∧
      Reads w w' (Verify.readPoints codec ps.length) cs := by
  intro ps
  induction ps with
  | nil =>
    intro w w' h
    obtain rfl := Except.ok.inj h
    exact ⟨[], rfl, reads_nil w []⟩
  | cons p ps ih =>
    intro w w' h
    unfold writeAll at h
    obtain ⟨w1, h1, h2⟩ := bind_ok.1 h
    obtain ⟨c, hc, h3⟩ := write_commitment h1
    obtain ⟨cs, hcs, h4⟩ := ih h2
    refine ⟨c :: cs, ?_, ?_⟩
    · rw [List.mapM_cons, hc, hcs]; rfl
    · exact (read_point hl .io h3).bind (k := fun c t => Verify.readPoints codec ps.length t >>=
        fun x => .ok (c :: x.1, x.2)) (h4.map _)

theorem read_scalars : ∀ (xs : List Fr) (w : Writer),
    Reads w (xs.foldl writeScalar w) (Verify.readScalars xs.length) xs := by
  intro xs
  induction xs with
  | nil => intro w; exact reads_nil w []
  | cons x xs ih =>
    intro w
    exact (read_scalar w x).bind (k := fun c t => Verify.readScalars xs.length t >>=
        fun y => .ok (c :: y.1, y.2)) ((ih _).map _)

theorem read_pairs (hl : Lawful codec) {commit : List Fr → Except Panic G} : ∀ {ps : List Permuted} {w w' : Writer},
    writeAll codec commit (ps.flatMap fun p => [p.permutedInput, p.permutedTable]) w = .ok w' →
      ∃ cs, (ps.mapM fun p => do return ((← commit p.permutedInput), (← commit p.permutedTable))) = .ok cs ∧
        Reads w w' (Verify.readPairs codec ps.length) cs := by
  intro ps
  induction ps with
  | nil =>
    intro w w' h
    obtain rfl := Except.ok.inj h
    exact ⟨[], rfl, reads_nil w []⟩
  | cons p ps ih =>
    intro w w' h
    rw [List.flatMap_cons] at h
    simp only [List.cons_append, List.nil_append] at h
    unfold writeAll at h
    obtain ⟨w1, h1, h2⟩ := bind_ok.1 h
    unfold writeAll at h2
    obtain ⟨w2, h3, h4⟩ := bind_ok.1 h2
    obtain ⟨a, ha, h1⟩ := write_commitment h1
    obtain ⟨s, hs, h3⟩ := write_commitment h3
    obtain ⟨cs, hcs, h5⟩ := ih h4
    refine ⟨(a, s) :: cs, ?_, ?_⟩
    · rw [List.mapM_cons, ha, hs, hcs]; rfl
    · exact (read_point hl .io h1).bind (k := fun a t => Verify.orErr .io (readPoint codec t) >>= fun s =>
        Verify.readPairs codec ps.length s.2 >>= fun x => .ok ((a, s.1) :: x.1, x.2))
        ((read_point hl .io h3).bind (k := fun s t => Verify.readPairs codec ps.length t >>= fun x => .ok ((a, s) :: x.1, x.2))
          (h5.map _))

theorem read_lookups : ∀ (ls : List LookupEval) (w : Writer),
    Reads w ((ls.flatMap fun l => [l.product, l.next, l.input, l.inputInv, l.table]).foldl writeScalar w)
      (Verify.readLookups ls.length) ls := by
  intro ls
  induction ls with
  | nil => intro w; exact reads_nil w []
  | cons l ls ih =>
    intro w
    rw [List.flatMap_cons, List.foldl_append]
    exact (read_scalar w l.product).bind (k := fun a t => Verify.orErr .io (readScalar t) >>= fun b =>
        Verify.orErr .io (readScalar b.2) >>= fun c => Verify.orErr .io (readScalar c.2) >>= fun d =>
        Verify.orErr .io (readScalar d.2) >>= fun e => Verify.readLookups ls.length e.2 >>= fun x =>
        .ok (⟨a, b.1, c.1, d.1, e.1⟩ :: x.1, x.2))
      ((read_scalar _ l.next).bind (k := fun b t => Verify.orErr .io (readScalar t) >>= fun c =>
        Verify.orErr .io (readScalar c.2) >>= fun d =>
        Verify.orErr .io (readScalar d.2) >>= fun e => Verify.readLookups ls.length e.2 >>= fun x =>
        .ok (⟨l.product, b, c.1, d.1, e.1⟩ :: x.1, x.2))
      ((read_scalar _ l.input).bind (k := fun c t => Verify.orErr .io (readScalar t) >>= fun d =>
        Verify.orErr .io (readScalar d.2) >>= fun e => Verify.readLookups ls.length e.2 >>= fun x =>
        .ok (⟨l.product, l.next, c, d.1, e.1⟩ :: x.1, x.2))
      ((read_scalar _ l.inputInv).bind (k := fun d t => Verify.orErr .io (readScalar t) >>= fun e =>
        Verify.readLookups ls.length e.2 >>= fun x =>
        .ok (⟨l.product, l.next, l.input, d, e.1⟩ :: x.1, x.2))
      ((read_scalar _ l.table).bind (k := fun e t => Verify.readLookups ls.length t >>= fun x =>
        .ok (⟨l.product, l.next, l.input, l.inputInv, e⟩ :: x.1, x.2)) ((ih _).map _)))))

theorem read_sets : ∀ (ss : List SetEval) (w : Writer),
    (∀ (i : Nat) (h : i < ss.length), ss[i].last.isSome = true ↔ i + 1 < ss.length) →
    Reads w ((ss.flatMap fun s => [s.product, s.next] ++ s.last.toList).foldl writeScalar w)
      (Verify.readSets ss.length) ss := by
  intro ss
  induction ss with
  | nil => intro w _; exact reads_nil w []
  | cons s ss ih =>
    intro w hlast
    rw [List.flatMap_cons, List.foldl_append, List.foldl_append]
    have ih := ih (w := s.last.toList.foldl writeScalar ([s.product, s.next].foldl writeScalar w)) (fun i h => by
      have := hlast (i + 1) (by simpa using h)
      simpa using this)
    have h0 := hlast 0 (by simp)
    simp only [List.getElem_cons_zero, List.length_cons] at h0
    obtain ⟨p, q, l⟩ := s
    have hl : Reads ([p, q].foldl writeScalar w) (l.toList.foldl writeScalar ([p, q].foldl writeScalar w))
        (Verify.readLast ss.length) l := by
      unfold Verify.readLast
      cases l with
      | none =>
        have : ¬ 0 < ss.length := by simpa using h0
        simp only [if_neg this]
        exact reads_nil _ _
      | some v =>
        have : 0 < ss.length := by simpa using h0
        simp only [if_pos this]
        exact (read_scalar _ v).map some
    exact (read_scalar w p).bind (k := fun a t => Verify.orErr .io (readScalar t) >>= fun b =>
        Verify.readLast ss.length b.2 >>= fun c => Verify.readSets ss.length c.2 >>= fun x =>
        .ok (SetEval.mk a b.1 c.1 :: x.1, x.2))
      ((read_scalar (writeScalar w p) q).bind (k := fun b t =>
        Verify.readLast ss.length t >>= fun c => Verify.readSets ss.length c.2 >>= fun x =>
        .ok (SetEval.mk p b c.1 :: x.1, x.2))
      (hl.bind (k := fun c t => Verify.readSets ss.length t >>= fun x => .ok (SetEval.mk p q c :: x.1, x.2)) (ih.map _)))

end Verif.Transcript

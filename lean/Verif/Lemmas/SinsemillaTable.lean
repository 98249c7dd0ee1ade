import Verif.Model.SinsemillaTable
import Verif.Spec.Sinsemilla
import Verif.Lemmas.EccPallas

/-! The generators of the Sinsemilla hash are points, and no two of them are the same up to sign. -/

namespace Verif.Lemmas.Sinsemilla

open Verif.Gadget Verif.Spec.Gadget Verif.Spec Verif.Spec.Ecc Verif.Spec.Sinsemilla Verif.Lemmas.Ecc

/-- No number of the list is twice in it or has its bit set in `seen`. -/
def apart : Nat → List Nat → Bool
  | _, [] => true
  | seen, r :: rs => !seen.testBit r && apart (seen ||| 1 <<< r) rs

theorem apart_nodup : ∀ (l : List Nat) (seen : Nat), apart seen l = true → l.Nodup ∧ ∀ r ∈ l, seen.testBit r = false
  | [], _, _ => ⟨List.nodup_nil, by simp⟩
  | r :: rs, seen, h => by
    simp only [apart, Bool.and_eq_true, Bool.not_eq_true'] at h
    obtain ⟨h1, h2⟩ := apart_nodup rs _ h.2
    have h3 : ∀ s ∈ rs, s ≠ r ∧ seen.testBit s = false := by
      intro s hs
      have := h2 s hs
      rw [Nat.testBit_or, Bool.or_eq_false_iff, Nat.testBit_shiftLeft] at this
      refine ⟨?_, this.1⟩
      rintro rfl
      simp at this
    refine ⟨List.nodup_cons.2 ⟨fun hr => (h3 r hr).1 rfl, h1⟩, fun s hs => ?_⟩
    rcases List.mem_cons.1 hs with rfl | hs
    · exact h.1
    · exact (h3 s hs).2

/-- The generators as elements of the field. -/
def generatorTable : List (Fp × Fp) := Verif.Gadget.Sinsemilla.table.map fun (s : Nat × Nat) => ((s.1 : Fp), (s.2 : Fp))

theorem table_length : Verif.Gadget.Sinsemilla.table.length = 1024 := by decide +kernel

theorem table_curve : Verif.Gadget.Sinsemilla.table.all (fun s => s.1 < pallasBase && s.2 < pallasBase &&
    (s.2 * s.2) % pallasBase == (s.1 * s.1 * s.1 + 5) % pallasBase) = true := by decide +kernel

theorem table_apart : apart 0 (Verif.Gadget.Sinsemilla.table.map fun s => s.1 % 131183) = true := by decide +kernel

theorem table_point {i : Nat} (hi : i < 1024) : ∃ P : Pt (5 : Fp), P ≠ 0 ∧ generatorTable[i]? = some (coords P) := by
  have hl : i < Verif.Gadget.Sinsemilla.table.length := by rw [table_length]; exact hi
  have h := List.all_eq_true.1 table_curve _ (List.getElem_mem hl)
  simp only [Bool.and_eq_true, beq_iff_eq] at h
  obtain ⟨P, h1, h2⟩ := exists_point smooth_five (x := ((Verif.Gadget.Sinsemilla.table[i].1 : Nat) : Fp))
    (y := ((Verif.Gadget.Sinsemilla.table[i].2 : Nat) : Fp)) (by
      have := (ZMod.natCast_eq_natCast_iff _ _ pallasBase).2 h.2
      push_cast at this
      linear_combination this)
  refine ⟨P, h1, ?_⟩
  rw [h2, generatorTable, List.getElem?_map, List.getElem?_eq_getElem hl]
  rfl

theorem table_x {i j : Nat} (hi : i < 1024) (hj : j < 1024) {P Q : Pt (5 : Fp)} (h1 : generatorTable[i]? = some (coords P))
    (h2 : generatorTable[j]? = some (coords Q)) (hx : (coords P).1 = (coords Q).1) : i = j := by
  have li : i < Verif.Gadget.Sinsemilla.table.length := by rw [table_length]; exact hi
  have lj : j < Verif.Gadget.Sinsemilla.table.length := by rw [table_length]; exact hj
  have bi := List.all_eq_true.1 table_curve _ (List.getElem_mem li)
  have bj := List.all_eq_true.1 table_curve _ (List.getElem_mem lj)
  simp only [Bool.and_eq_true, decide_eq_true_eq] at bi bj
  rw [generatorTable, List.getElem?_map, List.getElem?_eq_getElem li, Option.map_some, Option.some.injEq] at h1
  rw [generatorTable, List.getElem?_map, List.getElem?_eq_getElem lj, Option.map_some, Option.some.injEq] at h2
  rw [← h1, ← h2] at hx
  have hn := (ZMod.natCast_eq_natCast_iff' _ _ pallasBase).1 hx
  rw [Nat.mod_eq_of_lt bi.1.1, Nat.mod_eq_of_lt bj.1.1] at hn
  have nd := (apart_nodup _ _ table_apart).1
  refine (List.Nodup.getElem_inj_iff nd (hi := by simpa using li) (hj := by simpa using lj)).1 ?_
  rw [List.getElem_map, List.getElem_map, hn]

/-- The generators. -/
noncomputable def gen (i : Nat) : Pt (5 : Fp) := open Classical in if h : i < 1024 then (table_point h).choose else 0

theorem gen_table : Generators generatorTable gen where
  length := by rw [generatorTable, List.length_map, table_length]
  points i hi := by
    unfold gen
    rw [dif_pos hi]
    exact (table_point hi).choose_spec

theorem gen_apart {i j : Nat} (hi : i < 1024) (hj : j < 1024) (h : gen i = gen j ∨ gen i = -gen j) : i = j := by
  refine table_x hi hj (gen_table.points i hi).2 (gen_table.points j hj).2 ?_
  rcases h with h | h <;> rw [h]
  rw [coords_neg]

end Verif.Lemmas.Sinsemilla

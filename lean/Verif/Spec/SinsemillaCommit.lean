import Verif.Spec.Sinsemilla
import Verif.Model.SinsemillaCommit

/-! Sinsemilla commitments (Zcash protocol specification, section 5.4.8.4), and the constraints of their regions. -/

namespace Verif.Spec.SinsemillaCommit

open Verif.Gadget Verif.Spec.Gadget Verif.Spec Verif.Spec.Ecc Verif.Spec.Sinsemilla

variable {p : Nat} [Fact p.Prime] {b : ZMod p}

/-- The hash of the words from `Q` on, if there is one, plus the multiple of `R` by `r`. -/
noncomputable def commitOf (G : Nat → Pt b) (Q R : Pt b) (words : List Nat) (r : Nat) : Option (Pt b) :=
  (hashOf G Q words).map (· + r • R)

/-- All gates of both chips hold in all regions, and so does the lookup of the generators. -/
def Meets (c : CommitDomain p) (mul : Chip (ZMod p)) (table : Nat → List (ZMod p)) (w : Content (ZMod p)) (start : Nat)
    (regions : List (Calls (ZMod p))) : Prop :=
  ∀ i (h : i < regions.length), Sat mul table w (start + i) regions[i] ∧ Sat c.hash.chip table w (start + i) regions[i] ∧
    LooksUp (c.hash.lookup c.S) (Sinsemilla.load c.S) w (start + i) regions[i]

end Verif.Spec.SinsemillaCommit

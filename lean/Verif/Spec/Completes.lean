import Verif.Model.Tables

/-! Column contents that extend what synthesis assigned. -/

namespace Verif.Spec

/-- `g` is a full assignment of `n` rows agreeing with what synthesis produced: the assigned
advice and fixed cells in the usable rows, the enabled selectors, the public inputs (padded with
zeros) and the challenges. The advice cells in the unusable rows are arbitrary. -/
structure Completes (n : Nat) (a : Assembly) (ch : Nat → Fr) (inst : Nat → List Fr) (g : Grid) :
    Prop where
  advice : ∀ c r, r < mainCS.usableRows n → g.advice c r = a.advice c r
  fixed : ∀ c r, r < mainCS.usableRows n → g.fixed c r = a.fixed c r
  selector : ∀ s r, g.selector s r = a.selector s r
  instance_ : ∀ i r, g.instance_ i r = (inst i).getD r 0
  challenge : ∀ i, g.challenge i = ch i

end Verif.Spec

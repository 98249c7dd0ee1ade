import Verif.Lemmas.EccFixedWitness

/-! The cells given meet the constraints. -/

namespace Verif.Lemmas.Ecc

open Verif.Gadget Verif.Spec.Gadget Verif.Spec Verif.Spec.Ecc Verif.Spec.EccFixed Verif.Lemmas.Gadget

/-- The tables of (-1, 2) as numbers. -/
def fullBase : FixedBase pallasBase := literalBase (fullRows ++ [fullLast]) (lowLagrange ++ highLagrange)
def shortBase : FixedBase pallasBase := literalBase (shortRows ++ [shortLast]) (lowLagrange ++ lastLagrange)

theorem fullBase_table : TableOf 85 pallasGen fullBase := literal_table full_table (by decide +kernel)
theorem shortBase_table : TableOf 22 pallasGen shortBase := literal_table short_table (by decide +kernel)

/-- 5 times (-1, 2) in regions 0 and 1, 6 times (-1, 2) in regions 2 and 3. -/
def twoScalars : Content Fp := cellsOf fullBase [five0, five1, six0, six1]

theorem five_check : checkFull fullBase twoScalars 0 fiveOut = true := by decide +kernel
theorem six_check : checkFull fullBase twoScalars 2 sixOut = true := by decide +kernel

/-- -1000 times (-1, 2); magnitude and sign are in region 2. -/
def thousand : Content Fp := cellsOf shortBase [thousand0, thousand1, [[1000, pallasBase - 1]]]

theorem thousand_check : checkShort shortBase thousand ⟨2, 0, .advice 0⟩ ⟨2, 0, .advice 1⟩ thousandOut = true := by decide +kernel

/-- p - 1 times (-1, 2); the number is in region 4. -/
def top : Content Fp := cellsOf fullBase [top0, top1, top2, top3, [[pallasBase - 1]]]

theorem top_check : checkBase fullBase top ⟨4, 0, .advice 0⟩ topOut = true := by decide +kernel

end Verif.Lemmas.Ecc

import Verif.Curve.LadderValue
import Verif.Curve.Witness

/-!
# A run of the whole ladder, evaluated by the kernel (helper lemma)
-/

namespace Verif
open EdwardsExtended

set_option maxRecDepth 100000 in
theorem ladder_base_off (c : Crv) :
    ladI c (Crv.ladBits c.fld.n 1) ((zero (c.scalar .debug)).ints c) ((c.baseCoords 1).ints c)
      c.offI = true := by
  cases c <;> decide +kernel

end Verif

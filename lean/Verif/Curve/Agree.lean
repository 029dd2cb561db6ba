import Verif.Props.Repairs

/-!
# C63 on integers

Key agreement with the secrets 1 and 2 and the base point, computed with the functions on integers that
the ladder of the code was shown to compute.  The five evaluations are in files of their own.
-/

namespace Verif
open EdwardsExtended

/-- Both orders on integers, for the base point. -/
def agreeI (c : Crv) (a b : Nat) (k : EdwardsExtended Int → EdwardsExtended Int → Bool) : Bool :=
  let z := (zero (c.scalar .debug)).ints c
  let p := (c.baseCoords 1).ints c
  ladI c (Crv.ladBits c.fld.n a) z p fun pa => ladI c (Crv.ladBits c.fld.n b) z pa fun pab =>
    ladI c (Crv.ladBits c.fld.n b) z p fun pb => ladI c (Crv.ladBits c.fld.n a) z pb fun pba =>
      k pab pba

/-- The `x` coordinates differ. -/
def differI (c : Crv) (r s : EdwardsExtended Int) : Bool :=
  !decide ((r.x * s.z - s.x * r.z) % c.fld.p = 0)

end Verif

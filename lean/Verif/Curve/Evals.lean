import Verif.Curve.LadderValue
import Verif.Curve.Witness

/-!
# Evaluations of the point code by the kernel (helper lemmas)
-/

namespace Verif
open EdwardsExtended

set_option maxRecDepth 100000

theorem add_base_off (c : Crv) :
    addF c false ((c.baseCoords 1).ints c) ((c.baseCoords 1).ints c) c.offI = true := by
  cases c <;> decide +kernel

/-- Coordinates of the base point for which doubling goes wrong. -/
def Crv.badZ : Crv → Int
  | .e382 => 3 | .e521 => 2 | _ => 1

theorem double_base_off (c : Crv) :
    doubleF c false ((c.baseCoords c.badZ).ints c) c.offI = true := by
  cases c <;> decide +kernel

theorem badZ_repr (c : Crv) : c.Represents (c.baseCoords c.badZ) c.base := by
  apply Crv.baseCoords_repr
  cases c <;> decide +kernel

theorem triple_base_off (c : Crv) :
    callI c false tripleP ((c.baseCoords 1).ints c) ((c.baseCoords 1).ints c) c.offI = true := by
  cases c <;> decide +kernel

theorem zero_add_off (c : Crv) :
    addF c false ((zero (c.scalar .debug)).ints c) ((c.baseCoords 1).ints c) c.offI = true := by
  cases c <;> decide +kernel

theorem add_zero_off (c : Crv) :
    addF c false ((c.baseCoords 1).ints c) ((zero (c.scalar .debug)).ints c) c.offI = true := by
  cases c <;> decide +kernel

/-- `z` coordinates for which doubling runs right. -/
def Crv.goodZ : Crv → Int
  | .e222 => 3 | .curve1174 => 24 | .e382 => 1 | .curve41417 => 5 | .e521 => 1

theorem goodZ_repr (c : Crv) : c.Represents (c.baseCoords c.goodZ) c.base := by
  apply Crv.baseCoords_repr
  cases c <;> decide +kernel

theorem double_right (c : Crv) :
    doubleF c true ((c.baseCoords c.goodZ).ints c) (fun _ => true) = true := by
  cases c <;> decide +kernel

/-- `(0, -1)` -/
def Crv.minusOne (c : Crv) : c.Point := c.pt 0 (-1) (by cases c <;> decide +kernel)

/-- Coordinates and a point for which adding the base point runs right. -/
def Crv.goodQ (c : Crv) : EdwardsExtended Elem := match c with
  | .e222 => c.coords 0 1 1000
  | .curve1174 => c.coords 0 (-1) 1379388602376593435668399977119805129743922258819858717487024499819499939556
  | c => c.baseCoords 3

/-- The point represented by `goodQ`. -/
def Crv.goodQPoint (c : Crv) : c.Point := match c with
  | .e222 => 0 | .curve1174 => Crv.minusOne .curve1174 | .e382 => Crv.base .e382
  | .curve41417 => Crv.base .curve41417 | .e521 => Crv.base .e521

/-- Coordinates of the base point to be added to it. -/
def Crv.goodP (c : Crv) : EdwardsExtended Elem := match c with
  | .e222 => c.baseCoords 59 | .curve1174 => c.baseCoords 1406 | c => c.baseCoords 1

theorem add_right (c : Crv) :
    addF c true (c.goodQ.ints c) (c.goodP.ints c) (fun _ => true) = true := by
  cases c <;> decide +kernel

theorem goodP_repr (c : Crv) : c.Represents c.goodP c.base := by
  cases c <;> exact Crv.baseCoords_repr (by decide +kernel)

theorem goodQ_repr (c : Crv) : c.Represents c.goodQ c.goodQPoint := by
  cases c
  · exact Crv.represents_of_reprB (x := 0) (y := 1) (by simp [Crv.goodQPoint, EdPoint.zero_x])
      (by simp [Crv.goodQPoint, EdPoint.zero_y]) (by decide +kernel)
  · exact Crv.represents_of_reprB (x := 0) (y := -1) rfl rfl (by decide +kernel)
  all_goals exact Crv.baseCoords_repr (by decide +kernel)

end Verif

import Verif.Field.MulCheck

/-!
# Squaring and multiplication by a machine integer: kernel runs of the checker
-/

namespace Verif.Fld
open Check

set_option maxRecDepth 100000 in
theorem sqCheckA_ok (f : Fld) : f.sqCheckA = true := by cases f <;> decide +kernel

set_option maxRecDepth 100000 in
theorem sqCheckC_ok (f : Fld) : f.sqCheckC = true := by cases f <;> decide +kernel

set_option maxRecDepth 100000 in
theorem sqCheckD222_ok : e222_117.sqCheckD 8 = true := by decide +kernel

set_option maxRecDepth 100000 in
theorem sqCheckH_ok : sqCheckH = true := by decide +kernel

end Verif.Fld

import Verif.Field.MulCheck

/-!
# Multiplication: kernel runs of the checker
-/

namespace Verif.Fld
open Check

set_option maxRecDepth 100000 in
theorem mulCheckA_ok (f : Fld) : f.mulCheckA = true := by cases f <;> decide +kernel

set_option maxRecDepth 100000 in
theorem mulCheckB_ok (f : Fld) : f.mulCheckB = true := by cases f <;> decide +kernel

set_option maxRecDepth 100000 in
theorem mulCheckC_ok (f : Fld) : f.mulCheckC = true := by cases f <;> decide +kernel

set_option maxRecDepth 100000 in
theorem mulCheckD222_ok : e222_117.mulCheckD 8 = true := by decide +kernel

set_option maxRecDepth 100000 in
theorem mulCheckD251_ok : e251_9.mulCheckD 9 = true := by decide +kernel

set_option maxRecDepth 100000 in
theorem mulCheckH_ok : mulCheckH = true := by decide +kernel

end Verif.Fld

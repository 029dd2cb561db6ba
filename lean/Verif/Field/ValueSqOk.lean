import Verif.Field.ValueCheck

/-!
# Exact values of products and squares: kernel runs of the checker
-/

namespace Verif.Fld

set_option maxRecDepth 100000 in
theorem sqProdCheck_ok (f : Fld) : f.sqProdCheck = true := by cases f <;> decide +kernel

set_option maxRecDepth 100000 in
theorem sqRestCheck_ok (f : Fld) : f.sqRestCheck = true := by cases f <;> decide +kernel

end Verif.Fld

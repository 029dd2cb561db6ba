import Verif.Field.ValueCheck

/-!
# Exact values of products and squares: kernel runs of the checker
-/

namespace Verif.Fld

set_option maxRecDepth 100000 in
theorem mulProdCheck_ok (f : Fld) : f.mulProdCheck = true := by cases f <;> decide +kernel

set_option maxRecDepth 100000 in
theorem mulRestCheck_ok (f : Fld) : f.mulRestCheck = true := by cases f <;> decide +kernel

end Verif.Fld

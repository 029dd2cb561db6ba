import Verif.Curve.Agree

namespace Verif

set_option maxRecDepth 100000 in
/-- E-521: the results of the two parties differ. -/
theorem agree_e521 : agreeI .e521 1 2 (differI .e521) = true := by decide +kernel

end Verif

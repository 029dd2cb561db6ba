import Verif.Curve.Agree

namespace Verif

set_option maxRecDepth 100000 in
/-- E-222: the results of the two parties differ. -/
theorem agree_e222 : agreeI .e222 1 2 (differI .e222) = true := by decide +kernel

end Verif

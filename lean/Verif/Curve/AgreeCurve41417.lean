import Verif.Curve.Agree

namespace Verif

set_option maxRecDepth 100000 in
/-- Curve41417: the results of the two parties differ. -/
theorem agree_curve41417 : agreeI .curve41417 1 2 (differI .curve41417) = true := by decide +kernel

end Verif

import Verif.Curve.Agree

namespace Verif

set_option maxRecDepth 100000 in
/-- Curve1174: the results of the two parties differ. -/
theorem agree_curve1174 : agreeI .curve1174 1 2 (differI .curve1174) = true := by decide +kernel

end Verif

import Verif.Curve.Agree

namespace Verif

set_option maxRecDepth 100000 in
/-- E-382: the results of the two parties differ. -/
theorem agree_e382 : agreeI .e382 1 2 (differI .e382) = true := by decide +kernel

end Verif

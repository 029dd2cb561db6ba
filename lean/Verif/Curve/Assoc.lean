import Mathlib.Tactic.LinearCombination
import Mathlib.Tactic.Ring
import Mathlib.Tactic.FieldSimp
import Mathlib.Algebra.Group.Even
import Mathlib.Algebra.Field.Basic

/-!
# The Edwards addition law: the polynomial identities behind associativity

`h1`, `h2`, `h3` are the curve equations of the three points.  The cofactors were found by
polynomial division outside Lean; `linear_combination` checks them.
-/

namespace Verif.Edwards

variable {K : Type*} [Field K] {d x1 y1 x2 y2 x3 y3 : K}

theorem assoc_x (h1 : x1 ^ 2 + y1 ^ 2 = 1 + d * x1 ^ 2 * y1 ^ 2)
    (h2 : x2 ^ 2 + y2 ^ 2 = 1 + d * x2 ^ 2 * y2 ^ 2)
    (h3 : x3 ^ 2 + y3 ^ 2 = 1 + d * x3 ^ 2 * y3 ^ 2) :
    ((x1 * y2 + y1 * x2) * (1 - d * x1 * x2 * y1 * y2) * y3 +
      (y1 * y2 - x1 * x2) * (1 + d * x1 * x2 * y1 * y2) * x3) *
      ((1 + d * x2 * x3 * y2 * y3) * (1 - d * x2 * x3 * y2 * y3) +
        d * (x2 * y3 + y2 * x3) * (y2 * y3 - x2 * x3) * x1 * y1) =
    (x1 * (y2 * y3 - x2 * x3) * (1 + d * x2 * x3 * y2 * y3) +
      y1 * (x2 * y3 + y2 * x3) * (1 - d * x2 * x3 * y2 * y3)) *
      ((1 + d * x1 * x2 * y1 * y2) * (1 - d * x1 * x2 * y1 * y2) +
        d * (x1 * y2 + y1 * x2) * (y1 * y2 - x1 * x2) * x3 * y3) := by
  linear_combination (d^2*x1*x2^4*y2^3*x3^2*y3 - d^2*x1*x2^3*y2^4*x3*y3^2 +
    d^2*y1*x2^4*y2^3*x3*y3^2 + d^2*y1*x2^3*y2^4*x3^2*y3 - d*x1*x2^4*y2*x3^2*y3 -
    d*x1*x2^3*y2^2*x3^3 + d*x1*x2^3*y2^2*x3 + d*x1*x2^2*y2^3*y3^3 - d*x1*x2^2*y2^3*y3 +
    d*x1*x2*y2^4*x3*y3^2 - d*y1*x2^4*y2*x3*y3^2 + d*y1*x2^3*y2^2*y3^3 - d*y1*x2^3*y2^2*y3 +
    d*y1*x2^2*y2^3*x3^3 - d*y1*x2^2*y2^3*x3 - d*y1*x2*y2^4*x3^2*y3) * h1 +
    (-d^2*x1^2*y1*x2^2*y2*x3^3*y3^2 - d^2*x1^2*y1*x2*y2^2*x3^2*y3^3 -
    d^2*x1*y1^2*x2^2*y2*x3^2*y3^3 + d^2*x1*y1^2*x2*y2^2*x3^3*y3^2 + d*x1^3*x2^2*y2*x3^2*y3 -
    d*x1^3*x2*y2^2*x3*y3^2 + d*x1^3*x2*x3^3*y3^2 - d*x1^3*y2*x3^2*y3^3 +
    d*x1^2*y1*x2^2*y2*x3*y3^2 + d*x1^2*y1*x2*y2^2*x3^2*y3 - d*x1^2*y1*x2*x3^2*y3^3 -
    d*x1^2*y1*y2*x3^3*y3^2 + d*x1*y1^2*x2^2*y2*x3^2*y3 - d*x1*y1^2*x2*y2^2*x3*y3^2 +
    d*x1*y1^2*x2*x3^3*y3^2 - d*x1*y1^2*y2*x3^2*y3^3 - d*x1*x2^2*y2*x3^2*y3 +
    d*x1*x2*y2^2*x3*y3^2 - d*x1*x2*x3^3*y3^2 + d*x1*y2*x3^2*y3^3 + d*y1^3*x2^2*y2*x3*y3^2 +
    d*y1^3*x2*y2^2*x3^2*y3 - d*y1^3*x2*x3^2*y3^3 - d*y1^3*y2*x3^3*y3^2 - d*y1*x2^2*y2*x3*y3^2 -
    d*y1*x2*y2^2*x3^2*y3 + d*y1*x2*x3^2*y3^3 + d*y1*y2*x3^3*y3^2 - x1^3*x2*x3^3 -
    x1^3*x2*x3*y3^2 + x1^3*x2*x3 + x1^3*y2*x3^2*y3 + x1^3*y2*y3^3 - x1^3*y2*y3 +
    x1^2*y1*x2*x3^2*y3 + x1^2*y1*x2*y3^3 - x1^2*y1*x2*y3 + x1^2*y1*y2*x3^3 + x1^2*y1*y2*x3*y3^2
    - x1^2*y1*y2*x3 - x1*y1^2*x2*x3^3 - x1*y1^2*x2*x3*y3^2 + x1*y1^2*x2*x3 + x1*y1^2*y2*x3^2*y3
    + x1*y1^2*y2*y3^3 - x1*y1^2*y2*y3 + x1*x2*x3^3 + x1*x2*x3*y3^2 - x1*x2*x3 - x1*y2*x3^2*y3 -
    x1*y2*y3^3 + x1*y2*y3 + y1^3*x2*x3^2*y3 + y1^3*x2*y3^3 - y1^3*x2*y3 + y1^3*y2*x3^3 +
    y1^3*y2*x3*y3^2 - y1^3*y2*x3 - y1*x2*x3^2*y3 - y1*x2*y3^3 + y1*x2*y3 - y1*y2*x3^3 -
    y1*y2*x3*y3^2 + y1*y2*x3) * h2 + (d*x1^2*y1*x2^2*y2*x3 + d*x1^2*y1*x2*y2^2*y3 +
    d*x1*y1^2*x2^2*y2*y3 - d*x1*y1^2*x2*y2^2*x3 + x1^3*x2^3*x3 - x1^3*x2^2*y2*y3 +
    x1^3*x2*y2^2*x3 - x1^3*x2*x3 - x1^3*y2^3*y3 + x1^3*y2*y3 - x1^2*y1*x2^3*y3 -
    x1^2*y1*x2^2*y2*x3 - x1^2*y1*x2*y2^2*y3 + x1^2*y1*x2*y3 - x1^2*y1*y2^3*x3 + x1^2*y1*y2*x3 +
    x1*y1^2*x2^3*x3 - x1*y1^2*x2^2*y2*y3 + x1*y1^2*x2*y2^2*x3 - x1*y1^2*x2*x3 - x1*y1^2*y2^3*y3
    + x1*y1^2*y2*y3 - x1*x2^3*x3 + x1*x2^2*y2*y3 - x1*x2*y2^2*x3 + x1*x2*x3 + x1*y2^3*y3 -
    x1*y2*y3 - y1^3*x2^3*y3 - y1^3*x2^2*y2*x3 - y1^3*x2*y2^2*y3 + y1^3*x2*y3 - y1^3*y2^3*x3 +
    y1^3*y2*x3 + y1*x2^3*y3 + y1*x2^2*y2*x3 + y1*x2*y2^2*y3 - y1*x2*y3 + y1*y2^3*x3 - y1*y2*x3)
    * h3

theorem assoc_y (h1 : x1 ^ 2 + y1 ^ 2 = 1 + d * x1 ^ 2 * y1 ^ 2)
    (h2 : x2 ^ 2 + y2 ^ 2 = 1 + d * x2 ^ 2 * y2 ^ 2)
    (h3 : x3 ^ 2 + y3 ^ 2 = 1 + d * x3 ^ 2 * y3 ^ 2) :
    ((y1 * y2 - x1 * x2) * (1 + d * x1 * x2 * y1 * y2) * y3 -
      (x1 * y2 + y1 * x2) * (1 - d * x1 * x2 * y1 * y2) * x3) *
      ((1 + d * x2 * x3 * y2 * y3) * (1 - d * x2 * x3 * y2 * y3) -
        d * (x2 * y3 + y2 * x3) * (y2 * y3 - x2 * x3) * x1 * y1) =
    (y1 * (y2 * y3 - x2 * x3) * (1 + d * x2 * x3 * y2 * y3) -
      x1 * (x2 * y3 + y2 * x3) * (1 - d * x2 * x3 * y2 * y3)) *
      ((1 + d * x1 * x2 * y1 * y2) * (1 - d * x1 * x2 * y1 * y2) -
        d * (x1 * y2 + y1 * x2) * (y1 * y2 - x1 * x2) * x3 * y3) := by
  linear_combination (-d^2*x1*x2^4*y2^3*x3*y3^2 - d^2*x1*x2^3*y2^4*x3^2*y3 +
    d^2*y1*x2^4*y2^3*x3^2*y3 - d^2*y1*x2^3*y2^4*x3*y3^2 + d*x1*x2^4*y2*x3*y3^2 -
    d*x1*x2^3*y2^2*y3^3 + d*x1*x2^3*y2^2*y3 - d*x1*x2^2*y2^3*x3^3 + d*x1*x2^2*y2^3*x3 +
    d*x1*x2*y2^4*x3^2*y3 - d*y1*x2^4*y2*x3^2*y3 - d*y1*x2^3*y2^2*x3^3 + d*y1*x2^3*y2^2*x3 +
    d*y1*x2^2*y2^3*y3^3 - d*y1*x2^2*y2^3*y3 + d*y1*x2*y2^4*x3*y3^2) * h1 +
    (-d^2*x1^2*y1*x2^2*y2*x3^2*y3^3 + d^2*x1^2*y1*x2*y2^2*x3^3*y3^2 +
    d^2*x1*y1^2*x2^2*y2*x3^3*y3^2 + d^2*x1*y1^2*x2*y2^2*x3^2*y3^3 - d*x1^3*x2^2*y2*x3*y3^2 -
    d*x1^3*x2*y2^2*x3^2*y3 + d*x1^3*x2*x3^2*y3^3 + d*x1^3*y2*x3^3*y3^2 +
    d*x1^2*y1*x2^2*y2*x3^2*y3 - d*x1^2*y1*x2*y2^2*x3*y3^2 + d*x1^2*y1*x2*x3^3*y3^2 -
    d*x1^2*y1*y2*x3^2*y3^3 - d*x1*y1^2*x2^2*y2*x3*y3^2 - d*x1*y1^2*x2*y2^2*x3^2*y3 +
    d*x1*y1^2*x2*x3^2*y3^3 + d*x1*y1^2*y2*x3^3*y3^2 + d*x1*x2^2*y2*x3*y3^2 +
    d*x1*x2*y2^2*x3^2*y3 - d*x1*x2*x3^2*y3^3 - d*x1*y2*x3^3*y3^2 + d*y1^3*x2^2*y2*x3^2*y3 -
    d*y1^3*x2*y2^2*x3*y3^2 + d*y1^3*x2*x3^3*y3^2 - d*y1^3*y2*x3^2*y3^3 - d*y1*x2^2*y2*x3^2*y3 +
    d*y1*x2*y2^2*x3*y3^2 - d*y1*x2*x3^3*y3^2 + d*y1*y2*x3^2*y3^3 - x1^3*x2*x3^2*y3 -
    x1^3*x2*y3^3 + x1^3*x2*y3 - x1^3*y2*x3^3 - x1^3*y2*x3*y3^2 + x1^3*y2*x3 - x1^2*y1*x2*x3^3 -
    x1^2*y1*x2*x3*y3^2 + x1^2*y1*x2*x3 + x1^2*y1*y2*x3^2*y3 + x1^2*y1*y2*y3^3 - x1^2*y1*y2*y3 -
    x1*y1^2*x2*x3^2*y3 - x1*y1^2*x2*y3^3 + x1*y1^2*x2*y3 - x1*y1^2*y2*x3^3 - x1*y1^2*y2*x3*y3^2
    + x1*y1^2*y2*x3 + x1*x2*x3^2*y3 + x1*x2*y3^3 - x1*x2*y3 + x1*y2*x3^3 + x1*y2*x3*y3^2 -
    x1*y2*x3 - y1^3*x2*x3^3 - y1^3*x2*x3*y3^2 + y1^3*x2*x3 + y1^3*y2*x3^2*y3 + y1^3*y2*y3^3 -
    y1^3*y2*y3 + y1*x2*x3^3 + y1*x2*x3*y3^2 - y1*x2*x3 - y1*y2*x3^2*y3 - y1*y2*y3^3 + y1*y2*y3)
    * h2 + (d*x1^2*y1*x2^2*y2*y3 - d*x1^2*y1*x2*y2^2*x3 - d*x1*y1^2*x2^2*y2*x3 -
    d*x1*y1^2*x2*y2^2*y3 + x1^3*x2^3*y3 + x1^3*x2^2*y2*x3 + x1^3*x2*y2^2*y3 - x1^3*x2*y3 +
    x1^3*y2^3*x3 - x1^3*y2*x3 + x1^2*y1*x2^3*x3 - x1^2*y1*x2^2*y2*y3 + x1^2*y1*x2*y2^2*x3 -
    x1^2*y1*x2*x3 - x1^2*y1*y2^3*y3 + x1^2*y1*y2*y3 + x1*y1^2*x2^3*y3 + x1*y1^2*x2^2*y2*x3 +
    x1*y1^2*x2*y2^2*y3 - x1*y1^2*x2*y3 + x1*y1^2*y2^3*x3 - x1*y1^2*y2*x3 - x1*x2^3*y3 -
    x1*x2^2*y2*x3 - x1*x2*y2^2*y3 + x1*x2*y3 - x1*y2^3*x3 + x1*y2*x3 + y1^3*x2^3*x3 -
    y1^3*x2^2*y2*y3 + y1^3*x2*y2^2*x3 - y1^3*x2*x3 - y1^3*y2^3*y3 + y1^3*y2*y3 - y1*x2^3*x3 +
    y1*x2^2*y2*y3 - y1*x2*y2^2*x3 + y1*x2*x3 + y1*y2^3*y3 - y1*y2*y3) * h3

end Verif.Edwards

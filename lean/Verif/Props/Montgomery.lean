import Verif.Curve.Montgomery
import Verif.Prime.OrderCerts
import Mathlib.GroupTheory.OrderOfElement

/-!
# Property C40: base points of the Montgomery curves

The specification is Mathlib's group of nonsingular points of a Weierstrass curve, for the curve
`y² = x³ + A x² + x` with the published coefficient `A` (`Mont.A`).
-/

namespace Verif
open Verif.Prime WeierstrassCurve.Affine

namespace Mont
variable (c : Mont)

set_option maxRecDepth 100000

private theorem on_curve : c.curve.Nonsingular ((c.fld.V c.baseX : Int) : c.K)
    ((c.fld.V c.baseY : Int) : c.K) := by
  rw [nonsingular_iff, equation_iff]
  constructor
  · have h : (c.fld.V c.baseY ^ 2 - (c.fld.V c.baseX ^ 3 + c.A * c.fld.V c.baseX ^ 2 +
        c.fld.V c.baseX)) % c.fld.p = 0 := by cases c <;> decide +kernel
    rw [← cast_eq_zero] at h
    push_cast at h
    simp only [curve]
    linear_combination h
  · right
    have h : ¬ (2 * c.fld.V c.baseY) % c.fld.p = 0 := by cases c <;> decide +kernel
    rw [← cast_eq_zero] at h
    push_cast at h
    simp only [curve]
    intro h'
    apply h
    linear_combination h'

/-- The exported base point. -/
def base : c.curve.Point := .some _ _ c.on_curve

/-- Bits below the leading one of the order. -/
def orderBits : Mont → Nat
  | m221 => 218 | curve25519 => 252 | m383 => 380 | curve383187 => 380 | m511 => 508

private theorem minus : c.minusB (c.fld.V c.baseX) (c.fld.V c.baseY) c.orderBits
    ((c.fld.V c.order).toNat - 1) = true := by
  cases c <;> decide +kernel

private theorem canon : c.fld.Canon (c.fld.V c.baseX) c.baseX ∧
    c.fld.Canon (c.fld.V c.baseY) c.baseY ∧ c.fld.Canon (c.fld.V c.order) c.order := by
  refine ⟨?_, ?_, ?_⟩ <;> apply Fld.canon_of_canonB <;> cases c <;> decide +kernel

end Mont

private theorem of_eq {a b : Nat} (h : a = b) (hb : Nat.Prime b) : Nat.Prime a := h ▸ hb

/-- The exported `*_ORDER` constants of the five Montgomery curves are prime. -/
theorem C40_order_prime (c : Mont) : Nat.Prime (c.fld.V c.order).toNat := by
  cases c with
  | m221 => exact of_eq (by decide +kernel) prime_219_052891
  | curve25519 => exact of_eq (by decide +kernel) prime_253_250989
  | m383 => exact of_eq (by decide +kernel) prime_381_007447
  | curve383187 => exact of_eq (by decide +kernel) prime_381_911201
  | m511 => exact of_eq (by decide +kernel) prime_509_942299

/-- The exported constants are canonical, the base points lie on the curves, and the order of the
base point in the group of the curve is exactly the exported order. -/
theorem C40_base (c : Mont) :
    c.fld.Canon (c.fld.V c.baseX) c.baseX ∧ c.fld.Canon (c.fld.V c.baseY) c.baseY ∧
    c.fld.Canon (c.fld.V c.order) c.order ∧
    (c.fld.V c.baseY ^ 2 ≡ c.fld.V c.baseX ^ 3 + c.A * c.fld.V c.baseX ^ 2 + c.fld.V c.baseX
      [ZMOD c.fld.p]) ∧
    c.base = .some ((c.fld.V c.baseX : Int) : ZMod c.fld.pN) (c.fld.V c.baseY : Int) c.on_curve ∧
    addOrderOf c.base = (c.fld.V c.order).toNat := by
  obtain ⟨h1, h2, h3⟩ := c.canon
  have hp := C40_order_prime c
  have : Fact (c.fld.V c.order).toNat.Prime := ⟨hp⟩
  refine ⟨h1, h2, h3, ?_, rfl, ?_⟩
  · rw [Fld.modEq_iff]
    have := ((nonsingular_iff _ _).1 c.on_curve).1
    rw [equation_iff] at this
    simp only [Mont.curve] at this
    push_cast
    linear_combination this
  · refine addOrderOf_eq_prime ?_ (Point.some_ne_zero _)
    have := Mont.minus_of_minusB c.on_curve c.minus
    rwa [Nat.sub_add_cancel hp.one_lt.le] at this

end Verif

import Verif.Props.Points
import Verif.Prime.OrderCerts
import Mathlib.GroupTheory.OrderOfElement

/-!
# Property C39: the orders of the base points
-/

namespace Verif
open Verif.Prime

private theorem of_eq {a b : Nat} (h : a = b) (hb : Nat.Prime b) : Nat.Prime a := h ▸ hb

/-- The exported `*_ORDER` constants of the five Edwards curves are prime. -/
theorem C39_order_prime (c : Crv) : Nat.Prime (c.fld.V c.order).toNat := by
  cases c with
  | e222 => exact of_eq (by decide +kernel) prime_220_417407
  | curve1174 => exact of_eq (by decide +kernel) prime_249_975601
  | e382 => exact of_eq (by decide +kernel) prime_380_047321
  | curve41417 => exact of_eq (by decide +kernel) prime_411_839289
  | e521 => exact of_eq (by decide +kernel) prime_519_108523

/-- The order of the exported base point is exactly the exported order: `k B = 0` iff the order
divides `k`, and the multiples below the order are pairwise different. -/
theorem C39_base_order (c : Crv) :
    addOrderOf c.base = (c.fld.V c.order).toNat ∧
    (∀ k : Nat, k • c.base = 0 ↔ (c.fld.V c.order).toNat ∣ k) ∧
    ∀ j k : Nat, j < (c.fld.V c.order).toNat → k < (c.fld.V c.order).toNat →
      j • c.base = k • c.base → j = k := by
  have : Fact (c.fld.V c.order).toNat.Prime := ⟨C39_order_prime c⟩
  obtain ⟨-, -, -, -, -, -, h1, h2⟩ := C34_base c
  have h := addOrderOf_eq_prime h2 h1
  refine ⟨h, fun k => by rw [← h, addOrderOf_dvd_iff_nsmul_eq_zero], fun j k hj hk e => ?_⟩
  exact nsmul_injOn_Iio_addOrderOf (by rw [h]; exact hj) (by rw [h]; exact hk) e

end Verif

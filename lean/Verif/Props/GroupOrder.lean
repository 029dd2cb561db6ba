import Verif.Curve.Cofactor
import Verif.Props.Orders
import Verif.Props.Montgomery
import Mathlib.GroupTheory.Index

/-!
# Property C46: orders of the curve groups

The number of points of each of the ten curves is the published cofactor times the exported
`*_ORDER` constant.  No bound of Hasse type is used: twice the size of the field (plus two) bounds
the number of points from above, the base point and a point of order 4 or 8 give a divisor, and
for the Edwards curves a descent argument excludes twice that divisor.
-/

namespace Verif

/-- The group of each Edwards curve has exactly `cofactor · ORDER` elements. -/
theorem C46_edwards_card (c : Crv) :
    Nat.card c.Point = c.cofactor * (c.fld.V c.order).toNat := by
  have hp := C39_order_prime c
  obtain ⟨P, hP⟩ := c.exists_order
  have h1 : c.cofactor ∣ Nat.card c.Point := hP ▸ addOrderOf_dvd_natCard P
  have h2 : (c.fld.V c.order).toNat ∣ Nat.card c.Point :=
    (C39_base_order c).1 ▸ addOrderOf_dvd_natCard c.base
  have hle := EdPoint.card_le (K := c.K) (d := c.d)
  rw [Nat.card_zmod] at hle
  refine card_of_bounds hle Nat.card_pos h1 h2 ?_ c.not_dvd ?_
  · rw [c.cofactor_eq]
    refine Nat.Coprime.pow_left _ ?_
    rw [Nat.coprime_primes Nat.prime_two hp]
    cases c <;> decide +kernel
  · cases c <;> decide +kernel

/-- Multiplying by the cofactor leads into the subgroup generated by the base point. -/
theorem C46_edwards_cofactor (c : Crv) (P : c.Point) :
    c.cofactor • P ∈ AddSubgroup.zmultiples c.base ∧
    (c.cofactor * (c.fld.V c.order).toNat) • P = 0 := by
  have hp := C39_order_prime c
  have hc := C46_edwards_card c
  have hi : (AddSubgroup.zmultiples c.base).index = c.cofactor := by
    have h := (AddSubgroup.zmultiples c.base).card_mul_index
    rw [Nat.card_zmultiples, (C39_base_order c).1, hc, mul_comm] at h
    exact Nat.eq_of_mul_eq_mul_right hp.pos h
  refine ⟨hi ▸ AddSubgroup.nsmul_index_mem _ P, ?_⟩
  rw [← hc]
  exact card_nsmul_eq_zero'

/-- The group of each Montgomery curve has exactly `8 · ORDER` elements. -/
theorem C46_montgomery_card (c : Mont) :
    Nat.card c.curve.Point = 8 * (c.fld.V c.order).toNat := by
  have hp := C40_order_prime c
  obtain ⟨P, hP⟩ := c.exists_order
  have h1 : 8 ∣ Nat.card c.curve.Point := hP ▸ addOrderOf_dvd_natCard P
  have h2 : (c.fld.V c.order).toNat ∣ Nat.card c.curve.Point :=
    (C40_base c).2.2.2.2.2 ▸ addOrderOf_dvd_natCard c.base
  have cop : Nat.Coprime 8 (c.fld.V c.order).toNat := by
    rw [show 8 = 2 ^ 3 by norm_num]
    refine Nat.Coprime.pow_left _ ?_
    rw [Nat.coprime_primes Nat.prime_two hp]
    cases c <;> decide +kernel
  obtain ⟨m, hm⟩ := Nat.Coprime.mul_dvd_of_dvd_of_dvd cop h1 h2
  have hle := c.card_le
  have hpos : 0 < Nat.card c.curve.Point := Nat.card_pos
  have hb : 2 * (c.fld.pN + 1) < 8 * (c.fld.V c.order).toNat * 2 := by cases c <;> decide +kernel
  have m1 : m = 1 := by
    have : m < 2 := by
      by_contra h
      have := Nat.mul_le_mul_left (8 * (c.fld.V c.order).toNat) (not_lt.1 h)
      omega
    have : m ≠ 0 := by rintro rfl; rw [hm] at hpos; simp at hpos
    omega
  rw [hm, m1, mul_one]

/-- Multiplying by the cofactor leads into the subgroup generated by the base point. -/
theorem C46_montgomery_cofactor (c : Mont) (P : c.curve.Point) :
    8 • P ∈ AddSubgroup.zmultiples c.base ∧ (8 * (c.fld.V c.order).toNat) • P = 0 := by
  have hp := C40_order_prime c
  have hc := C46_montgomery_card c
  have hi : (AddSubgroup.zmultiples c.base).index = 8 := by
    have h := (AddSubgroup.zmultiples c.base).card_mul_index
    rw [Nat.card_zmultiples, (C40_base c).2.2.2.2.2, hc, mul_comm] at h
    exact Nat.eq_of_mul_eq_mul_right hp.pos h
  refine ⟨hi ▸ AddSubgroup.nsmul_index_mem _ P, ?_⟩
  rw [← hc]
  exact card_nsmul_eq_zero'

/-- Example: a point outside the subgroup generated by the base point. -/
example (c : Crv) : ∃ P : c.Point, P ∉ AddSubgroup.zmultiples c.base := by
  by_contra h
  have ht : AddSubgroup.zmultiples c.base = ⊤ :=
    (AddSubgroup.eq_top_iff' _).2 fun P => by by_contra hP; exact h ⟨P, hP⟩
  have h1 := Nat.card_zmultiples c.base
  rw [ht, (C39_base_order c).1] at h1
  have h2 := AddSubgroup.card_top (G := c.Point)
  have h3 := C46_edwards_card c
  have h4 : 4 ≤ c.cofactor := by cases c <;> decide
  have h5 := (C39_order_prime c).pos
  rw [h1] at h2
  rw [← h2] at h3
  nlinarith

end Verif

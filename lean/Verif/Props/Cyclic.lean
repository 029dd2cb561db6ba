import Verif.Props.GroupOrder
import Mathlib.GroupTheory.SpecificGroups.Cyclic

/-!
# Property C49: structure of the curve groups

Each of the ten groups is cyclic.  A point lies in the subgroup generated by the base point exactly
when the exported `*_ORDER` kills it, and the points killed by the cofactor are as many as the
cofactor says.
-/

namespace Verif

section
variable {G : Type*} [AddCommGroup G] {m l : Nat} {a b : G}

private theorem mem_of_smul (hb : addOrderOf b = l) (hc : Nat.card G = m * l) (hl : 0 < l)
    (h : Nat.Coprime m l) (P : G) : P ∈ AddSubgroup.zmultiples b ↔ l • P = 0 := by
  constructor
  · rintro ⟨n, rfl⟩
    dsimp only
    rw [smul_comm, ← hb, addOrderOf_nsmul_eq_zero, smul_zero]
  · intro hP
    have hi : (AddSubgroup.zmultiples b).index = m := by
      have h := (AddSubgroup.zmultiples b).card_mul_index
      rw [Nat.card_zmultiples, hb, hc, mul_comm] at h
      exact Nat.eq_of_mul_eq_mul_right hl h
    have h1 : m • P ∈ AddSubgroup.zmultiples b := hi ▸ AddSubgroup.nsmul_index_mem _ P
    have h2 : (1 : Int) = m * Nat.gcdA m l + l * Nat.gcdB m l := by
      rw [← Nat.gcd_eq_gcd_ab, h.gcd_eq_one, Nat.cast_one]
    have h3 : P = Nat.gcdA m l • (m • P) + Nat.gcdB m l • (l • P) := by
      rw [← natCast_zsmul, ← natCast_zsmul, smul_smul, smul_smul, ← add_smul,
        mul_comm, mul_comm (Nat.gcdB m l), ← h2, one_smul]
    rw [h3, hP, smul_zero, add_zero]
    exact AddSubgroup.zsmul_mem _ h1 _

private theorem card_killed (ha : addOrderOf a = m) (hc : Nat.card G = m * l) (hm : 0 < m)
    (h : Nat.Coprime m l) : Nat.card {P : G // m • P = 0} = m := by
  rw [Nat.card_congr (Equiv.subtypeEquivRight fun P =>
    (mem_of_smul ha (hc.trans (mul_comm _ _)) hm h.symm P).symm)]
  exact (Nat.card_zmultiples a).trans ha

private theorem cyclic [Finite G] (ha : addOrderOf a = m) (hb : addOrderOf b = l) (hc : Nat.card G = m * l)
    (h : Nat.Coprime m l) : IsAddCyclic G := by
  refine isAddCyclic_of_addOrderOf_eq_card (a + b) ?_
  rw [(AddCommute.all a b).addOrderOf_add_eq_mul_addOrderOf_of_coprime
    (by rw [ha, hb]; exact h), ha, hb, hc]

end

private theorem Crv.coprime (c : Crv) : Nat.Coprime c.cofactor (c.fld.V c.order).toNat := by
  rw [c.cofactor_eq]
  refine Nat.Coprime.pow_left _ ?_
  rw [Nat.coprime_primes Nat.prime_two (C39_order_prime c)]
  cases c <;> decide +kernel

private theorem Mont.coprime (c : Mont) : Nat.Coprime 8 (c.fld.V c.order).toNat := by
  rw [show 8 = 2 ^ 3 by norm_num]
  refine Nat.Coprime.pow_left _ ?_
  rw [Nat.coprime_primes Nat.prime_two (C40_order_prime c)]
  cases c <;> decide +kernel

/-- The groups of the five Edwards curves are cyclic. -/
theorem C49_edwards_cyclic (c : Crv) : IsAddCyclic c.Point := by
  obtain ⟨T, hT⟩ := c.exists_order
  exact cyclic hT (C39_base_order c).1 (C46_edwards_card c) c.coprime

/-- Membership in the subgroup generated by the base point is decided by one multiplication. -/
theorem C49_edwards_subgroup (c : Crv) (P : c.Point) :
    P ∈ AddSubgroup.zmultiples c.base ↔ (c.fld.V c.order).toNat • P = 0 :=
  mem_of_smul (C39_base_order c).1 (C46_edwards_card c) (C39_order_prime c).pos c.coprime P

/-- There are exactly `cofactor` points of order dividing the cofactor. -/
theorem C49_edwards_small (c : Crv) : Nat.card {P : c.Point // c.cofactor • P = 0} = c.cofactor := by
  obtain ⟨T, hT⟩ := c.exists_order
  exact card_killed hT (C46_edwards_card c) (by cases c <;> decide) c.coprime

/-- The groups of the five Montgomery curves are cyclic. -/
theorem C49_montgomery_cyclic (c : Mont) : IsAddCyclic c.curve.Point := by
  obtain ⟨T, hT⟩ := c.exists_order
  exact cyclic hT (C40_base c).2.2.2.2.2 (C46_montgomery_card c) c.coprime

/-- Membership in the subgroup generated by the base point is decided by one multiplication. -/
theorem C49_montgomery_subgroup (c : Mont) (P : c.curve.Point) :
    P ∈ AddSubgroup.zmultiples c.base ↔ (c.fld.V c.order).toNat • P = 0 :=
  mem_of_smul (C40_base c).2.2.2.2.2 (C46_montgomery_card c) (C40_order_prime c).pos c.coprime P

/-- There are exactly eight points of order dividing eight. -/
theorem C49_montgomery_small (c : Mont) : Nat.card {P : c.curve.Point // 8 • P = 0} = 8 := by
  obtain ⟨T, hT⟩ := c.exists_order
  exact card_killed hT (C46_montgomery_card c) (by decide) c.coprime

/-- Example: the point `(1, 0)` of order four is not in the subgroup of the base point. -/
example (c : Crv) : (EdPoint.four : c.Point) ∉ AddSubgroup.zmultiples c.base := by
  rw [C49_edwards_subgroup, ← addOrderOf_dvd_iff_nsmul_eq_zero]
  intro h
  have : Fact (Nat.Prime 2) := ⟨Nat.prime_two⟩
  have h4 : addOrderOf (EdPoint.four : c.Point) = 2 ^ 2 :=
    addOrderOf_eq_prime_pow EdPoint.four_order.2 EdPoint.four_order.1
  rw [h4] at h
  have h2 := (Nat.prime_dvd_prime_iff_eq Nat.prime_two (C39_order_prime c)).1
    ((dvd_pow_self 2 two_ne_zero).trans h)
  revert h2
  cases c <;> decide +kernel

end Verif

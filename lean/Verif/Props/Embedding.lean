import Verif.Props.Cyclic
import Mathlib.FieldTheory.Finite.Basic

/-!
# Property C50: embedding degrees

The subgroup of the base point is not anomalous, and its embedding degree (the least `k > 0` with
`ORDER ∣ p ^ k - 1`) exceeds `2 ^ 16`, so that pairings do not transfer the discrete logarithm to
a field of usable size.
-/

namespace Verif
open Verif.Prime

/-- `lo (lo + 1) … (lo + 2 ^ d - 1)`. -/
def prodFrom : Nat → Nat → Nat
  | 0, lo => lo
  | d + 1, lo => Nat.mul (prodFrom d lo) (prodFrom d (Nat.add lo (Nat.pow 2 d)))

theorem dvd_prodFrom {k : Nat} : ∀ (d lo : Nat), lo ≤ k → k < lo + 2 ^ d → k ∣ prodFrom d lo := by
  intro d
  induction d with
  | zero =>
    intro lo h1 h2
    have : k = lo := by omega
    exact this ▸ dvd_rfl
  | succ d ih =>
    intro lo h1 h2
    by_cases h : k < lo + 2 ^ d
    · exact (ih lo h1 h).mul_right _
    · refine (ih (lo + 2 ^ d) (not_lt.1 h) ?_).mul_left _
      rw [pow_succ] at h2
      omega

/-- The test: with `g` the part of `l - 1` made of numbers up to `2 ^ 16`, `p ^ g` is not one. -/
def embB (l p n : Nat) : Bool :=
  decide (powM l n p (Nat.gcd (l - 1) (prodFrom 16 1)) 1 % l ≠ 1) && decide (l < 2 ^ n) &&
  decide (p % l ≠ 0)

theorem not_dvd_of_embB {l p n : Nat} (hl : l.Prime) (h : embB l p n = true) {k : Nat}
    (h0 : 0 < k) (hk : k ≤ 2 ^ 16) : ¬ l ∣ p ^ k - 1 := by
  simp only [embB, Bool.and_eq_true, decide_eq_true_eq] at h
  obtain ⟨⟨h1, h2⟩, h3⟩ := h
  have : Fact l.Prime := ⟨hl⟩
  have hp0 : p ≠ 0 := by rintro rfl; exact h3 (Nat.zero_mod _)
  have hz : (p : ZMod l) ≠ 0 := by
    intro h
    rw [ZMod.natCast_eq_zero_iff] at h
    exact h3 (Nat.mod_eq_zero_of_dvd h)
  intro hd
  have e1 : (p : ZMod l) ^ k = 1 := by
    have h4 := (ZMod.natCast_eq_zero_iff (p ^ k - 1) l).2 hd
    rw [Nat.cast_sub (Nat.one_le_pow _ _ (Nat.pos_of_ne_zero hp0)), Nat.cast_pow, Nat.cast_one] at h4
    exact sub_eq_zero.1 h4
  have d1 := (orderOf_dvd_of_pow_eq_one e1).trans (dvd_prodFrom 16 1 h0 (by omega))
  have d2 := orderOf_dvd_of_pow_eq_one (ZMod.pow_card_sub_one_eq_one hz)
  have d3 := orderOf_dvd_iff_pow_eq_one.1 (Nat.dvd_gcd d2 d1)
  have hlt : Nat.gcd (l - 1) (prodFrom 16 1) < 2 ^ n := by
    refine lt_of_le_of_lt (Nat.gcd_le_left _ ?_) (lt_of_le_of_lt (Nat.sub_le _ _) h2)
    have := hl.two_le
    omega
  have hm := powM_modEq l n p _ 1 hlt
  rw [one_mul] at hm
  have e2 : p ^ Nat.gcd (l - 1) (prodFrom 16 1) ≡ 1 [MOD l] := by
    rw [← ZMod.natCast_eq_natCast_iff, Nat.cast_pow, d3, Nat.cast_one]
  exact h1 (Eq.trans (hm.trans e2) (Nat.mod_eq_of_lt hl.one_lt))

set_option maxRecDepth 100000

private theorem emb_ed : ([Crv.e222, .curve1174, .e382, .curve41417, .e521].all fun c =>
    embB (c.fld.V c.order).toNat c.fld.pN c.fld.n) = true := by
  decide +kernel

private theorem emb_mont : ([Mont.m221, .curve25519, .m383, .curve383187, .m511].all fun c =>
    embB (c.fld.V c.order).toNat c.fld.pN c.fld.n) = true := by
  decide +kernel

/-- The order of the base point is not the characteristic, and does not divide `p ^ k - 1` for any
`k` up to `2 ^ 16`. -/
theorem C50_edwards (c : Crv) :
    (c.fld.V c.order).toNat ≠ c.fld.pN ∧
    ∀ k, 0 < k → k ≤ 2 ^ 16 → ¬ (c.fld.V c.order).toNat ∣ c.fld.pN ^ k - 1 := by
  refine ⟨by cases c <;> decide +kernel, fun k h0 hk => ?_⟩
  refine not_dvd_of_embB (n := c.fld.n) (C39_order_prime c) ?_ h0 hk
  exact List.all_eq_true.1 emb_ed c (by cases c <;> simp)

/-- The same for the Montgomery curves. -/
theorem C50_montgomery (c : Mont) :
    (c.fld.V c.order).toNat ≠ c.fld.pN ∧
    ∀ k, 0 < k → k ≤ 2 ^ 16 → ¬ (c.fld.V c.order).toNat ∣ c.fld.pN ^ k - 1 := by
  refine ⟨by cases c <;> decide +kernel, fun k h0 hk => ?_⟩
  refine not_dvd_of_embB (n := c.fld.n) (C40_order_prime c) ?_ h0 hk
  exact List.all_eq_true.1 emb_mont c (by cases c <;> simp)

/-- Example: no subgroup of the multiplicative group of the field with `p ^ 2` elements has the order
of the base point. -/
example (c : Crv) : ¬ (c.fld.V c.order).toNat ∣ c.fld.pN ^ 2 - 1 :=
  (C50_edwards c).2 2 (by decide) (by decide)

end Verif

import Verif.Props.Power

/-!
# Property C45, first part: the value of `sqrt`

Square roots are not unique; `Fld.root` is the function on `ℤ / p` that `sqrt` implements, for
squares and non-squares.
-/

namespace Verif
open Fld FieldCode

/-- For `p ≡ 3 (mod 4)`, `x ^ ((p + 1) / 4)`.  For `p ≡ 5 (mod 8)`, with the square root
`i = 2 ^ ((p - 1) / 4)` of `-1` and `u = x ^ ((p + 3) / 8)`, the interpolation of `u` (at fourth
powers, where `x ^ ((p - 1) / 4) = 1`) and `i u` (at other squares, where it is `-1`). -/
noncomputable def Fld.root (f : Fld) (x : ZMod f.pN) : ZMod f.pN :=
  if f.Five then
    x ^ ((f.pN + 3) / 8) *
      (1 + (1 - 2 ^ ((f.pN - 1) / 4)) * 2⁻¹ * (x ^ ((f.pN - 1) / 4) - 1))
  else x ^ ((f.pN + 1) / 4)

variable (f : Fld) (pr : Profile)

theorem two_ne_zero_pN : (2 : ZMod f.pN) ≠ 0 := by
  intro h2
  have : ((2 : Nat) : ZMod f.pN) = 0 := by exact_mod_cast h2
  rw [ZMod.natCast_eq_zero_iff] at this
  exact absurd (Nat.le_of_dvd (by norm_num) this) (by have := f.pN_facts.1; omega)

set_option maxRecDepth 100000 in
/-- `COEFF + 1` is `2 ^ ((p - 1) / 4)`. -/
theorem coeff_eq (hf : f.Five) :
    ((f.optV f.code.COEFF : Int) : ZMod f.pN) + 1 = 2 ^ ((f.pN - 1) / 4) := by
  have h : ((Prime.powM f.pN f.n 2 ((f.pN - 1) / 4) 1 : Nat) : Int) =
      f.optV f.code.COEFF + 1 := by
    rcases hf with rfl | rfl | rfl | rfl <;> decide +kernel
  have h' := Prime.powM_modEq f.pN f.n 2 ((f.pN - 1) / 4) 1 (by
    clear h; cases f <;> decide +kernel)
  rw [one_mul, ← ZMod.natCast_eq_natCast_iff, ← Int.cast_natCast, h] at h'
  push_cast at h'
  exact h'

/-- Part of C45: what `sqrt` returns, for squares and non-squares.  Missing: what is missing in
`C18_sqrt_partial`. -/
theorem C45_value_partial {a : Elem} (ha : f.ChainArg f.code.sqrtC a) :
    ∃ r, f.code.sqrt pr a = .ok r ∧ f.Tight r ∧ f.lowB ≤ f.V r ∧
      ((f.V r : Int) : ZMod f.pN) = f.root (f.V a : Int) := by
  by_cases hf : f.Five
  · have hne : f ≠ .e222_117 ∧ f ≠ .e251_9 := by rcases hf with rfl | rfl | rfl | rfl <;> decide
    obtain ⟨r, h1, h2, h4, h5⟩ := chain_poly (o := some ((f.pN - 1) / 4)) (pos := false)
      (q := f.code.quarticLegendre pr) pr ha.1 (by simp) (by
        intro e he _ v hv hva
        cases he
        obtain ⟨r, g1, g2, g3⟩ := quartic_pow f pr hf hv
        exact ⟨r, g1, g2, g3.trans (hva.pow _)⟩) (sqrt5_sym f hf) (safe_of_ne hne.2 _ _ _ _)
    refine ⟨r, h1, h2, h5 rfl, ?_⟩
    obtain ⟨c1, -⟩ := sqrt5_consts f hf
    have c2 := coeff_eq f hf
    rw [← Int.dvd_iff_emod_eq_zero, dvd_iff] at c1
    rw [modEq_iff] at h4
    push_cast [polyVal] at *
    rw [h4, root, if_pos hf, ← c2, pow_add]
    have h2 := two_ne_zero_pN f
    field_simp
    generalize ((f.V a : Int) : ZMod f.pN) ^ ((f.pN - 1) / 4) = q
    generalize ((f.V a : Int) : ZMod f.pN) ^ ((f.pN + 3) / 8) = u
    linear_combination u * ((f.optV f.code.COEFF : Int) : ZMod f.pN) * (q - 1) * c1
  · obtain ⟨r, h1, h2, h4, h5⟩ := chain_poly' .debug ha.1 ha.2.1 (sqrt_sym f hf) ha.safe
    refine ⟨r, runChain_mono _ pr _ (fun _ _ h => by cases h) h1, h2, h5 rfl, ?_⟩
    rw [polyVal_single] at h4
    rw [modEq_iff] at h4
    push_cast at h4
    rw [h4, root, if_neg hf]

/-- The function is a square root on squares.  For `p ≡ 5 (mod 8)` it is `x ^ ((p + 3) / 8)` on
fourth powers and `2 ^ ((p - 1) / 4)` times as much on other squares. -/
theorem C45_root {x : ZMod f.pN} (hx : IsSquare x) :
    f.root x * f.root x = x ∧
    (f.Five → (∃ y, y ^ 4 = x) → f.root x = x ^ ((f.pN + 3) / 8)) ∧
    (f.Five → (¬ ∃ y, y ^ 4 = x) → f.root x = 2 ^ ((f.pN - 1) / 4) * x ^ ((f.pN + 3) / 8)) := by
  obtain ⟨hp, -, h5, h3⟩ := pN_facts f
  by_cases hf : f.Five
  · have h8 := h5 hf
    have c1 := (sqrt5_consts f hf).2
    rw [← Int.dvd_iff_emod_eq_zero, dvd_iff] at c1
    push_cast at c1
    rw [coeff_eq f hf] at c1
    have e1 : x ^ ((f.pN + 3) / 8) * x ^ ((f.pN + 3) / 8) = x * x ^ ((f.pN - 1) / 4) := by
      rw [← pow_add, ← pow_succ']; congr 1; omega
    have h2 := two_ne_zero_pN f
    have f4 : (∃ y, y ^ 4 = x) → f.root x = x ^ ((f.pN + 3) / 8) := by
      rintro ⟨y, rfl⟩
      rw [root, if_pos hf]
      by_cases hy : y = 0
      · subst hy
        rw [zero_pow (by norm_num), zero_pow (by omega), zero_mul]
      · rw [← pow_mul y 4 ((f.pN - 1) / 4), show 4 * ((f.pN - 1) / 4) = f.pN - 1 by omega,
          ZMod.pow_card_sub_one_eq_one hy]
        ring
    have n4 : (¬ ∃ y, y ^ 4 = x) →
        x ^ ((f.pN - 1) / 4) = -1 ∧
        f.root x = 2 ^ ((f.pN - 1) / 4) * x ^ ((f.pN + 3) / 8) := by
      intro hn
      obtain ⟨y, rfl⟩ := hx
      have hy : y ≠ 0 := by rintro rfl; exact hn ⟨0, by simp⟩
      have hq : (y * y) ^ ((f.pN - 1) / 4) = -1 := by
        rw [← pow_two, ← pow_mul, show 2 * ((f.pN - 1) / 4) = f.pN / 2 by omega]
        refine (ZMod.pow_div_two_eq_neg_one_or_one _ hy).resolve_left fun e => hn ?_
        obtain ⟨z, hz⟩ := (ZMod.euler_criterion _ hy).mpr e
        exact ⟨z, by rw [hz]; ring⟩
      refine ⟨hq, ?_⟩
      rw [root, if_pos hf, hq]
      field_simp
      ring
    refine ⟨?_, fun _ => f4, fun _ h => (n4 h).2⟩
    by_cases h : ∃ y, y ^ 4 = x
    · rw [f4 h, e1]
      obtain ⟨y, rfl⟩ := h
      by_cases hy : y = 0
      · subst hy; simp
      · rw [← pow_mul y 4 ((f.pN - 1) / 4), show 4 * ((f.pN - 1) / 4) = f.pN - 1 by omega,
          ZMod.pow_card_sub_one_eq_one hy, mul_one]
    · obtain ⟨h6, h7⟩ := n4 h
      rw [h6] at e1
      rw [h7]
      linear_combination (2 ^ ((f.pN - 1) / 4)) ^ 2 * e1 - x * c1
  · have h8 := h3 hf
    refine ⟨?_, fun h => absurd h hf, fun h => absurd h hf⟩
    rw [root, if_neg hf]
    obtain ⟨y, rfl⟩ := hx
    by_cases hy : y = 0
    · rw [hy, mul_zero, zero_pow (by omega), mul_zero]
    · have e := ZMod.pow_card_sub_one_eq_one hy
      rw [← pow_add, ← pow_two, ← pow_mul,
        show 2 * ((f.pN + 1) / 4 + (f.pN + 1) / 4) = f.pN - 1 + 2 by omega,
        pow_add, e, one_mul]

/-- In seven types there is no condition on the operand. -/
example (hf : f ≠ .e222_117 ∧ f ≠ .e251_9) {a : Elem} (ha : f.Tight a) :
    f.ChainArg f.code.sqrtC a := ChainArg.of_tight hf ha

end Verif

import Verif.Props.Ring
import Verif.Field.SmallMul521

/-!
# C07 for `Mod_e521_1`

`small_mul_assign` of `Mod_e521_1` uses the carries out of words 5, 6, 7 where those out of
6, 7, 8 are due (`/repo/src/field/mod_e521_1.rs`, `c6`, `c7`, `c8`).  The result is right
exactly when that makes no difference.
-/

namespace Verif
variable (pr : Profile)

/-- The carry out of 54-bit word `i` in the schoolbook multiplication of `x` by `b`, where the
upper 27-bit half of each word is multiplied separately and its own upper part is handed to the
next word without being counted as carry. -/
def wordCarry (x b : Int) (i : Nat) : Int :=
  (b * (x % 2 ^ (54 * (i + 1)))) / 2 ^ (54 * (i + 1)) -
    (b * (x % 2 ^ (54 * (i + 1)) / 2 ^ (54 * i + 27))) / 2 ^ 27

theorem sum_bound {q c5 c6 c7 c8 : Int} (hq : -2 ^ 63 ≤ q ∧ q ≤ 2 ^ 63)
    (k5 : -64 ≤ c5 ∧ c5 ≤ 64) (k6 : -64 ≤ c6 ∧ c6 ≤ 64) (k7 : -64 ≤ c7 ∧ c7 ≤ 64)
    (k8 : -64 ≤ c8 ∧ c8 ≤ 64) :
    -2 ^ 520 < q + 2 ^ 378 * (c5 - c6) + 2 ^ 432 * (c6 - c7) + 2 ^ 486 * (c7 - c8) ∧
    q + 2 ^ 378 * (c5 - c6) + 2 ^ 432 * (c6 - c7) + 2 ^ 486 * (c7 - c8) < 2 ^ 520 := by
  omega

theorem small_of_dvd {s : Int} (hd : 2 ^ 521 - 1 ∣ s) (hs : -2 ^ 520 < s ∧ s < 2 ^ 520) :
    s = 0 := by
  have h : (2 : Int) ^ 521 = 2 * 2 ^ 520 := by rw [← pow_succ']
  have h0 : (1 : Int) ≤ 2 ^ 520 := one_le_pow₀ (by norm_num)
  rw [h] at hd
  generalize (2 : Int) ^ 520 = N at *
  exact Int.eq_zero_of_abs_lt_dvd hd (by rw [abs_lt]; constructor <;> omega)

theorem sum_zero {q c5 c6 c7 c8 : Int} (hq : -2 ^ 63 ≤ q ∧ q ≤ 2 ^ 63)
    (k5 : -64 ≤ c5 ∧ c5 ≤ 64) (k6 : -64 ≤ c6 ∧ c6 ≤ 64) (k7 : -64 ≤ c7 ∧ c7 ≤ 64)
    (_k8 : -64 ≤ c8 ∧ c8 ≤ 64)
    (h : q + 2 ^ 378 * (c5 - c6) + 2 ^ 432 * (c6 - c7) + 2 ^ 486 * (c7 - c8) = 0) :
    q = 0 ∧ c5 = c6 ∧ c6 = c7 ∧ c7 = c8 := by
  obtain ⟨m, hm⟩ : ∃ m, m = (c6 - c7) + 2 ^ 54 * (c7 - c8) := ⟨_, rfl⟩
  obtain ⟨k, hk⟩ : ∃ k, k = (c5 - c6) + 2 ^ 54 * m := ⟨_, rfl⟩
  have h' : q + 2 ^ 378 * k = 0 := by
    rw [show 432 = 378 + 54 from rfl, show 486 = 378 + 108 from rfl, pow_add, pow_add] at h
    generalize (2 : Int) ^ 378 = N at *
    rw [hk, hm]; linear_combination h
  clear h
  have k0 : k = 0 := by omega
  have m0 : m = 0 := by omega
  omega

/-- `Mod_e521_1`, integers up to `2 ^ 26`: `a * n` is right exactly when `a` has no carry and the
carries out of the words 5, 6, 7 and 8 are the same. -/
theorem C07_small_mul_e521_correct_iff {a : Elem} {b : Int} (ha : Fld.e521_1.Tight a)
    (hb : -2 ^ 26 ≤ b ∧ b ≤ 2 ^ 26) :
    ∃ r, Fld.e521_1.code.smallMul pr a b = .ok r ∧ Fld.e521_1.Rep r ∧
      (Fld.e521_1.Denotes r (Fld.e521_1.V a * b) ↔
        (0 ≤ Fld.e521_1.V a ∧ Fld.e521_1.V a < 2 ^ 521) ∧
        wordCarry (Fld.e521_1.V a) b 5 = wordCarry (Fld.e521_1.V a) b 6 ∧
        wordCarry (Fld.e521_1.V a) b 6 = wordCarry (Fld.e521_1.V a) b 7 ∧
        wordCarry (Fld.e521_1.V a) b 7 = wordCarry (Fld.e521_1.V a) b 8) := by
  obtain ⟨r, c5, c6, c7, c8, h1, h2, k5, k6, k7, k8, h3, h5, h6, h7, h8⟩ :=
    Fld.smallMul521 pr ha hb
  refine ⟨r, h1, h2, ?_⟩
  have hcar : -2 ^ 63 ≤ Fld.e521_1.V a / 2 ^ 521 ∧ Fld.e521_1.V a / 2 ^ 521 ≤ 2 ^ 63 :=
    Fld.Rep.carry (Fld.Tight.rep ha)
  have e0 : Fld.e521_1.V a / 2 ^ 521 = 0 ↔ 0 ≤ Fld.e521_1.V a ∧ Fld.e521_1.V a < 2 ^ 521 := by
    rw [Int.ediv_eq_iff_of_pos (by positivity), zero_mul, zero_add]
  have hw : ∀ i, Fld.mulCarry (Fld.e521_1.V a) b 0 i = wordCarry (Fld.e521_1.V a) b i := by
    intro i; simp only [Fld.mulCarry, wordCarry, add_zero]
  rw [← e0]
  generalize hq : Fld.e521_1.V a / 2 ^ 521 = q at *
  have hd : Fld.e521_1.Denotes r (Fld.e521_1.V a * b) ↔
      q + 2 ^ 378 * (c5 - c6) + 2 ^ 432 * (c6 - c7) + 2 ^ 486 * (c7 - c8) = 0 := by
    have hr : Fld.e521_1.V r = Fld.e521_1.V a * b +
        (q + 2 ^ 378 * (c5 - c6) + 2 ^ 432 * (c6 - c7) + 2 ^ 486 * (c7 - c8)) := by
      rw [h3]; ring
    rw [Fld.Denotes, hr]
    have hp : Fld.e521_1.p = 2 ^ 521 - 1 := by decide +kernel
    constructor
    · intro h
      have hd := h.symm.dvd
      rw [add_sub_cancel_left, hp] at hd
      generalize e : q + 2 ^ 378 * (c5 - c6) + 2 ^ 432 * (c6 - c7) + 2 ^ 486 * (c7 - c8) = s at *
      have hs : -2 ^ 520 < s ∧ s < 2 ^ 520 := by
        rw [← e]; exact sum_bound hcar k5 k6 k7 k8
      exact small_of_dvd hd hs
    · intro h
      rw [h, add_zero]
  rw [hd]
  constructor
  · intro h
    have := sum_zero hcar k5 k6 k7 k8 h
    obtain ⟨rfl, rfl, rfl, rfl⟩ := this
    simp only [sub_self, mul_zero, add_zero, hw] at h5 h6 h7 h8
    exact ⟨rfl, h5.symm.trans h6, h6.symm.trans h7, h7.symm.trans h8⟩
  · rintro ⟨rfl, w1, w2, w3⟩
    rw [hw] at h5 h6
    have e1 : c5 = c6 := by rw [h5, h6, w1]
    rw [e1, sub_self, mul_zero, add_zero, hw] at h7
    have e2 : c6 = c7 := by rw [h6, h7, w2]
    rw [e1, e2, sub_self, mul_zero, mul_zero, add_zero, add_zero, hw] at h8
    have e3 : c7 = c8 := by rw [h7, h8, w3]
    rw [e1, e2, e3]
    norm_num

/-- Small factors times elements whose words 5–8 are small are right. -/
example : wordCarry 123456789 12345 5 = 0 ∧ wordCarry 123456789 12345 8 = 0 := by decide +kernel

/-- The carries of the counterexample `C07_counterexample_e521`. -/
example : wordCarry (12009599095799807 * 2 ^ 378) 3 6 = 0 ∧
    wordCarry (12009599095799807 * 2 ^ 378) 3 7 = 1 := by decide +kernel

/-- Doubling an element without a carry is right in all nine types. -/
theorem C07_small_mul_two (f : Fld) {a : Elem} (ha : f.Tight a) (h : 0 ≤ f.V a ∧ f.V a < 2 ^ f.n) :
    ∃ r, f.code.smallMul pr a 2 = .ok r ∧ f.Tight r ∧ f.V r = 2 * f.V a :=
  Fld.smallMul_two f pr ha h

end Verif

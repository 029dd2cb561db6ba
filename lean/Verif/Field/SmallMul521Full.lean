import Verif.Field.SmallMulWrap

/-!
# `small_mul_assign` of `Mod_e521_1` by any `i32` (helper lemmas)
-/

namespace Verif
open Check

namespace Fld

def q521Prog : Prog := viaSlot e521_1.smP2 e521_1.smD e521_1.smRest e521_1.smS 9

def q521Mid : List (Nat × Int × Int) := e521_1.smMid (-p2 35 - 1) (p2 36 + 1) (-p2 31) (p2 31)

/-- All but the product of the upper digit of the top word. -/
def q521CheckC : Bool :=
  check 0 128 149 q521Prog q521Mid
    (vform 54 0 10 1 ++ e521Comp 9)
    (outer 27 148 1 128 19 1 ++ [(9, .fl 35, 1)])
    (rng 0 e521_1.repR ++ [(180, -p2 60, p2 60), (182, -p2 60, p2 60), (184, -p2 60, p2 60),
      (186, -p2 60, p2 60)])

/-- The words up to `i`. -/
def q521CheckP (i : Nat) : Bool :=
  check 0 128 149 q521Prog q521Mid
    (vform 54 0 (i + 1) 1 ++ ((170 + 2 * i, Kind.fl 54, p2 (54 * (i + 1))) ::
      (150 + 2 * i, Kind.fl 27, p2 (54 * (i + 1))) :: e521Comp i))
    (outer 27 148 1 128 (2 * i + 2) 1 ++ [(9, .fl 35, 1)]) []

/-- The odd products. -/
def q521CheckM (i : Nat) : Bool :=
  check 0 128 149 q521Prog q521Mid [(150 + 2 * i, .fl 0, 1)] [(129 + 2 * i, .pd 148, 1)] []

set_option maxRecDepth 100000 in
theorem q521Checks : q521CheckC = true ∧
    (q521CheckP 5 = true ∧ q521CheckP 6 = true ∧ q521CheckP 7 = true ∧ q521CheckP 8 = true) ∧
    (q521CheckM 5 = true ∧ q521CheckM 6 = true ∧ q521CheckM 7 = true ∧ q521CheckM 8 = true) := by
  decide +kernel

/-- The value before the top word is reduced to 64 bits. -/
theorem smallMul521_wrap {a : Elem} {b : Int} (ha : e521_1.Tight a)
    (hb : -2 ^ 31 ≤ b ∧ b ≤ 2 ^ 31) :
    ∃ r U c5 c6 c7 c8, e521_1.code.smallMulAssign .release a b = .ok r ∧
      (e521_1.code.smallMulAssign .debug a b = .ok r ∨
        e521_1.code.smallMulAssign .debug a b = .error .overflow) ∧ e521_1.Rep r ∧
      e521_1.V r = U - 2 ^ 550 * ((U / 2 ^ 486 + 2 ^ 63) / 2 ^ 64) ∧
      (0 ≤ e521_1.V a ∧ e521_1.V a < 2 ^ 521 → -2 ^ 549 ≤ U →
        U < 2 ^ 549 → e521_1.code.smallMulAssign .debug a b = .ok r) ∧
      (-64 ≤ c5 ∧ c5 ≤ 64) ∧ (-64 ≤ c6 ∧ c6 ≤ 64) ∧ (-64 ≤ c7 ∧ c7 ≤ 64) ∧ (-64 ≤ c8 ∧ c8 ≤ 64) ∧
      U = e521_1.V a * b + e521_1.V a / 2 ^ 521 + 2 ^ 378 * (c5 - c6) +
        2 ^ 432 * (c6 - c7) + 2 ^ 486 * (c7 - c8) ∧
      c5 = mulCarry (e521_1.V a) b (e521_1.V a / 2 ^ 521) 5 ∧
      c6 = mulCarry (e521_1.V a) b (e521_1.V a / 2 ^ 521) 6 ∧
      c7 = mulCarry (e521_1.V a) b (e521_1.V a / 2 ^ 521 + 2 ^ 378 * (c5 - c6)) 7 ∧
      c8 = mulCarry (e521_1.V a) b (e521_1.V a / 2 ^ 521 + 2 ^ 378 * (c5 - c6) +
        2 ^ 432 * (c6 - c7)) 8 := by
  obtain ⟨hC, ⟨hP5, hP6, hP7, hP8⟩, hM5, hM6, hM7, hM8⟩ := q521Checks
  obtain ⟨ρ, h1, h2', e1, e2, htop⟩ := sm_phase1 (f := e521_1) rfl ha hb
  have e1 : digitsVal 27 (readSlots ρ 128 20) = e521_1.V a := e1
  have e2 : envF ρ 148 = b := e2
  have htop : envF ρ 9 / 2 ^ 35 = e521_1.V a / 2 ^ 521 := htop
  have h2 : ∀ x ∈ q521Mid, ∃ v, ρ.get x.1 = some v ∧ x.2.1 ≤ v ∧ v ≤ x.2.2 := h2'
  have hd : ∀ j < 19, 0 ≤ envF ρ (128 + j) ∧ envF ρ (128 + j) < 2 ^ 27 := by
    intro j hj
    have : ∀ j < 19, (128 + j, (0 : Int), p2 27 - 1) ∈
        q521Mid := by decide +kernel
    have := this j hj
    obtain ⟨v, h5, h6, h7⟩ := h2 _ this
    rw [envF, h5]
    rw [p2_eq] at h7
    exact ⟨h6, Int.lt_of_le_sub_one h7⟩
  obtain ⟨ρ', h4, h5, h6⟩ := check_sound hC .debug ρ h2
  have hrep : e521_1.Rep (readSlots ρ' 0 10) := by
    have := readSlots_inRs (ρ := ρ') e521_1.repR 0 fun x hx => h5 x (List.mem_append_left _ hx)
    rw [repR, shapeR_length] at this
    have := shape_of_inRs this
    norm_num [Rep]
    exact this
  -- the output words
  have hw : ∀ j < 9, 0 ≤ envF ρ' j ∧ envF ρ' j < 2 ^ 54 := by
    intro j hj
    have : ∀ j < 9, (j, (0 : Int), p2 54 - 1) ∈ rng 0 e521_1.repR := by decide +kernel
    have := this j hj
    obtain ⟨v, h5, h6, h7⟩ := h5 _ (List.mem_append_left _ this)
    rw [envF, h5]
    rw [p2_eq] at h7
    exact ⟨h6, Int.lt_of_le_sub_one h7⟩
  have hout : ∀ i < 9, 0 ≤ digitsVal 54 (readSlots ρ' 0 (i + 1)) ∧
      digitsVal 54 (readSlots ρ' 0 (i + 1)) < 2 ^ (54 * (i + 1)) := by
    intro i hi
    have hr : ∀ y ∈ readSlots ρ' 0 (i + 1), 0 ≤ y ∧ y < 2 ^ 54 := by
      intro y hy
      obtain ⟨j, h1, rfl⟩ := mem_readSlots ρ' _ 0 y hy
      rw [Nat.zero_add]
      exact hw j (by omega)
    have := digitsVal_lt 54 _ hr
    rw [readSlots_length] at this
    exact ⟨digitsVal_nonneg 54 _ hr, this⟩
  have hbd : ∀ s, (s, -p2 60, p2 60) ∈ [(180, -p2 60, p2 60), (182, -p2 60, p2 60),
      (184, -p2 60, p2 60), (186, -p2 60, p2 60)] →
      -64 ≤ envF ρ' s / 2 ^ 54 ∧ envF ρ' s / 2 ^ 54 ≤ 64 := by
    intro s hs
    obtain ⟨v, h5, h6, h7⟩ := h5 _ (List.mem_append_right _ hs)
    rw [envF, h5]
    rw [p2_eq] at h6 h7
    simp only [Option.getD]
    constructor
    · rw [Int.le_ediv_iff_mul_le (by positivity)]; norm_num; norm_num at h6; omega
    · have : v / 2 ^ 54 < 65 := by
        rw [Int.ediv_lt_iff_lt_mul (by positivity)]; norm_num; norm_num at h7; omega
      omega
  -- products of digits
  have hm : ∀ i < 9, q521CheckM i = true →
      envF ρ' (150 + 2 * i) = b * (e521_1.V a % 2 ^ (54 * (i + 1)) / 2 ^ (54 * i + 27)) := by
    intro i hi hM
    obtain ⟨ρ3, h7, -, h8⟩ := check_sound hM .debug ρ h2
    rw [show runProg .debug q521Prog ρ = _ from h4] at h7
    cases h7
    have e3 := Int.zero_dvd.mp h8
    simp only [EForm.val, kv, pow_zero, Int.ediv_one, one_mul, add_zero] at e3
    rw [if_pos (by omega), e2, (low_digits hd hi e1).2] at e3
    linarith
  have e2' : digitsVal 27 (readSlots ρ 148 1) = b := by
    simp only [readSlots, digitsVal, mul_zero, add_zero]; exact e2
  have hp : ∀ i < 9, q521CheckM i = true → ∀ e : Int,
      digitsVal 54 (readSlots ρ' 0 (i + 1)) + 2 ^ (54 * (i + 1)) * (envF ρ' (170 + 2 * i) / 2 ^ 54) +
        2 ^ (54 * (i + 1)) * (envF ρ' (150 + 2 * i) / 2 ^ 27) =
        b * digitsVal 27 (readSlots ρ 128 (2 * i + 2)) + e →
      envF ρ' (170 + 2 * i) / 2 ^ 54 = mulCarry (e521_1.V a) b e i := by
    intro i hi hM e h
    rw [(low_digits hd hi e1).1] at h
    exact carry_eq (hout i hi).1 (hout i hi).2 h (by rw [hm i hi hM])
  have hq : ∀ i < 9, q521CheckP i = true →
      digitsVal 54 (readSlots ρ' 0 (i + 1)) + 2 ^ (54 * (i + 1)) * (envF ρ' (170 + 2 * i) / 2 ^ 54) +
        2 ^ (54 * (i + 1)) * (envF ρ' (150 + 2 * i) / 2 ^ 27) =
        b * digitsVal 27 (readSlots ρ 128 (2 * i + 2)) + (e521_1.V a / 2 ^ 521 -
          (e521Comp i).val 128 149 (envF ρ')) := by
    intro i hi hP
    obtain ⟨ρ3, h7, -, h8⟩ := check_sound hP .debug ρ h2
    rw [show runProg .debug q521Prog ρ = _ from h4] at h7
    cases h7
    have e3 := Int.zero_dvd.mp h8
    rw [EForm.val_append, vform_val, one_mul, EForm.val_append,
      outer_val _ _ _ _ _ _ (by omega) (by omega) _ _ _ (by omega) (by omega), one_mul, e2'] at e3
    simp only [EForm.val, kv, htop, p2_eq] at e3
    linear_combination e3
  have hV : e521_1.V (readSlots ρ' 0 10) = digitsVal 54 (readSlots ρ' 0 10) := rfl
  have hsplit : e521_1.V a = digitsVal 27 (readSlots ρ 128 19) + 2 ^ 513 * envF ρ 147 := by
    rw [← e1, show (20 : Nat) = 19 + 1 from rfl, readSlots_append, digitsVal_append,
      readSlots_length]
    simp only [readSlots, digitsVal, mul_zero, add_zero, envF]
  obtain ⟨U, hU⟩ : ∃ U, U = e521_1.V (readSlots ρ' 0 10) +
      2 ^ 513 * (envF ρ 147 * envF ρ 148) := ⟨_, rfl⟩
  obtain ⟨r, g1, g2, g3, g4, g5⟩ := smallMul_swap (f := e521_1) rfl ha hb h1 h2' h4 hrep (U := U) hU
  refine ⟨r, U, envF ρ' 180 / 2 ^ 54, envF ρ' 182 / 2 ^ 54, envF ρ' 184 / 2 ^ 54,
    envF ρ' 186 / 2 ^ 54, g1, g2, g3, g4, g5, hbd _ (by simp), hbd _ (by simp), hbd _ (by simp),
    hbd _ (by simp), ?_, ?_, ?_, ?_, ?_⟩
  · have h6 := Int.zero_dvd.mp h6
    rw [EForm.val_append, vform_val, one_mul, EForm.val_append,
      outer_val _ _ _ _ _ _ (by omega) (by omega) _ _ _ (by omega) (by omega), one_mul,
      e2'] at h6
    simp only [e521Comp, EForm.val, kv, htop, p2_eq] at h6
    rw [hU, hV, e2]
    generalize e521_1.V a / 2 ^ 521 = q at *
    rw [hsplit]
    linear_combination h6
  · refine hp 5 (by norm_num) hM5 _ ((hq 5 (by norm_num) hP5).trans ?_)
    simp only [e521Comp, EForm.val, sub_zero]
  · refine hp 6 (by norm_num) hM6 _ ((hq 6 (by norm_num) hP6).trans ?_)
    simp only [e521Comp, EForm.val, sub_zero]
  · refine hp 7 (by norm_num) hM7 _ ((hq 7 (by norm_num) hP7).trans ?_)
    simp only [e521Comp, EForm.val, kv, p2_eq]
    ring
  · refine hp 8 (by norm_num) hM8 _ ((hq 8 (by norm_num) hP8).trans ?_)
    simp only [e521Comp, EForm.val, kv, p2_eq]
    ring


end Fld
end Verif

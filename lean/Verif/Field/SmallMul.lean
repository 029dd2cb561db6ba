import Verif.Field.Mul

/-!
# Multiplication by a machine integer: exact results (helper lemmas)
-/

namespace Verif
open Check

namespace Fld
variable {f : Fld}

/-- Largest `e` such that `small_mul` by `|b| ≤ 2 ^ e` stays within 64 bits for every
`Tight` element. -/
def smE : Fld → Nat
  | e221_3 => 14 | e222_117 => 13 | e251_9 => 31 | e255_19 => 30 | e382_105 => 15
  | e383_187 => 14 | e414_17 => 31 | e511_187 => 31 | e521_1 => 0

/-- The same for elements with values in `[0, 2 ^ n)`. -/
def smE' : Fld → Nat
  | e221_3 => 15 | e222_117 => 14 | e251_9 => 31 | e255_19 => 31 | e382_105 => 16
  | e383_187 => 15 | e414_17 => 31 | e511_187 => 31 | e521_1 => 0

def smTight (f : Fld) : Bool :=
  let lo := -p2 f.tb - 1
  let hi := p2 (f.tb + 1) + f.c
  f.smCheckA lo hi (p2 f.smE) && f.smCheckB lo hi (p2 f.smE) && f.smCheckC lo hi (p2 f.smE)
    && f.smCheckT lo hi (p2 f.smE)

def smCanon (f : Fld) : Bool :=
  let lo := 0
  let hi := p2 f.tb - 1
  f.smCheckA lo hi (p2 f.smE') && f.smCheckB lo hi (p2 f.smE') && f.smCheckC lo hi (p2 f.smE')
    && f.smCheckT lo hi (p2 f.smE')

set_option maxRecDepth 100000 in
theorem smTight_ok (f : Fld) (hf : f ≠ e521_1) : f.smTight = true := by
  cases f <;> first | exact absurd rfl hf | decide +kernel

set_option maxRecDepth 100000 in
theorem smCanon_ok (f : Fld) (hf : f ≠ e521_1) : f.smCanon = true := by
  cases f <;> first | exact absurd rfl hf | decide +kernel

theorem smallMul_of_checks {lo hi B : Int} (hA : f.smCheckA lo hi B = true)
    (hB : f.smCheckB lo hi B = true) (hC : f.smCheckC lo hi B = true)
    (hT : f.smCheckT lo hi B = true) (pr : Profile) {a : Elem}
    {b : Int} (ha : f.Shape lo hi a) (hb : -B ≤ b ∧ b ≤ B) :
    ∃ r, f.code.smallMulAssign pr a b = .ok r ∧ f.Rep r ∧
      f.V r = f.V a * b + f.c * (f.V a / 2 ^ f.n) := by
  have hb' : InRs [(-B, B)] [b] := .cons hb .nil
  have la := Shape.length_le ha
  obtain ⟨ρ, h1, h2, h3⟩ := run_check hA pr ha.inRs hb' la (by simp)
  obtain ⟨ρ1, h1', -, h3'⟩ := run_check hB pr ha.inRs hb' la (by simp)
  rw [h1] at h1'
  cases h1'
  have e1 := Int.zero_dvd.mp h3
  have e2 := Int.zero_dvd.mp h3'
  simp only [vform_val, one_mul, Shape.read_self ha] at e1 e2
  have earg : readSlots (initEnv a [b]) 16 1 = [b] := readSlots_arg a [b] (by simp)
  rw [earg] at e2
  obtain ⟨ρ', h4, h5, h6⟩ := check_sound hC pr ρ h2
  have hrun : runProg pr f.code.smallMulP (initEnv a [b]) = .ok ρ' := by
    rw [← List.take_append_drop (f.nd + 1) f.code.smallMulP, runProg_append, h1]
    exact h4
  have htop : envF ρ (f.k - 1) / 2 ^ f.tb = f.V a / 2 ^ f.n := by
    obtain ⟨ρ2, h7, -, h8⟩ := run_check hT pr ha.inRs hb' la (by simp)
    rw [h1] at h7
    cases h7
    have e3 := Int.zero_dvd.mp h8
    simp only [EForm.val, kv, pow_zero, Int.ediv_one, one_mul, add_zero] at e3
    rw [sub_eq_zero.mp e3, Shape.slot_self ha]
  refine ⟨readSlots ρ' 0 f.k, ?_, ?_, ?_⟩
  · simp [FieldCode.smallMulAssign, FieldCode.runLimb, hrun, limbs_eq, bind, Except.bind, pure,
      Except.pure]
  · have := readSlots_inRs _ _ h5
    rw [repR, shapeR_length] at this
    have := shape_of_inRs this
    norm_num [Rep]
    exact this
  · have h6 := Int.zero_dvd.mp h6
    rw [EForm.val_append, vform_val, one_mul,
      outer_val _ _ _ _ _ _ (by omega) (by omega) _ _ _ (by omega) (by omega), one_mul,
      sub_eq_zero.mp e1, sub_eq_zero.mp e2] at h6
    simp only [EForm.val, kv, htop, digitsVal] at h6
    simp only [V]
    simp only [V] at h6
    linarith

theorem smallMul_tight (hf : f ≠ e521_1) (pr : Profile) {a : Elem} {b : Int} (ha : f.Tight a)
    (hb : -2 ^ f.smE ≤ b ∧ b ≤ 2 ^ f.smE) :
    ∃ r, f.code.smallMulAssign pr a b = .ok r ∧ f.Rep r ∧
      f.V r = f.V a * b + f.c * (f.V a / 2 ^ f.n) := by
  have h := smTight_ok f hf
  simp only [smTight, Bool.and_eq_true, p2_eq] at h
  exact smallMul_of_checks h.1.1.1 h.1.1.2 h.1.2 h.2 pr ha hb

theorem smallMul_canon (hf : f ≠ e521_1) (pr : Profile) {a : Elem} {b : Int}
    (ha : f.Shape 0 (2 ^ f.tb - 1) a) (hb : -2 ^ f.smE' ≤ b ∧ b ≤ 2 ^ f.smE') :
    ∃ r, f.code.smallMulAssign pr a b = .ok r ∧ f.Rep r ∧ f.V r = f.V a * b := by
  have h := smCanon_ok f hf
  simp only [smCanon, Bool.and_eq_true, p2_eq] at h
  obtain ⟨r, h1, h2, h3⟩ := smallMul_of_checks h.1.1.1 h.1.1.2 h.1.2 h.2 pr ha hb
  refine ⟨r, h1, h2, ?_⟩
  have hlo := ha.lo_le
  have hhi := ha.lt_hi
  rw [mul_zero] at hlo
  rw [sub_add_cancel, ← pow_n] at hhi
  rw [h3, Int.ediv_eq_zero_of_lt hlo hhi, mul_zero, add_zero]

end Fld
end Verif

import Verif.Field.Basic

/-!
# Addition and subtraction: exact integer results (helper lemmas)

`decide +kernel` runs the verified checker on the parsed code of each field; the
lemmas below turn the checker's verdict into statements about all inputs.
-/

namespace Verif
open Check

namespace Fld
variable {f : Fld}

theorem run_limb {m : Int} {w0 w1 : Nat} {P : Prog} {ra rb : List (Int × Int)} {pre : EForm}
    {lo hi : Int}
    (h : check m w0 w1 P (rng 0 ra ++ rng 16 rb) (vform f.L 0 f.k 1) pre
      (rng 0 (f.shapeR lo hi)) = true)
    (pr : Profile) {a b : List Int} (ha : InRs ra a) (hb : InRs rb b)
    (la : a.length ≤ 16) (lb : b.length ≤ 112) :
    ∃ r, f.code.runLimb pr P a b = .ok r ∧ f.Shape lo hi r ∧
      m ∣ f.V r - pre.val w0 w1 (envF (initEnv a b)) := by
  obtain ⟨ρ', hrun, hout, hdv⟩ := run_check h pr ha hb la lb
  refine ⟨readSlots ρ' 0 f.k, ?_, ?_, ?_⟩
  · simp [FieldCode.runLimb, hrun, limbs_eq, bind, Except.bind, pure, Except.pure]
  · have := readSlots_inRs _ _ hout
    rw [shapeR_length] at this
    exact shape_of_inRs this
  · rw [vform_val, one_mul] at hdv
    exact hdv

/-- Intervals of an arbitrary representation. -/
def repR (f : Fld) : List (Int × Int) := f.shapeR (-9223372036854775808) 9223372036854775807

theorem Rep.inRs {a : Elem} (h : f.Rep a) : InRs f.repR a := by
  have := Shape.inRs h
  norm_num at this
  exact this

/-- Checker run for `+`. -/
def addCheck (f : Fld) : Bool :=
  check 0 0 0 f.code.addP (rng 0 f.repR ++ rng 16 f.repR) (vform f.L 0 f.k 1)
    (vform f.L 0 f.k 1 ++ vform f.L 16 f.k 1 ++
      [(f.k - 1, .fl f.tb, -f.pK), (16 + (f.k - 1), .fl f.tb, -f.pK)])
    (rng 0 (f.shapeR (-1) (p2 (f.tb + 1))))

/-- Checker run for `-`. -/
def subCheck (f : Fld) : Bool :=
  check 0 0 0 f.code.subP (rng 0 f.repR ++ rng 16 f.repR) (vform f.L 0 f.k 1)
    (vform f.L 0 f.k 1 ++ vform f.L 16 f.k (-1) ++
      [(f.k - 1, .fl f.tb, -f.pK), (16 + (f.k - 1), .fl f.tb, p2 f.n + f.c)])
    (rng 0 (f.shapeR (-p2 f.tb - 1) (p2 f.tb)))

/-- Checker run for `+ n`. -/
def smallAddCheck (f : Fld) : Bool :=
  check 0 0 0 f.code.smallAddP (rng 0 f.repR ++ rng 16 [(-2147483648, 2147483647)])
    (vform f.L 0 f.k 1)
    (vform f.L 0 f.k 1 ++ [(16, .fl 0, 1), (f.k - 1, .fl f.tb, -f.pK)])
    (rng 0 (f.shapeR (-1) (p2 f.tb)))

/-- Checker run for `- n`. -/
def smallSubCheck (f : Fld) : Bool :=
  check 0 0 0 f.code.smallSubP (rng 0 f.repR ++ rng 16 [(-2147483648, 2147483647)])
    (vform f.L 0 f.k 1)
    (vform f.L 0 f.k 1 ++ [(16, .fl 0, -1), (f.k - 1, .fl f.tb, -f.pK)])
    (rng 0 (f.shapeR (-1) (p2 f.tb)))

set_option maxRecDepth 100000 in
theorem addCheck_ok (f : Fld) : f.addCheck = true := by cases f <;> decide +kernel

set_option maxRecDepth 100000 in
theorem subCheck_ok (f : Fld) : f.subCheck = true := by cases f <;> decide +kernel

set_option maxRecDepth 100000 in
theorem smallAddCheck_ok (f : Fld) : f.smallAddCheck = true := by cases f <;> decide +kernel

set_option maxRecDepth 100000 in
theorem smallSubCheck_ok (f : Fld) : f.smallSubCheck = true := by cases f <;> decide +kernel

theorem add_exact (pr : Profile) {a b : Elem} (ha : f.Rep a) (hb : f.Rep b) :
    ∃ r, f.code.addAssign pr a b = .ok r ∧ f.Shape (-1) (2 ^ (f.tb + 1)) r ∧
      f.V r = f.V a + f.V b - f.p * (f.V a / 2 ^ f.n) - f.p * (f.V b / 2 ^ f.n) := by
  obtain ⟨r, h1, h2, h3⟩ := run_limb (addCheck_ok f) pr ha.inRs hb.inRs (Shape.length_le ha)
    (by rw [Shape.length hb]; have := f.k_le; omega)
  rw [p2_eq] at h2
  refine ⟨r, h1, h2, ?_⟩
  have h4 := Int.zero_dvd.mp h3
  simp only [EForm.val_append, EForm.val, vform_val, kv, Shape.slot_self ha, Shape.slot_arg hb,
    Shape.read_self ha, Shape.read_arg hb, pK_eq] at h4
  linarith

theorem sub_exact (pr : Profile) {a b : Elem} (ha : f.Rep a) (hb : f.Rep b) :
    ∃ r, f.code.subAssign pr a b = .ok r ∧ f.Shape (-2 ^ f.tb - 1) (2 ^ f.tb) r ∧
      f.V r = f.V a - f.V b - f.p * (f.V a / 2 ^ f.n)
        + (2 ^ f.n + f.c) * (f.V b / 2 ^ f.n) := by
  obtain ⟨r, h1, h2, h3⟩ := run_limb (subCheck_ok f) pr ha.inRs hb.inRs (Shape.length_le ha)
    (by rw [Shape.length hb]; have := f.k_le; omega)
  rw [p2_eq] at h2
  refine ⟨r, h1, h2, ?_⟩
  have h4 := Int.zero_dvd.mp h3
  simp only [EForm.val_append, EForm.val, vform_val, kv, Shape.slot_self ha, Shape.slot_arg hb,
    Shape.read_self ha, Shape.read_arg hb, pK_eq, p2_eq] at h4
  linarith

theorem arg_slot (a : Elem) (b : Int) : envF (initEnv a [b]) 16 = b := by
  have := get_initEnv_arg a [b] (by simp) 0 (by simp)
  simp only [Nat.add_zero] at this
  simp [envF, this]

theorem i32_inRs {b : Int} (hb : IsI32 b) : InRs [(-2147483648, 2147483647)] [b] := by
  refine .cons ?_ .nil
  simp only [IsI32] at hb
  norm_num at hb
  constructor <;> simp <;> omega

theorem smallAdd_exact (pr : Profile) {a : Elem} {b : Int} (ha : f.Rep a) (hb : IsI32 b) :
    ∃ r, f.code.smallAddAssign pr a b = .ok r ∧ f.Shape (-1) (2 ^ f.tb) r ∧
      f.V r = f.V a + b - f.p * (f.V a / 2 ^ f.n) := by
  obtain ⟨r, h1, h2, h3⟩ := run_limb (smallAddCheck_ok f) pr ha.inRs (i32_inRs hb)
    (Shape.length_le ha) (by simp)
  rw [p2_eq] at h2
  refine ⟨r, h1, h2, ?_⟩
  have h4 := Int.zero_dvd.mp h3
  simp only [EForm.val_append, EForm.val, vform_val, kv, Shape.slot_self ha,
    Shape.read_self ha, pK_eq, arg_slot, pow_zero, Int.ediv_one] at h4
  linarith

theorem smallSub_exact (pr : Profile) {a : Elem} {b : Int} (ha : f.Rep a) (hb : IsI32 b) :
    ∃ r, f.code.smallSubAssign pr a b = .ok r ∧ f.Shape (-1) (2 ^ f.tb) r ∧
      f.V r = f.V a - b - f.p * (f.V a / 2 ^ f.n) := by
  obtain ⟨r, h1, h2, h3⟩ := run_limb (smallSubCheck_ok f) pr ha.inRs (i32_inRs hb)
    (Shape.length_le ha) (by simp)
  rw [p2_eq] at h2
  refine ⟨r, h1, h2, ?_⟩
  have h4 := Int.zero_dvd.mp h3
  simp only [EForm.val_append, EForm.val, vform_val, kv, Shape.slot_self ha,
    Shape.read_self ha, pK_eq, arg_slot, pow_zero, Int.ediv_one] at h4
  linarith

end Fld
end Verif

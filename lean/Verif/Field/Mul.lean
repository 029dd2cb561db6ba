import Verif.Field.MulOk
import Verif.Field.SqOk
import Mathlib.Tactic.LinearCombination

/-!
# Multiplication and squaring: exact results (helper lemmas)
-/

namespace Verif
open Check

/-- A checker run on the second part of a program, from any state in the intervals. -/
theorem Check.run_suffix {m : Int} {w0 w1 : Nat} {Q : Prog} {mid : List (Nat × Int × Int)}
    {post pre : EForm} {out : List (Nat × Int × Int)}
    (h : check m w0 w1 Q mid post pre out = true) {pr : Profile} {ρ ρ' : Env}
    (hρ : ∀ x ∈ mid, ∃ v, ρ.get x.1 = some v ∧ x.2.1 ≤ v ∧ v ≤ x.2.2)
    (hr : runProg pr Q ρ = .ok ρ') :
    (∀ x ∈ out, ∃ v, ρ'.get x.1 = some v ∧ x.2.1 ≤ v ∧ v ≤ x.2.2) ∧
      m ∣ post.val w0 w1 (envF ρ') - pre.val w0 w1 (envF ρ) := by
  obtain ⟨ρ'', h1, h2, h3⟩ := check_sound h pr ρ hρ
  rw [hr] at h1
  cases h1
  exact ⟨h2, h3⟩

/-- `dform` is a number whose digits above the last word give the last word. -/
theorem Check.dform_val (w0 w1 L : Nat) (ρ : Nat → Int) : ∀ (n base : Nat) (w : Int),
    ∃ Y, (Fld.dform L base (n + 1) w).val w0 w1 ρ = w * Y ∧
      Y / 2 ^ (L * n) = ρ (base + 2 * n) := by
  intro n
  induction n with
  | zero => intro base w; exact ⟨ρ base, by simp [Fld.dform, EForm.val, kv], by simp⟩
  | succ n ih =>
    intro base w
    obtain ⟨Y, h1, h2⟩ := ih (base + 2) (w * p2 L)
    refine ⟨ρ base % 2 ^ L + 2 ^ L * Y, ?_, ?_⟩
    · simp only [Fld.dform, EForm.val, h1, kv, pow_zero, Int.ediv_one]
      simp only [p2_eq]
      have := Int.emod_add_mul_ediv (ρ base) (2 ^ L)
      linear_combination (-w) * this
    · have hp : (0 : Int) < 2 ^ L := by positivity
      rw [Nat.mul_add, mul_one, Nat.add_comm, pow_add,
        ← Int.ediv_ediv_of_nonneg (by positivity), Int.add_mul_ediv_left _ _ hp.ne',
        Int.ediv_eq_zero_of_lt (Int.emod_nonneg _ hp.ne') (Int.emod_lt_of_pos _ hp), zero_add, h2]
      congr 1; omega

namespace Fld
variable {f : Fld}

theorem Loose.inRs {a : Elem} (h : f.Loose a) : InRs f.looseR a := by
  have := Shape.inRs h
  simp only [looseR, p2_eq]; exact this

/-- What is wrong with the integer product returned by `*`: a multiple of a power of
two that is dropped during the reduction. -/
def mulDrop (f : Fld) (x : Int) : Int :=
  match f with
  | e251_9 => 2 ^ 504 * (x / 2 ^ 504)
  | e222_117 => 2 ^ 232 * (117 * (x / 2 ^ 425) / 2 ^ 29)
  | _ => 0

/-- The same for `square`. -/
def sqDrop (f : Fld) (x : Int) : Int :=
  match f with
  | e222_117 => 2 ^ 232 * (117 * (x / 2 ^ 425) / 2 ^ 29)
  | _ => 0

/-- State after the first phase of a multiplication. -/
theorem mul_phase1 (pr : Profile) {a b : Elem} (ha : f.Loose a) (hb : f.Loose b) :
    ∃ ρ, runProg pr (f.code.mulP.take (2 * f.nd)) (initEnv a b) = .ok ρ ∧
      (∀ x ∈ f.midMul, ∃ v, ρ.get x.1 = some v ∧ x.2.1 ≤ v ∧ v ≤ x.2.2) ∧
      (outer f.w (128 + f.nd) f.nd 128 f.nd 1).val 128 (128 + 2 * f.nd) (envF ρ) =
        f.V a * f.V b := by
  have lb : b.length ≤ 112 := by rw [Shape.length hb]; have := f.k_le; omega
  obtain ⟨ρ, h1, h2, h3⟩ := run_check (mulCheckA_ok f) pr ha.inRs hb.inRs (Shape.length_le ha) lb
  obtain ⟨ρ', h1', -, h3'⟩ := run_check (mulCheckB_ok f) pr ha.inRs hb.inRs (Shape.length_le ha) lb
  rw [h1] at h1'
  cases h1'
  refine ⟨ρ, h1, h2, ?_⟩
  have e1 := Int.zero_dvd.mp h3
  have e2 := Int.zero_dvd.mp h3'
  simp only [vform_val, one_mul, Shape.read_self ha, Shape.read_arg hb] at e1 e2
  rw [outer_val _ _ _ _ _ _ (by omega) (by omega) _ _ _ (by omega) (by omega), one_mul,
    sub_eq_zero.mp e1, sub_eq_zero.mp e2]

theorem droppedMul_val {pr : Profile} {ρ ρ' : Env} {x : Int}
    (h2 : ∀ x ∈ f.midMul, ∃ v, ρ.get x.1 = some v ∧ x.2.1 ≤ v ∧ v ≤ x.2.2)
    (h3 : (outer f.w (128 + f.nd) f.nd 128 f.nd 1).val 128 (128 + 2 * f.nd) (envF ρ) = x)
    (h4 : runProg pr (f.code.mulP.drop (2 * f.nd)) ρ = .ok ρ') :
    f.droppedMul.val 128 (128 + 2 * f.nd) (envF ρ') = f.mulDrop x := by
  cases f with
  | e251_9 =>
    obtain ⟨-, h7⟩ := run_suffix mulCheckD251_ok h2 h4
    obtain ⟨Y, h8, h9⟩ := dform_val 128 (128 + 2 * e251_9.nd) e251_9.L (envF ρ') 8 e251_9.dMul 1
    have h7 := Int.zero_dvd.mp h7
    rw [h3, h8, one_mul, sub_eq_zero] at h7
    have e1 : e251_9.L * 8 = 448 := rfl
    rw [e1] at h9
    have e3 : Y / 2 ^ 504 = Y / 2 ^ 448 / 2 ^ 56 := by
      rw [Int.ediv_ediv_of_nonneg (by norm_num), ← pow_add]
    simp only [mulDrop]
    rw [← h7, e3, h9]
    simp only [droppedMul, EForm.val, kv, p2_eq, add_zero]
  | e222_117 =>
    obtain ⟨-, h7⟩ := run_suffix mulCheckD222_ok h2 h4
    obtain ⟨-, h10⟩ := run_suffix mulCheckH_ok h2 h4
    obtain ⟨Y, h8, h9⟩ :=
      dform_val 128 (128 + 2 * e222_117.nd) e222_117.L (envF ρ') 7 e222_117.dMul 1
    have h7 := Int.zero_dvd.mp h7
    have h10 := Int.zero_dvd.mp h10
    rw [h3, h8, one_mul, sub_eq_zero] at h7
    have e1 : e222_117.L * 7 = 406 := rfl
    rw [e1] at h9
    have e3 : Y / 2 ^ 425 = Y / 2 ^ 406 / 2 ^ 19 := by
      rw [Int.ediv_ediv_of_nonneg (by norm_num), ← pow_add]
    simp only [EForm.val, kv, pow_zero, Int.ediv_one] at h10
    simp only [mulDrop]
    rw [← h7, e3, h9]
    simp only [droppedMul, EForm.val, kv, p2_eq, add_zero]
    congr 2
    simp only [Nat.reduceMul] at *
    linarith
  | _ => rfl

theorem mul_exact (pr : Profile) {a b : Elem} (ha : f.Loose a) (hb : f.Loose b) :
    ∃ r, f.code.mulAssign pr a b = .ok r ∧ f.Shape f.mulLo (2 ^ (f.tb + 1) + f.c) r ∧
      f.V r + f.mulDrop (f.V a * f.V b) ≡ f.V a * f.V b [ZMOD f.p] := by
  obtain ⟨ρ, h1, h2, h3⟩ := mul_phase1 pr ha hb
  obtain ⟨ρ', h4, h5, h6⟩ := check_sound (mulCheckC_ok f) pr ρ h2
  have hrun : runProg pr f.code.mulP (initEnv a b) = .ok ρ' := by
    rw [← List.take_append_drop (2 * f.nd) f.code.mulP, runProg_append, h1]
    exact h4
  have hdrop := droppedMul_val h2 h3 h4
  refine ⟨readSlots ρ' 0 f.k, ?_, ?_, ?_⟩
  · simp [FieldCode.mulAssign, FieldCode.runLimb, hrun, limbs_eq, bind, Except.bind, pure,
      Except.pure]
  · have := readSlots_inRs _ _ h5
    rw [shapeR_length] at this
    rw [← p2_eq]
    exact shape_of_inRs this
  · rw [h3, EForm.val_append, hdrop, vform_val, one_mul, pK_eq] at h6
    exact (Int.modEq_iff_dvd.mpr h6).symm

theorem sq_phase1 (pr : Profile) {a : Elem} (ha : f.Loose a) :
    ∃ ρ, runProg pr (f.code.squareP.take f.nd) (initEnv a []) = .ok ρ ∧
      (∀ x ∈ f.midSq, ∃ v, ρ.get x.1 = some v ∧ x.2.1 ≤ v ∧ v ≤ x.2.2) ∧
      (outer f.w 128 f.nd 128 f.nd 1).val 128 (128 + f.nd) (envF ρ) = f.V a * f.V a := by
  obtain ⟨ρ, h1, h2, h3⟩ := run_check (sqCheckA_ok f) pr ha.inRs (b := []) .nil
    (Shape.length_le ha) (by simp)
  refine ⟨ρ, h1, h2, ?_⟩
  have e1 := Int.zero_dvd.mp h3
  simp only [vform_val, one_mul, Shape.read_self ha] at e1
  rw [outer_val _ _ _ _ _ _ (by omega) (by omega) _ _ _ (by omega) (by omega), one_mul,
    sub_eq_zero.mp e1]

theorem droppedSq_val {pr : Profile} {ρ ρ' : Env} {x : Int}
    (h2 : ∀ x ∈ f.midSq, ∃ v, ρ.get x.1 = some v ∧ x.2.1 ≤ v ∧ v ≤ x.2.2)
    (h3 : (outer f.w 128 f.nd 128 f.nd 1).val 128 (128 + f.nd) (envF ρ) = x)
    (h4 : runProg pr (f.code.squareP.drop f.nd) ρ = .ok ρ') :
    f.droppedSq.val 128 (128 + f.nd) (envF ρ') = f.sqDrop x := by
  cases f with
  | e222_117 =>
    obtain ⟨-, h7⟩ := run_suffix sqCheckD222_ok h2 h4
    obtain ⟨-, h10⟩ := run_suffix sqCheckH_ok h2 h4
    obtain ⟨Y, h8, h9⟩ :=
      dform_val 128 (128 + e222_117.nd) e222_117.L (envF ρ') 7 e222_117.dSq 1
    have h7 := Int.zero_dvd.mp h7
    have h10 := Int.zero_dvd.mp h10
    rw [h3, h8, one_mul, sub_eq_zero] at h7
    have e1 : e222_117.L * 7 = 406 := rfl
    rw [e1] at h9
    have e3 : Y / 2 ^ 425 = Y / 2 ^ 406 / 2 ^ 19 := by
      rw [Int.ediv_ediv_of_nonneg (by norm_num), ← pow_add]
    simp only [EForm.val, kv, pow_zero, Int.ediv_one] at h10
    simp only [sqDrop]
    rw [← h7, e3, h9]
    simp only [droppedSq, EForm.val, kv, p2_eq, add_zero]
    congr 2
    simp only [Nat.reduceMul] at *
    linarith
  | _ => rfl

theorem square_exact (pr : Profile) {a : Elem} (ha : f.Loose a) :
    ∃ r, f.code.square pr a = .ok r ∧ f.Shape f.sqLo (2 ^ (f.tb + 1) + f.c) r ∧
      f.V r + f.sqDrop (f.V a * f.V a) ≡ f.V a * f.V a [ZMOD f.p] := by
  obtain ⟨ρ, h1, h2, h3⟩ := sq_phase1 pr ha
  obtain ⟨ρ', h4, h5, h6⟩ := check_sound (sqCheckC_ok f) pr ρ h2
  have hrun : runProg pr f.code.squareP (initEnv a []) = .ok ρ' := by
    rw [← List.take_append_drop f.nd f.code.squareP, runProg_append, h1]
    exact h4
  have hdrop := droppedSq_val h2 h3 h4
  refine ⟨readSlots ρ' 0 f.k, ?_, ?_, ?_⟩
  · simp [FieldCode.square, FieldCode.runLimb, hrun, limbs_eq, bind, Except.bind, pure,
      Except.pure]
  · have := readSlots_inRs _ _ h5
    rw [shapeR_length] at this
    rw [← p2_eq]
    exact shape_of_inRs this
  · rw [h3, EForm.val_append, hdrop, vform_val, one_mul, pK_eq] at h6
    exact (Int.modEq_iff_dvd.mpr h6).symm

end Fld
end Verif

import Verif.Field.Mul
import Verif.Field.ValueMulOk
import Verif.Field.ValueSqOk

/-!
# Exact values of products and squares (helper lemmas)
-/

namespace Verif
open Check

namespace Check

theorem dform_smul (w0 w1 L : Nat) (ρ : Nat → Int) : ∀ (n base : Nat) (w : Int),
    (Fld.dform L base n w).val w0 w1 ρ = w * (Fld.dform L base n 1).val w0 w1 ρ := by
  intro n
  induction n with
  | zero => intro base w; simp [Fld.dform, EForm.val]
  | succ n ih =>
    intro base w
    cases n with
    | zero => simp [Fld.dform, EForm.val]
    | succ n =>
      simp only [Fld.dform, EForm.val]
      rw [ih (base + 2) (w * p2 L), ih (base + 2) (1 * p2 L)]
      ring

/-- Dropping the lowest word. -/
theorem dform_succ (w0 w1 L : Nat) (ρ : Nat → Int) (n base : Nat) :
    (Fld.dform L base (n + 2) 1).val w0 w1 ρ =
      ρ base % 2 ^ L + 2 ^ L * (Fld.dform L (base + 2) (n + 1) 1).val w0 w1 ρ := by
  simp only [Fld.dform, EForm.val, kv, pow_zero, Int.ediv_one]
  rw [dform_smul _ _ _ _ (n + 1) (base + 2) (1 * p2 L), p2_eq]
  have := Int.emod_add_mul_ediv (ρ base) (2 ^ L)
  linear_combination -this

theorem dform_div (w0 w1 L : Nat) (ρ : Nat → Int) : ∀ (j n base : Nat),
    (Fld.dform L base (n + 1 + j) 1).val w0 w1 ρ / 2 ^ (L * j) =
      (Fld.dform L (base + 2 * j) (n + 1) 1).val w0 w1 ρ := by
  intro j
  induction j with
  | zero => intro n base; simp
  | succ j ih =>
    intro n base
    have hp : (0 : Int) < 2 ^ L := by positivity
    rw [show n + 1 + (j + 1) = (n + j) + 2 by omega, dform_succ, Nat.mul_add, mul_one,
      Nat.add_comm (L * j), pow_add, ← Int.ediv_ediv_of_nonneg (by positivity),
      Int.add_mul_ediv_left _ _ hp.ne',
      Int.ediv_eq_zero_of_lt (Int.emod_nonneg _ hp.ne') (Int.emod_lt_of_pos _ hp), zero_add,
      show n + j + 1 = n + 1 + j by omega, ih]
    congr 2; omega

theorem hform_val (w0 w1 L tb : Nat) (ρ : Nat → Int) (h : tb ≤ L) (n base : Nat) :
    (Fld.hform L tb base (n + 1)).val w0 w1 ρ =
      (Fld.dform L base (n + 1) 1).val w0 w1 ρ / 2 ^ tb := by
  cases n with
  | zero => simp [Fld.hform, Fld.dform, EForm.val, kv]
  | succ n =>
    rw [dform_succ]
    simp only [Fld.hform, EForm.val, kv]
    rw [dform_smul _ _ _ _ (n + 1) (base + 2) (p2 (L - tb)), p2_eq]
    obtain ⟨m, rfl⟩ := Nat.exists_eq_add_of_le h
    rw [Nat.add_sub_cancel_left, pow_add]
    generalize (Fld.dform (tb + m) (base + 2) (n + 1) 1).val w0 w1 ρ = D
    have hT : (0 : Int) < 2 ^ tb := by positivity
    have h1 : ρ base % (2 ^ tb * 2 ^ m) + 2 ^ tb * 2 ^ m * D =
        ρ base + 2 ^ tb * (2 ^ m * (D - ρ base / (2 ^ tb * 2 ^ m))) := by
      have := Int.emod_add_mul_ediv (ρ base) (2 ^ tb * 2 ^ m)
      linear_combination this
    rw [h1, Int.add_mul_ediv_left _ _ hT.ne']
    ring

end Check

namespace Fld
variable {f : Fld}

/-- The integer that `*` returns for operands with product `x`. -/
def mulVal (f : Fld) (x : Int) : Int :=
  match f with
  | e222_117 =>
    let q := x / 2 ^ 222
    let d := 2 ^ 232 * (117 * (x / 2 ^ 425) / 2 ^ 29)
    x - d - f.p * (q + (117 * q - d) / 2 ^ 222)
  | e383_187 =>
    let q := x / 2 ^ 383
    x - f.p * (q + 187 * q / 2 ^ 383)
  | e251_9 =>
    let y := x % 2 ^ 504
    let q := y / 2 ^ 251
    y - f.p * (q + 9 * (q / 2 ^ 224) / 2 ^ 27)
  | _ =>
    let q := x / 2 ^ f.n
    x - f.p * (q + f.c * (q / 2 ^ (f.L * (f.k - 1))) / 2 ^ f.tb)

/-- The integer that `square` returns for an operand with square `x`. -/
def sqVal (f : Fld) (x : Int) : Int :=
  match f with
  | e251_9 =>
    let q := x / 2 ^ 251
    x - f.p * (q + 9 * (q / 2 ^ 224) / 2 ^ 27)
  | _ => f.mulVal x

theorem nd_eq (f : Fld) : ∃ n m, f.nd = n + 1 + (f.k - 1) ∧ f.nd = m + 1 + 2 * (f.k - 1) := by
  refine ⟨f.nd - f.k, f.nd + 1 - 2 * f.k, ?_, ?_⟩ <;> cases f <;> decide

theorem tb_le_L (f : Fld) : f.tb ≤ f.L := by cases f <;> decide

theorem hF_val (f : Fld) (d0 w1 : Nat) (ρ : Nat → Int) :
    (f.hF d0).val 128 w1 ρ = (dform f.L d0 f.nd 1).val 128 w1 ρ / 2 ^ f.n := by
  obtain ⟨n, -, h, -⟩ := f.nd_eq
  rw [hF, h, Nat.add_sub_cancel, hform_val _ _ _ _ _ f.tb_le_L, ← dform_div,
    Int.ediv_ediv_of_nonneg (by positivity), pow_n]

theorem tF_val (f : Fld) (d0 w1 : Nat) (ρ : Nat → Int) :
    (f.tF d0).val 128 w1 ρ =
      (dform f.L d0 f.nd 1).val 128 w1 ρ / 2 ^ f.n / 2 ^ (f.L * (f.k - 1)) := by
  obtain ⟨-, m, -, h⟩ := f.nd_eq
  rw [tF, h, Nat.add_sub_cancel, hform_val _ _ _ _ _ f.tb_le_L, ← dform_div,
    Int.ediv_ediv_of_nonneg (by positivity), Int.ediv_ediv_of_nonneg (by positivity), pow_n,
    ← pow_add, ← pow_add, ← pow_add]
  congr 2; ring

/-- The result of the second half of a multiplication or squaring. -/
theorem rest_value {d0 w1 : Nat} {Q : Prog} {drop hd td : EForm}
    (h : f.restCheck d0 w1 Q drop hd td = true) {pr : Profile} {ρ ρ' : Env}
    (hρ : ∀ x ∈ rng 0 f.looseR ++ f.midD d0, ∃ v, ρ.get x.1 = some v ∧ x.2.1 ≤ v ∧ v ≤ x.2.2)
    (hr : runProg pr (Q.drop f.lenD) ρ = .ok ρ') {x : Int}
    (hx : (dform f.L d0 f.nd 1).val 128 w1 (envF ρ) = x) :
    (dform f.L d0 f.nd 1).val 128 w1 (envF ρ') = x ∧
    ∃ kin : Int, f.V (readSlots ρ' 0 f.k) = x - drop.val 128 w1 (envF ρ') -
        f.p * (x / 2 ^ f.n + hd.val 128 w1 (envF ρ') + kin) ∧
      kin = bif f.viaDigits then (f.c * (x / 2 ^ f.n) - drop.val 128 w1 (envF ρ')) / 2 ^ f.n
        else f.c * (x / 2 ^ f.n / 2 ^ (f.L * (f.k - 1)) + td.val 128 w1 (envF ρ')) / 2 ^ f.tb := by
  simp only [restCheck, Bool.and_eq_true] at h
  obtain ⟨h1, h2, h3, h4⟩ := h
  obtain ⟨-, h1⟩ := run_suffix h1 hρ hr
  obtain ⟨-, h2⟩ := run_suffix h2 hρ hr
  obtain ⟨-, h3⟩ := run_suffix h3 hρ hr
  have h1 := Int.zero_dvd.mp h1
  have h2 := Int.zero_dvd.mp h2
  have h3 := Int.zero_dvd.mp h3
  rw [hx, sub_eq_zero] at h1 h2
  refine ⟨h2, envF ρ' (f.kinSlot d0), ?_, ?_⟩
  · simp only [EForm.val_append, EForm.val_scale, EForm.val, kv, pow_zero, Int.ediv_one,
      vform_val, one_mul, hF_val, h2, pK_eq] at h1
    simp only [V]
    linear_combination h1
  · simp only [EForm.val, kv, pow_zero, Int.ediv_one, add_zero, one_mul, sub_zero] at h3
    have h3 : envF ρ' (f.kinSlot d0) = envF ρ' (f.kinSlot d0 - 1) / 2 ^ f.tb := by
      linear_combination h3
    rw [h3]
    cases hv : f.viaDigits with
    | true =>
      rw [hv, cond_true] at h4
      obtain ⟨-, h4⟩ := run_suffix h4 hρ hr
      have h4 := Int.zero_dvd.mp h4
      simp only [EForm.val_append, EForm.val_scale, hF_val, h2] at h4
      simp only [EForm.val, sub_zero] at h4
      have hk : f.k = 0 + 1 + (f.k - 1) := by cases f <;> rfl
      have e := dform_div 128 w1 f.L (envF ρ') (f.k - 1) 0 (f.kinSlot d0 - (2 * f.k - 1))
      rw [← hk] at e
      have hs : f.kinSlot d0 - (2 * f.k - 1) + 2 * (f.k - 1) = f.kinSlot d0 - 1 := by
        have h0 : 2 * f.k - 1 ≤ f.kinSlot d0 := by
          simp only [kinSlot, hv, cond_true]; have := f.nd; cases f <;> simp only [nd, k] <;> omega
        have : 1 ≤ f.k := by omega
        omega
      rw [hs] at e
      simp only [dform, EForm.val, kv, pow_zero, Int.ediv_one, one_mul, add_zero] at e
      rw [cond_true, ← e, Int.ediv_ediv_of_nonneg (by positivity), ← pow_n]
      congr 1
      linear_combination h4
    | false =>
      rw [hv, cond_false] at h4
      obtain ⟨-, h4⟩ := run_suffix h4 hρ hr
      have h4 := Int.zero_dvd.mp h4
      simp only [EForm.val_scale, EForm.val_append, tF_val, h2, EForm.val, kv, pow_zero,
        Int.ediv_one, one_mul, sub_zero] at h4
      rw [cond_false]
      congr 1
      linear_combination h4

/-- The second phase of a multiplication or squaring. -/
theorem phase2_value {d0 w1 : Nat} {Q : Prog} {mid : List (Nat × Int × Int)}
    {pre drop hd td : EForm} (hp : f.prodCheck d0 w1 Q mid pre = true)
    (h : f.restCheck d0 w1 Q drop hd td = true) {pr : Profile} {ρ ρ' : Env}
    (hρ : ∀ x ∈ mid, ∃ v, ρ.get x.1 = some v ∧ x.2.1 ≤ v ∧ v ≤ x.2.2)
    (hr : runProg pr Q ρ = .ok ρ') {x : Int} (hx : pre.val 128 w1 (envF ρ) = x) :
    (dform f.L d0 f.nd 1).val 128 w1 (envF ρ') = x ∧
    ∃ kin : Int, f.V (readSlots ρ' 0 f.k) = x - drop.val 128 w1 (envF ρ') -
        f.p * (x / 2 ^ f.n + hd.val 128 w1 (envF ρ') + kin) ∧
      kin = bif f.viaDigits then (f.c * (x / 2 ^ f.n) - drop.val 128 w1 (envF ρ')) / 2 ^ f.n
        else f.c * (x / 2 ^ f.n / 2 ^ (f.L * (f.k - 1)) + td.val 128 w1 (envF ρ')) / 2 ^ f.tb := by
  obtain ⟨ρ1, h1, h2, h3⟩ := check_sound hp pr ρ hρ
  have h3 := sub_eq_zero.mp (Int.zero_dvd.mp h3)
  rw [← List.take_append_drop f.lenD Q, runProg_append, h1] at hr
  exact rest_value h h2 hr (h3.trans hx)

/-- **The exact result of a multiplication.** -/
theorem mul_value (pr : Profile) {a b : Elem} (ha : f.Loose a) (hb : f.Loose b) :
    ∃ r, f.code.mulAssign pr a b = .ok r ∧ f.Tight r ∧ f.V r = f.mulVal (f.V a * f.V b) := by
  obtain ⟨ρ, h1, h2, h3⟩ := mul_phase1 pr ha hb
  obtain ⟨ρ', h4, h5, -⟩ := check_sound (mulCheckC_ok f) pr ρ h2
  have hrun : runProg pr f.code.mulP (initEnv a b) = .ok ρ' := by
    rw [← List.take_append_drop (2 * f.nd) f.code.mulP, runProg_append, h1]
    exact h4
  obtain ⟨h6, kin, h7, h8⟩ := phase2_value (mulProdCheck_ok f) (mulRestCheck_ok f) h2 h4 h3
  have hdrop := droppedMul_val h2 h3 h4
  refine ⟨readSlots ρ' 0 f.k, ?_, ?_, ?_⟩
  · simp [FieldCode.mulAssign, FieldCode.runLimb, hrun, limbs_eq, bind, Except.bind, pure,
      Except.pure]
  · have := readSlots_inRs _ _ h5
    rw [shapeR_length] at this
    have h0 : (0 : Int) ≤ 2 ^ f.tb := by positivity
    have hlo : -1 ≤ f.mulLo := by cases f <;> decide
    rw [p2_eq] at this
    exact Shape.mono (shape_of_inRs this) (by linarith) le_rfl
  · rw [h7, h8, hdrop]
    generalize f.V a * f.V b = x at *
    clear h1 h2 h3 h4 h5 h6 h7 h8 hrun ha hb
    cases f with
    | e251_9 =>
      simp only [hiMul, droppedMul, EForm.val, kv, p2_eq, add_zero, mulDrop] at hdrop ⊢
      have hk := mul_left_cancel₀ (by positivity) hdrop
      rw [hk]
      clear hk hdrop
      have e0 : x % 2 ^ 504 = x - 2 ^ 504 * (x / 2 ^ 504) := Int.emod_def _ _
      have e1 : (x % 2 ^ 504) / 2 ^ 251 = x / 2 ^ 251 - 2 ^ 253 * (x / 2 ^ 504) := by
        rw [e0, show x - 2 ^ 504 * (x / 2 ^ 504) = x + 2 ^ 251 * (-(2 ^ 253 * (x / 2 ^ 504))) by
          rw [show (2 : Int) ^ 504 = 2 ^ 251 * 2 ^ 253 by rw [← pow_add]]; ring,
          Int.add_mul_ediv_left _ _ (by positivity)]
        ring
      have e2 : (x % 2 ^ 504) / 2 ^ 251 / 2 ^ 224 = x / 2 ^ 251 / 2 ^ 224 - 2 ^ 29 * (x / 2 ^ 504) := by
        rw [e1, show x / 2 ^ 251 - 2 ^ 253 * (x / 2 ^ 504) =
          x / 2 ^ 251 + 2 ^ 224 * (-(2 ^ 29 * (x / 2 ^ 504))) by
          rw [show (2 : Int) ^ 253 = 2 ^ 224 * 2 ^ 29 by rw [← pow_add]]; ring,
          Int.add_mul_ediv_left _ _ (by positivity)]
        ring
      simp only [mulVal]
      rw [e2, e1, e0]
      show x - 2 ^ 504 * (x / 2 ^ 504) - e251_9.p * (x / 2 ^ 251 + -2 ^ 253 * (x / 2 ^ 504) +
        9 * (x / 2 ^ 251 / 2 ^ 224 + -2 ^ 29 * (x / 2 ^ 504)) / 2 ^ 27) = _
      rw [show 9 * (x / 2 ^ 251 / 2 ^ 224 + -2 ^ 29 * (x / 2 ^ 504)) =
        9 * (x / 2 ^ 251 / 2 ^ 224 - 2 ^ 29 * (x / 2 ^ 504)) by ring]
      ring
    | e222_117 =>
      simp only [hiMul, EForm.val, mulDrop, mulVal, add_zero]
      rfl
    | e383_187 =>
      simp only [hiMul, EForm.val, mulDrop, mulVal, add_zero, sub_zero]
      rfl
    | _ =>
      simp only [hiMul, EForm.val, mulDrop, mulVal, add_zero, sub_zero]
      rfl

/-- **The exact result of a squaring.** -/
theorem square_value (pr : Profile) {a : Elem} (ha : f.Loose a) :
    ∃ r, f.code.square pr a = .ok r ∧ f.Tight r ∧ f.V r = f.sqVal (f.V a * f.V a) := by
  obtain ⟨ρ, h1, h2, h3⟩ := sq_phase1 pr ha
  obtain ⟨ρ', h4, h5, -⟩ := check_sound (sqCheckC_ok f) pr ρ h2
  have hrun : runProg pr f.code.squareP (initEnv a []) = .ok ρ' := by
    rw [← List.take_append_drop f.nd f.code.squareP, runProg_append, h1]
    exact h4
  obtain ⟨h6, kin, h7, h8⟩ := phase2_value (sqProdCheck_ok f) (sqRestCheck_ok f) h2 h4 h3
  have hdrop := droppedSq_val h2 h3 h4
  refine ⟨readSlots ρ' 0 f.k, ?_, ?_, ?_⟩
  · simp [FieldCode.square, FieldCode.runLimb, hrun, limbs_eq, bind, Except.bind, pure,
      Except.pure]
  · have := readSlots_inRs _ _ h5
    rw [shapeR_length] at this
    have h0 : (0 : Int) ≤ 2 ^ f.tb := by positivity
    have hlo : -1 ≤ f.sqLo := by cases f <;> decide
    rw [p2_eq] at this
    exact Shape.mono (shape_of_inRs this) (by linarith) le_rfl
  · rw [h7, h8, hdrop]
    generalize f.V a * f.V a = x at *
    clear h1 h2 h3 h4 h5 h6 h7 h8 hrun ha hdrop
    cases f with
    | e222_117 =>
      simp only [EForm.val, sqDrop, sqVal, mulVal, add_zero]
      rfl
    | _ =>
      simp only [EForm.val, sqDrop, sqVal, mulVal, add_zero, sub_zero]
      rfl

/-! ## Bounds -/

theorem nonneg_aux {x M T c : Int} (hx : 0 ≤ x) (hM : 0 < M) (hT : 0 < T) (hc : 0 ≤ c) :
    0 ≤ x - (M * T - c) * (x / (M * T) + c * (x / (M * T) / M) / T) := by
  have hN : 0 < M * T := mul_pos hM hT
  have e := Int.emod_add_mul_ediv x (M * T)
  have h0 := Int.emod_nonneg x hN.ne'
  have hq : 0 ≤ x / (M * T) := Int.ediv_nonneg hx hN.le
  generalize x / (M * T) = q at *
  have h1 : M * (q / M) ≤ q := Int.mul_ediv_self_le hM.ne'
  have h2 : T * (c * (q / M) / T) ≤ c * (q / M) := Int.mul_ediv_self_le hT.ne'
  have h3 : 0 ≤ c * (q / M) / T :=
    Int.ediv_nonneg (mul_nonneg hc (Int.ediv_nonneg hq hM.le)) hT.le
  generalize c * (q / M) / T = t at *
  generalize q / M = u at *
  have h4 := mul_le_mul_of_nonneg_left h2 hM.le
  have h5 := mul_le_mul_of_nonneg_left h1 hc
  have h6 := mul_nonneg hc h3
  nlinarith

theorem mulVal_nonneg (f : Fld) {x : Int} (hx : 0 ≤ x) : 0 ≤ f.mulVal x := by
  have gen : ∀ (g : Fld) (y : Int), 0 ≤ y →
      0 ≤ y - g.p * (y / 2 ^ g.n + g.c * (y / 2 ^ g.n / 2 ^ (g.L * (g.k - 1))) / 2 ^ g.tb) := by
    intro g y hy
    have := nonneg_aux (M := 2 ^ (g.L * (g.k - 1))) (T := 2 ^ g.tb) (c := g.c) hy (by positivity)
      (by positivity) (by positivity)
    rwa [← pow_n] at this
  cases f with
  | e222_117 =>
    simp only [mulVal]
    have e := Int.emod_add_mul_ediv x (2 ^ 222)
    have h0 := Int.emod_nonneg x (show (2 : Int) ^ 222 ≠ 0 by positivity)
    have hq : 0 ≤ x / 2 ^ 222 := Int.ediv_nonneg hx (by positivity)
    have hz : x / 2 ^ 425 = x / 2 ^ 222 / 2 ^ 203 := by
      rw [Int.ediv_ediv_of_nonneg (by positivity), ← pow_add]
    rw [hz]
    have hp : e222_117.p = 2 ^ 222 - 117 := rfl
    rw [hp]
    generalize x / 2 ^ 222 = q at *
    have h1 : 2 ^ 203 * (q / 2 ^ 203) ≤ q := Int.mul_ediv_self_le (by positivity)
    have h2 : 2 ^ 29 * (117 * (q / 2 ^ 203) / 2 ^ 29) ≤ 117 * (q / 2 ^ 203) :=
      Int.mul_ediv_self_le (by positivity)
    generalize 117 * (q / 2 ^ 203) / 2 ^ 29 = u at *
    generalize q / 2 ^ 203 = v at *
    have hd : 0 ≤ 117 * q - 2 ^ 232 * u := by linarith
    have h3 : 2 ^ 222 * ((117 * q - 2 ^ 232 * u) / 2 ^ 222) ≤ 117 * q - 2 ^ 232 * u :=
      Int.mul_ediv_self_le (by positivity)
    have h4 : 0 ≤ (117 * q - 2 ^ 232 * u) / 2 ^ 222 := Int.ediv_nonneg hd (by positivity)
    generalize (117 * q - 2 ^ 232 * u) / 2 ^ 222 = t at *
    linarith
  | e383_187 =>
    have := nonneg_aux (M := 1) (T := 2 ^ 383) (c := 187) hx (by positivity) (by positivity)
      (by positivity)
    simp only [one_mul, Int.ediv_one] at this
    exact this
  | e251_9 => exact gen .e251_9 _ (Int.emod_nonneg _ (by positivity))
  | e221_3 => exact gen .e221_3 _ hx
  | e255_19 => exact gen .e255_19 _ hx
  | e382_105 => exact gen .e382_105 _ hx
  | e414_17 => exact gen .e414_17 _ hx
  | e511_187 => exact gen .e511_187 _ hx
  | e521_1 => exact gen .e521_1 _ hx

theorem mulVal_e251_lt (x : Int) : e251_9.mulVal x < 2 ^ 252 + 2 ^ 228 := by
  simp only [mulVal]
  have hy0 := Int.emod_nonneg x (show (2 : Int) ^ 504 ≠ 0 by positivity)
  have hy1 := Int.emod_lt_of_pos x (show (0 : Int) < 2 ^ 504 by positivity)
  generalize x % 2 ^ 504 = y at *
  have e := Int.emod_add_mul_ediv y (2 ^ 251)
  have h1 := Int.emod_lt_of_pos y (show (0 : Int) < 2 ^ 251 by positivity)
  have hq : y / 2 ^ 251 < 2 ^ 253 := by
    rw [Int.ediv_lt_iff_lt_mul (by positivity)]
    rw [← pow_add]
    exact hy1
  have hp : e251_9.p = 2 ^ 251 - 9 := rfl
  rw [hp]
  generalize y / 2 ^ 251 = q at *
  have e2 := Int.emod_add_mul_ediv q (2 ^ 224)
  have h2 := Int.emod_lt_of_pos q (show (0 : Int) < 2 ^ 224 by positivity)
  have h20 := Int.emod_nonneg q (show (2 : Int) ^ 224 ≠ 0 by positivity)
  generalize q / 2 ^ 224 = u at *
  have e3 := Int.emod_add_mul_ediv (9 * u) (2 ^ 27)
  have h3 := Int.emod_lt_of_pos (9 * u) (show (0 : Int) < 2 ^ 27 by positivity)
  have h30 := Int.emod_nonneg (9 * u) (show (2 : Int) ^ 27 ≠ 0 by positivity)
  generalize 9 * u / 2 ^ 27 = t at *
  generalize 9 * u % 2 ^ 27 = s at *
  generalize q % 2 ^ 224 = q0 at *
  generalize y % 2 ^ 251 = y0 at *
  have hs : s ≤ 2 ^ 27 - 1 := by omega
  norm_num at *
  omega

end Fld

theorem ok_unique {r s : Elem} {x : Res Elem} (h1 : x = .ok r) (h2 : x = .ok s) : r = s := by
  rw [h1] at h2; cases h2; rfl

end Verif

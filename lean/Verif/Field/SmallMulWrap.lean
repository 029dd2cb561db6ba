import Verif.Field.SmallMulFull

/-!
# `small_mul_assign` by any `i32`: the result (helper lemmas)
-/

namespace Verif
open Check

namespace Fld
variable {f : Fld}

/-- State after the digits have been extracted. -/
theorem sm_phase1 (hf : f.split = true) {a : Elem} {b : Int} (ha : f.Tight a)
    (hb : -2 ^ 31 ≤ b ∧ b ≤ 2 ^ 31) :
    ∃ ρ, (∀ pr, runProg pr (f.code.smallMulP.take (f.nd + 1)) (initEnv a [b]) = .ok ρ) ∧
      (∀ x ∈ f.smMid (-p2 f.tb - 1) (p2 (f.tb + 1) + f.c) (-p2 31) (p2 31),
        ∃ v, ρ.get x.1 = some v ∧ x.2.1 ≤ v ∧ v ≤ x.2.2) ∧
      digitsVal f.w (readSlots ρ 128 f.nd) = f.V a ∧ envF ρ (128 + f.nd) = b ∧
      envF ρ (f.k - 1) / 2 ^ f.tb = f.V a / 2 ^ f.n := by
  have h := smFull_ok f hf
  simp only [smFull, Bool.and_eq_true] at h
  obtain ⟨⟨⟨⟨-, hA⟩, hB⟩, hT⟩, -⟩ := h
  have ha' : f.Shape (-p2 f.tb - 1) (p2 (f.tb + 1) + f.c) a := by
    simp only [p2_eq]; exact ha
  have hb' : InRs [(-p2 31, p2 31)] [b] := .cons (by simp only [p2_eq]; exact hb) .nil
  have la := Shape.length_le ha
  obtain ⟨ρ, h1, h2, h3⟩ := run_check hA .debug ha'.inRs hb' la (by simp)
  obtain ⟨ρ1, h1', -, h3'⟩ := run_check hB .debug ha'.inRs hb' la (by simp)
  rw [h1] at h1'
  cases h1'
  have e1 := Int.zero_dvd.mp h3
  have e2 := Int.zero_dvd.mp h3'
  simp only [vform_val, one_mul, Shape.read_self ha] at e1 e2
  have earg : readSlots (initEnv a [b]) 16 1 = [b] := readSlots_arg a [b] (by simp)
  rw [earg] at e2
  refine ⟨ρ, fun pr => run_mono pr _ _ _ h1, h2, sub_eq_zero.mp e1, ?_, ?_⟩
  · have := sub_eq_zero.mp e2
    simpa [digitsVal, readSlots, envF] using this
  · obtain ⟨ρ2, h7, -, h8⟩ := run_check hT .debug ha'.inRs hb' la (by simp)
    rw [h1] at h7
    cases h7
    have e3 := Int.zero_dvd.mp h8
    simp only [EForm.val, kv, pow_zero, Int.ediv_one, one_mul, add_zero] at e3
    rw [sub_eq_zero.mp e3, Shape.slot_self ha]

theorem nd_split (hf : f.split = true) : f.nd = 2 * (f.k - 1) + 2 ∧ f.L = 2 * f.w := by
  cases f <;> first | exact absurd hf (by decide) | decide

theorem split_tb (hf : f.split = true) : f.tb < 55 := by
  cases f <;> first | exact absurd hf (by decide) | decide

/-- The sum that is wrapped to 64 bits. -/
theorem smTop_eval (pr : Profile) {ρ : Env} {x m c : Int} (hx : f.smX.eval pr ρ = .ok x)
    (hm : ρ.get (f.smM (f.nd - 1)) = some m) (hc : ρ.get (f.smD - 1) = some c) :
    f.smTop.eval pr ρ = .ok (wrap64 (x + 2 ^ f.w * m + c)) ∨
      pr = .debug ∧ f.smTop.eval pr ρ = .error .overflow := by
  have e : f.smTop.eval pr ρ = (arith pr (x + shl64 m f.w)).bind fun y => arith pr (y + c) := by
    simp only [smTop, Expr.eval, hx, hm, hc, bind, Except.bind, pure, Except.pure]
  rw [e]
  rcases arith_cases pr (x + shl64 m f.w) with h1 | ⟨h1, h2⟩
  · rw [h1]
    rcases arith_cases pr (wrap64 (x + shl64 m f.w) + c) with h3 | ⟨h3, h4⟩
    · left
      rw [Except.bind, h3, shl64, wrap64_add, mul_comm]
    · right; exact ⟨h3, h4⟩
  · right
    rw [h2]
    exact ⟨h1, rfl⟩

/-- No panic when the summands have one sign and the sum is in range. -/
theorem smTop_eval_debug {ρ : Env} {x m c : Int} (hx : f.smX.eval .debug ρ = .ok x)
    (hm : ρ.get (f.smM (f.nd - 1)) = some m) (hc : ρ.get (f.smD - 1) = some c)
    (hs : (0 ≤ x ∧ 0 ≤ m ∧ 0 ≤ c) ∨ (x ≤ 0 ∧ m ≤ 0 ∧ c ≤ 0))
    (hr : -2 ^ 63 ≤ x + 2 ^ f.w * m + c ∧ x + 2 ^ f.w * m + c ≤ 2 ^ 63 - 1) :
    f.smTop.eval .debug ρ = .ok (wrap64 (x + 2 ^ f.w * m + c)) := by
  have hp : (0 : Int) < 2 ^ f.w := by positivity
  have hm' : -2 ^ 63 ≤ 2 ^ f.w * m ∧ 2 ^ f.w * m ≤ 2 ^ 63 - 1 ∧
      -2 ^ 63 ≤ x + 2 ^ f.w * m ∧ x + 2 ^ f.w * m ≤ 2 ^ 63 - 1 := by
    rcases hs with ⟨h1, h2, h3⟩ | ⟨h1, h2, h3⟩
    · have := mul_nonneg hp.le h2
      generalize 2 ^ f.w * m = y at *
      omega
    · have := mul_nonpos_of_nonneg_of_nonpos hp.le h2
      generalize 2 ^ f.w * m = y at *
      omega
  simp only [smTop, Expr.eval, hx, hm, hc, bind, Except.bind, pure, Except.pure]
  rw [shl64, mul_comm m, wrap64_of_range ⟨hm'.1, hm'.2.1⟩, arith_of_range _ hm'.2.2]
  simp only []
  rw [arith_of_range _ hr, wrap64_of_range hr]

theorem readSlots_congr {ρ σ : Env} : ∀ (n base : Nat),
    (∀ j, base ≤ j → j < base + n → σ.get j = ρ.get j) →
    readSlots σ base n = readSlots ρ base n := by
  intro n
  induction n with
  | zero => intro base _; rfl
  | succ n ih =>
    intro base h
    simp only [readSlots, h base (by omega) (by omega)]
    rw [ih (base + 1) fun j h1 h2 => h j (by omega) (by omega)]

/-- From the run without the product of the upper digit to the run of the code. -/
theorem smallMul_swap (hf : f.split = true) {a : Elem} {b : Int} (ha : f.Tight a)
    (hb : -2 ^ 31 ≤ b ∧ b ≤ 2 ^ 31) {ρ ρQ : Env}
    (h1 : ∀ pr, runProg pr (f.code.smallMulP.take (f.nd + 1)) (initEnv a [b]) = .ok ρ)
    (h2 : ∀ x ∈ f.smMid (-p2 f.tb - 1) (p2 (f.tb + 1) + f.c) (-p2 31) (p2 31),
        ∃ v, ρ.get x.1 = some v ∧ x.2.1 ≤ v ∧ v ≤ x.2.2)
    (hQ : runProg .debug (viaSlot f.smP2 f.smD f.smRest f.smS (f.k - 1)) ρ = .ok ρQ)
    (hrQ : f.Rep (readSlots ρQ 0 f.k)) {U : Int}
    (hU : U = f.V (readSlots ρQ 0 f.k) +
      2 ^ (f.w * (f.nd - 1)) * (envF ρ (128 + (f.nd - 1)) * envF ρ (128 + f.nd))) :
    ∃ r, f.code.smallMulAssign .release a b = .ok r ∧
      (f.code.smallMulAssign .debug a b = .ok r ∨
        f.code.smallMulAssign .debug a b = .error .overflow) ∧ f.Rep r ∧
      f.V r = U - 2 ^ (f.L * (f.k - 1) + 64) * ((U / 2 ^ (f.L * (f.k - 1)) + 2 ^ 63) / 2 ^ 64) ∧
      (0 ≤ f.V a ∧ f.V a < 2 ^ f.n → -2 ^ (f.L * (f.k - 1) + 63) ≤ U →
        U < 2 ^ (f.L * (f.k - 1) + 63) → f.code.smallMulAssign .debug a b = .ok r) := by
  have h := smFull_ok f hf
  simp only [smFull, Bool.and_eq_true] at h
  obtain ⟨⟨⟨⟨hform, -⟩, -⟩, -⟩, hM⟩ := h
  simp only [smForm, Bool.and_eq_true, decide_eq_true_eq] at hform
  obtain ⟨hform, hS⟩ := hform
  -- the statements before the top word
  obtain ⟨ρ2, h3, h4, h5⟩ := check_sound hM .debug ρ h2
  have h5 := Int.zero_dvd.mp h5
  simp only [EForm.val, kv, pow_zero, Int.ediv_one, one_mul, add_zero] at h5
  rw [if_pos (by omega), sub_eq_zero] at h5
  obtain ⟨m, hm, -⟩ := h4 _ (.head _)
  obtain ⟨m2, hm2, -⟩ := h4 _ (.tail _ (.head _))
  obtain ⟨m3, hm3, -⟩ := h4 _ (.tail _ (.tail _ (.head _)))
  obtain ⟨c, hc, -⟩ := h4 _ (.tail _ (.tail _ (.tail _ (.head _))))
  simp only at hm hm2 hm3 hc
  have hm' : m = envF ρ (128 + (f.nd - 1)) * envF ρ (128 + f.nd) := by
    rw [← h5, envF, hm, Option.getD_some]
  -- the top word without the upper product
  obtain ⟨y, hy⟩ : ∃ y, f.smRest.eval .debug ρ2 = .ok y := by
    simp only [viaSlot, runProg_append, h3, Except.bind, runProg, bind, Stmt.exec, pure,
      Except.pure] at hQ
    cases hx : f.smRest.eval .debug ρ2 with
    | error z => rw [hx] at hQ; cases hQ
    | ok y => exact ⟨y, rfl⟩
  obtain ⟨x, hx, hxy, hxe⟩ : ∃ x, f.smX.eval .debug ρ2 = .ok x ∧ y = x + c ∧
      x = m3 / 2 ^ f.w + m2 := by
    have e : f.smRest.eval .debug ρ2 = (f.smX.eval .debug ρ2).bind fun u =>
        arith .debug (u + c) := by
      simp only [smRest, Expr.eval, hc, bind, Except.bind]
    rw [e] at hy
    cases hx : f.smX.eval .debug ρ2 with
    | error z => rw [hx] at hy; cases hy
    | ok x =>
      rw [hx] at hy
      refine ⟨x, rfl, (arith_debug hy).1, ?_⟩
      simp only [smX, Expr.eval, hm2, hm3, bind, Except.bind, pure, Except.pure] at hx
      exact (arith_debug hx).1
  -- the value
  have hk := f.k_sub
  have hk0 := f.k_pos
  obtain ⟨low, hlow⟩ : ∃ low, low = readSlots ρQ 0 (f.k - 1) := ⟨_, rfl⟩
  have main : ∀ (pr : Profile),
      f.smTop.eval pr ρ2 = .ok (wrap64 (x + 2 ^ f.w * m + c)) →
      f.code.smallMulAssign pr a b = .ok (low ++ [wrap64 (x + 2 ^ f.w * m + c)]) ∧
        readSlots ρQ 0 f.k = low ++ [y] := by
    intro pr he
    obtain ⟨y', σ, h6, h7, h8, h9, h10⟩ := run_viaSlot pr (run_mono pr _ _ _ h3) he hS
      (run_mono pr _ _ _ hQ)
    rw [eval_mono pr ρ2 _ _ hy] at h6
    cases h6
    have hsk : f.k ≤ f.smD := by simp only [smD, smJ]; omega
    have hlow' : readSlots σ 0 (f.k - 1) = low := by
      rw [hlow]
      exact readSlots_congr _ _ fun j h1 h2 => h10 j (by omega) (by omega)
    have e2 : readSlots σ 0 f.k = low ++ [wrap64 (x + 2 ^ f.w * m + c)] := by
      rw [← hk, readSlots_append, hlow', Nat.zero_add]
      simp [readSlots, h9]
    have e3 : readSlots ρQ 0 f.k = low ++ [y] := by
      rw [← hk, readSlots_append, ← hlow, Nat.zero_add]
      simp [readSlots, h7]
    have hrun : runProg pr f.code.smallMulP (initEnv a [b]) = .ok σ := by
      rw [hform, runProg_append, h1 pr]
      exact h8
    refine ⟨?_, e3⟩
    simp only [FieldCode.smallMulAssign, FieldCode.runLimb, hrun, limbs_eq, bind, Except.bind, pure,
      Except.pure, e2]
  have hrel := smTop_eval .release (eval_mono .release _ _ _ hx) hm hc
  rcases hrel with hrel | ⟨hrel, -⟩
  swap
  · cases hrel
  obtain ⟨hr1, hr2⟩ := main .release hrel
  rw [hr2] at hrQ hU
  obtain ⟨low', top', e, hl, hd, -, -⟩ := hrQ
  obtain ⟨e4, e5⟩ := List.append_inj' e rfl
  cases e5
  subst e4
  have hnd := nd_split hf
  have hw : f.w * (f.nd - 1) = f.L * (f.k - 1) + f.w := by
    rw [hnd.1, hnd.2]
    have : 2 * (f.k - 1) + 2 - 1 = 2 * (f.k - 1) + 1 := by omega
    rw [this]; ring
  rw [hw, ← hm', pow_add] at hU
  have hdn := digitsVal_nonneg _ _ hd
  have hdl := digitsVal_lt _ _ hd
  rw [hl] at hdl
  have hV : ∀ t, f.V (low ++ [t]) = digitsVal f.L low + 2 ^ (f.L * (f.k - 1)) * t := by
    intro t
    simp only [V, digitsVal_append, digitsVal, hl, mul_zero, add_zero]
  rw [hV] at hU
  have hUe : U = digitsVal f.L low + 2 ^ (f.L * (f.k - 1)) * (x + 2 ^ f.w * m + c) := by
    rw [hU, hxy]; ring
  have hdiv : U / 2 ^ (f.L * (f.k - 1)) = x + 2 ^ f.w * m + c := by
    rw [hUe, Int.add_mul_ediv_left _ _ (by positivity), Int.ediv_eq_zero_of_lt hdn hdl, zero_add]
  refine ⟨_, hr1, ?_, ?_, ?_, ?_⟩
  · rcases smTop_eval .debug hx hm hc with hd' | ⟨-, hd'⟩
    · exact .inl (main .debug hd').1
    · right
      have := run_viaSlot_error (S := f.smS) (s := f.smD) (t := f.k - 1) .debug h3 hd'
      have hrun : runProg .debug f.code.smallMulP (initEnv a [b]) = .error .overflow := by
        rw [hform, runProg_append, h1 .debug]
        exact this
      simp only [FieldCode.smallMulAssign, FieldCode.runLimb, hrun, bind, Except.bind]
  · exact ⟨low, _, rfl, hl, hd, wrap64_range _⟩
  · rw [hV, hdiv, wrap64_eq, hUe, pow_add]
    ring
  · intro h0 hlo hhi
    refine (main .debug (smTop_eval_debug hx hm hc ?_ ?_)).1
    · have hs := smSigns_ok f hf
      simp only [smSigns, Bool.and_eq_true] at hs
      obtain ⟨⟨⟨hA1, hA2⟩, hS1⟩, hS2⟩ := hs
      have ha' : f.Shape 0 (p2 f.tb - 1) a := by
        rw [pow_n] at h0
        refine Shape.of_V ha (by rw [mul_zero]; exact h0.1) ?_
        rw [p2_eq, sub_add_cancel]; exact h0.2
      have la := Shape.length_le ha
      rcases le_total 0 b with hb0 | hb0
      · left
        have hb' : InRs [(0, p2 31)] [b] := .cons (by simp only [p2_eq]; exact ⟨hb0, hb.2⟩) .nil
        obtain ⟨ρ', g1, g2, -⟩ := run_check hA1 .debug ha'.inRs hb' la (by simp)
        rw [h1 .debug] at g1
        cases g1
        obtain ⟨ρ'', g3, g4, -⟩ := check_sound hS1 .debug ρ g2
        rw [h3] at g3
        cases g3
        obtain ⟨v, u1, u2, -⟩ := g4 _ (.head _)
        rw [hm] at u1; cases u1
        obtain ⟨v, u1, u3, -⟩ := g4 _ (.tail _ (.head _))
        rw [hm2] at u1; cases u1
        obtain ⟨v, u1, u4, -⟩ := g4 _ (.tail _ (.tail _ (.head _)))
        rw [hm3] at u1; cases u1
        obtain ⟨v, u1, u5, -⟩ := g4 _ (.tail _ (.tail _ (.tail _ (.head _))))
        rw [hc] at u1; cases u1
        refine ⟨?_, u2, u5⟩
        have : 0 ≤ m3 / 2 ^ f.w := Int.ediv_nonneg u4 (by positivity)
        simp only at u3
        omega
      · right
        have hb' : InRs [(-p2 31, 0)] [b] := .cons (by simp only [p2_eq]; exact ⟨hb.1, hb0⟩) .nil
        obtain ⟨ρ', g1, g2, -⟩ := run_check hA2 .debug ha'.inRs hb' la (by simp)
        rw [h1 .debug] at g1
        cases g1
        obtain ⟨ρ'', g3, g4, -⟩ := check_sound hS2 .debug ρ g2
        rw [h3] at g3
        cases g3
        obtain ⟨v, u1, -, u2⟩ := g4 _ (.head _)
        rw [hm] at u1; cases u1
        obtain ⟨v, u1, -, u3⟩ := g4 _ (.tail _ (.head _))
        rw [hm2] at u1; cases u1
        obtain ⟨v, u1, -, u4⟩ := g4 _ (.tail _ (.tail _ (.head _)))
        rw [hm3] at u1; cases u1
        obtain ⟨v, u1, -, u5⟩ := g4 _ (.tail _ (.tail _ (.tail _ (.head _))))
        rw [hc] at u1; cases u1
        refine ⟨?_, u2, u5⟩
        have : m3 / 2 ^ f.w ≤ 0 := by
          have : m3 / 2 ^ f.w ≤ 0 / 2 ^ f.w := Int.ediv_le_ediv (by positivity) u4
          rwa [Int.zero_ediv] at this
        simp only at u3
        omega
    · rw [← hdiv]
      have hp : (0 : Int) < 2 ^ (f.L * (f.k - 1)) := by positivity
      constructor
      · rw [Int.le_ediv_iff_mul_le hp]
        rw [pow_add] at hlo
        linarith
      · have : U / 2 ^ (f.L * (f.k - 1)) < 2 ^ 63 := by
          rw [Int.ediv_lt_iff_lt_mul hp]
          rw [pow_add] at hhi
          linarith
        omega

/-- The five types with a split top word other than `Mod_e521_1`. -/
theorem smallMul_wrap (hf : f.split = true) (hf' : f ≠ e521_1) {a : Elem} {b : Int} (ha : f.Tight a)
    (hb : -2 ^ 31 ≤ b ∧ b ≤ 2 ^ 31) {U : Int} (hU : U = f.V a * b + f.c * (f.V a / 2 ^ f.n)) :
    ∃ r, f.code.smallMulAssign .release a b = .ok r ∧
      (f.code.smallMulAssign .debug a b = .ok r ∨
        f.code.smallMulAssign .debug a b = .error .overflow) ∧ f.Rep r ∧
      f.V r = U - 2 ^ (f.L * (f.k - 1) + 64) * ((U / 2 ^ (f.L * (f.k - 1)) + 2 ^ 63) / 2 ^ 64) ∧
      (0 ≤ f.V a ∧ f.V a < 2 ^ f.n → -2 ^ (f.L * (f.k - 1) + 63) ≤ U →
        U < 2 ^ (f.L * (f.k - 1) + 63) → f.code.smallMulAssign .debug a b = .ok r) := by
  obtain ⟨ρ, h1, h2, h3, h4, h5⟩ := sm_phase1 hf ha hb
  have hC := smExact_ok f hf hf'
  rw [smExact] at hC
  obtain ⟨ρQ, h6, h7, h8⟩ := check_sound hC .debug ρ h2
  have hrQ : f.Rep (readSlots ρQ 0 f.k) := by
    have := readSlots_inRs _ _ h7
    rw [repR, shapeR_length] at this
    have := shape_of_inRs this
    norm_num [Rep]
    exact this
  refine smallMul_swap hf ha hb h1 h2 h6 hrQ ?_
  have h8 := Int.zero_dvd.mp h8
  have hnd := nd_split hf
  have hb1 : digitsVal f.w (readSlots ρ (128 + f.nd) 1) = b := by
    simp only [readSlots, digitsVal, mul_zero, add_zero]; exact h4
  rw [vform_val, one_mul, EForm.val_append,
    outer_val _ _ _ _ _ _ (by omega) (by omega) _ _ _ (by omega) (by omega), one_mul, hb1] at h8
  simp only [EForm.val, kv, h5] at h8
  have hsplit : f.V a = digitsVal f.w (readSlots ρ 128 (f.nd - 1)) +
      2 ^ (f.w * (f.nd - 1)) * envF ρ (128 + (f.nd - 1)) := by
    rw [← h3]
    conv_lhs => rw [show f.nd = (f.nd - 1) + 1 by omega]
    rw [readSlots_append, digitsVal_append, readSlots_length]
    simp only [readSlots, digitsVal, mul_zero, add_zero, envF]
  rw [h4, hU]
  have : f.V (readSlots ρQ 0 f.k) = digitsVal f.L (readSlots ρQ 0 f.k) := rfl
  rw [this, hsplit] 
  rw [hsplit] at h8
  linear_combination -h8

end Fld
end Verif

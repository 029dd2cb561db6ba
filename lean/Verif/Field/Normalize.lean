import Verif.Field.SmallMul

/-!
# Normalization: exact results (helper lemmas)
-/

namespace Verif
open Check

namespace Fld
variable {f : Fld}

/-- The value after folding the carry back in: `v % 2 ^ n + c · (v / 2 ^ n)`. -/
def fold (f : Fld) (v : Int) : Int := v % 2 ^ f.n + f.c * (v / 2 ^ f.n)

theorem fold_eq (f : Fld) (v : Int) : f.fold v = v - f.p * (v / 2 ^ f.n) := by
  have := Int.emod_add_mul_ediv v (2 ^ f.n)
  simp only [fold, p]
  linear_combination this

theorem fold_modEq (f : Fld) (v : Int) : f.fold v ≡ v [ZMOD f.p] := by
  rw [fold_eq]
  exact (Int.modEq_iff_dvd.mpr ⟨v / 2 ^ f.n, by ring⟩)

theorem fold_of_lt {v : Int} (h0 : 0 ≤ v) (h1 : v < 2 ^ f.n) : f.fold v = v := by
  rw [fold_eq, Int.ediv_eq_zero_of_lt h0 h1]; ring

theorem fold_nonneg_of_nonneg {v : Int} (h : 0 ≤ v) : 0 ≤ f.fold v := by
  have h1 : 0 ≤ v % 2 ^ f.n := Int.emod_nonneg _ (by positivity)
  have h2 : 0 ≤ v / 2 ^ f.n := Int.ediv_nonneg h (by positivity)
  have h3 : (0 : Int) ≤ f.c * (v / 2 ^ f.n) := mul_nonneg (by positivity) h2
  simp only [fold]; linarith

/-- The carry of a representation is small. -/
theorem Rep.carry {a : Elem} (h : f.Rep a) :
    -2 ^ 63 ≤ f.V a / 2 ^ f.n ∧ f.V a / 2 ^ f.n ≤ 2 ^ 63 := by
  obtain ⟨d, top, hV, h0, h1, ht, h2, h3⟩ := Shape.V_eq h
  rw [← Shape.top_div h ht]
  have hp : (0 : Int) < 2 ^ f.tb := by positivity
  have hp1 : (1 : Int) ≤ 2 ^ f.tb := hp
  constructor
  · rw [Int.le_ediv_iff_mul_le hp]; nlinarith
  · apply Int.ediv_le_of_le_mul hp; nlinarith

theorem Rep.fold_lt {a : Elem} (h : f.Rep a) : f.fold (f.V a) < 2 ^ f.n + 2 ^ 71 := by
  have h1 := h.carry
  have h2 : f.V a % 2 ^ f.n < 2 ^ f.n := Int.emod_lt_of_pos _ (by positivity)
  have h3 : (f.c : Int) < 256 := by exact_mod_cast f.c_lt
  have h4 : (0 : Int) ≤ f.c := by positivity
  have h5 : (f.c : Int) * (f.V a / 2 ^ f.n) ≤ f.c * 2 ^ 63 :=
    mul_le_mul_of_nonneg_left h1.2 h4
  simp only [fold]; norm_num at *; linarith

theorem Rep.le_fold {a : Elem} (h : f.Rep a) : -2 ^ 71 ≤ f.fold (f.V a) := by
  have h1 := h.carry
  have h2 : 0 ≤ f.V a % 2 ^ f.n := Int.emod_nonneg _ (by positivity)
  have h3 : (f.c : Int) < 256 := by exact_mod_cast f.c_lt
  have h4 : (0 : Int) ≤ f.c := by positivity
  have h5 : (f.c : Int) * (-2 ^ 63) ≤ f.c * (f.V a / 2 ^ f.n) :=
    mul_le_mul_of_nonneg_left h1.1 h4
  simp only [fold]; norm_num at *; linarith

/-- The integer words of `q · MODULUS` for `q = -1`. -/
def negMod (f : Fld) : Elem :=
  (f.c : Int) :: List.replicate (f.k - 2) 0 ++ [-p2 f.tb]

set_option maxRecDepth 100000 in
theorem smallMul_modulus_zero (f : Fld) (pr : Profile) :
    f.code.smallMul pr f.code.MODULUS 0 = .ok (List.replicate f.k 0) := by
  cases pr <;> cases f <;> decide +kernel

set_option maxRecDepth 100000 in
theorem smallMul_modulus_one (f : Fld) (pr : Profile) :
    f.code.smallMul pr f.code.MODULUS 1 = .ok f.code.MODULUS := by
  cases pr <;> cases f <;> decide +kernel

set_option maxRecDepth 100000 in
theorem smallMul_modulus_neg (f : Fld) (pr : Profile) :
    f.code.smallMul pr f.code.MODULUS (-1) = .ok f.negMod := by
  cases pr <;> cases f <;> decide +kernel

/-- Decidable form of `Shape`. -/
def shapeB (f : Fld) (lo hi : Int) (a : Elem) : Bool :=
  decide (a.length = f.k) && ((f.shapeR lo hi).zip a).all fun x =>
    decide (x.1.1 ≤ x.2) && decide (x.2 ≤ x.1.2)

theorem inRs_of_zip : ∀ (rs : List (Int × Int)) (a : List Int), a.length = rs.length →
    ((rs.zip a).all fun x => decide (x.1.1 ≤ x.2) && decide (x.2 ≤ x.1.2)) = true →
    InRs rs a := by
  intro rs
  induction rs with
  | nil => intro a h _; cases a with
    | nil => exact .nil
    | cons x a => simp at h
  | cons r rs ih =>
    intro a h h2
    cases a with
    | nil => simp at h
    | cons x a =>
      simp only [List.zip_cons_cons, List.all_cons, Bool.and_eq_true, decide_eq_true_eq] at h2
      exact .cons h2.1 (ih a (by simpa using h) h2.2)

theorem shape_of_shapeB {lo hi : Int} {a : Elem} (h : f.shapeB lo hi a = true) :
    f.Shape lo hi a := by
  simp only [shapeB, Bool.and_eq_true, decide_eq_true_eq] at h
  exact shape_of_inRs (inRs_of_zip _ _ (by rw [h.1, shapeR_length]) h.2)

set_option maxRecDepth 100000 in
theorem modulus_shape (f : Fld) : f.Shape 0 (2 ^ f.tb - 1) f.code.MODULUS := by
  rw [← p2_eq]
  apply shape_of_shapeB
  cases f <;> decide +kernel

set_option maxRecDepth 100000 in
theorem modulus_V (f : Fld) : f.V f.code.MODULUS = f.p := by
  cases f <;> decide +kernel

set_option maxRecDepth 100000 in
theorem negMod_shape (f : Fld) : f.Shape (-2 ^ f.tb) 0 f.negMod := by
  rw [← p2_eq]
  apply shape_of_shapeB
  cases f <;> decide +kernel

set_option maxRecDepth 100000 in
theorem negMod_V (f : Fld) : f.V f.negMod = -f.p := by
  cases f <;> decide +kernel

set_option maxRecDepth 100000 in
theorem zeros_shape (f : Fld) : f.Shape 0 0 (List.replicate f.k 0) := by
  apply shape_of_shapeB
  cases f <;> decide +kernel

set_option maxRecDepth 100000 in
theorem zeros_V (f : Fld) : f.V (List.replicate f.k 0) = 0 := by
  cases f <;> decide +kernel

theorem pow_tb_le (f : Fld) : (2 : Int) ^ f.tb ≤ 2 ^ 56 :=
  pow_le_pow_right₀ (by norm_num) f.tb_lt.le

theorem Shape.rep {lo hi : Int} {a : Elem} (h : f.Shape lo hi a) (h1 : -2 ^ 63 ≤ lo)
    (h2 : hi ≤ 2 ^ 63 - 1) : f.Rep a := Shape.mono h h1 h2

/-- The exact effect of `normalize`. -/
theorem normalize_exact (pr : Profile) {a : Elem} (ha : f.Rep a) :
    ∃ r, f.code.normalize pr a = .ok r ∧ f.Shape (-2 ^ f.tb - 1) (2 ^ f.tb) r ∧
      (f.fold (f.V a) + f.c < 0 → f.V r = f.fold (f.V a) - 2 * f.c) ∧
      (0 ≤ f.fold (f.V a) + f.c → f.fold (f.V a) < f.p → f.V r = f.fold (f.V a)) ∧
      (f.p ≤ f.fold (f.V a) → f.V r = f.fold (f.V a) - f.p) := by
  have hc : asI32 f.code.cval = f.c := by rw [cval_eq]; cases f <;> rfl
  have hci : IsI32 f.c := by
    have := f.c_lt
    simp only [IsI32]; norm_num; omega
  obtain ⟨s, hs1, hs2, hs3⟩ := smallAdd_exact pr ha hci
  have hsV : f.V s = f.fold (f.V a) + f.c := by rw [hs3, fold_eq]; ring
  obtain ⟨d, top, -, -, -, ht, h2, h3⟩ := Shape.V_eq hs2
  have hq := Shape.top_div hs2 ht
  have hcarry : f.code.carryOut s = .ok (f.V s / 2 ^ f.n) := by
    simp only [FieldCode.carryOut, carryLimb_eq, ht, carryShift_eq, shr64, hq]
  have hp : (0 : Int) < 2 ^ f.n := by positivity
  have hbig := big f
  have hcl : (f.c : Int) < 256 := by exact_mod_cast f.c_lt
  have hc0 : (0 : Int) ≤ f.c := by positivity
  have hlt := ha.fold_lt
  have hge := ha.le_fold
  have hnum : (2 : Int) ^ 72 < 2 ^ 200 := by norm_num
  have hnum2 : (2 : Int) ^ 72 = 2 * 2 ^ 71 := by norm_num
  have hnum3 : (256 : Int) < 2 ^ 71 := by norm_num
  have key : ∀ (q : Int) (o : Elem), f.V s / 2 ^ f.n = q → asI32 q = q →
      f.code.smallMul pr f.code.MODULUS q = .ok o → f.Rep o →
      ∃ r, f.code.normalize pr a = .ok r ∧ f.Shape (-2 ^ f.tb - 1) (2 ^ f.tb) r ∧
        f.V r = f.fold (f.V a) - f.V o + (2 ^ f.n + f.c) * (f.V o / 2 ^ f.n) := by
    intro q o h4 h5 h6 h7
    obtain ⟨r, hr1, hr2, hr3⟩ := sub_exact pr ha h7
    refine ⟨r, ?_, hr2, ?_⟩
    · simp only [FieldCode.normalize, FieldCode.smallAdd, hc, hs1, hcarry, h4, h5, h6, hr1, bind,
        Except.bind]
    · rw [hr3, fold_eq]; ring
  rcases lt_or_ge (f.fold (f.V a) + f.c) 0 with hneg | hnn
  · have e : f.V s / 2 ^ f.n = -1 := by
      rw [hsV]
      apply Int.ediv_eq_neg_one_of_neg_of_le <;> linarith
    have hts := negMod_shape f
    have := f.pow_tb_le
    obtain ⟨r, hr1, hr2, hr3⟩ := key (-1) f.negMod e rfl (smallMul_modulus_neg f pr)
      (hts.rep (by norm_num at *; linarith) (by norm_num))
    refine ⟨r, hr1, hr2, fun _ => ?_, fun h => absurd h (by linarith), fun h => ?_⟩
    · have e2 : -f.p / 2 ^ f.n = -1 := by
        have := f.p_pos
        have := f.p_lt
        apply Int.ediv_eq_neg_one_of_neg_of_le <;> linarith
      rw [hr3, negMod_V, e2]
      simp only [p]; ring
    · have := f.p_pos; linarith
  · rcases lt_or_ge (f.fold (f.V a)) f.p with hl | hge2
    · have e : f.V s / 2 ^ f.n = 0 := by
        rw [hsV]
        apply Int.ediv_eq_zero_of_lt hnn
        simp only [p] at hl; linarith
      obtain ⟨r, hr1, hr2, hr3⟩ := key 0 _ e rfl (smallMul_modulus_zero f pr)
        ((zeros_shape f).rep (by norm_num) (by norm_num))
      refine ⟨r, hr1, hr2, fun h => absurd h (by linarith), fun _ _ => ?_,
        fun h => absurd h (by linarith)⟩
      rw [hr3, zeros_V]; simp
    · have e : f.V s / 2 ^ f.n = 1 := by
        rw [hsV]
        simp only [p] at hge2
        rw [show f.fold (f.V a) + f.c = (f.fold (f.V a) + f.c - 2 ^ f.n) + 2 ^ f.n * 1 by ring,
          Int.add_mul_ediv_left _ _ hp.ne', Int.ediv_eq_zero_of_lt (by linarith) (by linarith)]
        rfl
      have := f.pow_tb_le
      obtain ⟨r, hr1, hr2, hr3⟩ := key 1 _ e rfl (smallMul_modulus_one f pr)
        ((modulus_shape f).rep (by norm_num) (by norm_num at *; linarith))
      refine ⟨r, hr1, hr2, fun h => absurd h (by linarith), fun _ h => absurd h (by linarith),
        fun _ => ?_⟩
      rw [hr3, modulus_V, Int.ediv_eq_zero_of_lt f.p_pos.le f.p_lt]; ring

/-- Normalization is correct as soon as folding the carry gives a non-negative number. -/
theorem normalize_ok (pr : Profile) {a : Elem} (ha : f.Rep a) (h : 0 ≤ f.fold (f.V a)) :
    ∃ r, f.code.normalize pr a = .ok r ∧ f.Canon (f.V a % f.p) r := by
  obtain ⟨r, h1, h2, -, h4, h5⟩ := normalize_exact pr ha
  have hc0 : (0 : Int) ≤ f.c := by positivity
  have hlt := ha.fold_lt
  have hbig := big f
  have hcl : (f.c : Int) < 256 := by exact_mod_cast f.c_lt
  have hnum : (2 : Int) ^ 73 < 2 ^ 200 := by norm_num
  have hnum2 : (2 : Int) ^ 73 = 4 * 2 ^ 71 := by norm_num
  have hnum3 : (256 : Int) < 2 ^ 71 := by norm_num
  have hmod : f.fold (f.V a) % f.p = f.V a % f.p := fold_modEq f _
  have hV : f.V r = f.V a % f.p := by
    rw [← hmod]
    rcases lt_or_ge (f.fold (f.V a)) f.p with hl | hge
    · rw [h4 (by linarith) hl, Int.emod_eq_of_lt h hl]
    · rw [h5 hge, ← Int.sub_emod_right, Int.emod_eq_of_lt (by linarith)]
      simp only [p]; linarith
  have hm0 : 0 ≤ f.V a % f.p := Int.emod_nonneg _ f.p_pos.ne'
  have hm1 : f.V a % f.p < f.p := Int.emod_lt_of_pos _ f.p_pos
  refine ⟨r, h1, ⟨Shape.of_V h2 ?_ ?_, hV, hm0, hm1⟩⟩
  · rw [mul_zero, hV]; exact hm0
  · rw [sub_add_cancel, ← pow_n, hV]
    exact lt_trans hm1 f.p_lt

end Fld
end Verif

import Verif.Field.Pack

/-!
# Divisibility by the moduli and consequences of the exact results (helper lemmas)
-/

namespace Verif
namespace Fld
variable {f : Fld}

theorem p_odd (f : Fld) : f.p % 2 = 1 := by
  have h1 : f.n = (f.n - 1) + 1 := by cases f <;> rfl
  have h2 : (f.c : Int) % 2 = 1 := by cases f <;> rfl
  simp only [p]
  rw [h1, pow_succ]
  omega

theorem dvd_two_mul {x : Int} (h : f.p ∣ 2 * x) : f.p ∣ x := by
  obtain ⟨k, hk⟩ := h
  have ho := f.p_odd
  have hk2 : k % 2 = 0 := by
    have h1 : (f.p * k) % 2 = 0 := by rw [← hk]; omega
    rw [Int.mul_emod, ho, one_mul, Int.emod_emod_of_dvd _ dvd_rfl] at h1
    exact h1
  refine ⟨k / 2, ?_⟩
  have : k = 2 * (k / 2) := by omega
  rw [this] at hk
  linarith

theorem dvd_pow_mul {x : Int} : ∀ (m : Nat), f.p ∣ 2 ^ m * x → f.p ∣ x := by
  intro m
  induction m with
  | zero => intro h; simpa using h
  | succ m ih =>
    intro h
    rw [pow_succ', mul_assoc] at h
    exact ih (dvd_two_mul h)

theorem p_big (f : Fld) : (2 : Int) ^ 199 < f.p := by
  have h1 := big f
  have h2 : (f.c : Int) < 256 := by exact_mod_cast f.c_lt
  have h3 : (2 : Int) ^ 200 = 2 ^ 199 + 2 ^ 199 := by norm_num
  have h4 : (256 : Int) < 2 ^ 199 := by norm_num
  simp only [p]; linarith

/-- Small multiples of `p` are zero. -/
theorem eq_zero_of_dvd {x : Int} (h : f.p ∣ x) (h1 : -2 ^ 199 ≤ x) (h2 : x ≤ 2 ^ 199) : x = 0 := by
  have := p_big f
  obtain ⟨k, hk⟩ := h
  rcases lt_trichotomy k 0 with h | h | h
  · exfalso
    have : f.p * k ≤ f.p * (-1) := mul_le_mul_of_nonneg_left (by omega) f.p_pos.le
    linarith
  · rw [hk, h, mul_zero]
  · exfalso
    have : f.p * 1 ≤ f.p * k := mul_le_mul_of_nonneg_left (by omega) f.p_pos.le
    linarith

theorem Tight.rep {a : Elem} (h : f.Tight a) : f.Rep a := by
  have h1 := f.pow_tb_le
  have h2 : (f.c : Int) < 256 := by exact_mod_cast f.c_lt
  refine Shape.mono h ?_ ?_
  · norm_num at *; linarith
  · rw [pow_succ]; norm_num at *; linarith

theorem tb_ge (f : Fld) : (2 : Int) ^ 22 ≤ 2 ^ f.tb :=
  pow_le_pow_right₀ (by norm_num) (by cases f <;> decide)

theorem Tight.loose {a : Elem} (h : f.Tight a) : f.Loose a := by
  have h0 := f.tb_ge
  have h2 : (f.c : Int) < 256 := by exact_mod_cast f.c_lt
  refine Shape.mono h ?_ ?_
  · rw [pow_add]; norm_num at *; linarith
  · rw [pow_succ, pow_add]; norm_num at *; linarith

theorem Loose.rep {a : Elem} (h : f.Loose a) : f.Rep a := by
  have h1 := f.pow_tb_le
  refine Shape.mono h ?_ ?_
  · rw [pow_add]; norm_num at *; linarith
  · rw [pow_add]; norm_num at *; linarith

theorem Canon.shape {x : Int} {a : Elem} (h : f.Canon x a) : f.Shape 0 (2 ^ f.tb - 1) a := h.1

theorem word_tight {a : Elem} (h : f.Shape 0 (2 ^ f.tb - 1) a) : f.Tight a := by
  have h0 := f.tb_ge
  have h2 : (0 : Int) ≤ f.c := by positivity
  refine Shape.mono h ?_ ?_
  · norm_num at *; linarith
  · rw [pow_succ]; norm_num at *; linarith

theorem Canon.tight {x : Int} {a : Elem} (h : f.Canon x a) : f.Tight a := word_tight h.1

theorem word_V {a : Elem} (h : f.Shape 0 (2 ^ f.tb - 1) a) : 0 ≤ f.V a ∧ f.V a < 2 ^ f.n := by
  have h1 := h.lo_le
  have h2 := h.lt_hi
  rw [mul_zero] at h1
  rw [sub_add_cancel, ← pow_n] at h2
  exact ⟨h1, h2⟩

theorem Foldable.of_nonneg {v : Int} (h : 0 ≤ v) : f.Foldable v := fold_nonneg_of_nonneg h

theorem Foldable.of_gt {v : Int} (h : -f.p ≤ v) : f.Foldable v := by
  rcases lt_or_ge v 0 with h0 | h0
  · have h1 : v / 2 ^ f.n = -1 := by
      have := f.p_lt
      apply Int.ediv_eq_neg_one_of_neg_of_le <;> linarith
    show 0 ≤ f.fold v
    rw [fold_eq, h1]; linarith
  · exact .of_nonneg h0

theorem Loose.V_bound {a : Elem} (h : f.Loose a) :
    -2 ^ (f.n + 4) ≤ f.V a ∧ f.V a ≤ 2 ^ (f.n + 5) := by
  have h1 := Shape.lo_le h
  have h2 := Shape.lt_hi h
  have e1 : (2 : Int) ^ (f.L * (f.k - 1)) * (-2 ^ (f.tb + 4)) = -2 ^ (f.n + 4) := by
    rw [n_eq, mul_neg, ← pow_add, add_assoc]
  have e2 : (2 : Int) ^ (f.L * (f.k - 1)) * (2 ^ (f.tb + 4) + 1) ≤ 2 ^ (f.n + 5) := by
    have : (2 : Int) ^ (f.n + 5) = 2 ^ (f.L * (f.k - 1)) * (2 ^ (f.tb + 5)) := by
      rw [← pow_add, n_eq, add_assoc]
    rw [this]
    apply mul_le_mul_of_nonneg_left _ (by positivity)
    rw [pow_succ 2 (f.tb + 4)]
    have : (1 : Int) ≤ 2 ^ (f.tb + 4) := one_le_pow₀ (by norm_num)
    linarith
  exact ⟨by rw [← e1]; exact h1, by linarith⟩

theorem mul_bound {M A B : Int} (ha : -M ≤ A ∧ A ≤ M) (hb : -M ≤ B ∧ B ≤ M) :
    -(M * M) ≤ A * B ∧ A * B ≤ M * M := by
  constructor <;> nlinarith [ha.1, ha.2, hb.1, hb.2]

theorem Loose.V_abs {a : Elem} (h : f.Loose a) :
    -2 ^ (f.n + 5) ≤ f.V a ∧ f.V a ≤ 2 ^ (f.n + 5) := by
  have h1 := h.V_bound
  have h2 : (2 : Int) ^ (f.n + 4) ≤ 2 ^ (f.n + 5) := pow_le_pow_right₀ (by norm_num) (by omega)
  exact ⟨by linarith [h1.1], h1.2⟩

theorem Loose.mul_abs {a b : Elem} (ha : f.Loose a) (hb : f.Loose b) :
    -2 ^ (2 * f.n + 10) ≤ f.V a * f.V b ∧ f.V a * f.V b ≤ 2 ^ (2 * f.n + 10) := by
  have := mul_bound ha.V_abs hb.V_abs
  rw [← pow_add, show f.n + 5 + (f.n + 5) = 2 * f.n + 10 by ring] at this
  exact this

/-- The dropped part vanishes modulo `p` exactly when nothing is dropped. -/
theorem mulDrop_dvd {x : Int} (h1 : -2 ^ (2 * f.n + 10) ≤ x) (h2 : x ≤ 2 ^ (2 * f.n + 10)) :
    f.p ∣ f.mulDrop x ↔ f.MulDomain x := by
  cases f with
  | e251_9 =>
    have hn : e251_9.n = 251 := rfl
    rw [hn] at h1 h2
    simp only [mulDrop, MulDomain]
    constructor
    · intro h
      have h3 := dvd_pow_mul 504 h
      have h4 : x / 2 ^ 504 ≤ 2 ^ 199 := by
        apply Int.ediv_le_of_le_mul (by positivity)
        rw [← pow_add]
        exact h2.trans (pow_le_pow_right₀ (by norm_num) (by norm_num))
      have h5 : -2 ^ 199 ≤ x / 2 ^ 504 := by
        rw [Int.le_ediv_iff_mul_le (by positivity), neg_mul, ← pow_add]
        refine le_trans (neg_le_neg ?_) h1
        exact pow_le_pow_right₀ (by norm_num) (by norm_num)
      have h6 := eq_zero_of_dvd h3 h5 h4
      rwa [Int.ediv_eq_iff_of_pos (by positivity), zero_mul, zero_add] at h6
    · intro h
      rw [Int.ediv_eq_zero_of_lt h.1 h.2, mul_zero]
      exact dvd_zero _
  | e222_117 =>
    have hn : e222_117.n = 222 := rfl
    rw [hn] at h1 h2
    simp only [mulDrop, MulDomain]
    have hiff : 117 * (x / 2 ^ 425) / 2 ^ 29 = 0 ↔ 0 ≤ x ∧ x < 4588641 * 2 ^ 425 := by
      rw [← Int.ediv_lt_iff_lt_mul (by positivity), Int.ediv_eq_iff_of_pos (by positivity)]
      have : 0 ≤ x / 2 ^ 425 ↔ 0 ≤ x := Int.ediv_nonneg_iff_of_pos (by positivity)
      rw [← this]
      generalize x / 2 ^ 425 = y
      norm_num
      omega
    rw [← hiff]
    have h4 : x / 2 ^ 425 ≤ 2 ^ 29 := by
      apply Int.ediv_le_of_le_mul (by positivity)
      rw [← pow_add]
      exact h2.trans (pow_le_pow_right₀ (by norm_num) (by norm_num))
    have h5 : -2 ^ 29 ≤ x / 2 ^ 425 := by
      rw [Int.le_ediv_iff_mul_le (by positivity), neg_mul, ← pow_add]
      refine le_trans (neg_le_neg ?_) h1
      exact pow_le_pow_right₀ (by norm_num) (by norm_num)
    constructor
    · intro h
      have h3 := dvd_pow_mul 232 h
      generalize x / 2 ^ 425 = y at *
      refine eq_zero_of_dvd h3 ?_ ?_
      · norm_num at *; omega
      · norm_num at *; omega
    · intro h
      rw [h, mul_zero]; exact dvd_zero _
  | _ => exact ⟨fun _ => trivial, fun _ => dvd_zero _⟩

end Fld
end Verif

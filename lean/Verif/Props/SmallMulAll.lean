import Verif.Props.SmallMul
import Verif.Props.Refine
import Verif.Field.SmallMul521Full

/-!
# C07 for every `i32`, and C51: panics caused by multiplication by machine integers
-/

namespace Verif
open Fld FieldCode

/-- The integer `x` divided by the weight of the top word fits in an `i64`. -/
def Fld.TopFits (f : Fld) (x : Int) : Prop :=
  -2 ^ (f.L * (f.k - 1) + 63) ≤ x ∧ x < 2 ^ (f.L * (f.k - 1) + 63)

theorem Fld.Tight.carry_small {f : Fld} {a : Elem} (h : f.Tight a) :
    -2 ≤ f.V a / 2 ^ f.n ∧ f.V a / 2 ^ f.n ≤ 2 := by
  obtain ⟨d, top, hV, h0, h1, ht, h2, h3⟩ := Shape.V_eq h
  rw [← Shape.top_div h ht]
  have hp : (0 : Int) < 2 ^ f.tb := by positivity
  have hge := f.tb_ge
  have hc : (f.c : Int) < 256 := by exact_mod_cast f.c_lt
  constructor
  · rw [Int.le_ediv_iff_mul_le hp]; linarith
  · have : top / 2 ^ f.tb < 3 := by
      rw [Int.ediv_lt_iff_lt_mul hp]
      rw [pow_succ] at h3
      norm_num at hge
      linarith
    omega

theorem Fld.Tight.V_small {f : Fld} {a : Elem} (h : f.Tight a) :
    -2 ^ (f.n + 2) ≤ f.V a ∧ f.V a ≤ 2 ^ (f.n + 2) := by
  have hc := h.carry_small
  have hp : (0 : Int) < 2 ^ f.n := by positivity
  have e := Int.emod_add_mul_ediv (f.V a) (2 ^ f.n)
  have h0 := Int.emod_nonneg (f.V a) hp.ne'
  have h1 := Int.emod_lt_of_pos (f.V a) hp
  rw [pow_add]
  generalize f.V a / 2 ^ f.n = q at *
  have h2 : 2 ^ f.n * (-2) ≤ 2 ^ f.n * q := mul_le_mul_of_nonneg_left hc.1 hp.le
  have h3 : 2 ^ f.n * q ≤ 2 ^ f.n * 2 := mul_le_mul_of_nonneg_left hc.2 hp.le
  constructor <;> linarith

/-- Number of times `2 ^ 64` is subtracted from the top word. -/
def Fld.wraps (f : Fld) (U : Int) : Int := (U / 2 ^ (f.L * (f.k - 1)) + 2 ^ 63) / 2 ^ 64

theorem Fld.wraps_zero {f : Fld} {U : Int} : f.wraps U = 0 ↔ f.TopFits U := by
  have hp : (0 : Int) < 2 ^ (f.L * (f.k - 1)) := by positivity
  rw [wraps, TopFits, Int.ediv_eq_iff_of_pos (by norm_num)]
  have h1 : -2 ^ 63 ≤ U / 2 ^ (f.L * (f.k - 1)) ↔ -2 ^ (f.L * (f.k - 1) + 63) ≤ U := by
    rw [Int.le_ediv_iff_mul_le hp, pow_add]
    constructor <;> intro h <;> linarith
  have h2 : U / 2 ^ (f.L * (f.k - 1)) < 2 ^ 63 ↔ U < 2 ^ (f.L * (f.k - 1) + 63) := by
    rw [Int.ediv_lt_iff_lt_mul hp, pow_add]
    constructor <;> intro h <;> linarith
  rw [← h1, ← h2]
  omega

theorem Fld.wraps_bound {f : Fld} {U : Int} (h : -2 ^ (f.n + 34) ≤ U ∧ U ≤ 2 ^ (f.n + 34)) :
    -2 ^ 27 ≤ f.wraps U ∧ f.wraps U ≤ 2 ^ 27 := by
  have hp : (0 : Int) < 2 ^ (f.L * (f.k - 1)) := by positivity
  have e : (2 : Int) ^ (f.n + 34) = 2 ^ (f.tb + 34) * 2 ^ (f.L * (f.k - 1)) := by
    rw [← pow_add, f.n_eq]; congr 1; omega
  rw [e] at h
  have hb : (2 : Int) ^ (f.tb + 34) ≤ 2 ^ 90 :=
    pow_le_pow_right₀ (by norm_num) (by have := f.tb_lt; omega)
  have h1 : -2 ^ (f.tb + 34) ≤ U / 2 ^ (f.L * (f.k - 1)) := by
    rw [Int.le_ediv_iff_mul_le hp]; linarith [h.1]
  have h2 : U / 2 ^ (f.L * (f.k - 1)) ≤ 2 ^ (f.tb + 34) := by
    have : U / 2 ^ (f.L * (f.k - 1)) < 2 ^ (f.tb + 34) + 1 := by
      rw [Int.ediv_lt_iff_lt_mul hp]; linarith [h.2]
    omega
  rw [wraps]
  generalize (2 : Int) ^ (f.tb + 34) = B at *
  generalize U / 2 ^ (f.L * (f.k - 1)) = t at *
  norm_num at hb
  norm_num
  omega

theorem abs_mul_bound {M N A B : Int} (ha : -M ≤ A ∧ A ≤ M) (hb : -N ≤ B ∧ B ≤ N) :
    -(M * N) ≤ A * B ∧ A * B ≤ M * N := by
  rw [← abs_le] at *
  rw [abs_mul]
  exact mul_le_mul ha hb (abs_nonneg _) ((abs_nonneg _).trans ha)

/-- The integer before the top word is reduced to 64 bits is not too large. -/
theorem U_bound {f : Fld} {a : Elem} {b : Int} (ha : f.Tight a) (hb : IsI32 b) {e : Int}
    (he : -2 ^ f.n ≤ e ∧ e ≤ 2 ^ f.n) :
    -2 ^ (f.n + 34) ≤ f.V a * b + e ∧ f.V a * b + e ≤ 2 ^ (f.n + 34) := by
  have hV := ha.V_small
  have := abs_mul_bound hV (N := 2 ^ 31) ⟨hb.1, hb.2.le⟩
  rw [← pow_add, show f.n + 2 + 31 = f.n + 33 by ring] at this
  have e1 : (2 : Int) ^ (f.n + 34) = 2 ^ (f.n + 33) * 2 := by rw [← pow_succ]
  have e2 : (2 : Int) ^ f.n ≤ 2 ^ (f.n + 33) := pow_le_pow_right₀ (by norm_num) (by omega)
  rw [e1]
  constructor <;> linarith [this.1, this.2, he.1, he.2]

theorem carry_zero_iff {f : Fld} {x : Int} : x / 2 ^ f.n = 0 ↔ 0 ≤ x ∧ x < 2 ^ f.n := by
  rw [Int.ediv_eq_iff_of_pos (by positivity), zero_mul, zero_add]

/-- The outcome in profile `pr`, from those in the two profiles. -/
theorem ok_of_profiles {g : Profile → Res Elem} {r r' : Elem} {pr : Profile}
    (h1 : g .release = .ok r) (h2 : g .debug = .ok r ∨ g .debug = .error .overflow)
    (h : g pr = .ok r') : r' = r := by
  cases pr with
  | release => rw [h1] at h; exact (Except.ok.inj h).symm
  | debug =>
    rcases h2 with h2 | h2
    · rw [h2] at h; exact (Except.ok.inj h).symm
    · rw [h2] at h; cases h

theorem split_or (f : Fld) (hf : f ≠ .e521_1) : f.split = true ∨ (f.split = false ∧ f.smE = 31 ∧
    f.n + 31 ≤ f.L * (f.k - 1) + 63) := by
  cases f <;> first | (exact absurd rfl hf) | (left; rfl) | (right; decide)

/-- `a * n` for every `i32` `n`, all types but `Mod_e521_1`: no panic and the right result exactly
when the value of `a` has no carry and the integer product fits in the words of the result, the
topmost being an `i64`. -/
theorem C07_small_mul_i32_correct_iff (f : Fld) (pr : Profile) (hf : f ≠ .e521_1) {a : Elem}
    {b : Int} (ha : f.Tight a) (hb : IsI32 b) :
    (∃ r, f.code.smallMul pr a b = .ok r ∧ f.Denotes r (f.V a * b)) ↔
      (0 ≤ f.V a ∧ f.V a < 2 ^ f.n) ∧ f.TopFits (f.V a * b) := by
  rcases split_or f hf with hs | ⟨-, he, hn⟩
  · obtain ⟨r, h1, h2, h3, h4, h5⟩ := smallMul_wrap hs hf ha ⟨hb.1, hb.2.le⟩ rfl
    have hpr := fun {r'} => ok_of_profiles (g := fun pr => f.code.smallMulAssign pr a b)
      (r' := r') (pr := pr) h1 h2
    have hc : (f.c : Int) < 256 := by exact_mod_cast f.c_lt
    have hc1 : (1 : Int) ≤ f.c := by exact_mod_cast f.c_pos
    have hq := ha.carry_small
    have hU : -2 ^ (f.n + 34) ≤ f.V a * b + f.c * (f.V a / 2 ^ f.n) ∧
        f.V a * b + f.c * (f.V a / 2 ^ f.n) ≤ 2 ^ (f.n + 34) := by
      have : (2 : Int) ^ 200 ≤ 2 ^ f.n := big f
      have h' : (512 : Int) ≤ 2 ^ 200 := by norm_num
      exact U_bound ha hb ⟨by nlinarith, by nlinarith⟩
    have hw := wraps_bound hU
    have hz := wraps_zero (f := f) (U := f.V a * b + f.c * (f.V a / 2 ^ f.n))
    have h5' := h5
    rw [← carry_zero_iff] at h5 ⊢
    change f.V r = _ - 2 ^ (f.L * (f.k - 1) + 64) * f.wraps _ at h4
    constructor
    · rintro ⟨r', hr', hd⟩
      rw [hpr hr', Denotes, h4] at hd
      have e : (2 : Int) ^ (f.L * (f.k - 1) + 64) = (f.p + f.c) * 2 ^ (64 - f.tb) := by
        rw [p, sub_add_cancel, ← pow_add, f.n_eq]; congr 1
        have := f.tb_lt; omega
      have hd := hd.symm.dvd
      rw [e] at hd
      generalize hq' : f.V a / 2 ^ f.n = q at *
      generalize f.wraps (f.V a * b + f.c * q) = w at *
      have hd' : f.p ∣ f.c * (q - 2 ^ (64 - f.tb) * w) := by
        have : f.c * (q - 2 ^ (64 - f.tb) * w) = (f.V a * b + f.c * q -
          (f.p + f.c) * 2 ^ (64 - f.tb) * w - f.V a * b) + f.p * (2 ^ (64 - f.tb) * w) := by ring
        rw [this]
        exact dvd_add hd (dvd_mul_right _ _)
      have ht : (2 : Int) ^ (64 - f.tb) ≤ 2 ^ 64 := pow_le_pow_right₀ (by norm_num) (by omega)
      have ht8 : (2 : Int) ^ 8 ≤ 2 ^ (64 - f.tb) :=
        pow_le_pow_right₀ (by norm_num) (by have := f.tb_lt; omega)
      generalize (2 : Int) ^ (64 - f.tb) = T at *
      have hm := abs_mul_bound (M := 2 ^ 64) (A := T) ⟨by linarith, ht⟩ hw
      have hm2 := abs_mul_bound (M := 256) (A := f.c) (B := q - T * w) (N := 2 ^ 92)
        ⟨by linarith, by linarith⟩ ⟨by norm_num at *; linarith [hm.2], by norm_num at *; linarith [hm.1]⟩
      have h0 := eq_zero_of_dvd hd' (by norm_num at *; linarith [hm2.1])
        (by norm_num at *; linarith [hm2.2])
      have h0 : q - T * w = 0 := by
        rcases mul_eq_zero.mp h0 with h | h
        · omega
        · exact h
      have w0 : w = 0 := by
        by_contra hne
        rcases lt_or_gt_of_ne hne with h | h
        · nlinarith
        · nlinarith
      have q0 : q = 0 := by rw [w0, mul_zero, sub_zero] at h0; exact h0
      refine ⟨q0, ?_⟩
      rw [q0, mul_zero, add_zero] at hz
      exact hz.mp w0
    · rintro ⟨q0, ht⟩
      rw [q0, mul_zero, add_zero] at h4 h5 hz
      rw [hz.mpr ht, mul_zero, sub_zero] at h4
      refine ⟨r, ?_, by rw [Denotes, h4]⟩
      cases pr with
      | release => exact h1
      | debug => exact h5 rfl ht.1 ht.2
  · obtain ⟨r, h1, -, h3⟩ := C07_small_mul_correct_iff f pr hf ha (b := b)
      (by rw [he]; exact ⟨hb.1, hb.2.le⟩)
    have hfits : 0 ≤ f.V a ∧ f.V a < 2 ^ f.n → f.TopFits (f.V a * b) := by
      intro hV
      have hle : (2 : Int) ^ (f.n + 31) ≤ 2 ^ (f.L * (f.k - 1) + 63) :=
        pow_le_pow_right₀ (by norm_num) hn
      rw [pow_add] at hle
      have hP : (0 : Int) < 2 ^ f.n := by positivity
      have hb1 := hb.1
      have hb2 := hb.2
      constructor
      · nlinarith
      · nlinarith
    constructor
    · rintro ⟨r', hr', hd⟩
      rw [hr'] at h1; cases h1
      exact ⟨h3.mp hd, hfits (h3.mp hd)⟩
    · rintro ⟨hV, -⟩
      exact ⟨r, h1, h3.mpr hV⟩

/-- Carry-free `a` and `|n| ≤ 2 ^ (63 - tb)`: always right.  The bound is between `2 ^ 15` and
`2 ^ 41` depending on the type. -/
theorem C07_small_mul_bound (f : Fld) (pr : Profile) (hf : f ≠ .e521_1) {a : Elem} {b : Int}
    (ha : f.Tight a) (hV : 0 ≤ f.V a ∧ f.V a < 2 ^ f.n) (hb : IsI32 b)
    (hb' : -2 ^ (63 - f.tb) ≤ b ∧ b ≤ 2 ^ (63 - f.tb)) :
    ∃ r, f.code.smallMul pr a b = .ok r ∧ f.Denotes r (f.V a * b) := by
  refine (C07_small_mul_i32_correct_iff f pr hf ha hb).mpr ⟨hV, ?_⟩
  have e : (2 : Int) ^ (f.L * (f.k - 1) + 63) = 2 ^ f.n * 2 ^ (63 - f.tb) := by
    rw [← pow_add, f.n_eq]; congr 1; have := f.tb_lt; omega
  rw [TopFits, e]
  have hP : (0 : Int) < 2 ^ f.n := by positivity
  have hQ : (0 : Int) < 2 ^ (63 - f.tb) := by positivity
  constructor <;> nlinarith [hb'.1, hb'.2, hV.1, hV.2]

/-- Carry-free `a` and any `i16`: right in all types but `Mod_e521_1`. -/
theorem C07_small_mul_i16 (f : Fld) (pr : Profile) (hf : f ≠ .e521_1) {a : Elem} {b : Int}
    (ha : f.Tight a) (hV : 0 ≤ f.V a ∧ f.V a < 2 ^ f.n) (hb : -2 ^ 15 ≤ b ∧ b < 2 ^ 15) :
    ∃ r, f.code.smallMul pr a b = .ok r ∧ f.Denotes r (f.V a * b) := by
  have h : (2 : Int) ^ 15 ≤ 2 ^ (63 - f.tb) :=
    pow_le_pow_right₀ (by norm_num) (by cases f <;> decide)
  exact C07_small_mul_bound f pr hf ha hV ⟨by omega, by omega⟩ ⟨by omega, by omega⟩

/-- In `Mod_e222_117` the bound `2 ^ 15` is sharp: `M_ONE * 32769` is wrong. -/
example : ¬ Fld.e222_117.TopFits (Fld.e222_117.V Fld.e222_117.code.M_ONE * 32769) := by
  unfold TopFits; decide +kernel

/-- A pair with a large factor that is right. -/
example : Fld.e255_19.TopFits (Fld.e255_19.V Fld.e255_19.code.M_ONE * -2147483648) := by
  unfold TopFits; decide +kernel

theorem diff_bound {q w : Int} (hq : -2 ≤ q ∧ q ≤ 2) (hw : -2 ^ 27 ≤ w ∧ w ≤ 2 ^ 27) :
    -2 ^ 63 ≤ q - 2 ^ 29 * w ∧ q - 2 ^ 29 * w ≤ 2 ^ 63 := by
  omega

theorem diff_zero {q w : Int} (hq : -2 ≤ q ∧ q ≤ 2) (h : q - 2 ^ 29 * w = 0) : q = 0 ∧ w = 0 := by
  omega

/-- `a * n` in `Mod_e521_1` for every `i32` `n`. -/
theorem C07_small_mul_e521_i32_correct_iff (pr : Profile) {a : Elem} {b : Int}
    (ha : Fld.e521_1.Tight a) (hb : IsI32 b) :
    (∃ r, Fld.e521_1.code.smallMul pr a b = .ok r ∧
      Fld.e521_1.Denotes r (Fld.e521_1.V a * b)) ↔
      (0 ≤ Fld.e521_1.V a ∧ Fld.e521_1.V a < 2 ^ 521) ∧
      wordCarry (Fld.e521_1.V a) b 5 = wordCarry (Fld.e521_1.V a) b 6 ∧
      wordCarry (Fld.e521_1.V a) b 6 = wordCarry (Fld.e521_1.V a) b 7 ∧
      wordCarry (Fld.e521_1.V a) b 7 = wordCarry (Fld.e521_1.V a) b 8 ∧
      -2 ^ 549 ≤ Fld.e521_1.V a * b ∧ Fld.e521_1.V a * b < 2 ^ 549 := by
  obtain ⟨r, U, c5, c6, c7, c8, h1, h2, -, h4, hdbg, k5, k6, k7, k8, h3, h5, h6, h7, h8⟩ :=
    smallMul521_wrap ha ⟨hb.1, hb.2.le⟩
  have hpr := fun {r'} => ok_of_profiles
    (g := fun pr => Fld.e521_1.code.smallMulAssign pr a b) (r' := r') (pr := pr) h1 h2
  have hcar : -2 ≤ Fld.e521_1.V a / 2 ^ 521 ∧ Fld.e521_1.V a / 2 ^ 521 ≤ 2 := ha.carry_small
  have e0 : Fld.e521_1.V a / 2 ^ 521 = 0 ↔ 0 ≤ Fld.e521_1.V a ∧ Fld.e521_1.V a < 2 ^ 521 :=
    carry_zero_iff (f := .e521_1)
  have hw : ∀ i, mulCarry (Fld.e521_1.V a) b 0 i = wordCarry (Fld.e521_1.V a) b i := by
    intro i; simp only [mulCarry, wordCarry, add_zero]
  have hU : -2 ^ 555 ≤ U ∧ U ≤ 2 ^ 555 := by
    rw [h3, add_assoc, add_assoc, add_assoc]
    refine U_bound (f := .e521_1) ha hb ?_
    have := sum_bound (q := Fld.e521_1.V a / 2 ^ 521) ⟨le_trans (by norm_num) hcar.1, le_trans hcar.2 (by norm_num)⟩ k5 k6 k7 k8
    rw [add_assoc, add_assoc] at this
    have e : (2 : Int) ^ Fld.e521_1.n = 2 * 2 ^ 520 := by rw [← pow_succ']; rfl
    rw [e]
    generalize (2 : Int) ^ 520 = N at *
    constructor <;> linarith [this.1, this.2]
  have hwr := wraps_bound (f := .e521_1) hU
  have hz : (U / 2 ^ 486 + 2 ^ 63) / 2 ^ 64 = 0 ↔ -2 ^ 549 ≤ U ∧ U < 2 ^ 549 :=
    wraps_zero (f := .e521_1)
  change -2 ^ 27 ≤ (U / 2 ^ 486 + 2 ^ 63) / 2 ^ 64 ∧ (U / 2 ^ 486 + 2 ^ 63) / 2 ^ 64 ≤ 2 ^ 27 at hwr
  rw [← e0] at hdbg ⊢
  generalize hq : Fld.e521_1.V a / 2 ^ 521 = q at *
  generalize (U / 2 ^ 486 + 2 ^ 63) / 2 ^ 64 = w at *
  constructor
  · rintro ⟨r', hr', hd⟩
    rw [hpr hr', Denotes, h4] at hd
    have hp : Fld.e521_1.p = 2 ^ 521 - 1 := by decide +kernel
    have hd := hd.symm.dvd
    rw [hp] at hd
    have hd' : (2 : Int) ^ 521 - 1 ∣ (q - 2 ^ 29 * w) + 2 ^ 378 * (c5 - c6) + 2 ^ 432 * (c6 - c7) +
        2 ^ 486 * (c7 - c8) := by
      have e : (2 : Int) ^ 550 = 2 ^ 29 * 2 ^ 521 := by rw [← pow_add]
      rw [h3, e] at hd
      have h := dvd_add hd (dvd_mul_right ((2 : Int) ^ 521 - 1) (2 ^ 29 * w))
      refine (dvd_of_eq rfl).trans (h.trans (dvd_of_eq ?_))
      generalize (2 : Int) ^ 521 = N at *
      ring
    have hqw := diff_bound hcar hwr
    have h0 := small_of_dvd hd' (sum_bound hqw k5 k6 k7 k8)
    obtain ⟨z, rfl, rfl, rfl⟩ := sum_zero hqw k5 k6 k7 k8 h0
    obtain ⟨q0, w0⟩ := diff_zero hcar z
    rw [q0] at h5 h6 h7 h8 h3
    simp only [sub_self, mul_zero, add_zero, hw] at h5 h6 h7 h8 h3
    rw [← h3]
    exact ⟨q0, h5.symm.trans h6, h6.symm.trans h7, h7.symm.trans h8, hz.mp w0⟩
  · rintro ⟨rfl, w1, w2, w3, ht⟩
    rw [hw] at h5 h6
    have e1 : c5 = c6 := by rw [h5, h6, w1]
    rw [e1, sub_self, mul_zero, add_zero, hw] at h7
    have e2 : c6 = c7 := by rw [h6, h7, w2]
    rw [e1, e2, sub_self, mul_zero, mul_zero, add_zero, add_zero, hw] at h8
    have e3 : c7 = c8 := by rw [h7, h8, w3]
    rw [e1, e2, e3] at h3
    simp only [sub_self, mul_zero, add_zero] at h3
    rw [h3] at h4 hdbg hz
    rw [hz.mpr ht, mul_zero, sub_zero] at h4
    refine ⟨r, ?_, by rw [Denotes, h4]⟩
    cases pr with
    | release => exact h1
    | debug => exact hdbg rfl ht.1 ht.2

/-! ## C51: panics -/

/-- What `a * n` can do, for every `i32` `n`: a release build returns a representation; a debug
build returns the same one or panics because of an integer overflow. -/
theorem C51_small_mul_outcomes (f : Fld) {a : Elem} {b : Int} (ha : f.Tight a) (hb : IsI32 b) :
    ∃ r, f.code.smallMul .release a b = .ok r ∧ f.Rep r ∧
      (f.code.smallMul .debug a b = .ok r ∨ f.code.smallMul .debug a b = .error .overflow) := by
  by_cases hf : f = .e521_1
  · subst hf
    obtain ⟨r, U, c5, c6, c7, c8, h1, h2, h3, -⟩ := smallMul521_wrap ha ⟨hb.1, hb.2.le⟩
    exact ⟨r, h1, h3, h2⟩
  · rcases split_or f hf with hs | ⟨-, he, -⟩
    · obtain ⟨r, h1, h2, h3, -⟩ := smallMul_wrap hs hf ha ⟨hb.1, hb.2.le⟩ rfl
      exact ⟨r, h1, h3, h2⟩
    · obtain ⟨r, h1, h2, -⟩ := smallMul_tight hf .debug ha (b := b)
        (by rw [he]; exact ⟨hb.1, hb.2.le⟩)
      exact ⟨r, runLimb_mono _ _ h1, h2, .inl h1⟩

/-- Integers by which every element can be multiplied without a panic: `|n| ≤ 2 ^ mulE`. -/
def Fld.mulE (f : Fld) : Nat := if f = .e521_1 then 26 else f.smE

/-- `a * n` for `|n| ≤ 2 ^ mulE`: no panic, and not far from the product of the integers. -/
theorem smallMul_near (f : Fld) (pr : Profile) {a : Elem} {b : Int} (ha : f.Tight a)
    (hb : -2 ^ f.mulE ≤ b ∧ b ≤ 2 ^ f.mulE) :
    ∃ r, f.code.smallMulAssign pr a b = .ok r ∧ f.Rep r ∧
      f.V a * b - 2 ^ (f.n - 1) ≤ f.V r ∧ f.V r ≤ f.V a * b + 2 ^ (f.n - 1) := by
  have hq := ha.carry_small
  by_cases hf : f = .e521_1
  · subst hf
    obtain ⟨r, c5, c6, c7, c8, h1, h2, k5, k6, k7, k8, h3, -⟩ := smallMul521 pr ha hb
    have := sum_bound (q := Fld.e521_1.V a / 2 ^ 521)
      ⟨le_trans (by norm_num) hq.1, le_trans hq.2 (by norm_num)⟩ k5 k6 k7 k8
    refine ⟨r, h1, h2, ?_⟩
    change _ - 2 ^ 520 ≤ _ ∧ _ ≤ _ + 2 ^ 520
    rw [h3]
    generalize (2 : Int) ^ 520 = N at *
    constructor <;> linarith [this.1, this.2]
  · rw [mulE, if_neg hf] at hb
    obtain ⟨r, h1, h2, h3⟩ := smallMul_tight hf pr ha hb
    refine ⟨r, h1, h2, ?_⟩
    have hn : (2 : Int) ^ 100 ≤ 2 ^ (f.n - 1) :=
      pow_le_pow_right₀ (by norm_num) (by cases f <;> decide)
    have h' : (512 : Int) ≤ 2 ^ 100 := by norm_num
    have hc : (f.c : Int) < 256 := by exact_mod_cast f.c_lt
    have hc1 : (1 : Int) ≤ f.c := by exact_mod_cast f.c_pos
    rw [h3]
    constructor <;> nlinarith

/-- Integers of absolute value up to 7 leave a bounded carry. -/
theorem smallMul_loose (f : Fld) (pr : Profile) {a : Elem} {b : Int} (ha : f.Tight a)
    (hb : -7 ≤ b ∧ b ≤ 7) :
    ∃ r, f.code.smallMulAssign pr a b = .ok r ∧ f.Loose r := by
  have he : (7 : Int) ≤ 2 ^ f.mulE := by cases f <;> decide
  obtain ⟨r, h1, h2, h3, h4⟩ := smallMul_near f pr ha (b := b) ⟨by omega, by omega⟩
  refine ⟨r, h1, Shape.of_V h2 ?_ ?_⟩ <;>
  · obtain ⟨d, top, hV, h0, h1, -, h5, h6⟩ := Shape.V_eq ha
    have hn : (2 : Int) ^ f.n = 2 ^ (f.L * (f.k - 1)) * 2 ^ f.tb := by rw [f.n_eq, pow_add]
    have hn1 : (2 : Int) ^ (f.n - 1) ≤ 2 ^ f.n := pow_le_pow_right₀ (by norm_num) (by omega)
    have hc : (f.c : Int) < 256 := by exact_mod_cast f.c_lt
    have ht := f.tb_ge
    rw [pow_add]
    rw [pow_succ] at h6
    have hM : (0 : Int) < 2 ^ (f.L * (f.k - 1)) := by positivity
    generalize (2 : Int) ^ (f.L * (f.k - 1)) = M at *
    have hT : -(M * (2 * 2 ^ f.tb + 257)) ≤ f.V a ∧ f.V a ≤ M * (2 * 2 ^ f.tb + 257) := by
      have e1 : M * top ≤ M * (2 ^ f.tb * 2 + f.c) := mul_le_mul_of_nonneg_left h6 hM.le
      have e2 : M * (-2 ^ f.tb - 1) ≤ M * top := mul_le_mul_of_nonneg_left h5 hM.le
      have e3 : M * f.c ≤ M * 256 := mul_le_mul_of_nonneg_left hc.le hM.le
      have e4 : 0 ≤ M * 2 ^ f.tb := by positivity
      constructor <;> linarith
    have := abs_mul_bound hT hb
    rw [hn] at hn1
    have e5 : M * 2 ^ 22 ≤ M * 2 ^ f.tb := mul_le_mul_of_nonneg_left ht hM.le
    norm_num at e5 ⊢
    linarith [this.1, this.2]

/-- Computations with the operations of `PrimeField`, multiplication by integers included. -/
inductive ExM where
  | of (e : Ex)
  | add (a b : ExM) | sub (a b : ExM) | mul (a b : ExM) | div (a b : ExM)
  | addI (a : ExM) (n : Int) | subI (a : ExM) (n : Int) | mulI (a : ExM) (n : Int)
  | square (a : ExM) | normalize (a : ExM) | neg (a : ExM)
  | invert (a : ExM) | legendre (a : ExM) | sqrt (a : ExM)

namespace ExM

/-- Run a computation with the code of the field type. -/
def exec (f : Fld) (pr : Profile) : ExM → Res Elem
  | of e => e.exec f pr
  | add a b => do f.code.add pr (← exec f pr a) (← exec f pr b)
  | sub a b => do f.code.sub pr (← exec f pr a) (← exec f pr b)
  | mul a b => do f.code.mul pr (← exec f pr a) (← exec f pr b)
  | div a b => do f.code.div pr (← exec f pr a) (← exec f pr b)
  | addI a n => do f.code.smallAdd pr (← exec f pr a) n
  | subI a n => do f.code.smallSub pr (← exec f pr a) n
  | mulI a n => do f.code.smallMul pr (← exec f pr a) n
  | square a => do f.code.squared pr (← exec f pr a)
  | normalize a => do f.code.normalize pr (← exec f pr a)
  | neg a => do f.code.neg pr (← exec f pr a)
  | invert a => do f.code.inverted pr (← exec f pr a)
  | legendre a => do f.code.legendre pr (← exec f pr a)
  | sqrt a => do f.code.sqrt pr (← exec f pr a)

/-- The inputs are bytes and `i32`s. -/
def Typed (f : Fld) : ExM → Prop
  | of e => e.Valid f
  | add a b | sub a b | mul a b | div a b => a.Typed f ∧ b.Typed f
  | addI a n | subI a n | mulI a n => a.Typed f ∧ IsI32 n
  | square a | normalize a | neg a | invert a | legendre a | sqrt a => a.Typed f

/-- How far the result may be from reduced: 1 after a multiplication by an integer of absolute
value up to 7, 2 after one by a larger integer, otherwise 0. -/
def grade : ExM → Nat
  | mulI _ n => if -7 ≤ n ∧ n ≤ 7 then 1 else 2
  | _ => 0

/-- Integers multiplied with are at most `2 ^ mulE`, and the results of such multiplications are
added to or subtracted from something, negated or normalized before they are multiplied again by
an integer, inverted or a root is taken; before they are multiplied by an element or squared the
same unless the integer was at most 7. -/
def Graded (f : Fld) : ExM → Prop
  | of _ => True
  | add a b | sub a b => a.Graded f ∧ b.Graded f
  | mul a b => (a.Graded f ∧ a.grade ≤ 1) ∧ b.Graded f ∧ b.grade ≤ 1
  | div a b => (a.Graded f ∧ a.grade ≤ 1) ∧ b.Graded f ∧ b.grade = 0
  | addI a _ | subI a _ | normalize a | neg a => a.Graded f
  | square a => a.Graded f ∧ a.grade ≤ 1
  | mulI a n => (a.Graded f ∧ a.grade = 0) ∧ -2 ^ f.mulE ≤ n ∧ n ≤ 2 ^ f.mulE
  | invert a | legendre a | sqrt a => a.Graded f ∧ a.grade = 0

/-- What is known of a result of each grade. -/
def Good (f : Fld) : Nat → Elem → Prop
  | 0 => f.Tight
  | 1 => f.Loose
  | _ => f.Rep

theorem Good.rep {f : Fld} {g : Nat} {a : Elem} (h : Good f g a) : f.Rep a := by
  rcases g with _ | _ | g
  · exact Tight.rep (h : f.Tight a)
  · exact Loose.rep (h : f.Loose a)
  · exact h

theorem Good.loose {f : Fld} {g : Nat} {a : Elem} (h : Good f g a) (hg : g ≤ 1) : f.Loose a := by
  rcases g with _ | _ | g
  · exact Tight.loose (h : f.Tight a)
  · exact h
  · omega

theorem Good.tight {f : Fld} {g : Nat} {a : Elem} (h : Good f g a) (hg : g = 0) : f.Tight a := by
  subst hg; exact h

end ExM

/-- Part of C51: computations that respect the bounds of `ExM.Graded` do not panic, and give the
same words in debug and release builds.  Missing: larger integers and computations that use
products with integers without reducing them; the code panics there. -/
theorem C51_never_panics_partial (f : Fld) (e : ExM) (ht : e.Typed f) (hg : e.Graded f) :
    ∃ r, (∀ pr, e.exec f pr = .ok r) ∧ ExM.Good f e.grade r := by
  induction e with
  | of e => exact C08_never_panics f e ht
  | add a b iha ihb =>
    obtain ⟨x, h1, h2⟩ := iha ht.1 hg.1
    obtain ⟨y, h3, h4⟩ := ihb ht.2 hg.2
    obtain ⟨r, h5, h6, -⟩ := C01_add f .debug h2.rep h4.rep
    refine ⟨r, fun pr => ?_, h6⟩
    simp only [ExM.exec, h1, h3, bind, Except.bind]
    exact runLimb_mono _ pr h5
  | sub a b iha ihb =>
    obtain ⟨x, h1, h2⟩ := iha ht.1 hg.1
    obtain ⟨y, h3, h4⟩ := ihb ht.2 hg.2
    obtain ⟨r, h5, h6, -⟩ := C02_sub_correct_iff f .debug h2.rep h4.rep
    refine ⟨r, fun pr => ?_, h6⟩
    simp only [ExM.exec, h1, h3, bind, Except.bind]
    exact runLimb_mono _ pr h5
  | mul a b iha ihb =>
    obtain ⟨x, h1, h2⟩ := iha ht.1 hg.1.1
    obtain ⟨y, h3, h4⟩ := ihb ht.2 hg.2.1
    obtain ⟨r, h5, h6, -⟩ := C04_mul_correct_iff f .debug (h2.loose hg.1.2) (h4.loose hg.2.2)
    refine ⟨r, fun pr => ?_, h6⟩
    simp only [ExM.exec, h1, h3, bind, Except.bind]
    exact runLimb_mono _ pr h5
  | div a b iha ihb =>
    obtain ⟨x, h1, h2⟩ := iha ht.1 hg.1.1
    obtain ⟨y, h3, h4⟩ := ihb ht.2 hg.2.1
    obtain ⟨i, h5, h6⟩ := invert_tight f .debug (h4.tight hg.2.2)
    obtain ⟨r, h7, h8, -⟩ := C04_mul_correct_iff f .debug (h2.loose hg.1.2) (Tight.loose h6)
    refine ⟨r, fun pr => ?_, h8⟩
    have h9 : f.code.inverted pr y = .ok i := runChain_mono _ pr _ (fun _ _ h => h) h5
    simp only [ExM.exec, h1, h3, bind, Except.bind, FieldCode.div, divAssign, h9]
    exact runLimb_mono _ pr h7
  | addI a n iha =>
    obtain ⟨x, h1, h2⟩ := iha ht.1 hg
    obtain ⟨r, h5, h6, -⟩ := C06_small_add f .debug h2.rep ht.2
    refine ⟨r, fun pr => ?_, h6⟩
    simp only [ExM.exec, h1, bind, Except.bind]
    exact runLimb_mono _ pr h5
  | subI a n iha =>
    obtain ⟨x, h1, h2⟩ := iha ht.1 hg
    obtain ⟨r, h5, h6, -⟩ := C06_small_sub f .debug h2.rep ht.2
    refine ⟨r, fun pr => ?_, h6⟩
    simp only [ExM.exec, h1, bind, Except.bind]
    exact runLimb_mono _ pr h5
  | mulI a n iha =>
    obtain ⟨x, h1, h2⟩ := iha ht.1 hg.1.1
    have h2 := h2.tight hg.1.2
    by_cases hn : -7 ≤ n ∧ n ≤ 7
    · obtain ⟨r, h5, h6⟩ := smallMul_loose f .debug h2 hn
      refine ⟨r, fun pr => ?_, by simp only [ExM.grade, if_pos hn]; exact h6⟩
      simp only [ExM.exec, h1, bind, Except.bind]
      exact runLimb_mono _ pr h5
    · obtain ⟨r, h5, h6, -⟩ := smallMul_near f .debug h2 hg.2
      refine ⟨r, fun pr => ?_, by simp only [ExM.grade, if_neg hn]; exact h6⟩
      simp only [ExM.exec, h1, bind, Except.bind]
      exact runLimb_mono _ pr h5
  | square a iha =>
    obtain ⟨x, h1, h2⟩ := iha ht hg.1
    obtain ⟨r, h5, h6, -⟩ := square_exact .debug (h2.loose hg.2)
    refine ⟨r, fun pr => ?_, ?_⟩
    · simp only [ExM.exec, h1, bind, Except.bind]
      exact runLimb_mono _ pr h5
    · have h0 : (0 : Int) ≤ 2 ^ f.tb := by positivity
      have hlo : -1 ≤ f.sqLo := by cases f <;> decide
      exact Shape.mono h6 (by linarith) le_rfl
  | normalize a iha =>
    obtain ⟨x, h1, h2⟩ := iha ht hg
    obtain ⟨r, h5, h6, -⟩ := C09_normalize_correct_iff f .debug h2.rep
    refine ⟨r, fun pr => ?_, h6⟩
    simp only [ExM.exec, h1, bind, Except.bind]
    exact normalize_mono _ pr h5
  | neg a iha =>
    obtain ⟨x, h1, h2⟩ := iha ht hg
    obtain ⟨r, h5, h6, -⟩ := C03_neg_is_identity f .debug h2.rep
    refine ⟨r, fun pr => ?_, h6⟩
    simp only [ExM.exec, h1, bind, Except.bind]
    exact runLimb_mono _ pr h5
  | invert a iha =>
    obtain ⟨x, h1, h2⟩ := iha ht hg.1
    obtain ⟨r, h5, h6⟩ := invert_tight f .debug (h2.tight hg.2)
    refine ⟨r, fun pr => ?_, h6⟩
    simp only [ExM.exec, h1, bind, Except.bind]
    exact runChain_mono _ pr _ (fun _ _ h => h) h5
  | legendre a iha =>
    obtain ⟨x, h1, h2⟩ := iha ht hg.1
    obtain ⟨r, h5, h6⟩ := legendre_tight f .debug (h2.tight hg.2)
    refine ⟨r, fun pr => ?_, h6⟩
    simp only [ExM.exec, h1, bind, Except.bind]
    exact runChain_mono _ pr _ (fun _ _ h => h) h5
  | sqrt a iha =>
    obtain ⟨x, h1, h2⟩ := iha ht hg.1
    obtain ⟨r, h5, h6⟩ := sqrt_tight f .debug (h2.tight hg.2)
    refine ⟨r, fun pr => ?_, h6⟩
    simp only [ExM.exec, h1, bind, Except.bind]
    exact sqrt_mono _ pr h5

/-- `(8000 · (-1) + 1)² · ((-7) · 1)`, in all nine types. -/
example (f : Fld) : (ExM.mul (.square (.addI (.mulI (.of .mOne) 8000) 1)) (.mulI (.of .one) (-7))).Typed f ∧
    (ExM.mul (.square (.addI (.mulI (.of .mOne) 8000) 1)) (.mulI (.of .one) (-7))).Graded f := by
  refine ⟨⟨⟨⟨trivial, ?_⟩, ?_⟩, trivial, ?_⟩, ?_⟩
  · unfold IsI32; decide
  · unfold IsI32; decide
  · unfold IsI32; decide
  · cases f <;> simp only [ExM.Graded, ExM.grade] <;> decide

/-- Full statement of C51 (false): computations with operands of the right types do not panic. -/
def C51_statement : Prop := ∀ (f : Fld) (pr : Profile) (e : ExM), e.Typed f →
  ∃ r, e.exec f pr = .ok r

/-- An `i32` by which `M_ONE` cannot be multiplied. -/
def badFactor : Fld → Int
  | .e221_3 => 2147161525 | .e222_117 => 2147322586 | .e382_105 => 2146570968
  | .e383_187 => 2145980411 | .e521_1 => 1886403766 | _ => 0

set_option maxRecDepth 100000 in
/-- In five types `M_ONE * n` panics in debug builds. -/
theorem C51_counterexample_factor (f : Fld) (hf : f = .e221_3 ∨ f = .e222_117 ∨ f = .e382_105 ∨
    f = .e383_187 ∨ f = .e521_1) : IsI32 (badFactor f) ∧
    f.code.smallMul .debug f.code.M_ONE (badFactor f) = .error .overflow := by
  unfold IsI32
  rcases hf with rfl | rfl | rfl | rfl | rfl <;> decide +kernel

/-- An integer whose product with `M_ONE` cannot be squared. -/
def badSquare : Fld → Int
  | .e221_3 => 255 | .e222_117 => 8191 | .e251_9 => 31 | .e255_19 => 16383 | .e382_105 => 63
  | .e383_187 => 8191 | .e414_17 => 1023 | .e511_187 => 127 | .e521_1 => 16777215

/-- `(M_ONE * n).squared()` -/
def squareAfter (f : Fld) : ExM := .square (.mulI (.of .mOne) (badSquare f))

theorem squareAfter_typed (f : Fld) : (squareAfter f).Typed f := by
  refine ⟨trivial, ?_⟩
  unfold IsI32; cases f <;> decide

set_option maxRecDepth 100000 in
/-- In all nine types `M_ONE * n` is fine but squaring it panics in debug builds. -/
theorem C51_counterexample_square (f : Fld) :
    (∃ r, f.code.smallMul .debug f.code.M_ONE (badSquare f) = .ok r) ∧
    (squareAfter f).exec f .debug = .error .overflow := by
  constructor
  · obtain ⟨r, h, -⟩ := smallMul_near f .debug (m_one_canon f).tight (b := badSquare f)
      (by cases f <;> decide)
    exact ⟨r, h⟩
  · cases f <;> decide +kernel

theorem C51_statement_false : ¬ C51_statement := by
  intro h
  obtain ⟨r, hr⟩ := h .e255_19 .debug _ (squareAfter_typed _)
  rw [(C51_counterexample_square .e255_19).2] at hr
  cases hr

end Verif

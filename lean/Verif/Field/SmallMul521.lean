import Verif.Field.SmallMul
import Verif.Field.Pack

/-!
# `small_mul_assign` of `Mod_e521_1`: exact results (helper lemmas)

The code takes the carries out of the words 5, 6 and 7 where those out of 6, 7 and 8 are due
(`/repo/src/field/mod_e521_1.rs`, `c6`, `c7`, `c8`).
-/

namespace Verif
open Check

namespace Fld

/-- Compensation for the wrong carries `c6`, `c7`, `c8`. -/
def e521Comp : Nat → EForm
  | 7 => [(180, .fl 54, -p2 378), (182, .fl 54, p2 378)]
  | 8 => [(180, .fl 54, -p2 378), (182, .fl 54, p2 378 - p2 432), (184, .fl 54, p2 432)]
  | 9 => [(180, .fl 54, -p2 378), (182, .fl 54, p2 378 - p2 432),
          (184, .fl 54, p2 432 - p2 486), (186, .fl 54, p2 486)]
  | _ => []

def e521Prog : Prog := e521_1.code.smallMulP.drop (e521_1.nd + 1)

def e521Mid : List (Nat × Int × Int) := e521_1.midSm (-p2 35 - 1) (p2 36 + 1) (p2 26)

/-- The whole result. -/
def e521CheckC : Bool :=
  check 0 128 149 e521Prog e521Mid
    (vform 54 0 10 1 ++ e521Comp 9)
    (outer 27 148 1 128 20 1 ++ [(9, .fl 35, 1)])
    (rng 0 e521_1.repR ++ [(180, -p2 60, p2 60), (182, -p2 60, p2 60), (184, -p2 60, p2 60),
      (186, -p2 60, p2 60)])

/-- The words up to `i`. -/
def e521CheckP (i : Nat) : Bool :=
  check 0 128 149 e521Prog e521Mid
    (vform 54 0 (i + 1) 1 ++ ((170 + 2 * i, Kind.fl 54, p2 (54 * (i + 1))) ::
      (150 + 2 * i, Kind.fl 27, p2 (54 * (i + 1))) :: e521Comp i))
    (outer 27 148 1 128 (2 * i + 2) 1 ++ [(9, .fl 35, 1)]) []

/-- The odd products. -/
def e521CheckM (i : Nat) : Bool :=
  check 0 128 149 e521Prog e521Mid [(150 + 2 * i, .fl 0, 1)] [(129 + 2 * i, .pd 148, 1)] []

set_option maxRecDepth 100000 in
theorem e521Checks : (e521_1.smCheckA (-p2 35 - 1) (p2 36 + 1) (p2 26) = true ∧
    e521_1.smCheckB (-p2 35 - 1) (p2 36 + 1) (p2 26) = true ∧
    e521_1.smCheckT (-p2 35 - 1) (p2 36 + 1) (p2 26) = true) ∧ e521CheckC = true ∧
    (e521CheckP 5 = true ∧ e521CheckP 6 = true ∧ e521CheckP 7 = true ∧ e521CheckP 8 = true) ∧
    (e521CheckM 5 = true ∧ e521CheckM 6 = true ∧ e521CheckM 7 = true ∧ e521CheckM 8 = true) := by
  decide +kernel

theorem p2_35 : (-p2 35 - 1 : Int) = -2 ^ e521_1.tb - 1 ∧
    (p2 36 + 1 : Int) = 2 ^ (e521_1.tb + 1) + e521_1.c := by decide

/-- The carry out of word `i` of `x b + e`, when the upper half `x_i'` of word `i` of `x` is
multiplied separately. -/
def mulCarry (x b e : Int) (i : Nat) : Int :=
  (b * (x % 2 ^ (54 * (i + 1))) + e) / 2 ^ (54 * (i + 1)) -
    (b * (x % 2 ^ (54 * (i + 1)) / 2 ^ (54 * i + 27))) / 2 ^ 27

theorem readSlots_length (ρ : Env) : ∀ (n base : Nat), (readSlots ρ base n).length = n := by
  intro n
  induction n with
  | zero => intro base; rfl
  | succ n ih => intro base; simp [readSlots, ih]

theorem mem_readSlots (ρ : Env) : ∀ (n base : Nat) (x : Int), x ∈ readSlots ρ base n →
    ∃ j, j < n ∧ x = envF ρ (base + j) := by
  intro n
  induction n with
  | zero => intro base x h; simp [readSlots] at h
  | succ n ih =>
    intro base x h
    simp only [readSlots, List.mem_cons] at h
    rcases h with h | h
    · exact ⟨0, by omega, h⟩
    · obtain ⟨j, h1, h2⟩ := ih _ _ h
      exact ⟨j + 1, by omega, by rw [h2]; congr 1; omega⟩

/-- The lower digits of a number. -/
theorem low_digits {ρ : Env} (hd : ∀ j < 19, 0 ≤ envF ρ (128 + j) ∧ envF ρ (128 + j) < 2 ^ 27)
    {i : Nat} (hi : i < 9) {x : Int} (hx : digitsVal 27 (readSlots ρ 128 20) = x) :
    digitsVal 27 (readSlots ρ 128 (2 * i + 2)) = x % 2 ^ (54 * (i + 1)) ∧
    envF ρ (129 + 2 * i) = x % 2 ^ (54 * (i + 1)) / 2 ^ (54 * i + 27) := by
  have hr : ∀ n ≤ 19, ∀ y ∈ readSlots ρ 128 n, 0 ≤ y ∧ y < 2 ^ 27 := by
    intro n hn y hy
    obtain ⟨j, h1, rfl⟩ := mem_readSlots ρ n 128 y hy
    exact hd j (by omega)
  have h1 := digitsVal_nonneg 27 _ (hr (2 * i + 2) (by omega))
  have h2 := digitsVal_lt 27 _ (hr (2 * i + 2) (by omega))
  have h3 := digitsVal_nonneg 27 _ (hr (2 * i + 1) (by omega))
  have h4 := digitsVal_lt 27 _ (hr (2 * i + 1) (by omega))
  rw [readSlots_length] at h2 h4
  rw [show 27 * (2 * i + 2) = 54 * (i + 1) by ring] at h2
  rw [show 27 * (2 * i + 1) = 54 * i + 27 by ring] at h4
  have e1 : digitsVal 27 (readSlots ρ 128 (2 * i + 2)) = x % 2 ^ (54 * (i + 1)) := by
    rw [show 20 = (2 * i + 2) + (18 - 2 * i) by omega, readSlots_append, digitsVal_append,
      readSlots_length, show 27 * (2 * i + 2) = 54 * (i + 1) by ring] at hx
    rw [← hx, Int.add_mul_emod_self_left, Int.emod_eq_of_lt h1 h2]
  refine ⟨e1, ?_⟩
  rw [← e1, show 2 * i + 2 = (2 * i + 1) + 1 by ring, readSlots_append, digitsVal_append,
    readSlots_length, show 27 * (2 * i + 1) = 54 * i + 27 by ring,
    Int.add_mul_ediv_left _ _ (by positivity), Int.ediv_eq_zero_of_lt h3 h4]
  simp only [readSlots, digitsVal, mul_zero, add_zero, zero_add, envF]
  rw [show 128 + (2 * i + 1) = 129 + 2 * i by ring]

theorem carry_eq {out A B c m : Int} {N : Nat} (h0 : 0 ≤ out) (h1 : out < 2 ^ N)
    (h : out + 2 ^ N * c + 2 ^ N * m = A) (hB : m = B) : c = A / 2 ^ N - B := by
  rw [← h, add_assoc, ← mul_add, Int.add_mul_ediv_left _ _ (by positivity),
    Int.ediv_eq_zero_of_lt h0 h1, hB]
  ring

theorem run_split {pr : Profile} {P : Prog} {n : Nat} {ρ₀ ρ ρ' : Env}
    (h1 : runProg pr (P.take n) ρ₀ = .ok ρ) (h2 : runProg pr (P.drop n) ρ = .ok ρ') :
    runProg pr P ρ₀ = .ok ρ' := by
  rw [← List.take_append_drop n P, runProg_append, h1]
  exact h2

theorem smallMul521 (pr : Profile) {a : Elem} {b : Int} (ha : e521_1.Tight a)
    (hb : -2 ^ 26 ≤ b ∧ b ≤ 2 ^ 26) :
    ∃ r c5 c6 c7 c8, e521_1.code.smallMulAssign pr a b = .ok r ∧ e521_1.Rep r ∧
      (-64 ≤ c5 ∧ c5 ≤ 64) ∧ (-64 ≤ c6 ∧ c6 ≤ 64) ∧ (-64 ≤ c7 ∧ c7 ≤ 64) ∧ (-64 ≤ c8 ∧ c8 ≤ 64) ∧
      e521_1.V r = e521_1.V a * b + e521_1.V a / 2 ^ 521 + 2 ^ 378 * (c5 - c6) +
        2 ^ 432 * (c6 - c7) + 2 ^ 486 * (c7 - c8) ∧
      c5 = mulCarry (e521_1.V a) b (e521_1.V a / 2 ^ 521) 5 ∧
      c6 = mulCarry (e521_1.V a) b (e521_1.V a / 2 ^ 521) 6 ∧
      c7 = mulCarry (e521_1.V a) b (e521_1.V a / 2 ^ 521 + 2 ^ 378 * (c5 - c6)) 7 ∧
      c8 = mulCarry (e521_1.V a) b (e521_1.V a / 2 ^ 521 + 2 ^ 378 * (c5 - c6) +
        2 ^ 432 * (c6 - c7)) 8 := by
  obtain ⟨⟨hA, hB, hT⟩, hC, ⟨hP5, hP6, hP7, hP8⟩, hM5, hM6, hM7, hM8⟩ := e521Checks
  have ha' : e521_1.Shape (-p2 35 - 1) (p2 36 + 1) a := by
    rw [p2_35.1, p2_35.2]; exact ha
  have hb' : InRs [(-p2 26, p2 26)] [b] := .cons hb .nil
  have la := Shape.length_le ha
  obtain ⟨ρ, h1, h2, h3⟩ := run_check hA pr ha'.inRs hb' la (by simp)
  obtain ⟨ρ1, h1', -, h3'⟩ := run_check hB pr ha'.inRs hb' la (by simp)
  rw [h1] at h1'
  cases h1'
  have e1 := Int.zero_dvd.mp h3
  have e2 := Int.zero_dvd.mp h3'
  simp only [vform_val, one_mul, Shape.read_self ha] at e1 e2
  have earg : readSlots (initEnv a [b]) 16 1 = [b] := readSlots_arg a [b] (by simp)
  rw [earg] at e2
  have htop : envF ρ 9 / 2 ^ 35 = e521_1.V a / 2 ^ 521 := by
    obtain ⟨ρ2, h7, -, h8⟩ := run_check hT pr ha'.inRs hb' la (by simp)
    rw [h1] at h7
    cases h7
    have e3 := Int.zero_dvd.mp h8
    simp only [EForm.val, kv, pow_zero, Int.ediv_one, one_mul, add_zero] at e3
    have e4 : envF ρ 9 = envF (initEnv a [b]) 9 := sub_eq_zero.mp e3
    have e5 := Shape.slot_self (b := [b]) ha
    rw [e4]
    exact e5
  have e1 : digitsVal 27 (readSlots ρ 128 20) = e521_1.V a := sub_eq_zero.mp e1
  have e2 : envF ρ 148 = b := by
    have : digitsVal 27 (readSlots ρ 148 1) = digitsVal 27 [b] := sub_eq_zero.mp e2
    simpa [digitsVal, readSlots, envF] using this
  have hd : ∀ j < 19, 0 ≤ envF ρ (128 + j) ∧ envF ρ (128 + j) < 2 ^ 27 := by
    intro j hj
    have : ∀ j < 19, (128 + j, (0 : Int), p2 27 - 1) ∈
        e521_1.midSm (-p2 35 - 1) (p2 36 + 1) (p2 26) := by decide +kernel
    have := this j hj
    obtain ⟨v, h5, h6, h7⟩ := h2 _ this
    rw [envF, h5]
    rw [p2_eq] at h7
    exact ⟨h6, Int.lt_of_le_sub_one h7⟩
  obtain ⟨ρ', h4, h5, h6⟩ := check_sound hC pr ρ h2
  have hrun : runProg pr e521_1.code.smallMulP (initEnv a [b]) = .ok ρ' := by
    unfold e521Prog at h4
    exact run_split h1 h4
  have hrep : e521_1.Rep (readSlots ρ' 0 10) := by
    have := readSlots_inRs (ρ := ρ') e521_1.repR 0 fun x hx => h5 x (List.mem_append_left _ hx)
    rw [repR, shapeR_length] at this
    have := shape_of_inRs this
    norm_num [Rep]
    exact this
  -- the output words
  have hw : ∀ j < 9, 0 ≤ envF ρ' j ∧ envF ρ' j < 2 ^ 54 := by
    intro j hj
    have : ∀ j < 9, (j, (0 : Int), p2 54 - 1) ∈ rng 0 e521_1.repR := by decide +kernel
    have := this j hj
    obtain ⟨v, h5, h6, h7⟩ := h5 _ (List.mem_append_left _ this)
    rw [envF, h5]
    rw [p2_eq] at h7
    exact ⟨h6, Int.lt_of_le_sub_one h7⟩
  have hout : ∀ i < 9, 0 ≤ digitsVal 54 (readSlots ρ' 0 (i + 1)) ∧
      digitsVal 54 (readSlots ρ' 0 (i + 1)) < 2 ^ (54 * (i + 1)) := by
    intro i hi
    have hr : ∀ y ∈ readSlots ρ' 0 (i + 1), 0 ≤ y ∧ y < 2 ^ 54 := by
      intro y hy
      obtain ⟨j, h1, rfl⟩ := mem_readSlots ρ' _ 0 y hy
      rw [Nat.zero_add]
      exact hw j (by omega)
    have := digitsVal_lt 54 _ hr
    rw [readSlots_length] at this
    exact ⟨digitsVal_nonneg 54 _ hr, this⟩
  have hbd : ∀ s, (s, -p2 60, p2 60) ∈ [(180, -p2 60, p2 60), (182, -p2 60, p2 60),
      (184, -p2 60, p2 60), (186, -p2 60, p2 60)] →
      -64 ≤ envF ρ' s / 2 ^ 54 ∧ envF ρ' s / 2 ^ 54 ≤ 64 := by
    intro s hs
    obtain ⟨v, h5, h6, h7⟩ := h5 _ (List.mem_append_right _ hs)
    rw [envF, h5]
    rw [p2_eq] at h6 h7
    simp only [Option.getD]
    constructor
    · rw [Int.le_ediv_iff_mul_le (by positivity)]; norm_num; norm_num at h6; omega
    · have : v / 2 ^ 54 < 65 := by
        rw [Int.ediv_lt_iff_lt_mul (by positivity)]; norm_num; norm_num at h7; omega
      omega
  -- products of digits
  have hm : ∀ i < 9, e521CheckM i = true →
      envF ρ' (150 + 2 * i) = b * (e521_1.V a % 2 ^ (54 * (i + 1)) / 2 ^ (54 * i + 27)) := by
    intro i hi hM
    obtain ⟨ρ3, h7, -, h8⟩ := check_sound hM pr ρ h2
    rw [show runProg pr e521Prog ρ = _ from h4] at h7
    cases h7
    have e3 := Int.zero_dvd.mp h8
    simp only [EForm.val, kv, pow_zero, Int.ediv_one, one_mul, add_zero] at e3
    rw [if_pos (by omega), e2, (low_digits hd hi e1).2] at e3
    linarith
  have e2' : digitsVal 27 (readSlots ρ 148 1) = b := by
    simp only [readSlots, digitsVal, mul_zero, add_zero]; exact e2
  have hp : ∀ i < 9, e521CheckM i = true → ∀ e : Int,
      digitsVal 54 (readSlots ρ' 0 (i + 1)) + 2 ^ (54 * (i + 1)) * (envF ρ' (170 + 2 * i) / 2 ^ 54) +
        2 ^ (54 * (i + 1)) * (envF ρ' (150 + 2 * i) / 2 ^ 27) =
        b * digitsVal 27 (readSlots ρ 128 (2 * i + 2)) + e →
      envF ρ' (170 + 2 * i) / 2 ^ 54 = mulCarry (e521_1.V a) b e i := by
    intro i hi hM e h
    rw [(low_digits hd hi e1).1] at h
    exact carry_eq (hout i hi).1 (hout i hi).2 h (by rw [hm i hi hM])
  have hq : ∀ i < 9, e521CheckP i = true →
      digitsVal 54 (readSlots ρ' 0 (i + 1)) + 2 ^ (54 * (i + 1)) * (envF ρ' (170 + 2 * i) / 2 ^ 54) +
        2 ^ (54 * (i + 1)) * (envF ρ' (150 + 2 * i) / 2 ^ 27) =
        b * digitsVal 27 (readSlots ρ 128 (2 * i + 2)) + (e521_1.V a / 2 ^ 521 -
          (e521Comp i).val 128 149 (envF ρ')) := by
    intro i hi hP
    obtain ⟨ρ3, h7, -, h8⟩ := check_sound hP pr ρ h2
    rw [show runProg pr e521Prog ρ = _ from h4] at h7
    cases h7
    have e3 := Int.zero_dvd.mp h8
    rw [EForm.val_append, vform_val, one_mul, EForm.val_append,
      outer_val _ _ _ _ _ _ (by omega) (by omega) _ _ _ (by omega) (by omega), one_mul, e2'] at e3
    simp only [EForm.val, kv, htop, p2_eq] at e3
    linear_combination e3
  have hV : e521_1.V (readSlots ρ' 0 10) = digitsVal 54 (readSlots ρ' 0 10) := rfl
  refine ⟨readSlots ρ' 0 10, envF ρ' 180 / 2 ^ 54, envF ρ' 182 / 2 ^ 54, envF ρ' 184 / 2 ^ 54,
    envF ρ' 186 / 2 ^ 54, ?_, hrep, hbd _ (by simp), hbd _ (by simp), hbd _ (by simp),
    hbd _ (by simp), ?_, ?_, ?_, ?_, ?_⟩
  · have : e521_1.code.limbs = 10 := rfl
    simp [FieldCode.smallMulAssign, FieldCode.runLimb, hrun, this, bind, Except.bind, pure,
      Except.pure]
  · have h6 := Int.zero_dvd.mp h6
    rw [EForm.val_append, vform_val, one_mul, EForm.val_append,
      outer_val _ _ _ _ _ _ (by omega) (by omega) _ _ _ (by omega) (by omega), one_mul, e1,
      e2'] at h6
    simp only [e521Comp, EForm.val, kv, htop, p2_eq] at h6
    rw [hV]
    linear_combination h6
  · refine hp 5 (by norm_num) hM5 _ ((hq 5 (by norm_num) hP5).trans ?_)
    simp only [e521Comp, EForm.val, sub_zero]
  · refine hp 6 (by norm_num) hM6 _ ((hq 6 (by norm_num) hP6).trans ?_)
    simp only [e521Comp, EForm.val, sub_zero]
  · refine hp 7 (by norm_num) hM7 _ ((hq 7 (by norm_num) hP7).trans ?_)
    simp only [e521Comp, EForm.val, kv, p2_eq]
    ring
  · refine hp 8 (by norm_num) hM8 _ ((hq 8 (by norm_num) hP8).trans ?_)
    simp only [e521Comp, EForm.val, kv, p2_eq]
    ring

/-- Doubling of an element without a carry by `small_mul(2)`. -/
theorem smallMul_two (f : Fld) (pr : Profile) {a : Elem} (ha : f.Tight a)
    (h : 0 ≤ f.V a ∧ f.V a < 2 ^ f.n) :
    ∃ r, f.code.smallMulAssign pr a 2 = .ok r ∧ f.Tight r ∧ f.V r = 2 * f.V a := by
  have hz : f.V a / 2 ^ f.n = 0 := Int.ediv_eq_zero_of_lt h.1 h.2
  have key : ∃ r, f.code.smallMulAssign pr a 2 = .ok r ∧ f.Rep r ∧ f.V r = 2 * f.V a := by
    by_cases hf : f = e521_1
    · subst hf
      obtain ⟨r, c5, c6, c7, c8, h1, h2, -, -, -, -, h3, h5, h6, h7, h8⟩ :=
        smallMul521 pr (b := 2) ha (by norm_num)
      have hz' : e521_1.V a / 2 ^ 521 = 0 := hz
      have hc : ∀ i, mulCarry (e521_1.V a) 2 0 i = 0 := by
        intro i
        simp only [mulCarry]
        generalize e521_1.V a % 2 ^ (54 * (i + 1)) = y
        rw [add_zero, show 54 * (i + 1) = (54 * i + 27) + 27 by ring, pow_add,
          show (2 : Int) ^ (54 * i + 27) * 2 ^ 27 = 2 ^ (54 * i + 27) * 2 ^ 26 * 2 by ring,
          mul_comm 2 y, Int.mul_ediv_mul_of_pos_left _ _ (by norm_num),
          ← Int.ediv_ediv_of_nonneg (by positivity)]
        generalize y / 2 ^ (54 * i + 27) = z
        omega
      rw [hz', hc] at h5 h6
      rw [hz', h5, h6, sub_self, mul_zero, add_zero, hc] at h7
      rw [hz', h5, h6, h7, sub_self, mul_zero, mul_zero, add_zero, add_zero, hc] at h8
      refine ⟨r, h1, h2, ?_⟩
      rw [h3, hz', h5, h6, h7, h8]
      ring
    · obtain ⟨r, h1, h2, h3⟩ := smallMul_tight hf pr (b := 2) ha (by
        clear ha h hz
        cases f <;> first | exact absurd rfl hf | (constructor <;> decide))
      exact ⟨r, h1, h2, by rw [h3, hz]; ring⟩
  obtain ⟨r, h1, h2, h3⟩ := key
  refine ⟨r, h1, ?_, h3⟩
  obtain ⟨low, top, rfl, hl, hd, -, -⟩ := h2
  refine ⟨low, top, rfl, hl, hd, ?_⟩
  have e1 := digitsVal_nonneg _ _ hd
  have e2 := digitsVal_lt _ _ hd
  simp only [V, digitsVal_append, digitsVal, hl, mul_zero, add_zero] at h3 e2
  change _ = 2 * f.V a at h3
  rw [pow_n] at h
  have hpos : (0 : Int) < 2 ^ (f.L * (f.k - 1)) := by positivity
  have hc := f.c_pos
  generalize (2 : Int) ^ (f.L * (f.k - 1)) = N at *
  have t0 : (-1 : Int) < top := by
    by_contra hc
    nlinarith
  have t1 : top < 2 ^ (f.tb + 1) := by
    rw [pow_succ]
    by_contra hc
    nlinarith
  have : (0 : Int) < 2 ^ f.tb := by positivity
  constructor
  · linarith
  · have : (0 : Int) ≤ f.c := by positivity
    linarith

end Fld
end Verif

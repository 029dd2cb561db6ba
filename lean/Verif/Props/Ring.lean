import Verif.Field.Consts

/-!
# Properties C01–C07: the ring operations of the nine field types

Every theorem quantifies over the field type `f`, the build profile `pr` and all
operands; `f.Denotes r x` says that the words of `r` denote the residue class of
`x` modulo `2 ^ n - c`.  Where the code does not have the property, the exact
condition under which it does is proved as an equivalence, followed by a
counterexample reachable through the public operations.
-/

namespace Verif
open Fld

/-- The result of a computation that did not panic. -/
def getOk : Res Elem → Elem
  | .ok r => r
  | .error _ => []

variable (f : Fld) (pr : Profile)

/-! ## C01: addition -/

/-- `a + b` never panics and denotes the sum, for operands with arbitrary carries. -/
theorem C01_add {a b : Elem} (ha : f.Rep a) (hb : f.Rep b) :
    ∃ r, f.code.add pr a b = .ok r ∧ f.Tight r ∧ f.Denotes r (f.V a + f.V b) := by
  obtain ⟨r, h1, h2, h3⟩ := add_exact pr ha hb
  refine ⟨r, h1, ?_, ?_⟩
  · have h0 : (0 : Int) ≤ 2 ^ f.tb := by positivity
    have h2' : (0 : Int) ≤ f.c := by positivity
    exact Shape.mono h2 (by linarith) (by linarith)
  · rw [Denotes, h3]
    exact Int.modEq_iff_dvd.mpr ⟨f.V a / 2 ^ f.n + f.V b / 2 ^ f.n, by ring⟩

/-- A representation with a large negative carry and one with a large positive carry. -/
example : Fld.e255_19.Rep [5, 0, 0, 2 ^ 56 - 1, -2 ^ 63] ∧
    Fld.e255_19.Rep [5, 0, 0, 2 ^ 56 - 1, 2 ^ 63 - 1] :=
  ⟨⟨[5, 0, 0, 2 ^ 56 - 1], _, rfl, by decide⟩, ⟨[5, 0, 0, 2 ^ 56 - 1], _, rfl, by decide⟩⟩

/-! ## C02: subtraction -/

/-- Full statement of C02 (false, see `C02_counterexample`). -/
def C02_statement : Prop := ∀ (f : Fld) (pr : Profile) (a b : Elem), f.Tight a → f.Tight b →
  ∃ r, f.code.sub pr a b = .ok r ∧ f.Denotes r (f.V a - f.V b)

/-- `a - b` never panics; it denotes the difference exactly when the value of the
right operand has no carry, i.e. lies in `[0, 2 ^ n)`. -/
theorem C02_sub_correct_iff {a b : Elem} (ha : f.Rep a) (hb : f.Rep b) :
    ∃ r, f.code.sub pr a b = .ok r ∧ f.Tight r ∧
      (f.Denotes r (f.V a - f.V b) ↔ 0 ≤ f.V b ∧ f.V b < 2 ^ f.n) := by
  obtain ⟨r, h1, h2, h3⟩ := sub_exact pr ha hb
  refine ⟨r, h1, ?_, ?_⟩
  · have h0 : (0 : Int) ≤ 2 ^ f.tb := by positivity
    have h2' : (0 : Int) ≤ f.c := by positivity
    refine Shape.mono h2 (by linarith) ?_
    rw [pow_succ]; linarith
  · have hcarry := Rep.carry hb
    have e0 : f.V b / 2 ^ f.n = 0 ↔ 0 ≤ f.V b ∧ f.V b < 2 ^ f.n := by
      rw [Int.ediv_eq_iff_of_pos (by positivity), zero_mul, zero_add]
    rw [← e0, Denotes, h3]
    constructor
    · intro h
      have hd := h.dvd
      have : f.p ∣ 2 * f.c * (f.V b / 2 ^ f.n) := by
        have h5 := dvd_add hd (⟨f.V b / 2 ^ f.n - f.V a / 2 ^ f.n, rfl⟩ :
          f.p ∣ f.p * (f.V b / 2 ^ f.n - f.V a / 2 ^ f.n))
        have h6 := (dvd_neg (α := Int)).mpr h5
        refine h6.trans (dvd_of_eq ?_)
        simp only [p]; ring
      have hc : (f.c : Int) < 256 := by exact_mod_cast f.c_lt
      have hc1 : (1 : Int) ≤ f.c := by exact_mod_cast f.c_pos
      have hz := eq_zero_of_dvd this (by nlinarith) (by nlinarith)
      rcases mul_eq_zero.mp hz with h | h
      · omega
      · exact h
    · intro h
      rw [h]
      exact Int.modEq_iff_dvd.mpr ⟨f.V a / 2 ^ f.n, by ring⟩

/-- Part of C02: the right operand has been normalized (or unpacked, or is a constant).
Missing: right operands with a carry, for which the code is wrong. -/
theorem C02_sub_partial {a b : Elem} (ha : f.Rep a) (hb : f.Shape 0 (2 ^ f.tb - 1) b) :
    ∃ r, f.code.sub pr a b = .ok r ∧ f.Tight r ∧ f.Denotes r (f.V a - f.V b) := by
  obtain ⟨r, h1, h2, h3⟩ := C02_sub_correct_iff f pr ha (Tight.rep (word_tight hb))
  exact ⟨r, h1, h2, h3.mpr (word_V hb)⟩

/-- `1 - ((-1) + (-1))` is wrong in every one of the nine types. -/
theorem C02_counterexample : ∃ s r, f.code.add pr f.code.M_ONE f.code.M_ONE = .ok s ∧
    f.code.sub pr f.code.ONE s = .ok r ∧ ¬ f.Denotes r (f.V f.code.ONE - f.V s) := by
  have hm := m_one_canon f
  have hr := Tight.rep hm.tight
  obtain ⟨s, h1, h2, h3⟩ := add_exact pr hr hr
  obtain ⟨s', h1', h2', -⟩ := C01_add f pr hr hr
  have : s' = s := by
    have e : (Except.ok s' : Res Elem) = .ok s := h1'.symm.trans h1
    cases e; rfl
  subst this
  obtain ⟨r, h4, -, h5⟩ := C02_sub_correct_iff f pr (Tight.rep (one_canon f).tight) (Tight.rep h2')
  refine ⟨s', r, h1, h4, fun h => ?_⟩
  have h6 := (h5.mp h).2
  rw [h3, hm.2.1, Int.ediv_eq_zero_of_lt hm.2.2.1 (hm.2.2.2.trans f.p_lt)] at h6
  have := f.p_big
  have hc : (f.c : Int) < 256 := by exact_mod_cast f.c_lt
  simp only [p] at *
  have : (2 : Int) ^ 199 > 1000 := by norm_num
  linarith

theorem C02_statement_false : ¬ C02_statement := by
  intro h
  obtain ⟨s, r, h1, h2, h3⟩ := C02_counterexample .e221_3 .debug
  obtain ⟨s', h1', h2', -⟩ := C01_add .e221_3 .debug (Tight.rep (m_one_canon _).tight)
    (Tight.rep (m_one_canon _).tight)
  rw [h1] at h1'; cases h1'
  obtain ⟨r', h4, h5⟩ := h .e221_3 .debug _ s (one_canon _).tight h2'
  rw [h2] at h4; cases h4
  exact h3 h5

/-- The hypotheses of the partial theorem allow every carry on the left. -/
example : Fld.e255_19.Rep [5, 0, 0, 2 ^ 56 - 1, -2 ^ 63] ∧
    Fld.e255_19.Shape 0 (2 ^ Fld.e255_19.tb - 1) [7, 1, 2, 2 ^ 56 - 1, 2 ^ 31 - 1] :=
  ⟨⟨[5, 0, 0, 2 ^ 56 - 1], _, rfl, by decide⟩, ⟨[7, 1, 2, 2 ^ 56 - 1], _, rfl, by decide⟩⟩

/-! ## C03: negation -/

/-- Full statement of C03 (false). -/
def C03_statement : Prop := ∀ (f : Fld) (pr : Profile) (a : Elem), f.Tight a →
  ∃ r, f.code.neg pr a = .ok r ∧ f.Denotes r (-f.V a)

/-- What `-a` computes: an element denoting `a` itself, hence not the additive
inverse unless `a` denotes `0`. -/
theorem C03_neg_is_identity {a : Elem} (ha : f.Rep a) :
    ∃ r, f.code.neg pr a = .ok r ∧ f.Tight r ∧ f.Denotes r (f.V a) ∧
      (f.Denotes r (-f.V a) ↔ f.p ∣ f.V a) := by
  have hm : f.Rep f.code.MODULUS := Tight.rep (word_tight (modulus_shape f))
  obtain ⟨r, h1, h2, h3⟩ := C01_add f pr ha hm
  have h4 : f.Denotes r (f.V a) := by
    rw [modulus_V] at h3
    exact h3.trans (Int.modEq_iff_dvd.mpr ⟨-1, by ring⟩)
  refine ⟨r, h1, h2, h4, ?_⟩
  constructor
  · intro h
    have h5 : f.V a ≡ -f.V a [ZMOD f.p] := h4.symm.trans h
    have h6 := h5.symm.dvd
    exact dvd_two_mul (by simpa [two_mul] using h6)
  · intro h
    refine h4.trans (Int.modEq_iff_dvd.mpr ?_)
    have : -f.V a - f.V a = f.V a * (-2) := by ring
    rw [this]; exact Dvd.dvd.mul_right h _

/-- Part of C03: elements denoting zero.  Missing: all others, where the code is wrong. -/
theorem C03_neg_partial {a : Elem} (ha : f.Rep a) (h0 : f.Denotes a 0) :
    ∃ r, f.code.neg pr a = .ok r ∧ f.Denotes r (-f.V a) := by
  obtain ⟨r, h1, -, -, h2⟩ := C03_neg_is_identity f pr ha
  exact ⟨r, h1, h2.mpr (Int.modEq_zero_iff_dvd.mp h0)⟩

/-- `-1` (negation of `one()`) does not denote minus one, in any of the nine types. -/
theorem C03_counterexample : ∃ r, f.code.neg pr f.code.ONE = .ok r ∧ ¬ f.Denotes r (-1) := by
  have h1 := one_canon f
  obtain ⟨r, h2, -, -, h3⟩ := C03_neg_is_identity f pr (Tight.rep h1.tight)
  refine ⟨r, h2, fun h => ?_⟩
  rw [h1.2.1] at h3
  have := eq_zero_of_dvd (h3.mp h) (by norm_num) (by norm_num)
  omega

theorem C03_statement_false : ¬ C03_statement := by
  intro h
  obtain ⟨r, h1, h2⟩ := C03_counterexample .e221_3 .debug
  obtain ⟨r', h3, h4⟩ := h .e221_3 .debug _ (one_canon _).tight
  rw [h1] at h3; cases h3
  rw [(one_canon _).2.1] at h4
  exact h2 h4

/-- A non-trivial element denoting zero: the words of `p`. -/
example : Fld.e255_19.Denotes [2 ^ 56 - 19, 2 ^ 56 - 1, 2 ^ 56 - 1, 2 ^ 56 - 1, 2 ^ 31 - 1] 0 := by
  unfold Denotes; decide +kernel

/-! ## C04: multiplication -/

/-- Full statement of C04 (false for two of the nine types). -/
def C04_statement : Prop := ∀ (f : Fld) (pr : Profile) (a b : Elem), f.Tight a → f.Tight b →
  ∃ r, f.code.mul pr a b = .ok r ∧ f.Denotes r (f.V a * f.V b)

/-- `a * b` never panics for operands with carries up to `16 · 2 ^ n`; it denotes the
product exactly when the integer product lies in `MulDomain`: always in seven types,
for `0 ≤ product < 2 ^ 504` in `Mod_e251_9` and for `0 ≤ product < 4588641 · 2 ^ 425`
in `Mod_e222_117`. -/
theorem C04_mul_correct_iff {a b : Elem} (ha : f.Loose a) (hb : f.Loose b) :
    ∃ r, f.code.mul pr a b = .ok r ∧ f.Tight r ∧
      (f.Denotes r (f.V a * f.V b) ↔ f.MulDomain (f.V a * f.V b)) := by
  obtain ⟨r, h1, h2, h3⟩ := mul_exact pr ha hb
  refine ⟨r, h1, ?_, ?_⟩
  · have h0 : (0 : Int) ≤ 2 ^ f.tb := by positivity
    have hlo : -1 ≤ f.mulLo := by cases f <;> decide
    exact Shape.mono h2 (by linarith) le_rfl
  · have hb := Loose.mul_abs ha hb
    rw [← mulDrop_dvd hb.1 hb.2, Denotes]
    have hd := h3.symm.dvd
    constructor
    · intro h
      have := dvd_sub hd h.symm.dvd
      simpa using this
    · intro h
      have := dvd_sub hd h
      refine (Int.modEq_iff_dvd.mpr ?_).symm
      rwa [add_sub_right_comm, add_sub_cancel_right] at this

/-- Part of C04: all operands in the seven other types.  Missing: `Mod_e222_117` and
`Mod_e251_9`, where the code is wrong for negative and for large values. -/
theorem C04_mul_partial {a b : Elem} (hf : f ≠ .e222_117 ∧ f ≠ .e251_9) (ha : f.Loose a)
    (hb : f.Loose b) :
    ∃ r, f.code.mul pr a b = .ok r ∧ f.Tight r ∧ f.Denotes r (f.V a * f.V b) := by
  obtain ⟨r, h1, h2, h3⟩ := C04_mul_correct_iff f pr ha hb
  refine ⟨r, h1, h2, h3.mpr ?_⟩
  cases f with
  | e222_117 => exact absurd rfl hf.1
  | e251_9 => exact absurd rfl hf.2
  | _ => trivial

/-- Products of carry-free (e.g. normalized or unpacked) elements are right in all nine
types. -/
theorem C04_mul_carry_free {a b : Elem} (ha : f.Shape 0 (2 ^ f.tb - 1) a)
    (hb : f.Shape 0 (2 ^ f.tb - 1) b) :
    ∃ r, f.code.mul pr a b = .ok r ∧ f.Tight r ∧ f.Denotes r (f.V a * f.V b) := by
  obtain ⟨r, h1, h2, h3⟩ := C04_mul_correct_iff f pr (Tight.loose (word_tight ha))
    (Tight.loose (word_tight hb))
  refine ⟨r, h1, h2, h3.mpr ?_⟩
  have va := word_V ha
  have vb := word_V hb
  have h0 : 0 ≤ f.V a * f.V b := mul_nonneg va.1 vb.1
  have hlt : f.V a * f.V b < 2 ^ (2 * f.n) := by
    have := mul_lt_mul'' va.2 vb.2 va.1 vb.1
    rwa [← pow_add, ← two_mul] at this
  cases f with
  | e251_9 => exact ⟨h0, hlt.trans_le (pow_le_pow_right₀ (by norm_num) (by decide))⟩
  | e222_117 =>
    refine ⟨h0, hlt.trans_le ?_⟩
    have e : (2 : Int) ^ (2 * e222_117.n) = 2 ^ 19 * 2 ^ 425 := by rw [← pow_add]; rfl
    rw [e]
    exact mul_le_mul_of_nonneg_right (by norm_num) (by positivity)
  | _ => trivial

/-- In `Mod_e251_9` and `Mod_e222_117`, `(0 - 1) * 1` does not denote `-1`. -/
theorem C04_counterexample_negative (hf : f = .e222_117 ∨ f = .e251_9) :
    ∃ m r, f.code.sub pr f.code.ZERO f.code.ONE = .ok m ∧ f.code.mul pr m f.code.ONE = .ok r ∧
      f.V m = -1 ∧ ¬ f.Denotes r (f.V m * f.V f.code.ONE) := by
  have hz := zero_canon f
  have ho := one_canon f
  obtain ⟨m, h1, h2, h3⟩ := C02_sub_correct_iff f pr (Tight.rep hz.tight) (Tight.rep ho.tight)
  obtain ⟨m', h1', -, h3'⟩ := sub_exact pr (Tight.rep hz.tight) (Tight.rep ho.tight)
  have e : (Except.ok m : Res Elem) = .ok m' := h1.symm.trans h1'
  cases e
  have hV : f.V m = -1 := by
    rw [h3', hz.2.1, ho.2.1, Int.ediv_eq_zero_of_lt (by norm_num) (by positivity),
      Int.ediv_eq_zero_of_lt (by norm_num) (one_lt_pow₀ (by norm_num) (by cases f <;> decide))]
    ring
  obtain ⟨r, h4, -, h5⟩ := C04_mul_correct_iff f pr (Tight.loose h2) (Tight.loose ho.tight)
  refine ⟨m, r, h1, h4, hV, fun h => ?_⟩
  have h6 := h5.mp h
  rw [hV, ho.2.1] at h6
  rcases hf with rfl | rfl
  · exact absurd h6.1 (by norm_num)
  · exact absurd h6.1 (by norm_num)

theorem C04_statement_false : ¬ C04_statement := by
  intro h
  obtain ⟨m, r, h1, h2, -, h3⟩ := C04_counterexample_negative .e251_9 .debug (.inr rfl)
  obtain ⟨m', h1', h2', -⟩ := C02_sub_correct_iff .e251_9 .debug
    (Tight.rep (zero_canon _).tight) (Tight.rep (one_canon _).tight)
  rw [h1] at h1'; cases h1'
  obtain ⟨r', h4, h5⟩ := h .e251_9 .debug _ _ h2' (one_canon _).tight
  rw [h2] at h4; cases h4
  exact h3 h5

/-- Operands with carries of either sign satisfying the hypotheses. -/
example : Fld.e255_19.Loose [5, 0, 0, 2 ^ 56 - 1, -2 ^ 35] ∧
    Fld.e255_19.Loose [5, 0, 0, 2 ^ 56 - 1, 2 ^ 35] :=
  ⟨⟨[5, 0, 0, 2 ^ 56 - 1], _, rfl, by decide⟩, ⟨[5, 0, 0, 2 ^ 56 - 1], _, rfl, by decide⟩⟩

/-! ## C05: squaring -/

/-- `square()` denotes the square, for everything the arithmetic operations return and
in all nine types. -/
theorem C05_square {a : Elem} (ha : f.Tight a) :
    ∃ r, f.code.square pr a = .ok r ∧ f.Tight r ∧ f.Denotes r (f.V a * f.V a) := by
  obtain ⟨r, h1, h2, h3⟩ := square_exact pr (Tight.loose ha)
  refine ⟨r, h1, ?_, ?_⟩
  · have h0 : (0 : Int) ≤ 2 ^ f.tb := by positivity
    have hlo : -1 ≤ f.sqLo := by cases f <;> decide
    exact Shape.mono h2 (by linarith) le_rfl
  · have : f.sqDrop (f.V a * f.V a) = 0 := by
      cases f with
      | e222_117 =>
        have hlo := Shape.lo_le ha
        have hhi := Shape.lt_hi ha
        have e1 : e222_117.L * (e222_117.k - 1) = 174 := rfl
        have e2 : e222_117.tb = 48 := rfl
        have e3 : e222_117.c = 117 := rfl
        rw [e1, e2] at hlo hhi
        rw [e3] at hhi
        have hM : e222_117.V a * e222_117.V a < 4588641 * 2 ^ 425 := by
          have := mul_bound (M := 2 ^ 174 * (2 ^ 49 + 118)) (A := e222_117.V a) (B := e222_117.V a) ⟨by norm_num at *; linarith,
            by norm_num at *; linarith⟩ ⟨by norm_num at *; linarith, by norm_num at *; linarith⟩
          exact lt_of_le_of_lt this.2 (by decide +kernel)
        have h0 : 0 ≤ e222_117.V a * e222_117.V a := mul_self_nonneg _
        simp only [sqDrop]
        have h4 : 0 ≤ e222_117.V a * e222_117.V a / 2 ^ 425 := Int.ediv_nonneg h0 (by positivity)
        have h5 : e222_117.V a * e222_117.V a / 2 ^ 425 < 4588641 :=
          (Int.ediv_lt_iff_lt_mul (by positivity)).mpr hM
        rw [Int.ediv_eq_zero_of_lt (by linarith) (by norm_num; linarith), mul_zero]
      | _ => rfl
    rw [this, add_zero] at h3
    exact h3

/-- Full statement of C05 with the `*` of the code (false for `Mod_e251_9`). -/
def C05_statement : Prop := ∀ (f : Fld) (pr : Profile) (a : Elem), f.Tight a →
  ∃ r s, f.code.square pr a = .ok r ∧ f.code.mul pr a a = .ok s ∧ f.Denotes r (f.V s)

/-- `square()` and `a * a` denote the same residue exactly when `*` is right. -/
theorem C05_square_agrees_with_mul_iff {a : Elem} (ha : f.Tight a) :
    ∃ r s, f.code.square pr a = .ok r ∧ f.code.mul pr a a = .ok s ∧
      (f.Denotes r (f.V s) ↔ f.MulDomain (f.V a * f.V a)) := by
  obtain ⟨r, h1, -, h2⟩ := C05_square f pr ha
  obtain ⟨s, h3, -, h4⟩ := C04_mul_correct_iff f pr (Tight.loose ha) (Tight.loose ha)
  exact ⟨r, s, h1, h3, (h4.symm.trans ⟨fun h => h2.trans h.symm, fun h => h.symm.trans h2⟩).symm⟩

/-- The words of `2 ^ 252`. -/
theorem C05_statement_false : ¬ C05_statement := by
  intro h
  have ht : Fld.e251_9.Tight [0, 0, 0, 0, 2 ^ 28] := ⟨[0, 0, 0, 0], _, rfl, by decide⟩
  obtain ⟨r, s, h1, h2, h3⟩ := h .e251_9 .debug _ ht
  obtain ⟨r', s', h4, h5, h6⟩ := C05_square_agrees_with_mul_iff .e251_9 .debug ht
  rw [h1] at h4; cases h4
  rw [h2] at h5; cases h5
  exact absurd (h6.mp h3).2 (by decide +kernel)

/-- Part of C05: in eight of the nine types that is always the case; the exception is `Mod_e251_9` with
a value of at least `2 ^ 252` (then `*` is the wrong one). -/
theorem C05_domain_partial {a : Elem} (ha : f.Tight a) (hf : f ≠ .e251_9) :
    f.MulDomain (f.V a * f.V a) := by
  cases f with
  | e251_9 => exact absurd rfl hf
  | e222_117 =>
    have hlo := Shape.lo_le ha
    have hhi := Shape.lt_hi ha
    have e1 : e222_117.L * (e222_117.k - 1) = 174 := rfl
    have e2 : e222_117.tb = 48 := rfl
    have e3 : e222_117.c = 117 := rfl
    rw [e1, e2] at hlo hhi
    rw [e3] at hhi
    refine ⟨mul_self_nonneg _, ?_⟩
    have := mul_bound (M := 2 ^ 174 * (2 ^ 49 + 118)) (A := e222_117.V a) (B := e222_117.V a) ⟨by norm_num at *; linarith,
      by norm_num at *; linarith⟩ ⟨by norm_num at *; linarith, by norm_num at *; linarith⟩
    exact lt_of_le_of_lt this.2 (by decide +kernel)
  | _ => trivial

/-- An element with a carry. -/
example : Fld.e222_117.Tight [1, 2, 3, 2 ^ 49 + 117] := ⟨[1, 2, 3], _, rfl, by decide⟩

/-! ## C06: adding and subtracting machine integers -/

/-- `a + n` never panics and denotes the sum, for any representation and any `i32`. -/
theorem C06_small_add {a : Elem} {b : Int} (ha : f.Rep a) (hb : IsI32 b) :
    ∃ r, f.code.smallAdd pr a b = .ok r ∧ f.Tight r ∧ f.Denotes r (f.V a + b) := by
  obtain ⟨r, h1, h2, h3⟩ := smallAdd_exact pr ha hb
  refine ⟨r, h1, ?_, ?_⟩
  · have h0 : (0 : Int) ≤ 2 ^ f.tb := by positivity
    have h2' : (0 : Int) ≤ f.c := by positivity
    refine Shape.mono h2 (by linarith) ?_
    rw [pow_succ]; linarith
  · rw [Denotes, h3]
    exact Int.modEq_iff_dvd.mpr ⟨f.V a / 2 ^ f.n, by ring⟩

/-- `a - n` never panics and denotes the difference. -/
theorem C06_small_sub {a : Elem} {b : Int} (ha : f.Rep a) (hb : IsI32 b) :
    ∃ r, f.code.smallSub pr a b = .ok r ∧ f.Tight r ∧ f.Denotes r (f.V a - b) := by
  obtain ⟨r, h1, h2, h3⟩ := smallSub_exact pr ha hb
  refine ⟨r, h1, ?_, ?_⟩
  · have h0 : (0 : Int) ≤ 2 ^ f.tb := by positivity
    have h2' : (0 : Int) ≤ f.c := by positivity
    refine Shape.mono h2 (by linarith) ?_
    rw [pow_succ]; linarith
  · rw [Denotes, h3]
    exact Int.modEq_iff_dvd.mpr ⟨f.V a / 2 ^ f.n, by ring⟩

/-- `i32::MIN` is allowed. -/
example : IsI32 (-2147483648) := by unfold IsI32; decide

/-! ## C07: multiplying by machine integers -/

/-- Full statement of C07 (false). -/
def C07_statement : Prop := ∀ (f : Fld) (pr : Profile) (a : Elem) (b : Int), f.Tight a →
  IsI32 b → ∃ r, f.code.smallMul pr a b = .ok r ∧ f.Denotes r (f.V a * b)

/-- Eight of the nine types (all but `Mod_e521_1`): for integers up to `2 ^ smE` (between
`2 ^ 13` and `2 ^ 31` depending on the type) `a * n` is right exactly when the value of
`a` has no carry. -/
theorem C07_small_mul_correct_iff (hf : f ≠ .e521_1) {a : Elem} {b : Int} (ha : f.Tight a)
    (hb : -2 ^ f.smE ≤ b ∧ b ≤ 2 ^ f.smE) :
    ∃ r, f.code.smallMul pr a b = .ok r ∧ f.Rep r ∧
      (f.Denotes r (f.V a * b) ↔ 0 ≤ f.V a ∧ f.V a < 2 ^ f.n) := by
  obtain ⟨r, h1, h2, h3⟩ := smallMul_tight hf pr ha hb
  refine ⟨r, h1, h2, ?_⟩
  have hcarry := Rep.carry (Tight.rep ha)
  have e0 : f.V a / 2 ^ f.n = 0 ↔ 0 ≤ f.V a ∧ f.V a < 2 ^ f.n := by
    rw [Int.ediv_eq_iff_of_pos (by positivity), zero_mul, zero_add]
  rw [← e0, Denotes, h3]
  constructor
  · intro h
    have hd := h.symm.dvd
    rw [add_sub_cancel_left] at hd
    have hc : (f.c : Int) < 256 := by exact_mod_cast f.c_lt
    have hc1 : (1 : Int) ≤ f.c := by exact_mod_cast f.c_pos
    rcases mul_eq_zero.mp (eq_zero_of_dvd hd (by nlinarith) (by nlinarith)) with h | h
    · omega
    · exact h
  · intro h
    rw [h, mul_zero, add_zero]

/-- Part of C07: carry-free elements and integers of absolute value up to `2 ^ smE'`, which
covers all of `i16` for `Mod_e221_3`, `Mod_e382_105` and `Mod_e383_187`, and all of `i32` for `Mod_e251_9`,
`Mod_e255_19`, `Mod_e414_17` and `Mod_e511_187`.  Missing: elements with a carry, larger
integers, and `Mod_e521_1`; the code is wrong there. -/
theorem C07_small_mul_partial (hf : f ≠ .e521_1) {a : Elem} {b : Int}
    (ha : f.Shape 0 (2 ^ f.tb - 1) a) (hb : -2 ^ f.smE' ≤ b ∧ b ≤ 2 ^ f.smE') :
    ∃ r, f.code.smallMul pr a b = .ok r ∧ f.Rep r ∧ f.Denotes r (f.V a * b) := by
  obtain ⟨r, h1, h2, h3⟩ := smallMul_canon hf pr ha hb
  exact ⟨r, h1, h2, by rw [Denotes, h3]⟩

/-- All `i32`, for the four types where no overflow occurs. -/
theorem C07_small_mul_i32_partial (hf : f = .e251_9 ∨ f = .e255_19 ∨ f = .e414_17 ∨ f = .e511_187)
    {a : Elem} {b : Int} (ha : f.Shape 0 (2 ^ f.tb - 1) a) (hb : IsI32 b) :
    ∃ r, f.code.smallMul pr a b = .ok r ∧ f.Rep r ∧ f.Denotes r (f.V a * b) := by
  refine C07_small_mul_partial f pr ?_ ha ?_
  · rcases hf with rfl | rfl | rfl | rfl <;> decide
  · have : f.smE' = 31 := by rcases hf with rfl | rfl | rfl | rfl <;> rfl
    rw [this]
    exact ⟨hb.1, hb.2.le⟩

set_option maxRecDepth 100000 in
/-- Carries: `((-1) + (-1)) * 1` is wrong in all nine types. -/
theorem C07_counterexample_carry : ∃ s r, f.code.add pr f.code.M_ONE f.code.M_ONE = .ok s ∧
    f.code.smallMul pr s 1 = .ok r ∧ ¬ f.Denotes r (f.V s * 1) := by
  have key : ∀ (s r : Elem), f.code.add pr f.code.M_ONE f.code.M_ONE = .ok s →
      f.code.smallMul pr s 1 = .ok r → decide ((f.V s * 1) % f.p = f.V r % f.p) = false →
      ∃ s r, f.code.add pr f.code.M_ONE f.code.M_ONE = .ok s ∧
        f.code.smallMul pr s 1 = .ok r ∧ ¬ f.Denotes r (f.V s * 1) := by
    intro s r h1 h2 h3
    exact ⟨s, r, h1, h2, fun h => of_decide_eq_false h3 h.symm⟩
  refine key (getOk (f.code.add pr f.code.M_ONE f.code.M_ONE))
    (getOk (f.code.smallMul pr (getOk (f.code.add pr f.code.M_ONE f.code.M_ONE)) 1)) ?_ ?_ ?_ <;>
  · cases pr <;> cases f <;> decide +kernel

set_option maxRecDepth 100000 in
/-- Magnitude: in five types `(-1) * n` is silently wrong for some `i32` `n` (`2 ^ 20`, for
`Mod_e521_1` `2 ^ 30`), in debug and in release builds. -/
theorem C07_counterexample_large (hf : f = .e221_3 ∨ f = .e222_117 ∨ f = .e382_105 ∨
    f = .e383_187 ∨ f = .e521_1) : ∃ b r, IsI32 b ∧
    f.code.smallMul pr f.code.M_ONE b = .ok r ∧ ¬ f.Denotes r (f.V f.code.M_ONE * b) := by
  have key : ∀ (b : Int) (r : Elem), IsI32 b → f.code.smallMul pr f.code.M_ONE b = .ok r →
      decide ((f.V f.code.M_ONE * b) % f.p = f.V r % f.p) = false → ∃ b r, IsI32 b ∧
      f.code.smallMul pr f.code.M_ONE b = .ok r ∧ ¬ f.Denotes r (f.V f.code.M_ONE * b) := by
    intro b r h1 h2 h3
    exact ⟨b, r, h1, h2, fun h => of_decide_eq_false h3 h.symm⟩
  rcases hf with rfl | rfl | rfl | rfl | rfl
  · refine key 1048576 (getOk (Fld.code .e221_3 |>.smallMul pr (Fld.code .e221_3).M_ONE 1048576))
      (by unfold IsI32; decide) ?_ ?_ <;> cases pr <;> decide +kernel
  · refine key 1048576 (getOk (Fld.code .e222_117 |>.smallMul pr (Fld.code .e222_117).M_ONE 1048576))
      (by unfold IsI32; decide) ?_ ?_ <;> cases pr <;> decide +kernel
  · refine key 1048576 (getOk (Fld.code .e382_105 |>.smallMul pr (Fld.code .e382_105).M_ONE 1048576))
      (by unfold IsI32; decide) ?_ ?_ <;> cases pr <;> decide +kernel
  · refine key 1048576 (getOk (Fld.code .e383_187 |>.smallMul pr (Fld.code .e383_187).M_ONE 1048576))
      (by unfold IsI32; decide) ?_ ?_ <;> cases pr <;> decide +kernel
  · refine key 1073741824 (getOk (Fld.code .e521_1 |>.smallMul pr (Fld.code .e521_1).M_ONE 1073741824))
      (by unfold IsI32; decide) ?_ ?_ <;> cases pr <;> decide +kernel

set_option maxRecDepth 100000 in
/-- `Mod_e521_1` uses the wrong carries in three words: an unpacked (canonical) element
times three is wrong. -/
theorem C07_counterexample_e521 : ∃ a r, Fld.e521_1.Canon (12009599095799807 * 2 ^ 378) a ∧
    Fld.e521_1.code.smallMul pr a 3 = .ok r ∧ ¬ Fld.e521_1.Denotes r (12009599095799807 * 2 ^ 378 * 3) := by
  refine ⟨[0, 0, 0, 0, 0, 0, 0, 12009599095799807, 0, 0],
    getOk (Fld.e521_1.code.smallMul pr [0, 0, 0, 0, 0, 0, 0, 12009599095799807, 0, 0] 3), ?_, ?_, ?_⟩
  · apply canon_of_canonB; decide +kernel
  · cases pr <;> decide +kernel
  · have : decide ((12009599095799807 * 2 ^ 378 * 3 : Int) % Fld.e521_1.p = Fld.e521_1.V
      (getOk (Fld.e521_1.code.smallMul pr [0, 0, 0, 0, 0, 0, 0, 12009599095799807, 0, 0] 3)) %
        Fld.e521_1.p) = false := by
      cases pr <;> decide +kernel
    exact fun h => of_decide_eq_false this h.symm

theorem C07_statement_false : ¬ C07_statement := by
  intro h
  obtain ⟨b, r, h1, h2, h3⟩ := C07_counterexample_large .e221_3 .debug (.inl rfl)
  obtain ⟨r', h4, h5⟩ := h .e221_3 .debug _ b (m_one_canon _).tight h1
  rw [h2] at h4; cases h4
  exact h3 h5

/-- A large canonical element. -/
example : Fld.e511_187.Shape 0 (2 ^ Fld.e511_187.tb - 1)
    [1, 2, 3, 4, 5, 6, 7, 8, 2 ^ 54 - 1, 2 ^ 25 - 1] :=
  ⟨[1, 2, 3, 4, 5, 6, 7, 8, 2 ^ 54 - 1], _, rfl, by decide⟩

end Verif

import Verif.Check.Bridge
import Mathlib.Data.List.Forall2

/-!
# Values and shapes of representations (helper lemmas)
-/

namespace Verif
open Check

theorem digitsVal_append (L : Nat) (a b : List Int) :
    digitsVal L (a ++ b) = digitsVal L a + 2 ^ (L * a.length) * digitsVal L b := by
  induction a with
  | nil => simp [digitsVal]
  | cons x a ih =>
    simp only [List.cons_append, digitsVal, ih, List.length_cons, Nat.mul_add, mul_one, pow_add]
    ring

theorem digitsVal_nonneg (L : Nat) (a : List Int) (h : ∀ x ∈ a, 0 ≤ x ∧ x < 2 ^ L) :
    0 ≤ digitsVal L a := by
  induction a with
  | nil => simp [digitsVal]
  | cons x a ih =>
    have h1 := (h x (by simp)).1
    have h2 := ih (fun y hy => h y (by simp [hy]))
    have : (0 : Int) ≤ 2 ^ L * digitsVal L a := mul_nonneg (by positivity) h2
    simp only [digitsVal]; omega

theorem digitsVal_lt (L : Nat) (a : List Int) (h : ∀ x ∈ a, 0 ≤ x ∧ x < 2 ^ L) :
    digitsVal L a < 2 ^ (L * a.length) := by
  induction a with
  | nil => simp [digitsVal]
  | cons x a ih =>
    have h1 := (h x (by simp)).2
    have h2 := ih (fun y hy => h y (by simp [hy]))
    simp only [digitsVal, List.length_cons, Nat.mul_add, mul_one, pow_add]
    have h3 : (2 : Int) ^ L * digitsVal L a ≤ 2 ^ L * (2 ^ (L * a.length) - 1) :=
      mul_le_mul_of_nonneg_left (by omega) (by positivity)
    have h4 : (2 : Int) ^ (L * a.length) * 2 ^ L = 2 ^ L * (2 ^ (L * a.length) - 1) + 2 ^ L := by
      ring
    rw [h4]; omega

/-- Digit lists of the same length with the same value are equal. -/
theorem digitsVal_inj (L : Nat) : ∀ (a b : List Int), (∀ x ∈ a, 0 ≤ x ∧ x < 2 ^ L) →
    (∀ x ∈ b, 0 ≤ x ∧ x < 2 ^ L) → a.length = b.length → digitsVal L a = digitsVal L b →
    a = b := by
  intro a
  induction a with
  | nil => intro b _ _ hl _; exact (List.length_eq_zero_iff.mp (by simpa using hl.symm)).symm
  | cons x a ih =>
    intro b ha hb hl hv
    cases b with
    | nil => simp at hl
    | cons y b =>
      simp only [digitsVal] at hv
      have hx := ha x (by simp)
      have hy := hb y (by simp)
      have e1 : (x + 2 ^ L * digitsVal L a) % 2 ^ L = x := by
        rw [Int.add_mul_emod_self_left]; exact Int.emod_eq_of_lt hx.1 hx.2
      have e2 : (y + 2 ^ L * digitsVal L b) % 2 ^ L = y := by
        rw [Int.add_mul_emod_self_left]; exact Int.emod_eq_of_lt hy.1 hy.2
      have hxy : x = y := by rw [← e1, ← e2, hv]
      subst hxy
      have hp : (2 : Int) ^ L ≠ 0 := by positivity
      have : digitsVal L a = digitsVal L b := mul_left_cancel₀ hp (by linarith)
      rw [ih b (fun z hz => ha z (by simp [hz])) (fun z hz => hb z (by simp [hz]))
        (by simpa using hl) this]

namespace Fld
variable {f : Fld}

theorem n_eq (f : Fld) : f.n = f.L * (f.k - 1) + f.tb := by cases f <;> rfl
theorem k_pos (f : Fld) : 0 < f.k := by cases f <;> decide
theorem k_le (f : Fld) : f.k ≤ 16 := by cases f <;> decide
theorem k_sub (f : Fld) : f.k - 1 + 1 = f.k := by cases f <;> rfl
theorem tb_lt (f : Fld) : f.tb < 56 := by cases f <;> decide
theorem nbytes_le (f : Fld) : f.nbytes ≤ 112 := by cases f <;> decide
theorem c_pos (f : Fld) : 1 ≤ f.c := by cases f <;> decide
theorem c_lt (f : Fld) : f.c < 256 := by cases f <;> decide
theorem limbs_eq (f : Fld) : f.code.limbs = f.k := by cases f <;> rfl
theorem cval_eq (f : Fld) : f.code.cval = f.c := by cases f <;> rfl
theorem carryLimb_eq (f : Fld) : f.code.carryLimb = f.k - 1 := by cases f <;> rfl
theorem carryShift_eq (f : Fld) : f.code.carryShift = f.tb := by cases f <;> rfl
theorem codeNbytes_eq (f : Fld) : f.code.nbytes = f.nbytes := by cases f <;> rfl
theorem codeNbits_eq (f : Fld) : f.code.nbits = f.n := by cases f <;> rfl
theorem limbBits_eq (f : Fld) : f.code.limbBits = f.L := by cases f <;> rfl

theorem big (f : Fld) : (2 : Int) ^ 200 ≤ 2 ^ f.n :=
  pow_le_pow_right₀ (by norm_num) (by cases f <;> decide)

theorem p_pos (f : Fld) : 0 < f.p := by
  have h1 := big f
  have h2 := f.c_lt
  have h3 : (256 : Int) < 2 ^ 200 := by norm_num
  simp only [p]; omega

theorem p_lt (f : Fld) : f.p < 2 ^ f.n := by
  have := f.c_pos
  simp only [p]; omega

/-- `p` computed with `p2`. -/
def pK (f : Fld) : Int := p2 f.n - f.c

theorem pK_eq (f : Fld) : f.pK = f.p := by simp [pK, p, p2_eq]

/-- Intervals of the words of a shape. -/
def shapeR (f : Fld) (lo hi : Int) : List (Int × Int) :=
  List.replicate (f.k - 1) (0, p2 f.L - 1) ++ [(lo, hi)]

theorem shapeR_length (f : Fld) (lo hi : Int) : (f.shapeR lo hi).length = f.k := by
  simp [shapeR, k_sub]

theorem Shape.length {lo hi : Int} {a : Elem} (h : f.Shape lo hi a) : a.length = f.k := by
  obtain ⟨low, top, rfl, hl, -, -, -⟩ := h
  simp [hl, k_sub]

theorem Shape.length_le {lo hi : Int} {a : Elem} (h : f.Shape lo hi a) : a.length ≤ 16 := by
  rw [h.length]; exact f.k_le

theorem Shape.mono {lo hi lo' hi' : Int} {a : Elem} (h : f.Shape lo hi a) (h1 : lo' ≤ lo)
    (h2 : hi ≤ hi') : f.Shape lo' hi' a := by
  obtain ⟨low, top, e, hl, hd, h3, h4⟩ := h
  exact ⟨low, top, e, hl, hd, by omega, by omega⟩

theorem inRs_replicate (r : Int × Int) : ∀ (low : List Int), (∀ x ∈ low, r.1 ≤ x ∧ x ≤ r.2) →
    InRs (List.replicate low.length r) low := by
  intro low
  induction low with
  | nil => intro _; exact .nil
  | cons x low ih =>
    intro h
    exact .cons (h x (by simp)) (ih fun y hy => h y (by simp [hy]))

theorem of_inRs_replicate (r : Int × Int) : ∀ (n : Nat) (low : List Int),
    InRs (List.replicate n r) low → low.length = n ∧ ∀ x ∈ low, r.1 ≤ x ∧ x ≤ r.2 := by
  intro n
  induction n with
  | zero => intro low h; cases h; simp
  | succ n ih =>
    intro low h
    cases h with
    | cons h1 h2 =>
      obtain ⟨h3, h4⟩ := ih _ h2
      refine ⟨by simp [h3], ?_⟩
      intro x hx
      rcases List.mem_cons.mp hx with rfl | hx
      · exact h1
      · exact h4 x hx

theorem Shape.inRs {lo hi : Int} {a : Elem} (h : f.Shape lo hi a) : InRs (f.shapeR lo hi) a := by
  obtain ⟨low, top, rfl, hl, hd, h1, h2⟩ := h
  simp only [shapeR]
  rw [← hl]
  refine List.rel_append (inRs_replicate _ _ fun x hx => ?_) (.cons ⟨h1, h2⟩ .nil)
  have := hd x hx
  rw [p2_eq]; exact ⟨this.1, by omega⟩

theorem shape_of_inRs {lo hi : Int} {a : Elem} (h : InRs (f.shapeR lo hi) a) :
    f.Shape lo hi a := by
  simp only [shapeR] at h
  have hlen := h.length_eq
  simp only [List.length_append, List.length_replicate, List.length_cons, List.length_nil] at hlen
  have e : a = a.take (f.k - 1) ++ a.drop (f.k - 1) := (List.take_append_drop _ _).symm
  have ht := List.forall₂_take (f.k - 1) h
  have hd := List.forall₂_drop (f.k - 1) h
  rw [List.take_left' (by simp)] at ht
  rw [List.drop_left' (by simp)] at hd
  obtain ⟨h1, h2⟩ := of_inRs_replicate _ _ _ ht
  generalize a.drop (f.k - 1) = d at *
  generalize a.take (f.k - 1) = t at *
  subst e
  cases hd with
  | cons h3 h4 =>
    cases h4
    refine ⟨t, _, rfl, h1, fun x hx => ?_, h3⟩
    have := h2 x hx
    rw [p2_eq] at this
    exact ⟨this.1, by omega⟩

theorem Shape.V_eq {lo hi : Int} {a : Elem} (h : f.Shape lo hi a) :
    ∃ d top, f.V a = d + 2 ^ (f.L * (f.k - 1)) * top ∧ 0 ≤ d ∧ d < 2 ^ (f.L * (f.k - 1)) ∧
      a[f.k - 1]? = some top ∧ lo ≤ top ∧ top ≤ hi := by
  obtain ⟨low, top, rfl, hl, hd, h1, h2⟩ := h
  refine ⟨digitsVal f.L low, top, ?_, digitsVal_nonneg _ _ hd, ?_, ?_, h1, h2⟩
  · simp [V, digitsVal_append, digitsVal, hl]
  · rw [← hl]; exact digitsVal_lt _ _ hd
  · rw [← hl]; simp

theorem div_shape {M tb : Nat} {d top : Int} (h0 : 0 ≤ d) (h1 : d < 2 ^ M) :
    (d + 2 ^ M * top) / 2 ^ (M + tb) = top / 2 ^ tb := by
  rw [pow_add, ← Int.ediv_ediv_of_nonneg (by positivity),
    Int.add_mul_ediv_left _ _ (by positivity), Int.ediv_eq_zero_of_lt h0 h1, zero_add]

/-- The carry out of the top word is the value divided by `2 ^ n`. -/
theorem Shape.top_div {lo hi : Int} {a : Elem} (h : f.Shape lo hi a) {top : Int}
    (ht : a[f.k - 1]? = some top) : top / 2 ^ f.tb = f.V a / 2 ^ f.n := by
  obtain ⟨d, top', hV, h0, h1, ht', -, -⟩ := h.V_eq
  rw [ht] at ht'
  cases ht'
  rw [hV, n_eq, div_shape h0 h1]

theorem Shape.lo_le {lo hi : Int} {a : Elem} (h : f.Shape lo hi a) :
    2 ^ (f.L * (f.k - 1)) * lo ≤ f.V a := by
  obtain ⟨d, top, hV, h0, h1, -, h2, h3⟩ := h.V_eq
  have : (2 : Int) ^ (f.L * (f.k - 1)) * lo ≤ 2 ^ (f.L * (f.k - 1)) * top :=
    mul_le_mul_of_nonneg_left h2 (by positivity)
  omega

theorem Shape.lt_hi {lo hi : Int} {a : Elem} (h : f.Shape lo hi a) :
    f.V a < 2 ^ (f.L * (f.k - 1)) * (hi + 1) := by
  obtain ⟨d, top, hV, h0, h1, -, h2, h3⟩ := h.V_eq
  have : (2 : Int) ^ (f.L * (f.k - 1)) * (top + 1) ≤ 2 ^ (f.L * (f.k - 1)) * (hi + 1) :=
    mul_le_mul_of_nonneg_left (by omega) (by positivity)
  rw [mul_add] at this
  omega

/-- Bounds on the value give bounds on the top word. -/
theorem Shape.of_V {lo hi lo' hi' : Int} {a : Elem} (h : f.Shape lo hi a)
    (h1 : 2 ^ (f.L * (f.k - 1)) * lo' ≤ f.V a) (h2 : f.V a < 2 ^ (f.L * (f.k - 1)) * (hi' + 1)) :
    f.Shape lo' hi' a := by
  obtain ⟨low, top, rfl, hl, hd, -, -⟩ := h
  refine ⟨low, top, rfl, hl, hd, ?_, ?_⟩ <;>
  · have e : f.V (low ++ [top]) = digitsVal f.L low + 2 ^ (f.L * (f.k - 1)) * top := by
      simp [V, digitsVal_append, digitsVal, hl]
    have h3 := digitsVal_nonneg _ _ hd
    have h4 := digitsVal_lt _ _ hd
    rw [hl] at h4
    rw [e] at h1 h2
    by_contra hc
    have hpos : (0 : Int) < 2 ^ (f.L * (f.k - 1)) := by positivity
    generalize (2 : Int) ^ (f.L * (f.k - 1)) = N at *
    generalize digitsVal f.L low = d at *
    nlinarith

/-- A shape whose value is an `n`-bit number is determined by its value. -/
theorem Shape.ext {lo hi lo' hi' : Int} {a b : Elem} (ha : f.Shape lo hi a)
    (hb : f.Shape lo' hi' b) (hV : f.V a = f.V b) : a = b := by
  obtain ⟨low, top, rfl, hl, hd, -, -⟩ := ha
  obtain ⟨low', top', rfl, hl', hd', -, -⟩ := hb
  simp only [V, digitsVal_append, digitsVal, hl, hl', mul_zero, add_zero] at hV
  have h1 := digitsVal_nonneg _ _ hd
  have h2 := digitsVal_lt _ _ hd
  have h3 := digitsVal_nonneg _ _ hd'
  have h4 := digitsVal_lt _ _ hd'
  rw [hl] at h2
  rw [hl'] at h4
  have hM : (2 : Int) ^ (f.L * (f.k - 1)) ≠ 0 := by positivity
  have e1 := congrArg (· / (2 : Int) ^ (f.L * (f.k - 1))) hV
  rw [Int.add_mul_ediv_left _ _ hM, Int.add_mul_ediv_left _ _ hM, Int.ediv_eq_zero_of_lt h1 h2,
    Int.ediv_eq_zero_of_lt h3 h4, zero_add, zero_add] at e1
  subst e1
  have : digitsVal f.L low = digitsVal f.L low' := by omega
  rw [digitsVal_inj _ _ _ hd hd' (by omega) this]

theorem pow_n (f : Fld) : (2 : Int) ^ f.n = 2 ^ (f.L * (f.k - 1)) * 2 ^ f.tb := by
  rw [← pow_add, ← n_eq]

/-- The slot of the top word, divided by `2 ^ tb`. -/
theorem Shape.slot_self {lo hi : Int} {a b : Elem} (h : f.Shape lo hi a) :
    envF (initEnv a b) (f.k - 1) / 2 ^ f.tb = f.V a / 2 ^ f.n := by
  obtain ⟨d, top, -, -, -, ht, -, -⟩ := h.V_eq
  rw [← h.top_div ht]
  have := f.k_pos
  simp only [envF]
  rw [get_initEnv_self a b h.length_le _ (by rw [h.length]; omega), ht, Option.getD_some]

theorem Shape.slot_arg {lo hi : Int} {a b : Elem} (h : f.Shape lo hi b) :
    envF (initEnv a b) (16 + (f.k - 1)) / 2 ^ f.tb = f.V b / 2 ^ f.n := by
  obtain ⟨d, top, -, -, -, ht, -, -⟩ := h.V_eq
  rw [← h.top_div ht]
  have := f.k_pos
  have := f.k_le
  simp only [envF]
  rw [get_initEnv_arg a b (by rw [h.length]; omega) _ (by rw [h.length]; omega), ht,
    Option.getD_some]

theorem Shape.read_self {lo hi : Int} {a b : Elem} (h : f.Shape lo hi a) :
    digitsVal f.L (readSlots (initEnv a b) 0 f.k) = f.V a := by
  have := readSlots_self a b h.length_le
  rw [h.length] at this
  rw [this, V]

theorem Shape.read_arg {lo hi : Int} {a b : Elem} (h : f.Shape lo hi b) :
    digitsVal f.L (readSlots (initEnv a b) 16 f.k) = f.V b := by
  have := readSlots_arg a b (by rw [h.length]; have := f.k_le; omega)
  rw [h.length] at this
  rw [this, V]

end Fld
end Verif

import Verif.Field.ChainEval
import Verif.Props.Primes
import Mathlib.NumberTheory.LegendreSymbol.Basic

/-!
# Properties C15–C18: inversion, division, Legendre symbol, square root

The exponentiation chains multiply and square; in seven types that is right for
everything the arithmetic operations return.  `Mod_e222_117` needs a non-negative
argument.  `Mod_e251_9` needs every product formed on the way to be in the range where
its `*` is right (`SafeChain`), which is a condition on the run.
-/

namespace Verif
open Fld FieldCode

namespace Fld

/-- Arguments a chain of type `f` takes. -/
def ChainArg (f : Fld) (c : Chain) (a : Elem) : Prop :=
  f.Tight a ∧ (f = .e222_117 → 0 ≤ f.V a) ∧ (f = .e251_9 → f.SafeChain c a)

theorem ChainArg.safe {f : Fld} {c : Chain} {a : Elem} (h : f.ChainArg c a) : f.SafeChain c a := by
  by_cases hf : f = .e251_9
  · exact h.2.2 hf
  · exact safe_of_ne hf _ _ _ _

/-- In seven types there is no condition beyond `Tight`. -/
theorem ChainArg.of_tight {f : Fld} (hf : f ≠ .e222_117 ∧ f ≠ .e251_9) {c : Chain} {a : Elem}
    (h : f.Tight a) : f.ChainArg c a :=
  ⟨h, fun h => absurd h hf.1, fun h => absurd h hf.2⟩

theorem p_eq (f : Fld) : f.p = (f.pN : Int) := by
  have h : f.c ≤ 2 ^ f.n := by
    have h1 := f.c_lt
    have h2 : 2 ^ 200 ≤ 2 ^ f.n := Nat.pow_le_pow_right (by norm_num) (by cases f <;> decide)
    omega
  simp only [p, pN]
  push_cast [Nat.cast_sub h]
  ring

instance fact_prime (f : Fld) : Fact (Nat.Prime f.pN) := ⟨C36_moduli_prime f⟩

theorem modEq_iff {f : Fld} {a b : Int} :
    a ≡ b [ZMOD f.p] ↔ (a : ZMod f.pN) = (b : ZMod f.pN) := by
  rw [p_eq, ZMod.intCast_eq_intCast_iff]

theorem dvd_iff {f : Fld} {a : Int} : f.p ∣ a ↔ (a : ZMod f.pN) = 0 := by
  rw [p_eq, ZMod.intCast_zmod_eq_zero_iff_dvd]

theorem isSquare_iff {f : Fld} {a : Int} :
    (∃ y : Int, y * y ≡ a [ZMOD f.p]) ↔ IsSquare (a : ZMod f.pN) := by
  constructor
  · rintro ⟨y, hy⟩
    exact ⟨(y : ZMod f.pN), by rw [modEq_iff] at hy; rw [← hy]; push_cast; ring⟩
  · rintro ⟨y, hy⟩
    refine ⟨(y.val : Int), ?_⟩
    rw [modEq_iff, hy]
    push_cast
    rw [ZMod.natCast_zmod_val]

theorem pN_facts (f : Fld) : 2 < f.pN ∧ f.pN % 2 = 1 ∧ (f.Five → f.pN % 8 = 5) ∧
    (¬ f.Five → f.pN % 4 = 3) := by
  cases f <;> decide +kernel

theorem polyVal_single (X : Int) (e : Nat) : polyVal X [(1, e)] = X ^ e := by
  simp [polyVal]

end Fld

variable (f : Fld) (pr : Profile)

/-! ## C15: inversion -/

/-- Full statement of C15 (false for two of the nine types). -/
def C15_statement : Prop := ∀ (f : Fld) (pr : Profile) (a : Elem), f.Tight a →
  ∃ r, f.code.inverted pr a = .ok r ∧ (¬ f.p ∣ f.V a → f.V a * f.V r ≡ 1 [ZMOD f.p]) ∧
    (f.p ∣ f.V a → f.Denotes r 0)

theorem invert_pow {a : Elem} (ha : f.ChainArg f.code.invertC a) :
    ∃ r, f.code.inverted pr a = .ok r ∧ f.Tight r ∧ f.lowB ≤ f.V r ∧
      f.V r ≡ f.V a ^ (f.pN - 2) [ZMOD f.p] := by
  obtain ⟨r, h1, h2, h3, h4⟩ := chain_poly' pr ha.1 ha.2.1 (invert_sym f) ha.safe
  exact ⟨r, h1, h2, h4 rfl, by rwa [polyVal_single] at h3⟩

/-- Part of C15: the result of `inverted` denotes the inverse of the operand, and `0` for
`0`.  Missing: negative operands in `Mod_e222_117`, runs that leave the domain of `*` in
`Mod_e251_9`; the code is wrong there. -/
theorem C15_invert_partial {a : Elem} (ha : f.ChainArg f.code.invertC a) :
    ∃ r, f.code.inverted pr a = .ok r ∧ f.Tight r ∧ f.lowB ≤ f.V r ∧
      (¬ f.p ∣ f.V a → f.V a * f.V r ≡ 1 [ZMOD f.p]) ∧ (f.p ∣ f.V a → f.Denotes r 0) := by
  obtain ⟨r, h1, h2, h2', h3⟩ := invert_pow f pr ha
  obtain ⟨hp, -⟩ := pN_facts f
  refine ⟨r, h1, h2, h2', fun h0 => ?_, fun h0 => ?_⟩
  · rw [dvd_iff] at h0
    rw [modEq_iff] at *
    push_cast at *
    rw [h3, ← pow_succ', show f.pN - 2 + 1 = f.pN - 1 by omega, ZMod.pow_card_sub_one_eq_one h0]
  · rw [dvd_iff] at h0
    rw [Denotes]
    rw [modEq_iff] at *
    push_cast at *
    rw [h3, h0, zero_pow (by omega)]

/-- Part of C15: `a * a.inverted()` denotes `1`, as computed by the type's own `*`.  Missing:
negative operands in `Mod_e222_117`, and `Mod_e251_9`. -/
theorem C15_mul_invert_partial (hf : f ≠ .e251_9) {a : Elem} (ha : f.Tight a)
    (hn : f = .e222_117 → 0 ≤ f.V a) :
    ∃ r, f.code.inverted pr a = .ok r ∧
      (¬ f.p ∣ f.V a → ∃ m, f.code.mul pr a r = .ok m ∧ f.Denotes m 1) ∧
      (f.p ∣ f.V a → f.Denotes r 0) := by
  obtain ⟨r, h1, h2, h2', h3, h4⟩ := C15_invert_partial f pr ⟨ha, hn, fun h => absurd h hf⟩
  refine ⟨r, h1, fun h0 => ?_, h4⟩
  obtain ⟨m, h5, -, -, h6⟩ := sym_mul pr ha h2 (fun h => ⟨hn h, lowB_nonneg h h2'⟩) (fun h => absurd h hf)
  exact ⟨m, h5, h6.trans (h3 h0)⟩

/-- The element `0 - 1` as the code computes it. -/
def minusOne (f : Fld) : Elem := getOk (f.code.sub .debug f.code.ZERO f.code.ONE)

set_option maxRecDepth 100000 in
/-- In `Mod_e222_117` and `Mod_e251_9`, `(0 - 1).inverted()` does not denote `-1`. -/
theorem C15_counterexample (hf : f = .e222_117 ∨ f = .e251_9) :
    f.code.sub pr f.code.ZERO f.code.ONE = .ok (minusOne f) ∧ f.V (minusOne f) = -1 ∧
    ∃ r, f.code.inverted pr (minusOne f) = .ok r ∧ ¬ f.Denotes r (-1) := by
  have h2 : f.V (minusOne f) = -1 := by cases f <;> decide +kernel
  have h1 : f.code.sub .debug f.code.ZERO f.code.ONE = .ok (minusOne f) := by
    rcases hf with rfl | rfl <;> decide +kernel
  have key : ∀ r : Elem, f.evalChain noQuartic f.code.invertC (minusOne f) = r → r ≠ [] →
      decide (f.V r % f.p = (-1) % f.p) = false →
      ∃ r, f.code.inverted pr (minusOne f) = .ok r ∧ ¬ f.Denotes r (-1) := by
    intro r h3 h3' h4
    exact ⟨r, runChain_of pr (fun _ _ h => h) h3 h3', fun h => of_decide_eq_false h4 h⟩
  refine ⟨runLimb_mono _ pr h1, h2, ?_⟩
  rcases hf with rfl | rfl
  · exact key [119807, 0, 0, 0] (by decide +kernel) (by decide) (by decide +kernel)
  · exact key [323, 0, 0, 0, 0] (by decide +kernel) (by decide) (by decide +kernel)

set_option maxRecDepth 100000 in
/-- In `Mod_e251_9` the constant `m_one()` meets the condition on the run. -/
example : Fld.e251_9.ChainArg Fld.e251_9.code.invertC Fld.e251_9.code.M_ONE :=
  ⟨(m_one_canon _).tight, by decide, fun _ => safeChain_of (by decide +kernel)⟩

theorem C15_statement_false : ¬ C15_statement := by
  intro h
  obtain ⟨h1, h2, r, h3, h4⟩ := C15_counterexample .e222_117 .debug (.inl rfl)
  have ht : Fld.e222_117.Tight (minusOne .e222_117) := by
    obtain ⟨r, g1, g2, -⟩ := C02_sub_correct_iff .e222_117 .debug (Tight.rep (zero_canon _).tight)
      (Tight.rep (one_canon _).tight)
    rw [h1] at g1; cases g1; exact g2
  obtain ⟨r', h5, h6, -⟩ := h .e222_117 .debug _ ht
  rw [h3] at h5; cases h5
  have h7 := h6 (by rw [h2]; decide +kernel)
  rw [h2] at h7
  refine h4 ?_
  rw [Denotes]
  have := h7.mul_left (-1)
  simpa using this

/-! ## C16: division -/

/-- Full statement of C16 (false for two of the nine types). -/
def C16_statement : Prop := ∀ (f : Fld) (pr : Profile) (a b : Elem), f.Tight a → f.Tight b →
  ¬ f.p ∣ f.V b → (∃ q m, f.code.div pr a b = .ok q ∧ f.code.mul pr q b = .ok m ∧
    f.Denotes m (f.V a)) ∧
  (∃ m q, f.code.mul pr a b = .ok m ∧ f.code.div pr m b = .ok q ∧ f.Denotes q (f.V a))

/-- `a / b`: the quotient times `b` denotes `a`. -/
theorem C16_div_value {a b : Elem} (ha : f.Tight a) (hb : f.ChainArg f.code.invertC b)
    (hn : f = .e222_117 → 0 ≤ f.V a)
    (hM : f = .e251_9 → ∀ i, f.code.inverted pr b = .ok i → f.MulDomain (f.V a * f.V i))
    (h0 : ¬ f.p ∣ f.V b) :
    ∃ q, f.code.div pr a b = .ok q ∧ f.Tight q ∧ f.lowB ≤ f.V q ∧
      f.V q * f.V b ≡ f.V a [ZMOD f.p] := by
  obtain ⟨i, h1, h2, h2', h3, -⟩ := C15_invert_partial f pr hb
  obtain ⟨q, h4, h5, h5', h6⟩ := sym_mul pr ha h2 (fun h => ⟨hn h, lowB_nonneg h h2'⟩) (fun h => hM h i h1)
  refine ⟨q, ?_, h5, h5', ?_⟩
  · simp only [div, divAssign, h1, bind, Except.bind]; exact h4
  · have e : f.V a * (f.V b * f.V i) = f.V a * f.V i * f.V b := by ring
    refine (h6.mul_right _).trans ?_
    rw [← e]
    simpa using (h3 h0).mul_left (f.V a)

/-- Part of C16: division undoes multiplication, as computed by the type's own operators.
Missing: negative operands in `Mod_e222_117`, and `Mod_e251_9`. -/
theorem C16_div_mul_partial (hf : f ≠ .e251_9) {a b : Elem} (ha : f.Tight a) (hb : f.Tight b)
    (hna : f = .e222_117 → 0 ≤ f.V a) (hnb : f = .e222_117 → 0 ≤ f.V b) (h0 : ¬ f.p ∣ f.V b) :
    (∃ q m, f.code.div pr a b = .ok q ∧ f.code.mul pr q b = .ok m ∧ f.Denotes m (f.V a)) ∧
    (∃ m q, f.code.mul pr a b = .ok m ∧ f.code.div pr m b = .ok q ∧ f.Denotes q (f.V a)) := by
  have hbc : f.ChainArg f.code.invertC b := ⟨hb, hnb, fun h => absurd h hf⟩
  constructor
  · obtain ⟨q, h1, h2, h3, h4⟩ := C16_div_value f pr ha hbc hna (fun h => absurd h hf) h0
    obtain ⟨m, h5, -, -, h6⟩ := sym_mul pr h2 hb (fun h => ⟨lowB_nonneg h h3, hnb h⟩) (fun h => absurd h hf)
    exact ⟨q, m, h1, h5, h6.trans h4⟩
  · obtain ⟨m, h5, h6, h7, h8⟩ := sym_mul pr ha hb (fun h => ⟨hna h, hnb h⟩) (fun h => absurd h hf)
    obtain ⟨q, h1, h2, h3, h4⟩ := C16_div_value f pr h6 hbc (fun h => lowB_nonneg h h7) (fun h => absurd h hf) h0
    refine ⟨m, q, h5, h1, ?_⟩
    have h9 := h4.trans h8
    rw [dvd_iff] at h0
    rw [Denotes]
    rw [modEq_iff] at *
    push_cast at h9
    exact mul_right_cancel₀ h0 h9

theorem C16_statement_false : ¬ C16_statement := by
  intro h
  have ht : Fld.e222_117.Tight (minusOne .e222_117) := by
    obtain ⟨r, g1, g2, -⟩ := C02_sub_correct_iff .e222_117 .debug (Tight.rep (zero_canon _).tight)
      (Tight.rep (one_canon _).tight)
    obtain ⟨h1, -⟩ := C15_counterexample .e222_117 .debug (.inl rfl)
    rw [h1] at g1; cases g1; exact g2
  have hV : Fld.e222_117.V (minusOne .e222_117) = -1 := by decide +kernel
  have ho := one_canon .e222_117
  obtain ⟨-, m, q, h1, h2, h3⟩ := h .e222_117 .debug _ _ ht ho.tight (by
    rw [ho.2.1]; decide +kernel)
  obtain ⟨m', g1, g2, -⟩ := C04_mul_correct_iff .e222_117 .debug (Tight.loose ht)
    (Tight.loose ho.tight)
  have e2 : (let v := Fld.e222_117.V (getOk (Fld.e222_117.code.mul .debug (minusOne .e222_117)
      Fld.e222_117.code.ONE))
      decide (0 ≤ v) && decide (¬ v % Fld.e222_117.p = (-1) % Fld.e222_117.p)) = true := by
    decide +kernel
  rw [h1] at g1; cases g1
  rw [h1] at e2
  simp only [getOk, Bool.and_eq_true] at e2
  obtain ⟨q', h4, -, -, h5⟩ := C16_div_value .e222_117 .debug g2
    ⟨ho.tight, fun _ => by rw [ho.2.1]; decide, fun h => by cases h⟩ (fun _ => of_decide_eq_true e2.1)
    (fun h => by cases h) (by rw [ho.2.1]; decide +kernel)
  rw [h2] at h4; cases h4
  rw [ho.2.1, mul_one] at h5
  rw [Denotes, hV] at h3
  exact of_decide_eq_true e2.2 (h5.symm.trans h3)

/-! ## C17: Legendre symbol -/

/-- Full statement of C17 (false for two of the nine types). -/
def C17_statement : Prop := ∀ (f : Fld) (pr : Profile) (a : Elem), f.Tight a →
  ∃ r, f.code.legendre pr a = .ok r ∧
    (f.p ∣ f.V a → f.Denotes r 0) ∧
    (¬ f.p ∣ f.V a → (∃ y : Int, y * y ≡ f.V a [ZMOD f.p]) → f.Denotes r 1) ∧
    ((¬ ∃ y : Int, y * y ≡ f.V a [ZMOD f.p]) → f.Denotes r (-1))

/-- Part of C17: the Legendre symbol.  Missing: negative operands in `Mod_e222_117`, runs
that leave the domain of `*` in `Mod_e251_9`; the code is wrong there. -/
theorem C17_legendre_partial {a : Elem} (ha : f.ChainArg f.code.legendreC a) :
    ∃ r, f.code.legendre pr a = .ok r ∧ f.Tight r ∧ f.lowB ≤ f.V r ∧
      (f.p ∣ f.V a → f.Denotes r 0) ∧
      (¬ f.p ∣ f.V a → (∃ y : Int, y * y ≡ f.V a [ZMOD f.p]) → f.Denotes r 1) ∧
      ((¬ ∃ y : Int, y * y ≡ f.V a [ZMOD f.p]) → f.Denotes r (-1)) := by
  obtain ⟨r, h1, h2, h3, hl⟩ := chain_poly' pr ha.1 ha.2.1 (legendre_sym f) ha.safe
  obtain ⟨hp, hodd, -⟩ := pN_facts f
  rw [polyVal_single, show (f.pN - 1) / 2 = f.pN / 2 by omega, modEq_iff] at h3
  push_cast at h3
  refine ⟨r, h1, h2, hl rfl, fun h0 => ?_, fun h0 hs => ?_, fun hs => ?_⟩
  · rw [dvd_iff] at h0
    rw [Denotes, modEq_iff, h3, h0, zero_pow (by omega)]; simp
  · rw [dvd_iff] at h0
    rw [isSquare_iff, ZMod.euler_criterion _ h0] at hs
    rw [Denotes, modEq_iff, h3, hs]; simp
  · rw [isSquare_iff] at hs
    have h0 : ((f.V a : Int) : ZMod f.pN) ≠ 0 := fun h => hs (by rw [h]; exact IsSquare.zero)
    rw [ZMod.euler_criterion _ h0] at hs
    rw [Denotes, modEq_iff, h3, (ZMod.pow_div_two_eq_neg_one_or_one _ h0).resolve_left hs]; simp

set_option maxRecDepth 100000 in
/-- `legendre(0 - 1)` is wrong in `Mod_e222_117` and `Mod_e251_9` (it is neither of
`0`, `1`, `-1`). -/
theorem C17_counterexample (hf : f = .e222_117 ∨ f = .e251_9) :
    f.code.sub pr f.code.ZERO f.code.ONE = .ok (minusOne f) ∧
    ∃ r, f.code.legendre pr (minusOne f) = .ok r ∧
      ¬ f.Denotes r 0 ∧ ¬ f.Denotes r 1 ∧ ¬ f.Denotes r (-1) := by
  refine ⟨(C15_counterexample f pr hf).1, ?_⟩
  have key : ∀ r : Elem, f.evalChain noQuartic f.code.legendreC (minusOne f) = r → r ≠ [] →
      (decide (f.V r % f.p = 0 % f.p) || decide (f.V r % f.p = 1 % f.p) ||
        decide (f.V r % f.p = (-1) % f.p)) = false →
      ∃ r, f.code.legendre pr (minusOne f) = .ok r ∧
        ¬ f.Denotes r 0 ∧ ¬ f.Denotes r 1 ∧ ¬ f.Denotes r (-1) := by
    intro r h3 h3' h4
    simp only [Bool.or_eq_false_iff, decide_eq_false_iff_not] at h4
    exact ⟨r, runChain_of pr (fun _ _ h => h) h3 h3', h4.1.1, h4.1.2, h4.2⟩
  rcases hf with rfl | rfl
  · exact key [119807, 0, 0, 0] (by decide +kernel) (by decide) (by decide +kernel)
  · exact key [323, 0, 0, 0, 0] (by decide +kernel) (by decide) (by decide +kernel)

theorem C17_statement_false : ¬ C17_statement := by
  intro h
  obtain ⟨h1, r, h2, h3, h4, h5⟩ := C17_counterexample .e222_117 .debug (.inl rfl)
  have ht : Fld.e222_117.Tight (minusOne .e222_117) := by
    obtain ⟨r, g1, g2, -⟩ := C02_sub_correct_iff .e222_117 .debug (Tight.rep (zero_canon _).tight)
      (Tight.rep (one_canon _).tight)
    rw [h1] at g1; cases g1; exact g2
  obtain ⟨r', g1, g2, g3, g4⟩ := h .e222_117 .debug _ ht
  rw [h2] at g1; cases g1
  by_cases hs : ∃ y : Int, y * y ≡ Fld.e222_117.V (minusOne .e222_117) [ZMOD Fld.e222_117.p]
  · by_cases h0 : Fld.e222_117.p ∣ Fld.e222_117.V (minusOne .e222_117)
    · exact h3 (g2 h0)
    · exact h4 (g3 h0 hs)
  · exact h5 (g4 hs)

set_option maxRecDepth 100000 in
/-- In `Mod_e251_9` the constant `m_one()` meets the condition on the run. -/
example : Fld.e251_9.ChainArg Fld.e251_9.code.legendreC Fld.e251_9.code.M_ONE :=
  ⟨(m_one_canon _).tight, by decide, fun _ => safeChain_of (by decide +kernel)⟩

/-! ## C18: square root -/

/-- Full statement of C18 (false for `Mod_e222_117`). -/
def C18_statement : Prop := ∀ (f : Fld) (pr : Profile) (a : Elem), f.Tight a →
  (∃ y : Int, y * y ≡ f.V a [ZMOD f.p]) →
  ∃ r s, f.code.sqrt pr a = .ok r ∧ f.code.squared pr r = .ok s ∧ f.Denotes s (f.V a)

theorem quartic_pow (hf : f.Five) {v : Elem} (hv : f.Tight v) :
    ∃ r, f.code.quarticLegendre pr v = .ok r ∧ f.Tight r ∧
      f.V r ≡ f.V v ^ ((f.pN - 1) / 4) [ZMOD f.p] := by
  have hne : f ≠ .e222_117 ∧ f ≠ .e251_9 := by rcases hf with rfl | rfl | rfl | rfl <;> decide
  have hs := quartic_sym f hf
  simp only [quarticLegendre]
  cases hc : f.code.quarticC with
  | none => rw [hc] at hs; cases hs
  | some c =>
    rw [hc] at hs
    obtain ⟨r, h1, h2, h3, -⟩ := chain_poly' pr hv (fun h => absurd h hne.1) hs
      (safe_of_ne hne.2 _ _ _ _)
    exact ⟨r, h1, h2, by rwa [polyVal_single] at h3⟩

/-- Part of C18: `sqrt` of a square is a square root of it.  Missing: negative operands in
`Mod_e222_117`, where the code is wrong; runs that leave the domain of `*` in `Mod_e251_9`. -/
theorem C18_sqrt_partial {a : Elem} (ha : f.ChainArg f.code.sqrtC a)
    (hs : ∃ y : Int, y * y ≡ f.V a [ZMOD f.p]) :
    ∃ r s, f.code.sqrt pr a = .ok r ∧ f.code.squared pr r = .ok s ∧ f.Denotes s (f.V a) := by
  have main : ∃ r, f.code.sqrt pr a = .ok r ∧ f.Tight r ∧ f.V r * f.V r ≡ f.V a [ZMOD f.p] := by
    obtain ⟨hp, hodd, h5, h3⟩ := pN_facts f
    rw [isSquare_iff] at hs
    obtain ⟨y, hy⟩ := hs
    by_cases hf : f.Five
    · have hne : f ≠ .e222_117 ∧ f ≠ .e251_9 := by rcases hf with rfl | rfl | rfl | rfl <;> decide
      have h8 := h5 hf
      obtain ⟨r, h1, h2, h4, -⟩ := chain_poly (o := some ((f.pN - 1) / 4)) (pos := false)
        (q := f.code.quarticLegendre pr) pr ha.1 (by simp) (by
          intro e he _ v hv hva
          cases he
          obtain ⟨r, g1, g2, g3⟩ := quartic_pow f pr hf hv
          exact ⟨r, g1, g2, g3.trans (hva.pow _)⟩) (sqrt5_sym f hf) (safe_of_ne hne.2 _ _ _ _)
      refine ⟨r, h1, h2, ?_⟩
      obtain ⟨c1, c2⟩ := sqrt5_consts f hf
      rw [← Int.dvd_iff_emod_eq_zero, dvd_iff] at c1 c2
      rw [modEq_iff] at *
      push_cast [polyVal] at *
      rw [h4]
      generalize ((f.V a : Int) : ZMod f.pN) = x at *
      generalize ((f.optV f.code.M_HALF : Int) : ZMod f.pN) = h at *
      generalize ((f.optV f.code.COEFF : Int) : ZMod f.pN) = c at *
      clear hne ha h5 h3 hf h1 h2
      have e1 : x ^ ((f.pN + 3) / 8) * x ^ ((f.pN + 3) / 8) = x * x ^ ((f.pN - 1) / 4) := by
        rw [← pow_add, ← pow_succ']; congr 1; omega
      rw [pow_add]
      clear h4
      generalize x ^ ((f.pN + 3) / 8) = u at *
      have hq : x ^ ((f.pN - 1) / 4) * x ^ ((f.pN - 1) / 4) = 1 ∨ x = 0 := by
        by_cases hx : x = 0
        · exact .inr hx
        · left
          have hy0 : y ≠ 0 := fun h => hx (by rw [hy, h, zero_mul])
          rw [hy, ← pow_two, ← pow_two, ← pow_mul, ← pow_mul, ← ZMod.pow_card_sub_one_eq_one hy0]
          congr 1; omega
      generalize x ^ ((f.pN - 1) / 4) = q at *
      rcases hq with hq | hx
      · have hq' : (q - 1) * (q + 1) = 0 := by linear_combination hq
        rcases mul_eq_zero.mp hq' with g | g
        · have : q = 1 := by linear_combination g
          subst this
          linear_combination e1
        · have : q = -1 := by linear_combination g
          subst this
          have e3 : h * c * (u * -1) + (-(h * c) * u + (1 * u + 0)) = u * (c + 1) := by
            linear_combination -c * u * c1
          rw [e3]
          linear_combination (c + 1) ^ 2 * e1 - x * c2
      · subst hx
        have hu : u = 0 := by
          have : u * u = 0 := by rw [e1, zero_mul]
          exact mul_self_eq_zero.mp this
        rw [hu]; ring
    · have h8 := h3 hf
      obtain ⟨r, h1, h2, h4, -⟩ := chain_poly' .debug ha.1 ha.2.1 (sqrt_sym f hf)
        ha.safe
      refine ⟨r, runChain_mono _ pr _ (fun _ _ h => by cases h) h1, h2, ?_⟩
      rw [polyVal_single] at h4
      rw [modEq_iff] at *
      push_cast at *
      rw [h4, ← pow_add, hy]
      by_cases hy0 : y = 0
      · rw [hy0, zero_mul, zero_pow (by omega)]
      · have e := ZMod.pow_card_sub_one_eq_one hy0
        rw [← pow_two, ← pow_mul, show 2 * ((f.pN + 1) / 4 + (f.pN + 1) / 4) = f.pN - 1 + 2 by omega,
          pow_add, e, one_mul]
  obtain ⟨r, h1, h2, h3⟩ := main
  obtain ⟨s, h4, -, h5⟩ := C05_square f pr h2
  exact ⟨r, s, h1, h4, h5.trans h3⟩

/-- A representation of `1` with a negative value: `1 - p`, as the code computes it from
the unpacked bytes of `p`. -/
def oneMinusP (f : Fld) : Elem := getOk (f.code.sub .debug f.code.ONE f.code.MODULUS)

set_option maxRecDepth 100000 in
/-- In `Mod_e222_117`, `sqrt(1 - p)` (a representation of `1`) is not a square root of `1`. -/
theorem C18_counterexample :
    Fld.e222_117.code.sub pr Fld.e222_117.code.ONE Fld.e222_117.code.MODULUS =
      .ok (oneMinusP .e222_117) ∧ Fld.e222_117.Denotes (oneMinusP .e222_117) 1 ∧
    ∃ r, Fld.e222_117.code.sqrt pr (oneMinusP .e222_117) = .ok r ∧
      ¬ Fld.e222_117.V r * Fld.e222_117.V r ≡ 1 [ZMOD Fld.e222_117.p] := by
  refine ⟨runLimb_mono _ pr (by decide +kernel), by unfold Denotes Int.ModEq; decide +kernel,
    Fld.e222_117.evalChain noQuartic Fld.e222_117.code.sqrtC (oneMinusP .e222_117),
    runChain_of pr (fun _ _ h => by cases h) rfl (by decide +kernel), ?_⟩
  unfold Int.ModEq
  decide +kernel

theorem C18_statement_false : ¬ C18_statement := by
  intro h
  obtain ⟨h1, h2, r, h3, h4⟩ := C18_counterexample .debug
  have ht : Fld.e222_117.Tight (oneMinusP .e222_117) := by
    obtain ⟨r, g1, g2, -⟩ := C02_sub_correct_iff .e222_117 .debug (Tight.rep (one_canon _).tight)
      (Tight.rep (word_tight (modulus_shape _)))
    rw [h1] at g1; cases g1; exact g2
  obtain ⟨r', s, g1, g2, g3⟩ := h .e222_117 .debug _ ht ⟨1, h2.symm⟩
  rw [h3] at g1; cases g1
  have hr : Fld.e222_117.Tight r := by
    obtain ⟨r'', k1, k2⟩ := sqrt_tight .e222_117 .debug ht
    rw [h3] at k1; cases k1; exact k2
  obtain ⟨s', k1, -, k2⟩ := C05_square .e222_117 .debug hr
  rw [show Fld.e222_117.code.square .debug r = .ok s from g2] at k1; cases k1
  exact h4 (k2.symm.trans (g3.trans h2))

set_option maxRecDepth 100000 in
/-- In `Mod_e251_9` the unpacked representation `p + 1` of `1` meets the hypotheses. -/
example : Fld.e251_9.ChainArg Fld.e251_9.code.sqrtC
    [2 ^ 56 - 8, 2 ^ 56 - 1, 2 ^ 56 - 1, 2 ^ 56 - 1, 2 ^ 27 - 1] ∧
    1 * 1 ≡ Fld.e251_9.V [2 ^ 56 - 8, 2 ^ 56 - 1, 2 ^ 56 - 1, 2 ^ 56 - 1, 2 ^ 27 - 1]
      [ZMOD Fld.e251_9.p] :=
  ⟨⟨⟨[2 ^ 56 - 8, 2 ^ 56 - 1, 2 ^ 56 - 1, 2 ^ 56 - 1], _, rfl, by decide⟩, by decide,
    fun _ => safeChain_of (by decide +kernel)⟩, by unfold Int.ModEq; decide +kernel⟩

/-- In `Mod_e255_19` every representation of a square does, e.g. `81 = 2 ^ 255 + 62` with a
carry. -/
example : Fld.e255_19.ChainArg Fld.e255_19.code.sqrtC [62, 0, 0, 0, 2 ^ 31] ∧
    9 * 9 ≡ Fld.e255_19.V [62, 0, 0, 0, 2 ^ 31] [ZMOD Fld.e255_19.p] :=
  ⟨.of_tight (by decide) ⟨[62, 0, 0, 0], _, rfl, by decide⟩, by unfold Int.ModEq; decide +kernel⟩

end Verif

import Verif.Field.Value
import Verif.Props.Ring
import Mathlib.Algebra.Order.Ring.Abs

/-!
# Property C41: the exact integers that `*` and `square` return

C04 and C05 say which residue class a product denotes.  Lazily normalized elements are also
compared, packed and subtracted, where the representation matters; this file gives the exact
integer, hence every word, of each product.
-/

namespace Verif
open Fld

variable (f : Fld) (pr : Profile)

/-- The words of `a * b`: `x` being the integer product (modulo `2 ^ 504` in `Mod_e251_9`), `q`
its part above `2 ^ n`, the code subtracts `q` times the modulus, and once more the modulus
times the part of `c q` above `2 ^ n`, which it estimates from the top word of `q`.  The two
types listed first use all of `q`; one of them leaves out the highest digit. -/
theorem C41_mul_value {a b : Elem} (ha : f.Loose a) (hb : f.Loose b) :
    ∃ r, f.code.mul pr a b = .ok r ∧ f.Tight r ∧
      f.V r = match f with
        | e222_117 =>
          let x := f.V a * f.V b
          let d := 2 ^ 232 * (117 * (x / 2 ^ 425) / 2 ^ 29)
          x - d - f.p * (x / 2 ^ 222 + (117 * (x / 2 ^ 222) - d) / 2 ^ 222)
        | e383_187 =>
          let x := f.V a * f.V b
          x - f.p * (x / 2 ^ 383 + 187 * (x / 2 ^ 383) / 2 ^ 383)
        | e251_9 =>
          let x := f.V a * f.V b % 2 ^ 504
          x - f.p * (x / 2 ^ 251 + 9 * (x / 2 ^ 251 / 2 ^ 224) / 2 ^ 27)
        | f =>
          let x := f.V a * f.V b
          x - f.p * (x / 2 ^ f.n + f.c * (x / 2 ^ f.n / 2 ^ (f.L * (f.k - 1))) / 2 ^ f.tb) := by
  obtain ⟨r, h1, h2, h3⟩ := mul_value pr ha hb
  refine ⟨r, h1, h2, h3.trans ?_⟩
  cases f <;> rfl

/-- Multiplication is commutative word for word, also on operands for which it is wrong. -/
theorem C41_mul_comm {a b : Elem} (ha : f.Loose a) (hb : f.Loose b) :
    f.code.mul pr a b = f.code.mul pr b a := by
  obtain ⟨r, h1, h2, h3⟩ := mul_value pr ha hb
  obtain ⟨s, h4, h5, h6⟩ := mul_value pr hb ha
  rw [show f.code.mul pr a b = .ok r from h1, show f.code.mul pr b a = .ok s from h4]
  rw [mul_comm] at h6
  rw [Shape.ext h2 h5 (h3.trans h6.symm)]

/-- `a.squared()` and `&a * &a` are the same words, except in `Mod_e251_9` for values of
`2 ^ 252` and more, where they are never the same. -/
theorem C41_square_eq_mul {a : Elem} (ha : f.Tight a) :
    f.code.square pr a = f.code.mul pr a a ↔ (f = .e251_9 → |f.V a| < 2 ^ 252) := by
  have key : |f.V a| < 2 ^ 252 ↔ f.V a * f.V a < 2 ^ 504 := by
    rw [← abs_mul_abs_self, show (2 : Int) ^ 504 = 2 ^ 252 * 2 ^ 252 by rw [← pow_add]]
    have : 0 ≤ |f.V a| := abs_nonneg _
    generalize |f.V a| = y at *
    constructor
    · intro h; exact mul_self_lt_mul_self this h
    · intro h; exact lt_of_mul_self_lt_mul_self₀ (by positivity) h
  obtain ⟨r, h1, h2, h3⟩ := square_value pr (Tight.loose ha)
  obtain ⟨s, h4, h5, h6⟩ := mul_value pr (Tight.loose ha) (Tight.loose ha)
  have h4' : f.code.mul pr a a = .ok s := h4
  constructor
  · rintro h rfl
    rw [h1, h4'] at h
    cases h
    obtain ⟨r', h7, -, h8⟩ := C05_square .e251_9 pr ha
    obtain ⟨s', h9, -, h10⟩ := C04_mul_correct_iff .e251_9 pr (Tight.loose ha) (Tight.loose ha)
    cases ok_unique h1 h7
    cases ok_unique h4 h9
    exact key.2 (h10.1 h8).2
  · intro h
    rw [h1, h4']
    refine congrArg _ (Shape.ext h2 h5 ?_)
    rw [h3, h6]
    cases f with
    | e251_9 =>
      have h := key.1 (h rfl)
      have h0 := mul_self_nonneg (e251_9.V a)
      simp only [sqVal, mulVal]
      rw [Int.emod_eq_of_lt h0 h]
    | _ => rfl

/-- A product that is not negative never yields a negative representation, so that
normalization (C09), packing (C11) and subtraction from it never go wrong on account of a
negative carry. -/
theorem C41_mul_nonneg {a b : Elem} (ha : f.Loose a) (hb : f.Loose b)
    (h : 0 ≤ f.V a * f.V b) :
    ∃ r, f.code.mul pr a b = .ok r ∧ 0 ≤ f.V r ∧ f.Foldable (f.V r) := by
  obtain ⟨r, h1, h2, h3⟩ := mul_value pr ha hb
  have hn : 0 ≤ f.V r := by
    rw [h3]
    exact mulVal_nonneg f h
  refine ⟨r, h1, hn, ?_⟩
  have : (0 : Int) < 2 ^ f.n := by positivity
  exact add_nonneg (Int.emod_nonneg _ this.ne')
    (mul_nonneg (by positivity) (Int.ediv_nonneg hn this.le))

/-- In `Mod_e251_9`, where `*` is wrong for integer products of `2 ^ 504` and more, products of
a carry-free operand with a result of `*` are nevertheless right, however often this is
repeated: such results stay below `2 ^ 252 + 2 ^ 228`. -/
theorem C41_e251_closed {a b : Elem} (ha : e251_9.Loose a) (hb : e251_9.Loose b)
    (h1 : 0 ≤ e251_9.V a ∧ e251_9.V a < 2 ^ 251)
    (h2 : 0 ≤ e251_9.V b ∧ e251_9.V b < 2 ^ 252 + 2 ^ 228) :
    ∃ r, e251_9.code.mul pr a b = .ok r ∧ e251_9.Denotes r (e251_9.V a * e251_9.V b) ∧
      0 ≤ e251_9.V r ∧ e251_9.V r < 2 ^ 252 + 2 ^ 228 := by
  obtain ⟨r, h3, -, h4⟩ := C04_mul_correct_iff .e251_9 pr ha hb
  obtain ⟨s, h5, -, h6⟩ := mul_value pr ha hb
  cases ok_unique h3 h5
  refine ⟨r, h3, h4.2 ⟨mul_nonneg h1.1 h2.1, ?_⟩, ?_, ?_⟩
  · have := mul_lt_mul'' h1.2 h2.2 h1.1 h2.1
    refine this.trans_le ?_
    decide +kernel
  · rw [h6]; exact mulVal_nonneg _ (mul_nonneg h1.1 h2.1)
  · rw [h6]; exact mulVal_e251_lt _

/-- Operands of the theorems: carries of either sign, and a negative and a large positive one
whose product `Mod_e251_9` gets wrong. -/
example : e251_9.Tight [1, 2, 3, 4, -2 ^ 27] ∧ e251_9.Tight [1, 2, 3, 4, 2 ^ 28 + 9] ∧
    ¬ |e251_9.V [1, 2, 3, 4, 2 ^ 28 + 9]| < 2 ^ 252 ∧
    |e251_9.V [1, 2, 3, 4, -2 ^ 27]| < 2 ^ 252 :=
  ⟨⟨[1, 2, 3, 4], _, rfl, by decide⟩, ⟨[1, 2, 3, 4], _, rfl, by decide⟩, by decide, by decide⟩

/-- C41 in full: `a * b` is a function of the integer product, the same for `squared`, and
products of non-negative representations are non-negative. -/
def C41_statement : Prop := ∀ (f : Fld), ∃ g : Int → Int, ∀ (pr : Profile) (a b : Elem),
  f.Tight a → f.Tight b →
    (∃ r, f.code.mul pr a b = .ok r ∧ f.V r = g (f.V a * f.V b)) ∧
    f.code.mul pr a b = f.code.mul pr b a ∧ f.code.squared pr a = f.code.mul pr a a ∧
    (0 ≤ f.V a → 0 ≤ f.V b → ∃ r, f.code.mul pr a b = .ok r ∧ 0 ≤ f.V r)

/-- C41 holds in all types but `Mod_e251_9`, and there as long as squares of values of `2 ^ 252` and
more are left out. -/
theorem C41_partial (f : Fld) : ∃ g : Int → Int, ∀ (pr : Profile) (a b : Elem),
    f.Tight a → f.Tight b →
      (∃ r, f.code.mul pr a b = .ok r ∧ f.V r = g (f.V a * f.V b)) ∧
      f.code.mul pr a b = f.code.mul pr b a ∧
      ((f = .e251_9 → |f.V a| < 2 ^ 252) → f.code.squared pr a = f.code.mul pr a a) ∧
      (0 ≤ f.V a → 0 ≤ f.V b → ∃ r, f.code.mul pr a b = .ok r ∧ 0 ≤ f.V r) := by
  refine ⟨f.mulVal, fun pr a b ha hb => ⟨?_, C41_mul_comm f pr ha.loose hb.loose,
    (C41_square_eq_mul f pr ha).2, fun h1 h2 => ?_⟩⟩
  · obtain ⟨r, h1, -, h3⟩ := mul_value pr ha.loose hb.loose
    exact ⟨r, h1, h3⟩
  · obtain ⟨r, h3, h4, -⟩ := C41_mul_nonneg f pr ha.loose hb.loose (mul_nonneg h1 h2)
    exact ⟨r, h3, h4⟩

/-- C41 fails in `Mod_e251_9`. -/
theorem C41_statement_false : ¬ C41_statement := by
  intro h
  obtain ⟨g, h⟩ := h .e251_9
  have ht : e251_9.Tight [1, 2, 3, 4, 2 ^ 28 + 9] := ⟨[1, 2, 3, 4], _, rfl, by decide⟩
  obtain ⟨-, -, h3, -⟩ := h .debug _ _ ht ht
  exact absurd ((C41_square_eq_mul .e251_9 .debug ht).1 h3 rfl) (by decide)

end Verif

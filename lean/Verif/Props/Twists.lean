import Verif.Curve.Twist
import Verif.Prime.TwistCerts
import Verif.Props.GroupOrder
import Mathlib.NumberTheory.LegendreSymbol.QuadraticReciprocity

/-!
# Property C68: the quadratic twists

The repository exports constants of "SafeCurves curves" (`/repo/README.md`).  One of the criteria of that name is about the quadratic twist
of a curve: for an element `e` that is not a square, the curve `e y² = g x` in place of `y² = g x`.  Its group must have a large subgroup of
prime order too, because code that works with `x` alone (or with points that are not checked) computes on the twist for half of all
`x`.  The orders of the twists follow from those of the curves (C46).
-/

namespace Verif
open Verif.Prime

/-- What a group of `h · l` elements with prime `l` has: all orders are known after multiplication by `h`. -/
private theorem orders {G : Type*} [AddCommGroup G] {h l : Nat} (hl : l.Prime) (hc : Nat.card G = h * l) (P : G) :
    (h * l) • P = 0 ∧ (h • P = 0 ∨ addOrderOf (h • P) = l) := by
  have h0 : (h * l) • P = 0 := by rw [← hc]; exact card_nsmul_eq_zero'
  refine ⟨h0, ?_⟩
  by_cases hP : h • P = 0
  · exact .inl hP
  · have : Fact l.Prime := ⟨hl⟩
    exact .inr (addOrderOf_eq_prime (by rw [← mul_nsmul, h0]) hP)

private theorem of_eq {a b : Nat} (h : a = b) (hb : Nat.Prime b) : Nat.Prime a := h ▸ hb

private theorem two_ne (f : Fld) : (2 : ZMod f.pN) ≠ 0 := by
  intro h
  have h1 : ((2 : Int) : ZMod f.pN) = ((0 : Int) : ZMod f.pN) := by exact_mod_cast h
  rw [← Fld.modEq_iff] at h1
  revert h1
  cases f <;> decide +kernel

/-- A square, or `e` times a square. -/
private theorem square_or {K : Type*} [Field K] [Finite K] {e : K} (he : ¬ IsSquare e) (g : K) :
    (∃ y, y ^ 2 = g) ∨ ∃ y, e * y ^ 2 = g := by
  classical
  have : Fintype K := Fintype.ofFinite K
  have e0 : e ≠ 0 := by rintro rfl; exact he IsSquare.zero
  by_cases h : IsSquare g
  · obtain ⟨y, rfl⟩ := h
    exact .inl ⟨y, by ring⟩
  · have g0 : g ≠ 0 := by rintro rfl; exact h IsSquare.zero
    have hc : quadraticChar K (g * e) = 1 := by
      rw [map_mul, quadraticChar_neg_one_iff_not_isSquare.2 h, quadraticChar_neg_one_iff_not_isSquare.2 he]
      rfl
    obtain ⟨y, hy⟩ := (quadraticChar_one_iff_isSquare (mul_ne_zero g0 e0)).1 hc
    exact .inr ⟨y / e, by field_simp; linear_combination -hy⟩

/-! ### Montgomery curves -/

namespace Mont
variable (c : Mont)

/-- The twist by `e`, in the coordinates `(e x, e² y)`: `e y² = x³ + A x² + x`. -/
def twist (e : c.K) : WeierstrassCurve.Affine c.K := ⟨0, e * c.A, 0, e ^ 2, 0⟩

/-- The order of its large subgroup. -/
def twistOrder : Nat := (2 * c.fld.pN + 2 - 8 * (c.fld.V c.order).toNat) / 4

end Mont

/-- The twists are what they should be. -/
theorem C68_montgomery_model (c : Mont) {e : c.K} (he : e ≠ 0) (x y : c.K) :
    (c.twist e).Nonsingular (e * x) (e ^ 2 * y) ↔ e * y ^ 2 = x ^ 3 + c.A * x ^ 2 + x := by
  have hA : (c.A : c.K) ^ 2 - 4 ≠ 0 := by
    intro h
    have h1 : ((c.A ^ 2 - 4 : Int) : c.K) = ((0 : Int) : c.K) := by push_cast; exact h
    rw [← Fld.modEq_iff] at h1
    revert h1
    cases c <;> decide +kernel
  have h := Twist.quad_nonsingular (a := e * (c.A : c.K)) (b := e ^ 2) (two_ne c.fld) (pow_ne_zero _ he)
    (by rw [show (e * (c.A : c.K)) ^ 2 - 4 * e ^ 2 = e ^ 2 * ((c.A : c.K) ^ 2 - 4) by ring]; exact mul_ne_zero (pow_ne_zero _ he) hA)
    (e * x) (e ^ 2 * y)
  refine Iff.trans h ⟨fun h => ?_, fun h => ?_⟩
  · have := pow_ne_zero 3 he
    refine mul_left_cancel₀ this ?_
    linear_combination h
  · linear_combination e ^ 3 * h

/-- C68: the orders of the twists of the Montgomery curves are four times a prime. -/
theorem C68_montgomery_prime (c : Mont) : c.twistOrder.Prime ∧ 8 * (c.fld.V c.order).toNat + 4 * c.twistOrder = 2 * c.fld.pN + 2 ∧
    2 ^ (c.fld.n - 3) < c.twistOrder := by
  refine ⟨?_, by cases c <;> decide +kernel, by cases c <;> decide +kernel⟩
  cases c with
  | m221 => exact of_eq (by decide +kernel) prime_219_534793
  | curve25519 => exact of_eq (by decide +kernel) prime_253_907997
  | m383 => exact of_eq (by decide +kernel) prime_381_561717
  | curve383187 => exact of_eq (by decide +kernel) prime_381_754209
  | m511 => exact of_eq (by decide +kernel) prime_509_636333

theorem C68_montgomery_card (c : Mont) {e : c.K} (he : ¬ IsSquare e) : Nat.card (c.twist e).Point = 4 * c.twistOrder := by
  have hA : (c.A : c.K) ^ 2 - 4 * 1 ≠ 0 := by
    intro h
    have h1 : ((c.A ^ 2 - 4 : Int) : c.K) = ((0 : Int) : c.K) := by push_cast; linear_combination h
    rw [← Fld.modEq_iff] at h1
    revert h1
    cases c <;> decide +kernel
  have h := Twist.card_twist (two_ne c.fld) one_ne_zero hA he
  have e1 : Twist.quad (c.A : c.K) 1 = c.curve := rfl
  have e2 : Twist.quad (e * (c.A : c.K)) (e ^ 2 * 1) = c.twist e := by rw [mul_one]; rfl
  rw [e1, e2, C46_montgomery_card, Nat.card_zmod] at h
  have := (C68_montgomery_prime c).2.1
  omega

/-- C68: the points of the twists. -/
theorem C68_montgomery_orders (c : Mont) {e : c.K} (he : ¬ IsSquare e) (P : (c.twist e).Point) :
    (4 * c.twistOrder) • P = 0 ∧ (4 • P = 0 ∨ addOrderOf (4 • P) = c.twistOrder) :=
  orders (C68_montgomery_prime c).1 (C68_montgomery_card c he) P

/-- C68: every `x` belongs to the curve or to the twist. -/
theorem C68_montgomery_x (c : Mont) {e : c.K} (he : ¬ IsSquare e) (x : c.K) :
    (∃ y, y ^ 2 = x ^ 3 + c.A * x ^ 2 + x) ∨ ∃ y, e * y ^ 2 = x ^ 3 + c.A * x ^ 2 + x :=
  square_or he _

/-! ### Edwards curves -/

namespace Crv
variable (c : Crv)

/-- The twist by `e` in Weierstrass form; `e x² + y² = 1 + d e x² y²` in the coordinates `X = e (1 - d) (1 + y) / (1 - y)` and
`Y = 2 X / x`. -/
def twist (e : c.K) : WeierstrassCurve.Affine c.K := ⟨0, 2 * e * (1 + c.d), 0, (e * (1 - c.d)) ^ 2, 0⟩

/-- The cofactor of the twist. -/
def twistCofactor : Crv → Nat
  | .curve41417 => 8
  | _ => 4

/-- The order of its large subgroup. -/
def twistOrder : Nat := (2 * c.fld.pN + 2 - c.cofactor * (c.fld.V c.order).toNat) / c.twistCofactor

end Crv

/-- The twists are what they should be. -/
theorem C68_edwards_model (c : Crv) {e : c.K} (he : e ≠ 0) {x y : c.K} (hx : x ≠ 0) (hy : y ^ 2 ≠ 1) :
    (c.twist e).Nonsingular (e * (1 - c.d) * (1 + y) / (1 - y)) (2 * (e * (1 - c.d) * (1 + y) / (1 - y)) / x) ↔
      e * x ^ 2 + y ^ 2 = 1 + c.d * e * x ^ 2 * y ^ 2 := by
  have h2 := two_ne c.fld
  have hc := Twist.one_sub_d_ne (d := c.d)
  have y1 : 1 - y ≠ 0 := by intro h; exact hy (by linear_combination (-y - 1) * h)
  have y2 : 1 + y ≠ 0 := by intro h; exact hy (by linear_combination (y - 1) * h)
  have h := Twist.quad_nonsingular (a := 2 * e * (1 + c.d)) (b := (e * (1 - c.d)) ^ 2) h2 (pow_ne_zero _ (mul_ne_zero he hc))
    (by
      rw [show (2 * e * (1 + c.d)) ^ 2 - 4 * (e * (1 - c.d)) ^ 2 = 2 ^ 4 * e ^ 2 * c.d by ring]
      exact mul_ne_zero (mul_ne_zero (pow_ne_zero _ h2) (pow_ne_zero _ he)) Twist.d_ne)
    (e * (1 - c.d) * (1 + y) / (1 - y)) (2 * (e * (1 - c.d) * (1 + y) / (1 - y)) / x)
  refine Iff.trans h ?_
  have key : (e * (1 - c.d) * (1 + y) / (1 - y)) ^ 3 + 2 * e * (1 + c.d) * (e * (1 - c.d) * (1 + y) / (1 - y)) ^ 2 +
      (e * (1 - c.d)) ^ 2 * (e * (1 - c.d) * (1 + y) / (1 - y)) - (2 * (e * (1 - c.d) * (1 + y) / (1 - y)) / x) ^ 2 =
      4 * (e * (1 - c.d)) ^ 2 * (1 + y) / ((1 - y) ^ 3 * x ^ 2) * (e * x ^ 2 + y ^ 2 - (1 + c.d * e * x ^ 2 * y ^ 2)) := by
    field_simp
    ring
  have k0 : 4 * (e * (1 - c.d)) ^ 2 * (1 + y) / ((1 - y) ^ 3 * x ^ 2) ≠ 0 := by
    refine div_ne_zero (mul_ne_zero (mul_ne_zero ?_ (pow_ne_zero _ (mul_ne_zero he hc))) y2)
      (mul_ne_zero (pow_ne_zero _ y1) (pow_ne_zero _ hx))
    rw [show (4 : c.K) = 2 * 2 by norm_num]
    exact mul_ne_zero h2 h2
  constructor
  · intro h
    rw [h, sub_self] at key
    exact sub_eq_zero.1 ((mul_eq_zero.1 key.symm).resolve_left k0)
  · intro h
    rw [h, sub_self, mul_zero] at key
    exact (sub_eq_zero.1 key).symm

/-- C68: the orders of the twists of the Edwards curves are four (Curve41417: eight) times a prime. -/
theorem C68_edwards_prime (c : Crv) : c.twistOrder.Prime ∧
    c.cofactor * (c.fld.V c.order).toNat + c.twistCofactor * c.twistOrder = 2 * c.fld.pN + 2 ∧
    2 ^ (c.fld.n - 3) < c.twistOrder := by
  refine ⟨?_, by cases c <;> decide +kernel, by cases c <;> decide +kernel⟩
  cases c with
  | e222 => exact of_eq (by decide +kernel) prime_221_863687
  | curve1174 => exact of_eq (by decide +kernel) prime_250_675019
  | e382 => exact of_eq (by decide +kernel) prime_381_740979
  | curve41417 => exact of_eq (by decide +kernel) prime_412_028803
  | e521 => exact of_eq (by decide +kernel) prime_520_420053

theorem C68_edwards_card (c : Crv) {e : c.K} (he : ¬ IsSquare e) : Nat.card (c.twist e).Point = c.twistCofactor * c.twistOrder := by
  have h2 := two_ne c.fld
  have h := Twist.card_twist (a := 2 * (1 + c.d)) (b := (1 - c.d) ^ 2) h2 (pow_ne_zero _ Twist.one_sub_d_ne) (by
    rw [show (2 * (1 + c.d)) ^ 2 - 4 * (1 - c.d) ^ 2 = 2 ^ 4 * c.d by ring]
    exact mul_ne_zero (pow_ne_zero _ h2) Twist.d_ne) he
  have e2 : Twist.quad (e * (2 * (1 + c.d))) (e ^ 2 * (1 - c.d) ^ 2) = c.twist e := by
    rw [show e * (2 * (1 + c.d)) = 2 * e * (1 + c.d) by ring, show e ^ 2 * (1 - c.d) ^ 2 = (e * (1 - c.d)) ^ 2 by ring]
    rfl
  rw [Twist.card_ed h2, e2, C46_edwards_card, Nat.card_zmod] at h
  have := (C68_edwards_prime c).2.1
  omega

/-- C68: the points of the twists. -/
theorem C68_edwards_orders (c : Crv) {e : c.K} (he : ¬ IsSquare e) (P : (c.twist e).Point) :
    (c.twistCofactor * c.twistOrder) • P = 0 ∧ (c.twistCofactor • P = 0 ∨ addOrderOf (c.twistCofactor • P) = c.twistOrder) :=
  orders (C68_edwards_prime c).1 (C68_edwards_card c he) P

/-- C68: the twist in Edwards form has two points less; they are at infinity. -/
theorem C68_edwards_affine (c : Crv) {e : c.K} (he : ¬ IsSquare e) :
    Nat.card {p : c.K × c.K // e * p.1 ^ 2 + p.2 ^ 2 = 1 + c.d * e * p.1 ^ 2 * p.2 ^ 2} + 2 = c.twistCofactor * c.twistOrder := by
  have h := Twist.card_ed_affine (d := c.d) (two_ne c.fld) he
  rw [C46_edwards_card, Nat.card_zmod] at h
  have := (C68_edwards_prime c).2.1
  omega

/-- C68: every `y` belongs to the curve or to the twist. -/
theorem C68_edwards_y (c : Crv) {e : c.K} (he : ¬ IsSquare e) (y : c.K) :
    (∃ x, x ^ 2 + y ^ 2 = 1 + c.d * x ^ 2 * y ^ 2) ∨ ∃ x, e * x ^ 2 + y ^ 2 = 1 + c.d * e * x ^ 2 * y ^ 2 := by
  have h0 := EdPoint.one_sub_ne (d := c.d) y
  rcases square_or he ((1 - y ^ 2) / (1 - c.d * y ^ 2)) with ⟨x, h⟩ | ⟨x, h⟩ <;> rw [eq_div_iff h0] at h
  · exact .inl ⟨x, by linear_combination h⟩
  · exact .inr ⟨x, by linear_combination h⟩

/-! ### Examples -/

/-- `d` is not a square. -/
example (c : Crv) : Nat.card (c.twist c.d).Point = c.twistCofactor * c.twistOrder := C68_edwards_card c c.d_nonsquare

/-- Two is not a square in the fields of the Montgomery curves. -/
theorem two_nonsquare (c : Mont) : ¬ IsSquare (2 : c.K) := by
  have : Fact (Nat.Prime c.fld.pN) := ⟨C36_moduli_prime c.fld⟩
  rw [ZMod.exists_sq_eq_two_iff (by cases c <;> decide +kernel)]
  cases c <;> decide +kernel

example (c : Mont) : Nat.card (c.twist 2).Point = 4 * c.twistOrder := C68_montgomery_card c (two_nonsquare c)

/-- Whatever `x` a peer sends to code for Curve25519, it is the coordinate of a point of the curve or of this twist. -/
example (x : Mont.curve25519.K) : (∃ y, y ^ 2 = x ^ 3 + Mont.curve25519.A * x ^ 2 + x) ∨
    ∃ y, 2 * y ^ 2 = x ^ 3 + Mont.curve25519.A * x ^ 2 + x := C68_montgomery_x _ (two_nonsquare _) x

example (c : Mont) (P : (c.twist 2).Point) : (4 * c.twistOrder) • P = 0 ∧ (4 • P = 0 ∨ addOrderOf (4 • P) = c.twistOrder) :=
  C68_montgomery_orders c (two_nonsquare c) P

/-- `(0, 0)` is a point of the twist, and `(0, 1)` is not. -/
example (c : Mont) : (c.twist 2).Nonsingular (2 * 0) (2 ^ 2 * 0) ∧ ¬ (c.twist 2).Nonsingular (2 * 0) (2 ^ 2 * 1) := by
  rw [C68_montgomery_model c (two_ne c.fld), C68_montgomery_model c (two_ne c.fld)]
  exact ⟨by ring, by simpa using two_ne c.fld⟩

example (c : Crv) (P : (c.twist c.d).Point) :
    (c.twistCofactor * c.twistOrder) • P = 0 ∧ (c.twistCofactor • P = 0 ∨ addOrderOf (c.twistCofactor • P) = c.twistOrder) :=
  C68_edwards_orders c c.d_nonsquare P

example (c : Crv) : Nat.card {p : c.K × c.K // c.d * p.1 ^ 2 + p.2 ^ 2 = 1 + c.d * c.d * p.1 ^ 2 * p.2 ^ 2} + 2 =
    c.twistCofactor * c.twistOrder := C68_edwards_affine c c.d_nonsquare

example (c : Crv) (y : c.K) : (∃ x, x ^ 2 + y ^ 2 = 1 + c.d * x ^ 2 * y ^ 2) ∨
    ∃ x, c.d * x ^ 2 + y ^ 2 = 1 + c.d * c.d * x ^ 2 * y ^ 2 := C68_edwards_y c c.d_nonsquare y

/-- `(1, 0)` is not a point of the twist by `d`. -/
example (c : Crv) : ¬ (c.twist c.d).Nonsingular (c.d * (1 - c.d) * (1 + 0) / (1 - 0))
    (2 * (c.d * (1 - c.d) * (1 + 0) / (1 - 0)) / 1) := by
  rw [C68_edwards_model c Twist.d_ne one_ne_zero (by norm_num)]
  intro e
  exact Twist.one_sub_d_ne (d := c.d) (by linear_combination -e)

/-- Curve25519: `2^253 - 55484635554744707071703875581767296995`. -/
example : Mont.curve25519.twistOrder = 2 ^ 253 - 55484635554744707071703875581767296995 := by decide +kernel

end Verif

import Verif.Curve.Cofactor
import Mathlib.NumberTheory.LegendreSymbol.QuadraticChar.Basic
import Mathlib.Algebra.BigOperators.Group.Finset.Sigma

/-!
# Quadratic twists (helper lemmas)

Over a finite field with an element `e` that is not a square, each `x` is the coordinate of two points of `y² = g x` and
`e y² = g x` together.
-/

namespace Verif

namespace Twist

section
variable {K : Type*} [Field K] [Finite K]

/-- The solutions of `y² = g x`. -/
abbrev Sol (g : K → K) : Type _ := {p : K × K // p.2 ^ 2 = g p.1}

/-- For each `x` the equations have two solutions together. -/
theorem card_sol (h2 : (2 : K) ≠ 0) (g : K → K) {e : K} (he : ¬ IsSquare e) :
    Nat.card (Sol g) + Nat.card (Sol fun x => g x / e) = 2 * Nat.card K := by
  classical
  have : Fintype K := Fintype.ofFinite K
  have hc : ringChar K ≠ 2 := by
    intro h
    have := ringChar.Nat.cast_ringChar (R := K)
    rw [h] at this
    exact h2 (by exact_mod_cast this)
  have e0 : e ≠ 0 := by rintro rfl; exact he (IsSquare.zero)
  have hx : quadraticChar K e⁻¹ = -1 := by
    rw [quadraticChar_neg_one_iff_not_isSquare, isSquare_inv]
    exact he
  have key : ∀ g : K → K, (Nat.card (Sol g) : Int) = ∑ x : K, (quadraticChar K (g x) + 1) := by
    intro g
    have h1 : Nat.card (Sol g) = Nat.card (Σ x : K, {y : K // y ^ 2 = g x}) :=
      Nat.card_congr
        { toFun := fun p => ⟨p.1.1, p.1.2, p.2⟩
          invFun := fun p => ⟨(p.1, p.2.1), p.2.2⟩
          left_inv := fun _ => rfl
          right_inv := fun _ => rfl }
    rw [h1, Nat.card_sigma]
    push_cast
    refine Finset.sum_congr rfl fun x _ => ?_
    rw [← quadraticChar_card_sqrts hc (g x), Set.toFinset_card, Nat.card_eq_fintype_card]
    rfl
  have h : (Nat.card (Sol g) : Int) + Nat.card (Sol fun x => g x / e) = 2 * Nat.card K := by
    rw [key, key, ← Finset.sum_add_distrib, Finset.sum_congr rfl (g := fun _ => (2 : Int)), Finset.sum_const, Finset.card_univ,
      Nat.card_eq_fintype_card]
    · simp [mul_comm]
    · intro x _
      rw [div_eq_mul_inv, map_mul, hx]
      ring
  exact_mod_cast h

end

section
variable {K : Type*} [Field K]

/-- The curve `y² = x³ + a x² + b x`. -/
def quad (a b : K) : WeierstrassCurve.Affine K := ⟨0, a, 0, b, 0⟩

theorem quad_equation (a b x y : K) : (quad a b).Equation x y ↔ y ^ 2 = x ^ 3 + a * x ^ 2 + b * x := by
  rw [WeierstrassCurve.Affine.equation_iff]
  simp only [quad]
  constructor <;> intro h <;> linear_combination h

theorem quad_nonsingular (h2 : (2 : K) ≠ 0) {a b : K} (hb : b ≠ 0) (hd : a ^ 2 - 4 * b ≠ 0) (x y : K) :
    (quad a b).Nonsingular x y ↔ y ^ 2 = x ^ 3 + a * x ^ 2 + b * x := by
  rw [← WeierstrassCurve.Affine.equation_iff_nonsingular_of_Δ_ne_zero, quad_equation]
  have : (quad a b).Δ = 2 ^ 4 * (b ^ 2 * (a ^ 2 - 4 * b)) := by
    simp only [quad, WeierstrassCurve.Δ, WeierstrassCurve.b₂, WeierstrassCurve.b₄, WeierstrassCurve.b₆, WeierstrassCurve.b₈]
    ring
  rw [this]
  exact mul_ne_zero (pow_ne_zero _ h2) (mul_ne_zero (pow_ne_zero _ hb) hd)

/-- Points and solutions. -/
def pointEquiv (h2 : (2 : K) ≠ 0) {a b : K} (hb : b ≠ 0) (hd : a ^ 2 - 4 * b ≠ 0) :
    (quad a b).Point ≃ Option (Sol fun x : K => x ^ 3 + a * x ^ 2 + b * x) where
  toFun
    | .zero => none
    | .some x y h => some ⟨(x, y), (quad_nonsingular h2 hb hd x y).1 h⟩
  invFun
    | none => .zero
    | some p => .some p.1.1 p.1.2 ((quad_nonsingular h2 hb hd _ _).2 p.2)
  left_inv p := by rcases p with _ | _ <;> rfl
  right_inv p := by rcases p with _ | _ <;> rfl

theorem card_quad [Finite K] (h2 : (2 : K) ≠ 0) {a b : K} (hb : b ≠ 0) (hd : a ^ 2 - 4 * b ≠ 0) :
    Nat.card (quad a b).Point = Nat.card (Sol fun x : K => x ^ 3 + a * x ^ 2 + b * x) + 1 := by
  rw [Nat.card_congr (pointEquiv h2 hb hd), Finite.card_option]

/-- The curve and its twist. -/
theorem card_twist [Finite K] (h2 : (2 : K) ≠ 0) {a b : K} (hb : b ≠ 0) (hd : a ^ 2 - 4 * b ≠ 0) {e : K}
    (he : ¬ IsSquare e) :
    Nat.card (quad a b).Point + Nat.card (quad (e * a) (e ^ 2 * b)).Point = 2 * Nat.card K + 2 := by
  have e0 : e ≠ 0 := by rintro rfl; exact he (IsSquare.zero)
  rw [card_quad h2 hb hd, card_quad h2 (mul_ne_zero (pow_ne_zero _ e0) hb)
    (by rw [show (e * a) ^ 2 - 4 * (e ^ 2 * b) = e ^ 2 * (a ^ 2 - 4 * b) by ring]; exact mul_ne_zero (pow_ne_zero _ e0) hd)]
  have h := card_sol h2 (fun x : K => x ^ 3 + a * x ^ 2 + b * x) he
  have hs : Nat.card (Sol fun x : K => x ^ 3 + e * a * x ^ 2 + e ^ 2 * b * x) =
      Nat.card (Sol fun x : K => (x ^ 3 + a * x ^ 2 + b * x) / e) := by
    refine Nat.card_congr
      { toFun := fun p => ⟨(p.1.1 / e, p.1.2 / e ^ 2), ?_⟩
        invFun := fun p => ⟨(p.1.1 * e, p.1.2 * e ^ 2), ?_⟩
        left_inv := fun p => ?_
        right_inv := fun p => ?_ }
    · have := p.2
      dsimp only
      rw [eq_div_iff e0, div_pow, this]
      field_simp
    · have := p.2
      dsimp only at this ⊢
      rw [eq_div_iff e0] at this
      linear_combination e ^ 3 * this
    · ext <;> dsimp only <;> field_simp
    · ext <;> dsimp only <;> field_simp
  omega

end

section
variable {K : Type*} [Field K] {d : K} [hd : Fact (¬ IsSquare d)]

theorem one_sub_d_ne : (1 : K) - d ≠ 0 := by
  intro h
  exact hd.out ⟨1, by linear_combination -h⟩

theorem d_ne : d ≠ 0 := by
  intro h
  exact hd.out ⟨0, by rw [h]; ring⟩

/-- The Edwards curve as the curve `Y² = X³ + 2 (1 + d) X² + (1 - d)² X`, with `X = (1 - d) (1 + y) / (1 - y)` and
`Y = 2 X / x`; the neutral element becomes the point at infinity. -/
noncomputable def edEquiv (h2 : (2 : K) ≠ 0) :
    EdPoint K d ≃ Option (Sol fun X : K => X ^ 3 + 2 * (1 + d) * X ^ 2 + (1 - d) ^ 2 * X) := by
  classical
  have hc := one_sub_d_ne (d := d)
  have key : ∀ P : EdPoint K d, P.y ≠ 1 → (2 * ((1 - d) * (1 + P.y) / (1 - P.y)) / P.x) ^ 2 =
      ((1 - d) * (1 + P.y) / (1 - P.y)) ^ 3 + 2 * (1 + d) * ((1 - d) * (1 + P.y) / (1 - P.y)) ^ 2 +
        (1 - d) ^ 2 * ((1 - d) * (1 + P.y) / (1 - P.y)) := by
    intro P hy
    have hy' : 1 - P.y ≠ 0 := sub_ne_zero.2 (Ne.symm hy)
    have ho := P.on
    by_cases hx : P.x = 0
    · rw [hx] at ho ⊢
      have : (P.y - 1) * (P.y + 1) = 0 := by linear_combination ho
      have : 1 + P.y = 0 := by
        rcases mul_eq_zero.1 this with h | h
        · exact absurd (by linear_combination h) hy
        · linear_combination h
      rw [this]
      simp
    · field_simp
      linear_combination (-4 * (1 + P.y)) * ho
  have back : ∀ X Y : K, Y ^ 2 = X ^ 3 + 2 * (1 + d) * X ^ 2 + (1 - d) ^ 2 * X →
      X + (1 - d) ≠ 0 ∧ (Y = 0 → X = 0) := by
    intro X Y h
    constructor
    · intro h0
      obtain rfl : X = d - 1 := by linear_combination h0
      refine hd.out ⟨Y / (2 * (1 - d)), ?_⟩
      field_simp
      linear_combination -h
    · rintro rfl
      by_contra h0
      have h1 : X ^ 2 + 2 * (1 + d) * X + (1 - d) ^ 2 = 0 := by
        have : X * (X ^ 2 + 2 * (1 + d) * X + (1 - d) ^ 2) = 0 := by linear_combination -h
        exact (mul_eq_zero.1 this).resolve_left h0
      refine hd.out ⟨(X + 1 + d) / 2, ?_⟩
      field_simp
      linear_combination -h1
  exact
  { toFun := fun P => if h : P.y = 1 then none else some ⟨((1 - d) * (1 + P.y) / (1 - P.y), _), key P h⟩
    invFun := fun q => match q with
      | none => ⟨0, 1, by ring⟩
      | some p => ⟨2 * p.1.1 / p.1.2, (p.1.1 - (1 - d)) / (p.1.1 + (1 - d)), by
          obtain ⟨⟨X, Y⟩, h⟩ := p
          dsimp only at h ⊢
          obtain ⟨h0, h1⟩ := back X Y h
          by_cases hY : Y = 0
          · rw [hY, h1 hY, zero_sub, zero_add, neg_div, div_self hc]
            simp
          · field_simp
            linear_combination (4 * (d - 1)) * X * h⟩
    left_inv := fun P => by
      by_cases h : P.y = 1
      · simp only [h, dite_true]
        have ho := P.on
        rw [h] at ho
        have : (1 - d) * P.x ^ 2 = 0 := by linear_combination ho
        have : P.x = 0 := by simpa [hc] using this
        exact EdPoint.ext this.symm h.symm
      · simp only [h, dite_false]
        have hy' : 1 - P.y ≠ 0 := sub_ne_zero.2 (Ne.symm h)
        have h3 : (1 - d) * (1 + P.y) / (1 - P.y) + (1 - d) = 2 * (1 - d) / (1 - P.y) := by field_simp; ring
        refine EdPoint.ext ?_ ?_
        · dsimp only
          by_cases hx : P.x = 0
          · rw [hx]; simp
          · have hy2 : 1 + P.y ≠ 0 := by
              intro h4
              have ho := P.on
              have : P.y = -1 := by linear_combination h4
              rw [this] at ho
              have : (1 - d) * P.x ^ 2 = 0 := by linear_combination ho
              exact hx (by simpa [hc] using this)
            field_simp
        · dsimp only
          rw [h3]
          field_simp
          ring
    right_inv := fun q => by
      rcases q with _ | ⟨⟨X, Y⟩, h⟩
      · simp
      · dsimp only at h ⊢
        obtain ⟨h0, h1⟩ := back X Y h
        have hy : (X - (1 - d)) / (X + (1 - d)) ≠ 1 := by
          rw [ne_eq, div_eq_one_iff_eq h0]
          intro h3
          have : 2 * (1 - d) = 0 := by linear_combination -h3
          exact (mul_ne_zero h2 hc) this
        have hX : (1 - d) * (1 + (X - (1 - d)) / (X + (1 - d))) / (1 - (X - (1 - d)) / (X + (1 - d))) = X := by
          have h4 : 1 - (X - (1 - d)) / (X + (1 - d)) = 2 * (1 - d) / (X + (1 - d)) := by field_simp; ring
          rw [h4]
          field_simp
          ring
        simp only [hy, dite_false, Option.some.injEq, Subtype.mk.injEq, Prod.mk.injEq, hX, true_and]
        by_cases hY : Y = 0
        · rw [hY, h1 hY]; simp
        · have : X ≠ 0 := by
            rintro rfl
            exact hY (by simpa using h)
          field_simp }

/-- The Edwards curve and the Weierstrass curve have the same number of points. -/
theorem card_ed [Finite K] (h2 : (2 : K) ≠ 0) :
    Nat.card (quad (2 * (1 + d)) ((1 - d) ^ 2)).Point = Nat.card (EdPoint K d) := by
  rw [card_quad h2 (pow_ne_zero _ one_sub_d_ne), Nat.card_congr (edEquiv h2), Finite.card_option]
  rw [show (2 * (1 + d)) ^ 2 - 4 * (1 - d) ^ 2 = 2 ^ 4 * d by ring]
  exact mul_ne_zero (pow_ne_zero _ h2) d_ne

/-- The affine points of the twist in Edwards form. -/
theorem card_ed_affine [Finite K] (h2 : (2 : K) ≠ 0) {e : K} (he : ¬ IsSquare e) :
    Nat.card (EdPoint K d) + Nat.card {p : K × K // e * p.1 ^ 2 + p.2 ^ 2 = 1 + d * e * p.1 ^ 2 * p.2 ^ 2} = 2 * Nat.card K := by
  have e0 : e ≠ 0 := by rintro rfl; exact he (IsSquare.zero)
  rw [← card_sol h2 (fun y : K => (1 - y ^ 2) / (1 - d * y ^ 2)) he]
  congr 1
  · refine Nat.card_congr
      { toFun := fun P => ⟨(P.y, P.x), ?_⟩
        invFun := fun p => ⟨p.1.2, p.1.1, ?_⟩
        left_inv := fun _ => rfl
        right_inv := fun _ => rfl }
    · dsimp only
      rw [eq_div_iff (EdPoint.one_sub_ne _)]
      linear_combination P.on
    · have := p.2
      dsimp only at this
      rw [eq_div_iff (EdPoint.one_sub_ne _)] at this
      linear_combination this
  · refine Nat.card_congr
      { toFun := fun p => ⟨(p.1.2, p.1.1), ?_⟩
        invFun := fun p => ⟨(p.1.2, p.1.1), ?_⟩
        left_inv := fun _ => rfl
        right_inv := fun _ => rfl }
    · have := p.2
      dsimp only
      rw [div_div, eq_div_iff (mul_ne_zero (EdPoint.one_sub_ne _) e0)]
      linear_combination this
    · have := p.2
      dsimp only at this ⊢
      rw [div_div, eq_div_iff (mul_ne_zero (EdPoint.one_sub_ne _) e0)] at this
      linear_combination this

end

end Twist

end Verif

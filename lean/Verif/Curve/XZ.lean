import Verif.Curve.Montgomery

/-!
# First coordinates on Montgomery curves and their twists (definitions and helper lemmas)

Sums of points with known difference, and doubles, in terms of the first coordinates alone; the ladder made of these.
-/

namespace Verif
open WeierstrassCurve.Affine

namespace XZ
variable {K : Type*} [Field K] [DecidableEq K]

/-- `e y² = x³ + A x² + x` in the coordinates `(e x, e² y)`. -/
def W (A e : K) : WeierstrassCurve.Affine K := ⟨0, e * A, 0, e ^ 2, 0⟩

variable {A e : K}

/-- The first coordinate in `e y² = x³ + A x² + x`; zero for the point at infinity. -/
def coord : (W A e).Point → K
  | .zero => 0
  | .some x _ _ => x / e

/-- `X : Z` is the first coordinate; `1 : 0` for the point at infinity. -/
def Rep (X Z : K) : (W A e).Point → Prop
  | .zero => Z = 0 ∧ X ≠ 0
  | .some x _ _ => Z ≠ 0 ∧ e * X = x * Z

omit [DecidableEq K] in
theorem Rep.coord (he : e ≠ 0) {X Z : K} {P : (W A e).Point} (h : Rep X Z P) : X * Z⁻¹ = coord P := by
  cases P with
  | zero => simp only [Rep] at h; simp [XZ.coord, h.1]
  | some x y hP =>
    simp only [Rep] at h
    simp only [XZ.coord]
    have := h.1
    field_simp
    linear_combination h.2

omit [DecidableEq K] in
theorem eqn {x y : K} (h : (W A e).Nonsingular x y) : y ^ 2 = x ^ 3 + e * A * x ^ 2 + e ^ 2 * x := by
  have := h.1
  rw [equation_iff] at this
  simp only [W] at this
  linear_combination this

omit [DecidableEq K] in
theorem negY_eq (x y : K) : (W A e).negY x y = -y := by
  simp [WeierstrassCurve.Affine.negY, W]

omit [DecidableEq K] in
theorem sq_ne (he : e ≠ 0) (hA : A ^ 2 - 4 ≠ 0) {x : K} (h : x ^ 3 + e * A * x ^ 2 + e ^ 2 * x = 0) : x ^ 2 - e ^ 2 ≠ 0 := by
  intro hc
  have hx : x ≠ 0 := by
    rintro rfl
    exact pow_ne_zero 2 he (by linear_combination -hc)
  have h1 : x ^ 2 + e * A * x + e ^ 2 = 0 := mul_left_cancel₀ hx (by linear_combination h)
  have h3 : 2 * e + A * x = 0 := mul_left_cancel₀ he (by linear_combination h1 - hc)
  exact hA (mul_left_cancel₀ (pow_ne_zero 2 he) (by linear_combination (A * x - 2 * e) * h3 - A ^ 2 * hc))

/-- Doubling. -/
theorem dbl_x (h2 : (2 : K) ≠ 0) {x y : K} (hP : (W A e).Nonsingular x y) (hy : y ≠ 0) :
    ∃ s y' h, Point.some x y hP + .some x y hP = .some s y' h ∧ s * (4 * y ^ 2) = (x ^ 2 - e ^ 2) ^ 2 := by
  have hne : y ≠ (W A e).negY x y := by
    rw [negY_eq]
    intro h
    exact mul_ne_zero h2 hy (by linear_combination h)
  have hE := eqn hP
  rw [Point.add_self_of_Y_ne hne]
  refine ⟨_, _, _, rfl, ?_⟩
  rw [slope_of_Y_ne rfl hne]
  simp only [addX, negY_eq]
  simp only [W]
  rw [show y - -y = 2 * y by ring]
  field_simp
  linear_combination (-(16 * e * A) - 32 * x) * hE

/-- Addition of points whose difference is known. -/
theorem add_x {x y x' y' : K} (hP : (W A e).Nonsingular x y) (hQ : (W A e).Nonsingular x' y') (hx : x ≠ x') :
    ∃ s y1 h1 d y2 h2, Point.some x y hP + .some x' y' hQ = .some s y1 h1 ∧
      Point.some x' y' hQ - .some x y hP = .some d y2 h2 ∧ s * d * (x - x') ^ 2 = (x * x' - e ^ 2) ^ 2 := by
  have hE := eqn hP
  have hE' := eqn hQ
  have hd : x - x' ≠ 0 := sub_ne_zero.2 hx
  rw [sub_eq_add_neg, Point.neg_some, Point.add_of_X_ne hx, Point.add_of_X_ne hx.symm]
  refine ⟨_, _, _, _, _, _, rfl, rfl, ?_⟩
  rw [slope_of_X_ne hx, slope_of_X_ne hx.symm]
  simp only [addX, negY_eq]
  simp only [W]
  rw [show x' - x = -(x - x') by ring]
  field_simp
  linear_combination (y ^ 2 - y' ^ 2 + (x ^ 3 + e * A * x ^ 2 + e ^ 2 * x) - (x' ^ 3 + e * A * x' ^ 2 + e ^ 2 * x')) * (hE - hE') -
    2 * (e * A + x + x') * (x - x') ^ 2 * (hE + hE')

variable (h2 : (2 : K) ≠ 0) (he : e ≠ 0) (hA : A ^ 2 - 4 ≠ 0)
include h2 he hA

theorem dbl {X Z : K} {P : (W A e).Point} (h : Rep X Z P) :
    Rep ((X * X - Z * Z) * (X * X - Z * Z)) (4 * (X * Z) * (X * X + Z * Z + A * (X * Z))) (P + P) := by
  cases P with
  | zero =>
    obtain ⟨rfl, h0⟩ := h
    rw [show (Point.zero : (W A e).Point) + .zero = .zero from zero_add (0 : (W A e).Point)]
    simp [Rep, h0]
  | some x y hP =>
    obtain ⟨hZ, hX⟩ := h
    have hE := eqn hP
    have h4 : (4 : K) ≠ 0 := by
      rw [show (4 : K) = 2 * 2 by norm_num]; exact mul_ne_zero h2 h2
    have hx : X = x * Z / e := by field_simp; linear_combination hX
    have hZ' : 4 * (X * Z) * (X * X + Z * Z + A * (X * Z)) = 4 * Z ^ 4 * y ^ 2 / e ^ 3 := by
      rw [hx]; field_simp
      linear_combination (-1 : K) * hE
    have hX' : X * X - Z * Z = Z ^ 2 * (x ^ 2 - e ^ 2) / e ^ 2 := by
      rw [hx]; field_simp
    rw [hZ', hX']
    by_cases hy : y = 0
    · subst hy
      rw [Point.add_self_of_Y_eq (by rw [negY_eq, neg_zero])]
      have h0 : x ^ 3 + e * A * x ^ 2 + e ^ 2 * x = 0 := by linear_combination -hE
      have := sq_ne he hA h0
      have := div_ne_zero (mul_ne_zero (pow_ne_zero 2 hZ) this) (pow_ne_zero 2 he)
      exact ⟨by simp, mul_ne_zero this this⟩
    · obtain ⟨s, y', h', e1, e2⟩ := dbl_x h2 hP hy
      rw [e1]
      refine ⟨div_ne_zero (mul_ne_zero (mul_ne_zero h4 (pow_ne_zero 4 hZ)) (pow_ne_zero 2 hy)) (pow_ne_zero 3 he), ?_⟩
      field_simp
      linear_combination -e2

omit hA in
theorem add {X Z X' Z' : K} {P Q D : (W A e).Point} (h : Rep X Z P) (h' : Rep X' Z' Q) (hD : Q - P = D) (h0 : coord D ≠ 0) :
    Rep ((X * X' - Z * Z') * (X * X' - Z * Z')) (coord D * ((X * Z' - Z * X') * (X * Z' - Z * X'))) (P + Q) := by
  have hD0 : D ≠ 0 := by rintro rfl; exact h0 rfl
  cases P with
  | zero =>
    obtain ⟨rfl, hX⟩ := h
    have e1 : (Point.zero : (W A e).Point) = 0 := rfl
    rw [e1, sub_zero] at hD
    subst hD
    rw [e1, zero_add]
    cases Q with
    | zero => exact absurd rfl hD0
    | some x y hQ =>
      obtain ⟨h1, h3⟩ := h'
      simp only [coord, Rep] at h0 ⊢
      have hx : x ≠ 0 := by rintro rfl; simp at h0
      refine ⟨by simp [hx, he, hX, h1], ?_⟩
      field_simp
      linear_combination X ^ 2 * (X' * e + x * Z') * h3
  | some x y hP =>
    obtain ⟨h1, h3⟩ := h
    cases Q with
    | zero =>
      obtain ⟨rfl, hX⟩ := h'
      have e1 : (Point.zero : (W A e).Point) = 0 := rfl
      rw [e1, zero_sub, Point.neg_some] at hD
      subst hD
      rw [e1, add_zero]
      simp only [coord, Rep] at h0 ⊢
      have hx : x ≠ 0 := by rintro rfl; simp at h0
      refine ⟨by simp [hx, he, hX, h1], ?_⟩
      field_simp
      linear_combination X' ^ 2 * (X * e + x * Z) * h3
    | some x' y' hQ =>
      obtain ⟨h1', h3'⟩ := h'
      have ex : X = x * Z / e := by field_simp; linear_combination h3
      have ex' : X' = x' * Z' / e := by field_simp; linear_combination h3'
      have e1 : X * X' - Z * Z' = Z * Z' * (x * x' - e ^ 2) / e ^ 2 := by rw [ex, ex']; field_simp
      have e2 : X * Z' - Z * X' = Z * Z' * (x - x') / e := by rw [ex, ex']; field_simp
      rw [e1, e2]
      by_cases hx : x = x'
      · subst hx
        have hE := eqn hP
        have hE' := eqn hQ
        have hy : y' ≠ y := by
          rintro rfl
          exact hD0 (hD ▸ sub_self _)
        have hy' : y' = -y := by
          have : (y' - y) * (y' + y) = 0 := by linear_combination hE' - hE
          exact eq_neg_of_add_eq_zero_left ((mul_eq_zero.1 this).resolve_left (sub_ne_zero.2 hy))
        subst hy'
        have y0 : y ≠ 0 := by rintro rfl; simp at hy
        have e3 : Point.some x (-y) hQ = -Point.some x y hP := by rw [Point.neg_some]; congr 1; rw [negY_eq]
        rw [e3, add_neg_cancel]
        obtain ⟨s, y1, h5, e4, e5⟩ := dbl_x h2 hP y0
        rw [e3, ← neg_add', e4, Point.neg_some] at hD
        subst hD
        have hs : s ≠ 0 := by rintro rfl; simp [coord] at h0
        have hq : x ^ 2 - e ^ 2 ≠ 0 := by
          intro h
          rw [h] at e5
          have h4 : (4 : K) ≠ 0 := by
            rw [show (4 : K) = 2 * 2 by norm_num]; exact mul_ne_zero h2 h2
          exact mul_ne_zero hs (mul_ne_zero h4 (pow_ne_zero 2 y0)) (by rw [e5]; ring)
        have := div_ne_zero (mul_ne_zero (mul_ne_zero h1 h1') hq) (pow_ne_zero 2 he)
        rw [pow_two] at this
        exact ⟨by simp, by simpa using this⟩
      · obtain ⟨s, y1, h5, d, y2, h6, e3, e4, e5⟩ := add_x hP hQ hx
        rw [e3]
        rw [e4] at hD
        subst hD
        simp only [coord] at h0 ⊢
        have hd : d ≠ 0 := by rintro rfl; simp at h0
        have hx' := sub_ne_zero.2 hx
        refine ⟨by simp [hd, he, hx', h1, h1'], ?_⟩
        field_simp
        linear_combination -e5

/-- A round of the ladder: the sum of the points (their difference has coordinate `u`), and the double of one. -/
def ladder (A u : K) : List Bool → K → K → K → K → K × K
  | [], X, Z, _, _ => (X, Z)
  | b :: l, X, Z, X', Z' =>
    let sx := (X * X' - Z * Z') * (X * X' - Z * Z')
    let sz := u * ((X * Z' - Z * X') * (X * Z' - Z * X'))
    let x := if b then X' else X
    let z := if b then Z' else Z
    let dx := (x * x - z * z) * (x * x - z * z)
    let dz := 4 * (x * z) * (x * x + z * z + A * (x * z))
    if b then ladder A u l sx sz dx dz else ladder A u l dx dz sx sz

theorem ladder_rep {D : (W A e).Point} (h0 : coord D ≠ 0) : ∀ (l : List Bool) (m : Nat) {X Z X' Z' : K},
    Rep X Z (m • D) → Rep X' Z' ((m + 1) • D) →
    Rep (ladder A (coord D) l X Z X' Z').1 (ladder A (coord D) l X Z X' Z').2 (Mont.bitsVal l m • D)
  | [], m, _, _, _, _, h, _ => h
  | b :: l, m, X, Z, X', Z', h, h' => by
    have hs := add h2 he h h' (by rw [succ_nsmul, add_sub_cancel_left]) h0
    rw [← add_nsmul] at hs
    cases b with
    | false =>
      have hd := dbl h2 he hA h
      rw [← add_nsmul] at hd
      refine ladder_rep h0 l (2 * m + 0) ?_ ?_
      · rw [show 2 * m + 0 = m + m by omega]; exact hd
      · rw [show 2 * m + 0 + 1 = m + (m + 1) by omega]; exact hs
    | true =>
      have hd := dbl h2 he hA h'
      rw [← add_nsmul] at hd
      refine ladder_rep h0 l (2 * m + 1) ?_ ?_
      · rw [show 2 * m + 1 = m + (m + 1) by omega]; exact hs
      · rw [show 2 * m + 1 + 1 = m + 1 + (m + 1) by omega]; exact hd

omit h2 he hA in
omit [DecidableEq K] in
theorem ladder_zero (A : K) : ∀ (l : List Bool) {X Z X' Z' : K}, X * Z = 0 → X' * Z' = 0 →
    (ladder A 0 l X Z X' Z').1 * (ladder A 0 l X Z X' Z').2 = 0
  | [], _, _, _, _, h, _ => h
  | b :: l, X, Z, X', Z', h, h' => by
    cases b with
    | false => exact ladder_zero A l (by simp [h]) (by simp)
    | true => exact ladder_zero A l (by simp) (by simp [h'])

omit h2 hA in
theorem two_coord {D : (W A e).Point} (h0 : coord D = 0) : D + D = 0 := by
  cases D with
  | zero => exact zero_add 0
  | some x y hD =>
    have hx : x = 0 := by simpa [coord, he] using h0
    subst hx
    have hE := eqn hD
    have hy : y = 0 := by simpa using hE
    subst hy
    exact Point.add_self_of_Y_eq (by rw [negY_eq, neg_zero])

/-- The ladder computes first coordinates of multiples. -/
theorem ladder_coord (l : List Bool) (D : (W A e).Point) :
    (ladder A (coord D) l 1 0 (coord D) 1).1 * (ladder A (coord D) l 1 0 (coord D) 1).2⁻¹ = coord (Mont.bitsVal l 0 • D) := by
  by_cases h0 : coord D = 0
  · rw [h0]
    have h1 := ladder_zero A l (X := (1 : K)) (Z := 0) (X' := 0) (Z' := 1) (by ring) (by ring)
    have h3 : (ladder A 0 l 1 0 0 1).1 * (ladder A 0 l 1 0 0 1).2⁻¹ = 0 := by
      rcases mul_eq_zero.1 h1 with h | h <;> simp [h]
    have h4 := two_coord he h0
    rw [h3]
    have h5 (k : Nat) : (2 * k) • D = 0 := by rw [mul_nsmul, two_nsmul, h4, nsmul_zero]
    rcases Nat.even_or_odd' (Mont.bitsVal l 0) with ⟨k, hk | hk⟩ <;> rw [hk]
    · rw [h5]; rfl
    · rw [succ_nsmul, h5, zero_add, h0]
  · refine (ladder_rep h2 he hA h0 l 0 ?_ ?_).coord he
    · rw [zero_nsmul]; exact ⟨rfl, one_ne_zero⟩
    · rw [zero_add, one_nsmul]
      cases D with
      | zero => exact absurd rfl h0
      | some x y hD => exact ⟨one_ne_zero, by simp only [coord]; field_simp⟩

end XZ

/-! ### On integers -/

namespace Mont
variable {c : Mont}

open FieldCode in
/-- The ladder on integers modulo `p`. -/
def ladderB (p A u : Int) (k : Int → Int → Bool) : List Bool → Int → Int → Int → Int → Bool
  | [], X, Z, _, _ => k X Z
  | b :: l, X, Z, X', Z' =>
    forceInt ((X * X' - Z * Z') % p) fun s => forceInt (s * s % p) fun sx =>
    forceInt ((X * Z' - Z * X') % p) fun t => forceInt (u * (t * t % p) % p) fun sz =>
    forceInt (bif b then X' else X) fun x => forceInt (bif b then Z' else Z) fun z =>
    forceInt (x * x % p) fun xx => forceInt (z * z % p) fun zz => forceInt (x * z % p) fun xz =>
    forceInt ((xx - zz) * (xx - zz) % p) fun dx => forceInt (4 * xz * (xx + zz + A * xz) % p) fun dz =>
    bif b then ladderB p A u k l sx sz dx dz else ladderB p A u k l dx dz sx sz

theorem ladderB_is {u : Int} {k : Int → Int → Bool} : ∀ (l : List Bool) {X Z X' Z' : Int},
    ladderB c.fld.p c.A u k l X Z X' Z' = true → ∃ x z, k x z = true ∧
      XZ.ladder (c.A : c.K) (u : c.K) l (X : c.K) (Z : c.K) (X' : c.K) (Z' : c.K) = ((x : c.K), (z : c.K))
  | [], _, _, _, _, h => ⟨_, _, h, rfl⟩
  | b :: l, X, Z, X', Z', h => by
    simp only [ladderB, FieldCode.forceInt_eq] at h
    cases b <;>
    · simp only [cond_true, cond_false] at h
      obtain ⟨x, z, h1, h2⟩ := ladderB_is l h
      refine ⟨x, z, h1, ?_⟩
      rw [← h2]
      simp only [XZ.ladder, emod_cast, Int.cast_mul, Int.cast_sub, Int.cast_add, Int.cast_ofNat, Bool.false_eq_true, if_false, if_true]

end Mont
end Verif

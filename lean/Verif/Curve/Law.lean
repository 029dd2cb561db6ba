import Verif.Curve.Assoc

/-!
# Specification: the group of a complete Edwards curve

`EdPoint K d` is the set of solutions of `x² + y² = 1 + d x² y²` over a field `K`; the group law
is the Edwards addition law.  This file does not mention the modelled code.  It is proved that
for a non-square `d` and `2 ≠ 0` the denominators never vanish and the law makes `EdPoint K d`
a commutative group.
-/

namespace Verif

/-- A point of the curve `x² + y² = 1 + d x² y²`. -/
@[ext] structure EdPoint (K : Type*) [Field K] (d : K) where
  x : K
  y : K
  on : x ^ 2 + y ^ 2 = 1 + d * x ^ 2 * y ^ 2

namespace Edwards

variable {K : Type*} [Field K] {d x1 y1 x2 y2 : K}

/-- The denominators of the addition law do not vanish (Bernstein–Lange). -/
theorem complete (hd : ¬ IsSquare d) (h2 : (2 : K) ≠ 0)
    (e1 : x1 ^ 2 + y1 ^ 2 = 1 + d * x1 ^ 2 * y1 ^ 2)
    (e2 : x2 ^ 2 + y2 ^ 2 = 1 + d * x2 ^ 2 * y2 ^ 2) :
    (d * x1 * x2 * y1 * y2) ^ 2 ≠ 1 := by
  intro h
  have key1 : (x1 + (d * x1 * x2 * y1 * y2) * y1) ^ 2 = d * (x1 * y1 * (x2 + y2)) ^ 2 := by
    linear_combination e1 + (y1 ^ 2 - 1) * h - d * x1 ^ 2 * y1 ^ 2 * e2
  have key2 : (x1 - (d * x1 * x2 * y1 * y2) * y1) ^ 2 = d * (x1 * y1 * (x2 - y2)) ^ 2 := by
    linear_combination e1 + (y1 ^ 2 - 1) * h - d * x1 ^ 2 * y1 ^ 2 * e2
  have hne : d * x1 * x2 * y1 * y2 ≠ 0 := by
    intro h0
    rw [h0] at h
    simp at h
  have hx1 : x1 ≠ 0 := by rintro rfl; simp at hne
  have hy1 : y1 ≠ 0 := by rintro rfl; simp at hne
  have hx2 : x2 ≠ 0 := by rintro rfl; simp at hne
  have sq : ∀ u v : K, u ^ 2 = d * v ^ 2 → v = 0 := by
    intro u v huv
    by_contra hv
    exact hd ⟨u / v, by field_simp; linear_combination -huv⟩
  have s1 := sq _ _ key1
  have s2 := sq _ _ key2
  have t1 : x2 + y2 = 0 := by
    rcases mul_eq_zero.1 s1 with h | h
    · rcases mul_eq_zero.1 h with h | h
      · exact absurd h hx1
      · exact absurd h hy1
    · exact h
  have t2 : x2 - y2 = 0 := by
    rcases mul_eq_zero.1 s2 with h | h
    · rcases mul_eq_zero.1 h with h | h
      · exact absurd h hx1
      · exact absurd h hy1
    · exact h
  have : 2 * x2 = 0 := by linear_combination t1 + t2
  rcases mul_eq_zero.1 this with h | h
  · exact h2 h
  · exact hx2 h

theorem den_pos (hd : ¬ IsSquare d) (h2 : (2 : K) ≠ 0)
    (e1 : x1 ^ 2 + y1 ^ 2 = 1 + d * x1 ^ 2 * y1 ^ 2)
    (e2 : x2 ^ 2 + y2 ^ 2 = 1 + d * x2 ^ 2 * y2 ^ 2) : 1 + d * x1 * x2 * y1 * y2 ≠ 0 := by
  intro h
  exact complete hd h2 e1 e2 (by linear_combination (d * x1 * x2 * y1 * y2 - 1) * h)

theorem den_neg (hd : ¬ IsSquare d) (h2 : (2 : K) ≠ 0)
    (e1 : x1 ^ 2 + y1 ^ 2 = 1 + d * x1 ^ 2 * y1 ^ 2)
    (e2 : x2 ^ 2 + y2 ^ 2 = 1 + d * x2 ^ 2 * y2 ^ 2) : 1 - d * x1 * x2 * y1 * y2 ≠ 0 := by
  intro h
  exact complete hd h2 e1 e2 (by linear_combination (-d * x1 * x2 * y1 * y2 - 1) * h)

theorem closure (hp : 1 + d * x1 * x2 * y1 * y2 ≠ 0) (hm : 1 - d * x1 * x2 * y1 * y2 ≠ 0)
    (e1 : x1 ^ 2 + y1 ^ 2 = 1 + d * x1 ^ 2 * y1 ^ 2)
    (e2 : x2 ^ 2 + y2 ^ 2 = 1 + d * x2 ^ 2 * y2 ^ 2) :
    ((x1 * y2 + y1 * x2) / (1 + d * x1 * x2 * y1 * y2)) ^ 2 +
      ((y1 * y2 - x1 * x2) / (1 - d * x1 * x2 * y1 * y2)) ^ 2 =
    1 + d * ((x1 * y2 + y1 * x2) / (1 + d * x1 * x2 * y1 * y2)) ^ 2 *
      ((y1 * y2 - x1 * x2) / (1 - d * x1 * x2 * y1 * y2)) ^ 2 := by
  have key : (x1 * y2 + y1 * x2) ^ 2 * (1 - d * x1 * x2 * y1 * y2) ^ 2 +
      (y1 * y2 - x1 * x2) ^ 2 * (1 + d * x1 * x2 * y1 * y2) ^ 2 =
      (1 + d * x1 * x2 * y1 * y2) ^ 2 * (1 - d * x1 * x2 * y1 * y2) ^ 2 +
      d * (x1 * y2 + y1 * x2) ^ 2 * (y1 * y2 - x1 * x2) ^ 2 := by
    linear_combination (d^3*x1^2*y1^2*x2^4*y2^4 + d^2*x1^2*x2^4*y2^4 + d^2*y1^2*x2^4*y2^4
      - d^2*x2^4*y2^4 - d*x1^2*x2^4*y2^2 - d*x1^2*x2^2*y2^4 - d*y1^2*x2^4*y2^2
      - d*y1^2*x2^2*y2^4 + 2*d*x2^4*y2^4 - 2*d*x2^2*y2^2 - 2*x2^4*y2^2 + x2^4 - 2*x2^2*y2^4
      + 4*x2^2*y2^2 + y2^4) * e1 + (d*x1^4*x2^2*y2^2 - 2*d*x1^2*x2^2*y2^2 + d*y1^4*x2^2*y2^2
      - 2*d*y1^2*x2^2*y2^2 + d*x2^2*y2^2 + 2*x1^2*x2^2*y2^2 - x1^2*x2^2 - x1^2*y2^2
      + 2*y1^2*x2^2*y2^2 - y1^2*x2^2 - y1^2*y2^2 - 2*x2^2*y2^2 + x2^2 + y2^2 + 1) * e2
  generalize 1 + d * x1 * x2 * y1 * y2 = p at *
  generalize 1 - d * x1 * x2 * y1 * y2 = m at *
  generalize x1 * y2 + y1 * x2 = a at *
  generalize y1 * y2 - x1 * x2 = b at *
  field_simp
  linear_combination key

end Edwards

namespace EdPoint
open Edwards

variable {K : Type*} [Field K] {d : K} [hd : Fact (¬ IsSquare d)] [h2 : NeZero (2 : K)]

theorem den_pos (P Q : EdPoint K d) : 1 + d * P.x * Q.x * P.y * Q.y ≠ 0 :=
  Edwards.den_pos hd.out h2.out P.on Q.on

theorem den_neg (P Q : EdPoint K d) : 1 - d * P.x * Q.x * P.y * Q.y ≠ 0 :=
  Edwards.den_neg hd.out h2.out P.on Q.on

/-- The Edwards addition law. -/
instance : Add (EdPoint K d) where
  add P Q := ⟨(P.x * Q.y + P.y * Q.x) / (1 + d * P.x * Q.x * P.y * Q.y),
    (P.y * Q.y - P.x * Q.x) / (1 - d * P.x * Q.x * P.y * Q.y),
    closure (den_pos P Q) (den_neg P Q) P.on Q.on⟩

omit hd h2 in
/-- The neutral element `(0, 1)`. -/
instance : Zero (EdPoint K d) := ⟨⟨0, 1, by ring⟩⟩

omit hd h2 in
/-- The negative `(-x, y)`. -/
instance : Neg (EdPoint K d) := ⟨fun P => ⟨-P.x, P.y, by rw [neg_sq]; exact P.on⟩⟩

theorem add_x (P Q : EdPoint K d) :
    (P + Q).x = (P.x * Q.y + P.y * Q.x) / (1 + d * P.x * Q.x * P.y * Q.y) := rfl
theorem add_y (P Q : EdPoint K d) :
    (P + Q).y = (P.y * Q.y - P.x * Q.x) / (1 - d * P.x * Q.x * P.y * Q.y) := rfl
omit hd h2 in
@[simp] theorem zero_x : (0 : EdPoint K d).x = 0 := rfl
omit hd h2 in
@[simp] theorem zero_y : (0 : EdPoint K d).y = 1 := rfl
omit hd h2 in
@[simp] theorem neg_x (P : EdPoint K d) : (-P).x = -P.x := rfl
omit hd h2 in
@[simp] theorem neg_y (P : EdPoint K d) : (-P).y = P.y := rfl

theorem add_comm' (P Q : EdPoint K d) : P + Q = Q + P := by
  ext
  · rw [add_x, add_x]; congr 1 <;> ring
  · rw [add_y, add_y]; congr 1 <;> ring

theorem zero_add' (P : EdPoint K d) : 0 + P = P := by
  ext
  · rw [add_x]; simp
  · rw [add_y]; simp

theorem neg_add' (P : EdPoint K d) : -P + P = 0 := by
  have hp := den_pos (-P) P
  have hm := den_neg (-P) P
  simp only [neg_x, neg_y] at hp hm
  ext
  · rw [add_x]
    simp only [neg_x, neg_y, zero_x]
    rw [div_eq_zero_iff]; left; ring
  · rw [add_y]
    simp only [neg_x, neg_y, zero_y]
    rw [div_eq_one_iff_eq hm]
    linear_combination P.on

theorem add_assoc' (P Q R : EdPoint K d) : P + Q + R = P + (Q + R) := by
  have hp := den_pos P Q
  have hm := den_neg P Q
  have hp' := den_pos Q R
  have hm' := den_neg Q R
  have hP := den_pos (P + Q) R
  have hM := den_neg (P + Q) R
  have hP' := den_pos P (Q + R)
  have hM' := den_neg P (Q + R)
  have kx := assoc_x P.on Q.on R.on
  have ky := assoc_y P.on Q.on R.on
  ext
  · rw [add_x (P + Q) R, add_x P (Q + R), div_eq_div_iff hP hP']
    simp only [add_x, add_y]
    generalize 1 + d * P.x * Q.x * P.y * Q.y = p at *
    generalize 1 - d * P.x * Q.x * P.y * Q.y = m at *
    generalize 1 + d * Q.x * R.x * Q.y * R.y = p' at *
    generalize 1 - d * Q.x * R.x * Q.y * R.y = m' at *
    generalize P.x * Q.y + P.y * Q.x = a at *
    generalize P.y * Q.y - P.x * Q.x = b at *
    generalize Q.x * R.y + Q.y * R.x = a' at *
    generalize Q.y * R.y - Q.x * R.x = b' at *
    field_simp
    linear_combination kx
  · rw [add_y (P + Q) R, add_y P (Q + R), div_eq_div_iff hM hM']
    simp only [add_x, add_y]
    generalize 1 + d * P.x * Q.x * P.y * Q.y = p at *
    generalize 1 - d * P.x * Q.x * P.y * Q.y = m at *
    generalize 1 + d * Q.x * R.x * Q.y * R.y = p' at *
    generalize 1 - d * Q.x * R.x * Q.y * R.y = m' at *
    generalize P.x * Q.y + P.y * Q.x = a at *
    generalize P.y * Q.y - P.x * Q.x = b at *
    generalize Q.x * R.y + Q.y * R.x = a' at *
    generalize Q.y * R.y - Q.x * R.x = b' at *
    field_simp
    linear_combination ky

/-- The points of a complete Edwards curve form a commutative group. -/
instance : AddCommGroup (EdPoint K d) where
  add_assoc := add_assoc'
  zero_add := zero_add'
  add_zero P := by rw [add_comm', zero_add']
  nsmul := nsmulRec
  zsmul := zsmulRec
  neg_add_cancel := neg_add'
  add_comm := add_comm'

end EdPoint
end Verif

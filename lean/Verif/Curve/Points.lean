import Verif.Curve.Sim

/-!
# The point formulas and the group law (helper lemmas)

Over any scalar type that implements the field.
-/

namespace Verif
namespace EdwardsExtended

variable {S : Type} {K : Type} [Field K] {d : K}

/-- The coordinates are valid, `z ≠ 0`, and `(x / z, y / z)` is the point `P`. -/
def ReprXYZ (ok : S → Prop) (den : S → K) (p : EdwardsExtended S) (P : EdPoint K d) : Prop :=
  p.Ok ok ∧ den p.z ≠ 0 ∧ den p.x = P.x * den p.z ∧ den p.y = P.y * den p.z

/-- Extended coordinates of `P`: moreover `t z = x y`. -/
def Repr (ok : S → Prop) (den : S → K) (p : EdwardsExtended S) (P : EdPoint K d) : Prop :=
  p.ReprXYZ ok den P ∧ den p.t * den p.z = den p.x * den p.y

theorem Repr.t_eq {ok : S → Prop} {den : S → K} {p : EdwardsExtended S} {P : EdPoint K d}
    (h : p.Repr ok den P) : den p.t = P.x * P.y * den p.z := by
  obtain ⟨⟨-, hz, hx, hy⟩, ht⟩ := h
  rw [hx, hy] at ht
  exact mul_right_cancel₀ hz (by rw [ht]; ring)

theorem ReprXYZ.unique {ok : S → Prop} {den : S → K} {p : EdwardsExtended S} {P Q : EdPoint K d}
    (h : p.ReprXYZ ok den P) (h' : p.ReprXYZ ok den Q) : P = Q := by
  obtain ⟨-, hz, hx, hy⟩ := h
  obtain ⟨-, -, hx', hy'⟩ := h'
  ext
  · exact mul_right_cancel₀ hz (by rw [← hx, ← hx'])
  · exact mul_right_cancel₀ hz (by rw [← hy, ← hy'])

variable [hd : Fact (¬ IsSquare d)] [h2 : NeZero (2 : K)] {C : Scalar S} {ok : S → Prop}
  {den : S → K} {subOk mulOk : S → S → Prop} {smOk : S → Nat → Prop}

theorem add_repr (I : C.Impl K d ok den subOk mulOk smOk) {p q : EdwardsExtended S}
    {P Q : EdPoint K d} (hp : p.Repr ok den P) (hq : q.Repr ok den Q)
    (hs : SafeProg C subOk mulOk smOk addP (regs p q)) :
    ∃ r, p.addAssign C q = .ok r ∧ r.Repr ok den (P + Q) := by
  obtain ⟨r, h1, h2, hx, hy, hz, ht⟩ := add_sim I hp.1.1 hq.1.1 hs
  have t1 := hp.t_eq
  have t2 := hq.t_eq
  obtain ⟨⟨-, z1, x1, y1⟩, -⟩ := hp
  obtain ⟨⟨-, z2, x2, y2⟩, -⟩ := hq
  have dp := EdPoint.den_pos P Q
  have dm := EdPoint.den_neg P Q
  rw [x1, y1, x2, y2] at hx hy ht
  rw [t1, t2] at hx hy hz
  generalize den p.z = u at *
  generalize den q.z = v at *
  have ez : den r.z = (u * v) ^ 2 * (1 - d * P.x * Q.x * P.y * Q.y) *
      (1 + d * P.x * Q.x * P.y * Q.y) := by rw [hz]; ring
  refine ⟨r, h1, ⟨h2, ?_, ?_, ?_⟩, ?_⟩
  · rw [ez]
    exact mul_ne_zero (mul_ne_zero (pow_ne_zero _ (mul_ne_zero z1 z2)) dm) dp
  · rw [ez, hx, EdPoint.add_x, div_mul_eq_mul_div, eq_div_iff dp]
    ring
  · rw [ez, hy, EdPoint.add_y, div_mul_eq_mul_div, eq_div_iff dm]
    ring
  · rw [hx, hy, hz, ht]; ring

omit hd h2 in
theorem two_den {P : EdPoint K d} :
    1 + d * P.x * P.x * P.y * P.y = P.x ^ 2 + P.y ^ 2 ∧
    1 - d * P.x * P.x * P.y * P.y = 2 - P.x ^ 2 - P.y ^ 2 := by
  have := P.on
  constructor
  · linear_combination -this
  · linear_combination this

theorem sum_ne (P : EdPoint K d) : P.x ^ 2 + P.y ^ 2 ≠ 0 := by
  rw [← two_den.1]; exact EdPoint.den_pos P P

theorem two_sub_ne (P : EdPoint K d) : 2 - P.x ^ 2 - P.y ^ 2 ≠ 0 := by
  rw [← two_den.2]; exact EdPoint.den_neg P P

theorem double_x (P : EdPoint K d) : (P + P).x = 2 * P.x * P.y / (P.x ^ 2 + P.y ^ 2) := by
  rw [EdPoint.add_x, two_den.1]; congr 1; ring

theorem double_y (P : EdPoint K d) :
    (P + P).y = (P.y ^ 2 - P.x ^ 2) / (2 - P.x ^ 2 - P.y ^ 2) := by
  rw [EdPoint.add_y, two_den.2]; congr 1; ring

theorem double_repr (I : C.Impl K d ok den subOk mulOk smOk) {p : EdwardsExtended S}
    {P : EdPoint K d} (hp : p.ReprXYZ ok den P)
    (hs : SafeProg C subOk mulOk smOk doubleP (regs p p)) :
    ∃ r, p.double C = .ok r ∧ r.Repr ok den (P + P) := by
  obtain ⟨r, h1, h2, hx, hy, hz, ht⟩ := double_sim I hp.1 hs
  obtain ⟨-, z1, x1, y1⟩ := hp
  rw [x1, y1] at hx hy ht hz
  have s1 := sum_ne P
  have s2 := two_sub_ne P
  generalize den p.z = u at *
  have ez : den r.z = -(u ^ 2) ^ 2 * (2 - P.x ^ 2 - P.y ^ 2) * (P.x ^ 2 + P.y ^ 2) := by
    rw [hz]; ring
  refine ⟨r, h1, ⟨h2, ?_, ?_, ?_⟩, ?_⟩
  · rw [ez]
    exact mul_ne_zero (mul_ne_zero (neg_ne_zero.2 (pow_ne_zero _ (pow_ne_zero _ z1))) s2) s1
  · rw [ez, hx, double_x]
    field_simp
    ring
  · rw [ez, hy, double_y]
    field_simp
    ring
  · rw [hx, hy, hz, ht]; ring

/-- `3 P` in terms of `a = x² + y²`, `b = 2 (2 - a)`, `e = a (y² - x²)`. -/
theorem triple_law (P : EdPoint K d) {a b e : K} (ha : a = P.y ^ 2 + P.x ^ 2)
    (hb : b = 2 * (2 - a)) (he : e = a * (P.y ^ 2 - P.x ^ 2)) :
    b ≠ 0 ∧ e + P.x ^ 2 * b ≠ 0 ∧ e - P.y ^ 2 * b ≠ 0 ∧
    (P + P + P).x = P.x * (P.y ^ 2 * b + e) / (e + P.x ^ 2 * b) ∧
    (P + P + P).y = P.y * (P.x ^ 2 * b - e) / (e - P.y ^ 2 * b) := by
  have s1 := sum_ne P
  have s2 := two_sub_ne P
  have dp := EdPoint.den_pos (P + P) P
  have dm := EdPoint.den_neg (P + P) P
  have ex := EdPoint.add_x (P + P) P
  have ey := EdPoint.add_y (P + P) P
  rw [double_x, double_y] at dp dm ex ey
  have on := P.on
  have e1 : a ≠ 0 := by rw [ha]; rwa [add_comm]
  have e2 : 2 - a ≠ 0 := by
    rw [ha]; intro h; exact s2 (by linear_combination h)
  have ea : P.x ^ 2 + P.y ^ 2 = a := by rw [ha]; ring
  have ea' : 2 - P.x ^ 2 - P.y ^ 2 = 2 - a := by rw [ha]; ring
  rw [ea, ea'] at dp dm ex ey
  have hp : 1 + d * (2 * P.x * P.y / a) * P.x * ((P.y ^ 2 - P.x ^ 2) / (2 - a)) * P.y =
      (e + P.x ^ 2 * b) / (a * (2 - a)) := by
    field_simp
    rw [he, hb, ha]
    linear_combination (-2 * (P.y ^ 2 - P.x ^ 2)) * on
  have hm : 1 - d * (2 * P.x * P.y / a) * P.x * ((P.y ^ 2 - P.x ^ 2) / (2 - a)) * P.y =
      -(e - P.y ^ 2 * b) / (a * (2 - a)) := by
    field_simp
    rw [he, hb, ha]
    linear_combination (2 * (P.y ^ 2 - P.x ^ 2)) * on
  rw [hp] at dp ex
  rw [hm] at dm ey
  have np : e + P.x ^ 2 * b ≠ 0 := by intro h; rw [h] at dp; simp at dp
  have nm : e - P.y ^ 2 * b ≠ 0 := by intro h; rw [h] at dm; simp at dm
  refine ⟨?_, np, nm, ?_, ?_⟩
  · rw [hb]; exact mul_ne_zero h2.out e2
  · rw [ex]
    field_simp
    rw [he, hb]; ring
  · rw [ey]
    field_simp
    rw [he, hb]; ring

/-- `triple` over scalars that implement a field: right exactly when the `x` coordinate of
`P + P + P` is zero. -/
theorem triple_right_iff (I : C.Impl K d ok den subOk mulOk smOk) {p : EdwardsExtended S}
    {P : EdPoint K d} (hp : p.ReprXYZ ok den P)
    (hs : SafeProg C subOk mulOk smOk tripleP (regs p p)) :
    ∃ r, p.triple C = .ok r ∧ p.tripled C = .ok r ∧
      (r.Repr ok den (P + P + P) ↔ (P + P + P).x = 0) := by
  obtain ⟨r, h1, h2, a, b, e, ha, hb, he, hx, hy, hz, ht⟩ :=
    triple_sim I hp.1 hs
  obtain ⟨-, z1, x1, y1⟩ := hp
  refine ⟨r, h1, h1, ?_⟩
  rw [x1, y1] at ha he hx hy hz ht
  obtain ⟨b0, n1, n2, l1, l2⟩ := triple_law P (a := P.y ^ 2 + P.x ^ 2)
    (b := 2 * (2 - (P.y ^ 2 + P.x ^ 2)))
    (e := (P.y ^ 2 + P.x ^ 2) * (P.y ^ 2 - P.x ^ 2)) rfl rfl rfl
  have s1 := sum_ne P
  rw [l1]
  generalize den p.z = u at *
  have ea : a = u ^ 2 * (P.y ^ 2 + P.x ^ 2) := by rw [ha]; ring
  have eb : b = u ^ 2 * (2 * (2 - (P.y ^ 2 + P.x ^ 2))) := by rw [hb, ea]; ring
  have ee : e = u ^ 4 * ((P.y ^ 2 + P.x ^ 2) * (P.y ^ 2 - P.x ^ 2)) := by rw [he, ea]; ring
  rw [eb, ee] at hx hy hz ht
  generalize hB : 2 * (2 - (P.y ^ 2 + P.x ^ 2)) = B at *
  generalize hE : (P.y ^ 2 + P.x ^ 2) * (P.y ^ 2 - P.x ^ 2) = E at *
  have fx : den r.x = u ^ 10 * (P.x * (P.y ^ 2 * B + E) * (E - P.y ^ 2 * B)) := by rw [hx]; ring
  have fy : den r.y = u ^ 10 * (P.y * (P.x ^ 2 * B - E) * (E - P.x ^ 2 * B)) := by rw [hy]; ring
  have fz : den r.z = u ^ 10 * ((E - P.y ^ 2 * B) * (E - P.x ^ 2 * B)) := by rw [hz]; ring
  have ft : den r.t * den r.z = den r.x * den r.y := by rw [hx, hy, hz, ht]; ring
  have u10 : u ^ 10 ≠ 0 := pow_ne_zero _ z1
  constructor
  · rintro ⟨⟨-, gz, gx, -⟩, -⟩
    rw [l1] at gx
    rw [fz] at gz
    have gm : E - P.x ^ 2 * B ≠ 0 := by
      intro h; rw [h] at gz; simp at gz
    rw [fx, fz, div_mul_eq_mul_div, eq_div_iff n1] at gx
    have key : u ^ 10 * (E - P.y ^ 2 * B) * B * (P.x ^ 2 * (P.x * (P.y ^ 2 * B + E))) * 2 = 0 := by
      linear_combination gx
    have h2' : (2 : K) ≠ 0 := two_ne_zero
    have := (mul_eq_zero.1 key).resolve_right h2'
    have := (mul_eq_zero.1 this).resolve_left (mul_ne_zero (mul_ne_zero u10 n2) b0)
    rcases mul_eq_zero.1 this with h | h
    · rw [pow_eq_zero_iff (by norm_num)] at h
      rw [h]; simp
    · rw [h, zero_div]
  · intro h
    have h0 : P.x * (P.y ^ 2 * B + E) = 0 := (div_eq_zero_iff.1 h).resolve_right n1
    have gm : E - P.x ^ 2 * B ≠ 0 := by
      rcases mul_eq_zero.1 h0 with h | h
      · intro h'; apply n1; rw [h] at h' ⊢; simpa using h'
      · intro h'
        have : B * (P.x ^ 2 + P.y ^ 2) = 0 := by linear_combination h - h'
        exact mul_ne_zero b0 s1 this
    refine ⟨⟨h2, ?_, ?_, ?_⟩, ft⟩
    · rw [fz]; exact mul_ne_zero u10 (mul_ne_zero n2 gm)
    · rw [l1, fx, fz, h0]; simp
    · rw [l2, fy, fz]
      field_simp

end EdwardsExtended
end Verif

import Verif.Curve.Safe
import Verif.Curve.Evals
import Verif.Curve.Ideal
import Verif.Curve.Total

/-!
# Properties C26–C30, C33–C35: Edwards points

The specification is the group of points of `x² + y² = 1 + d x² y²` over `ZMod p`
(`EdPoint`, `Verif/Curve/Law.lean`) with the published coefficients (`Crv.dInt`), and
`Crv.Represents`.

Two kinds of theorems:
* `…_exact…`: `/repo/src/curve/edwards.rs` is generic in the scalar type; these are about the
  generic code over any scalar type that computes correctly (`Scalar.Lawful`);
* the others are about the five curve types with the field types of the repository, whose `-` and
  `*` are not always right (C02, C04).  There the properties fail (`…_counterexample`,
  `…_statement_false`) and hold under conditions on the carries (`…_partial`).
-/

namespace Verif
open EdwardsExtended

section Exact
variable {S : Type} {C : Scalar S} {m : Nat} [Fact m.Prime] {d : ZMod m} [Fact (¬ IsSquare d)]
  [NeZero (2 : ZMod m)] {ok : S → Prop} {den : S → ZMod m}

/-! ## C26: addition -/

/-- The Edwards addition law, in coordinates; the denominators never vanish. -/
theorem C26_law (P Q : EdPoint (ZMod m) d) :
    1 + d * P.x * Q.x * P.y * Q.y ≠ 0 ∧ 1 - d * P.x * Q.x * P.y * Q.y ≠ 0 ∧
    (P + Q).x = (P.x * Q.y + P.y * Q.x) / (1 + d * P.x * Q.x * P.y * Q.y) ∧
    (P + Q).y = (P.y * Q.y - P.x * Q.x) / (1 - d * P.x * Q.x * P.y * Q.y) :=
  ⟨EdPoint.den_pos P Q, EdPoint.den_neg P Q, EdPoint.add_x P Q, EdPoint.add_y P Q⟩

/-- Over a correct scalar type, `+` and `+=` of representations of `P` and `Q` represent
`P + Q`.  Missing for C26: the field types of the repository are not correct scalar types. -/
theorem C26_add_exact_partial (L : C.Lawful m d ok den) {p q : EdwardsExtended S}
    {P Q : EdPoint (ZMod m) d} (hp : p.Repr ok den P) (hq : q.Repr ok den Q) :
    ∃ r, p.addAssign C q = .ok r ∧ p.add C q = .ok r ∧ r.Repr ok den (P + Q) := by
  obtain ⟨r, h1, h2⟩ := add_repr L.exact hp hq (safeProg_true _ _)
  exact ⟨r, h1, h1, h2⟩

/-! ## C27: doubling -/

/-- Over a correct scalar type, `double` of coordinates of `P` (with any `t`) represents `P + P`. -/
theorem C27_double_exact_partial (L : C.Lawful m d ok den) {p : EdwardsExtended S}
    {P : EdPoint (ZMod m) d} (hp : p.ReprXYZ ok den P) :
    ∃ r, p.double C = .ok r ∧ p.doubled C = .ok r ∧ r.Repr ok den (P + P) := by
  obtain ⟨r, h1, h2⟩ := double_repr L.exact hp (safeProg_true _ _)
  exact ⟨r, h1, h1, h2⟩

/-! ## C28: tripling -/

/-- Over a correct scalar type, `triple` of a representation of `P` represents `P + P + P` exactly
when the `x` coordinate of `P + P + P` is zero: `g = aa - xb` should be `aa + xb`. -/
theorem C28_triple_exact_iff (L : C.Lawful m d ok den) {p : EdwardsExtended S}
    {P : EdPoint (ZMod m) d} (hp : p.ReprXYZ ok den P) :
    ∃ r, p.triple C = .ok r ∧ p.tripled C = .ok r ∧
      (r.Repr ok den (P + P + P) ↔ (P + P + P).x = 0) := by
  exact triple_right_iff L.exact hp (safeProg_true _ _)

/-! ## C29: the neutral element -/

omit [Fact (¬ IsSquare d)] [NeZero (2 : ZMod m)] in
/-- Over a correct scalar type, `zero()` represents no point: `t z = 1` but `x y = 0`. -/
theorem C29_zero_exact (L : C.Lawful m d ok den) (P : EdPoint (ZMod m) d) :
    ¬ (zero C).Repr ok den P := by
  rintro ⟨-, h⟩
  simp [zero, L.exact.zero.2, L.exact.one.2] at h

omit [NeZero (2 : ZMod m)] in
/-- Over a correct scalar type, `zero() + P` represents `P` exactly when `x y = 0`, that
is, when `P` is `(0, ±1)` or `(±1, 0)`. -/
theorem C29_zero_add_exact_iff (L : C.Lawful m d ok den) {p : EdwardsExtended S}
    {P : EdPoint (ZMod m) d} (hp : p.Repr ok den P) :
    ∃ r, (zero C).addAssign C p = .ok r ∧ (r.Repr ok den P ↔ P.x * P.y = 0) := by
  have hz : (zero C).Ok ok := ⟨L.exact.zero.1, L.exact.one.1, L.exact.one.1, L.exact.one.1⟩
  obtain ⟨r, h1, h2, hx, hy, hz, ht⟩ := add_sim L.exact hz hp.1.1 (safeProg_true _ _)
  have t1 := hp.t_eq
  obtain ⟨⟨-, z1, x1, y1⟩, -⟩ := hp
  refine ⟨r, h1, ?_⟩
  simp only [zero, L.exact.zero.2, L.exact.one.2, x1, y1, t1] at hx hy hz ht
  generalize den p.z = u at *
  have fx : den r.x = u ^ 2 * (P.x * (1 - d * (P.x * P.y))) := by rw [hx]; ring
  have fy : den r.y = u ^ 2 * (P.y * (1 + d * (P.x * P.y))) := by rw [hy]; ring
  have fz : den r.z = u ^ 2 * ((1 - d * (P.x * P.y)) * (1 + d * (P.x * P.y))) := by rw [hz]; ring
  have d0 : d ≠ 0 := by
    rintro rfl
    exact (Fact.out : ¬ IsSquare (0 : ZMod m)) ⟨0, by simp⟩
  constructor
  · rintro ⟨⟨-, gz, gx, -⟩, -⟩
    rw [fx, fz] at gx
    rw [fz] at gz
    have gm : u ^ 2 * (1 - d * (P.x * P.y)) ≠ 0 := by
      intro h; apply gz; linear_combination (1 + d * (P.x * P.y)) * h
    have key : (u ^ 2 * (1 - d * (P.x * P.y))) * (d * (P.x * (P.x * P.y))) = 0 := by
      linear_combination -gx
    have := (mul_eq_zero.1 ((mul_eq_zero.1 key).resolve_left gm)).resolve_left d0
    rcases mul_eq_zero.1 this with h | h
    · rw [h, zero_mul]
    · exact h
  · intro h
    rw [h] at fx fy fz
    refine ⟨⟨h2, ?_, ?_, ?_⟩, ?_⟩
    · rw [fz]; simpa using z1
    · rw [fx, fz]; ring
    · rw [fy, fz]; ring
    · rw [fx, fy, fz, ht]; ring

/-! ## C30: `init` -/

omit [Fact (¬ IsSquare d)] [NeZero (2 : ZMod m)] in
/-- Over a correct scalar type, `init(x, y)` with the coordinates of `P` gives `(x : y : 1)` and
represents `P` exactly when `x y = 1` (`t` is set to 1). -/
theorem C30_init_exact_iff (L : C.Lawful m d ok den) (self : EdwardsExtended S) {x y : S}
    {P : EdPoint (ZMod m) d} (hx : ok x ∧ den x = P.x) (hy : ok y ∧ den y = P.y) :
    (init C self x y).ReprXYZ ok den P ∧
    ((init C self x y).Repr ok den P ↔ P.x * P.y = 1) := by
  have h1 : (init C self x y).ReprXYZ ok den P := by
    refine ⟨⟨hx.1, hy.1, L.exact.one.1, L.exact.one.1⟩, ?_, ?_, ?_⟩
    · simp [init, L.exact.one.2]
    · simp [init, L.exact.one.2, hx.2]
    · simp [init, L.exact.one.2, hy.2]
  refine ⟨h1, ?_⟩
  rw [EdwardsExtended.Repr]
  simp only [h1, true_and]
  simp only [init, L.exact.one.2, hx.2, hy.2, one_mul]
  exact eq_comm

/-! ## C35: the group laws -/

/-- Over a correct scalar type, sums in either order represent the same point. -/
theorem C35_exact_partial (L : C.Lawful m d ok den) {p q r : EdwardsExtended S}
    {P Q R : EdPoint (ZMod m) d} (hp : p.Repr ok den P) (hq : q.Repr ok den Q)
    (hr : r.Repr ok den R) :
    (∃ a b T, p.addAssign C q = .ok a ∧ q.addAssign C p = .ok b ∧
      a.Repr ok den T ∧ b.Repr ok den (T : EdPoint (ZMod m) d)) ∧
    (∃ a b a' b' T, p.addAssign C q = .ok a ∧ a.addAssign C r = .ok a' ∧
      q.addAssign C r = .ok b ∧ p.addAssign C b = .ok b' ∧
      a'.Repr ok den T ∧ b'.Repr ok den (T : EdPoint (ZMod m) d)) := by
  obtain ⟨a, a1, -, a2⟩ := C26_add_exact_partial L hp hq
  obtain ⟨b, b1, -, b2⟩ := C26_add_exact_partial L hq hp
  obtain ⟨e, e1, -, e2⟩ := C26_add_exact_partial L hq hr
  obtain ⟨f, f1, -, f2⟩ := C26_add_exact_partial L a2 hr
  obtain ⟨g, g1, -, g2⟩ := C26_add_exact_partial L hp e2
  exact ⟨⟨a, b, P + Q, a1, b1, a2, by rw [add_comm]; exact b2⟩,
    ⟨a, e, f, g, P + Q + R, a1, f1, e1, g1, f2, by rw [add_assoc]; exact g2⟩⟩

end Exact

/-! ## The five curve types of the repository -/

namespace Crv
variable (c : Crv)

/-- The words have no carry: the integer is in `[0, 2 ^ n)`. -/
def CarryFree (a : Elem) : Prop := 0 ≤ c.fld.V a ∧ c.fld.V a < 2 ^ c.fld.n

end Crv

/-! ## C26 -/

/-- C26 in full. -/
def C26_statement : Prop := ∀ (c : Crv) (pr : Profile) (p q : EdwardsExtended Elem)
  (P Q : c.Point), c.Represents p P → c.Represents q Q →
    ∃ r, p.addAssign (c.scalar pr) q = .ok r ∧ c.Represents r (P + Q)

/-- When all operations are in the domains where the field type is right, the sum is right. -/
theorem C26_add_partial (c : Crv) (pr : Profile) {p q : EdwardsExtended Elem} {P Q : c.Point}
    (hp : c.Represents p P) (hq : c.Represents q Q) (h : c.RunsRight pr addP p q) :
    ∃ r, p.addAssign (c.scalar pr) q = .ok r ∧ p.add (c.scalar pr) q = .ok r ∧
      c.Represents r (P + Q) := by
  obtain ⟨r, h1, h2⟩ := add_repr (c.impl pr) hp hq h
  exact ⟨r, h1, h1, h2⟩

/-- For E-382, Curve41417 and E-521 the sum is right when three products of the formula
(`a`, `b` and `c`) have no carry. -/
theorem C26_add_carry_free_partial (c : Crv) (hc : c ≠ .e222 ∧ c ≠ .curve1174) (pr : Profile)
    {p q : EdwardsExtended Elem} {P Q : c.Point} (hp : c.Represents p P) (hq : c.Represents q Q)
    {a b t u : Elem} (ha : c.fld.code.mul pr p.x q.x = .ok a)
    (hb : c.fld.code.mul pr p.y q.y = .ok b) (ht : c.fld.code.mul pr p.t c.dElem = .ok t)
    (hu : c.fld.code.mul pr t q.t = .ok u) (ca : c.CarryFree a) (cb : c.CarryFree b)
    (cu : c.CarryFree u) :
    ∃ r, p.addAssign (c.scalar pr) q = .ok r ∧ c.Represents r (P + Q) := by
  refine add_repr (c.impl pr) hp hq (c.add_safe pr hc (a := a) (b := b) (m := t) (u := u)
    ?_ ?_ ?_ ?_ ca cb cu)
  · rw [c.scalar_eq]; exact ha
  · rw [c.scalar_eq]; exact hb
  · rw [c.scalar_eq]; exact ht
  · rw [c.scalar_eq]; exact hu

/-- The conditions can be met on all five curves (with the base point as second operand). -/
example (c : Crv) (pr : Profile) : c.Represents c.goodQ c.goodQPoint ∧ c.Represents c.goodP c.base ∧
    c.RunsRight pr addP c.goodQ c.goodP := by
  have h1 := goodQ_repr c
  have h2 := goodP_repr c
  obtain ⟨-, -, -, h3, -⟩ := c.addF_sound pr h1.1.1 h2.1.1 (add_right c)
  exact ⟨h1, h2, h3 rfl⟩

/-- The sum of the base point (canonical coordinates) with itself is not on the curve, for all
five curve types: it represents no point at all. -/
theorem C26_counterexample (c : Crv) (pr : Profile) :
    c.Represents (c.baseCoords 1) c.base ∧
    ∃ r, (c.baseCoords 1).addAssign (c.scalar pr) (c.baseCoords 1) = .ok r ∧
      ∀ P : c.Point, ¬ r.ReprXYZ c.fld.Tight c.den P := by
  obtain ⟨r, h1, -, -, h2⟩ := c.addF_sound pr c.base1.1.1 c.base1.1.1 (add_base_off c)
  exact ⟨c.base1, r, h1, fun P => c.not_repr_of_offI h2 P⟩

/-- C26 fails on every curve type, in both build profiles. -/
theorem C26_statement_false : ¬ C26_statement := by
  intro h
  obtain ⟨h1, r, h2, h3⟩ := C26_counterexample .e521 .debug
  obtain ⟨r', h4, h5⟩ := h .e521 .debug _ _ _ _ h1 h1
  have e := Except.ok.inj (h2.symm.trans h4)
  exact h3 _ (e ▸ h5.1)

/-! ## C27 -/

/-- C27 in full. -/
def C27_statement : Prop := ∀ (c : Crv) (pr : Profile) (p : EdwardsExtended Elem) (P : c.Point),
  p.ReprXYZ c.fld.Tight c.den P →
    ∃ r, p.double (c.scalar pr) = .ok r ∧ c.Represents r (P + P)

/-- When all operations are in the domains where the field type is right, `double` is right,
whatever `t` is. -/
theorem C27_double_partial (c : Crv) (pr : Profile) {p : EdwardsExtended Elem} {P : c.Point}
    (hp : p.ReprXYZ c.fld.Tight c.den P) (h : c.RunsRight pr doubleP p p) :
    ∃ r, p.double (c.scalar pr) = .ok r ∧ p.doubled (c.scalar pr) = .ok r ∧
      c.Represents r (P + P) := by
  obtain ⟨r, h1, h2⟩ := double_repr (c.impl pr) hp h
  exact ⟨r, h1, h1, h2⟩

/-- For E-382, Curve41417 and E-521 the double is right when the three squares of the formula and
the doubled one have no carry. -/
theorem C27_double_carry_free_partial (c : Crv) (hc : c ≠ .e222 ∧ c ≠ .curve1174) (pr : Profile)
    {p : EdwardsExtended Elem} {P : c.Point} (hp : p.ReprXYZ c.fld.Tight c.den P)
    {a b s w : Elem} (ha : c.fld.code.squared pr p.x = .ok a)
    (hb : c.fld.code.squared pr p.y = .ok b) (hs : c.fld.code.squared pr p.z = .ok s)
    (hw : c.fld.code.smallMul pr s 2 = .ok w) (ca : c.CarryFree a) (cb : c.CarryFree b)
    (cs : c.CarryFree s) (cw : c.CarryFree w) :
    ∃ r, p.double (c.scalar pr) = .ok r ∧ c.Represents r (P + P) := by
  refine double_repr (c.impl pr) hp (c.double_safe pr hc (a := a) (b := b) (s := s) (w := w)
    ?_ ?_ ?_ ?_ ca cb cs cw)
  · rw [c.scalar_eq]; exact ha
  · rw [c.scalar_eq]; exact hb
  · rw [c.scalar_eq]; exact hs
  · rw [c.scalar_eq]; exact hw

/-- The conditions can be met on all five curves. -/
example (c : Crv) (pr : Profile) : c.Represents (c.baseCoords c.goodZ) c.base ∧
    c.RunsRight pr doubleP (c.baseCoords c.goodZ) (c.baseCoords c.goodZ) := by
  have h1 := goodZ_repr c
  obtain ⟨-, -, -, h3, -⟩ := c.doubleF_sound pr h1.1.1 (double_right c)
  exact ⟨h1, h3 rfl⟩

/-- On every curve type there are canonical coordinates of the base point whose double is not on
the curve. -/
theorem C27_counterexample (c : Crv) (pr : Profile) :
    c.Represents (c.baseCoords c.badZ) c.base ∧
    ∃ r, (c.baseCoords c.badZ).double (c.scalar pr) = .ok r ∧
      ∀ P : c.Point, ¬ r.ReprXYZ c.fld.Tight c.den P := by
  obtain ⟨r, h1, -, -, h2⟩ := c.doubleF_sound pr (badZ_repr c).1.1 (double_base_off c)
  exact ⟨badZ_repr c, r, h1, fun P => c.not_repr_of_offI h2 P⟩

theorem C27_statement_false : ¬ C27_statement := by
  intro h
  obtain ⟨h1, r, h2, h3⟩ := C27_counterexample .e521 .debug
  obtain ⟨r', h4, h5⟩ := h .e521 .debug _ _ h1.1
  have e := Except.ok.inj (h2.symm.trans h4)
  exact h3 _ (e ▸ h5.1)

/-! ## C28 -/

/-- C28 in full. -/
def C28_statement : Prop := ∀ (c : Crv) (pr : Profile) (p : EdwardsExtended Elem) (P : c.Point),
  c.Represents p P → ∃ r, p.triple (c.scalar pr) = .ok r ∧ c.Represents r (P + P + P)

/-- On the five curve types: when all operations are in the domains where the field type is right,
`triple` represents `P + P + P` exactly when the `x` coordinate of `P + P + P` is zero. -/
theorem C28_triple_partial (c : Crv) (pr : Profile) {p : EdwardsExtended Elem} {P : c.Point}
    (hp : p.ReprXYZ c.fld.Tight c.den P) (h : c.RunsRight pr tripleP p p) :
    ∃ r, p.triple (c.scalar pr) = .ok r ∧ p.tripled (c.scalar pr) = .ok r ∧
      (c.Represents r (P + P + P) ↔ (P + P + P).x = 0) :=
  triple_right_iff (c.impl pr) hp h

/-- The neutral element meets the conditions on E-382, Curve41417 and E-521. -/
example (c : Crv) (hc : c ≠ .e222 ∧ c ≠ .curve1174) (pr : Profile) :
    c.Represents (c.coords 0 1 1) (0 : c.Point) ∧
    c.RunsRight pr tripleP (c.coords 0 1 1) (c.coords 0 1 1) := by
  have h1 : c.Represents (c.coords 0 1 1) (0 : c.Point) := by
    refine Crv.represents_of_reprB (x := 0) (y := 1) (by simp) (by simp) ?_
    cases c <;> decide +kernel
  have h2 : callI c true tripleP ((c.coords 0 1 1).ints c) ((c.coords 0 1 1).ints c)
      (fun _ => true) = true := by
    rcases c with _ | _ | _ | _ | _
    · exact absurd rfl hc.1
    · exact absurd rfl hc.2
    all_goals decide +kernel
  obtain ⟨-, -, -, h3, -⟩ := c.tripleI_sound pr h1.1.1 h2
  exact ⟨h1, h3 rfl⟩

/-- On every curve type the triple of the base point (canonical coordinates, `z = 1`) is not on
the curve. -/
theorem C28_counterexample (c : Crv) (pr : Profile) :
    c.Represents (c.baseCoords 1) c.base ∧
    ∃ r, (c.baseCoords 1).triple (c.scalar pr) = .ok r ∧
      ∀ P : c.Point, ¬ r.ReprXYZ c.fld.Tight c.den P := by
  obtain ⟨r, h1, -, -, h2⟩ := c.tripleI_sound pr c.base1.1.1 (triple_base_off c)
  exact ⟨c.base1, r, h1, fun P => c.not_repr_of_offI h2 P⟩

theorem C28_statement_false : ¬ C28_statement := by
  intro h
  obtain ⟨h1, r, h2, h3⟩ := C28_counterexample .e521 .debug
  obtain ⟨r', h4, h5⟩ := h .e521 .debug _ _ h1
  have e := Except.ok.inj (h2.symm.trans h4)
  exact h3 _ (e ▸ h5.1)

/-! ## C29 -/

/-- C29 in full. -/
def C29_statement : Prop := ∀ (c : Crv) (pr : Profile) (p : EdwardsExtended Elem) (P : c.Point),
  c.Represents p P →
    (∃ r, (zero (c.scalar pr)).addAssign (c.scalar pr) p = .ok r ∧ c.Represents r P) ∧
    (∃ r, p.addAssign (c.scalar pr) (zero (c.scalar pr)) = .ok r ∧ c.Represents r P)

/-- `zero()` has the projective coordinates of the neutral element but its `t` is 1: it
represents no point. -/
theorem C29_zero (c : Crv) (pr : Profile) :
    (zero (c.scalar pr)).ReprXYZ c.fld.Tight c.den (0 : c.Point) ∧
    ∀ P : c.Point, ¬ c.Represents (zero (c.scalar pr)) P := by
  obtain ⟨z1, z2⟩ := (c.impl pr).zero
  obtain ⟨o1, o2⟩ := (c.impl pr).one
  constructor
  · refine ⟨⟨z1, o1, o1, o1⟩, ?_, ?_, ?_⟩
    · simp [zero, o2]
    · simp [zero, z2, EdPoint.zero_x]
    · simp [zero, o2, EdPoint.zero_y]
  · rintro P ⟨-, h⟩
    simp [zero, z2, o2] at h

/-- On every curve type, `zero()` plus the base point, on either side, is not on the curve. -/
theorem C29_counterexample (c : Crv) (pr : Profile) :
    c.Represents (c.baseCoords 1) c.base ∧
    (∃ r, (zero (c.scalar pr)).addAssign (c.scalar pr) (c.baseCoords 1) = .ok r ∧
      ∀ P : c.Point, ¬ r.ReprXYZ c.fld.Tight c.den P) ∧
    (∃ r, (c.baseCoords 1).addAssign (c.scalar pr) (zero (c.scalar pr)) = .ok r ∧
      ∀ P : c.Point, ¬ r.ReprXYZ c.fld.Tight c.den P) := by
  have hz := (C29_zero c pr).1.1
  have e : zero (c.scalar pr) = zero (c.scalar .debug) := by rw [c.scalar_eq, c.scalar_eq]; rfl
  have z1 := zero_add_off c
  have z2 := add_zero_off c
  rw [← e] at z1 z2
  obtain ⟨r, h1, -, -, h2⟩ := c.addF_sound pr hz c.base1.1.1 z1
  obtain ⟨r', h1', -, -, h2'⟩ := c.addF_sound pr c.base1.1.1 hz z2
  exact ⟨c.base1, ⟨r, h1, fun P => c.not_repr_of_offI h2 P⟩,
    ⟨r', h1', fun P => c.not_repr_of_offI h2' P⟩⟩

theorem C29_statement_false : ¬ C29_statement := by
  intro h
  obtain ⟨h1, ⟨r, h2, h3⟩, -⟩ := C29_counterexample .e521 .debug
  obtain ⟨r', h4, h5⟩ := (h .e521 .debug _ _ h1).1
  have e := Except.ok.inj (h2.symm.trans h4)
  exact h3 _ (e ▸ h5.1)

/-! ## C30 -/

/-- C30 in full. -/
def C30_statement : Prop := ∀ (c : Crv) (pr : Profile) (self : EdwardsExtended Elem) (x y : Elem)
  (P : c.Point), c.fld.Tight x → c.fld.Tight y → c.den x = P.x → c.den y = P.y →
    c.Represents (init (c.scalar pr) self x y) P

/-- `init` with affine coordinates of `P` gives the right projective coordinates, and represents
`P` exactly when `x y = 1` (`t` is set to 1 instead of `x y`). -/
theorem C30_init_iff (c : Crv) (pr : Profile) (self : EdwardsExtended Elem) {x y : Elem}
    {P : c.Point} (hx : c.fld.Tight x) (hy : c.fld.Tight y) (ex : c.den x = P.x)
    (ey : c.den y = P.y) :
    (init (c.scalar pr) self x y).ReprXYZ c.fld.Tight c.den P ∧
    (c.Represents (init (c.scalar pr) self x y) P ↔ P.x * P.y = 1) := by
  obtain ⟨o1, o2⟩ := (c.impl pr).one
  have h1 : (init (c.scalar pr) self x y).ReprXYZ c.fld.Tight c.den P := by
    refine ⟨⟨hx, hy, o1, o1⟩, ?_, ?_, ?_⟩
    · simp [init, o2]
    · simp [init, o2, ex]
    · simp [init, o2, ey]
  refine ⟨h1, ?_⟩
  rw [Crv.Represents, EdwardsExtended.Repr]
  simp only [h1, true_and]
  simp only [init, o2, ex, ey, one_mul]
  exact eq_comm

/-- `init` is right for points with `x y = 1`. -/
theorem C30_init_partial (c : Crv) (pr : Profile) (self : EdwardsExtended Elem) {x y : Elem}
    {P : c.Point} (hx : c.fld.Tight x) (hy : c.fld.Tight y) (ex : c.den x = P.x)
    (ey : c.den y = P.y) (h : P.x * P.y = 1) :
    c.Represents (init (c.scalar pr) self x y) P :=
  (C30_init_iff c pr self hx hy ex ey).2.2 h

/-- A point of E-222 with `x y = 1`. -/
def Crv.reciprocal : Crv.e222.Point :=
  Crv.e222.pt 1863460775810595924245899846607548782232440146005309078975797025018
    5971782397778979535918220999419832358856670615497413366957751402733 (by decide +kernel)

example : Crv.reciprocal.x * Crv.reciprocal.y = 1 ∧ ∃ x y, Crv.e222.fld.Tight x ∧
    Crv.e222.fld.Tight y ∧ Crv.e222.den x = Crv.reciprocal.x ∧
    Crv.e222.den y = Crv.reciprocal.y := by
  constructor
  · have h : (1863460775810595924245899846607548782232440146005309078975797025018 *
      5971782397778979535918220999419832358856670615497413366957751402733 - 1 : Int) %
      Crv.e222.fld.p = 0 := by decide +kernel
    rw [← Crv.cast_eq_zero] at h
    push_cast at h
    exact sub_eq_zero.1 (by exact_mod_cast h)
  · have h (x : Int) (hx : Crv.e222.fld.canonB x (Crv.e222.words x) = true) :
        Crv.e222.fld.Tight (Crv.e222.words x) ∧ Crv.e222.den (Crv.e222.words x) = (x : Crv.e222.K) := by
      have := Fld.canon_of_canonB hx
      exact ⟨this.tight, by rw [Crv.den, this.2.1]⟩
    obtain ⟨h1, h2⟩ := h 1863460775810595924245899846607548782232440146005309078975797025018
      (by decide +kernel)
    obtain ⟨h3, h4⟩ := h 5971782397778979535918220999419832358856670615497413366957751402733
      (by decide +kernel)
    exact ⟨_, _, h1, h3, h2, h4⟩

/-- `init` with the coordinates of the base point does not represent it, on any curve type. -/
theorem C30_counterexample (c : Crv) (pr : Profile) (self : EdwardsExtended Elem) :
    ¬ c.Represents (init (c.scalar pr) self c.baseX c.baseY) c.base := by
  obtain ⟨h1, h2, -⟩ := c.base_canon
  rw [(C30_init_iff c pr self h1.tight h2.tight rfl rfl).2]
  intro h
  have h' : ((c.fld.V c.baseX * c.fld.V c.baseY - 1 : Int) : c.K) = 0 := by
    push_cast
    exact sub_eq_zero.2 h
  rw [Crv.cast_eq_zero] at h'
  revert h'
  cases c <;> decide +kernel

theorem C30_statement_false : ¬ C30_statement := by
  intro h
  have (c : Crv) : False := by
    obtain ⟨h1, h2, -⟩ := c.base_canon
    exact C30_counterexample c .debug ⟨[], [], [], []⟩
      (h c .debug _ _ _ c.base h1.tight h2.tight rfl rfl)
  exact this .e521

/-! ## C33: completeness -/

/-- `d_val()` is the canonical representation of the published coefficient of the curve, the
coefficient is not a square, and the denominators of the addition law are nonzero for all points of
the curve. -/
theorem C33_complete (c : Crv) (pr : Profile) :
    c.fld.Canon (c.dInt % c.fld.p) (c.scalar pr).dVal ∧ ¬ IsSquare ((c.dInt : Int) : ZMod c.fld.pN) ∧
    ∀ x₁ y₁ x₂ y₂ : ZMod c.fld.pN, x₁ ^ 2 + y₁ ^ 2 = 1 + (c.dInt : Int) * x₁ ^ 2 * y₁ ^ 2 →
      x₂ ^ 2 + y₂ ^ 2 = 1 + (c.dInt : Int) * x₂ ^ 2 * y₂ ^ 2 →
      1 + (c.dInt : Int) * x₁ * x₂ * y₁ * y₂ ≠ 0 ∧ 1 - (c.dInt : Int) * x₁ * x₂ * y₁ * y₂ ≠ 0 := by
  refine ⟨?_, c.d_nonsquare, ?_⟩
  · rw [c.scalar_eq]; exact c.dVal_canon
  · intro x₁ y₁ x₂ y₂ h1 h2
    exact ⟨EdPoint.den_pos (⟨x₁, y₁, h1⟩ : c.Point) ⟨x₂, y₂, h2⟩,
      EdPoint.den_neg (⟨x₁, y₁, h1⟩ : c.Point) ⟨x₂, y₂, h2⟩⟩

/-! ## C34: base points -/

/-- The exported base points are canonical, lie on the curves and are not the neutral element, and
the exported orders, multiplied with them, give the neutral element. -/
theorem C34_base (c : Crv) :
    c.fld.Canon (c.fld.V c.baseX) c.baseX ∧ c.fld.Canon (c.fld.V c.baseY) c.baseY ∧
    c.fld.Canon (c.fld.V c.order) c.order ∧
    (c.fld.V c.baseX ^ 2 + c.fld.V c.baseY ^ 2 ≡
      1 + c.dInt * c.fld.V c.baseX ^ 2 * c.fld.V c.baseY ^ 2 [ZMOD c.fld.p]) ∧
    c.base.x = (c.fld.V c.baseX : Int) ∧ c.base.y = (c.fld.V c.baseY : Int) ∧ c.base ≠ 0 ∧
    (c.fld.V c.order).toNat • c.base = 0 := by
  obtain ⟨h1, h2, h3⟩ := c.base_canon
  refine ⟨h1, h2, h3, ?_, rfl, rfl, ?_, c.order_smul⟩
  · rw [Fld.modEq_iff]
    push_cast
    exact c.base_on
  · intro h
    have h' : ((c.fld.V c.baseX : Int) : c.K) = 0 := (congrArg EdPoint.x h).trans EdPoint.zero_x
    rw [Crv.cast_eq_zero] at h'
    revert h'
    cases c <;> decide +kernel

/-! ## C35: the group laws -/

/-- C35 in full. -/
def C35_statement : Prop := ∀ (c : Crv) (pr : Profile) (p q r : EdwardsExtended Elem)
  (P Q R : c.Point), c.Represents p P → c.Represents q Q → c.Represents r R →
    (∃ a b T, p.addAssign (c.scalar pr) q = .ok a ∧ q.addAssign (c.scalar pr) p = .ok b ∧
      c.Represents a T ∧ c.Represents b T) ∧
    (∃ a b a' b' T, p.addAssign (c.scalar pr) q = .ok a ∧ a.addAssign (c.scalar pr) r = .ok a' ∧
      q.addAssign (c.scalar pr) r = .ok b ∧ p.addAssign (c.scalar pr) b = .ok b' ∧
      c.Represents a' T ∧ c.Represents b' T)

/-- When all operations are in the domains where the field types are right, sums in either order
and with either grouping represent the same point. -/
theorem C35_partial (c : Crv) (pr : Profile) {p q r a b : EdwardsExtended Elem}
    {P Q R : c.Point} (hp : c.Represents p P) (hq : c.Represents q Q) (hr : c.Represents r R)
    (h1 : c.RunsRight pr addP p q) (h2 : c.RunsRight pr addP q p)
    (h3 : c.RunsRight pr addP q r) (ha : p.addAssign (c.scalar pr) q = .ok a)
    (hb : q.addAssign (c.scalar pr) r = .ok b) (h4 : c.RunsRight pr addP a r)
    (h5 : c.RunsRight pr addP p b) :
    (∃ a b T, p.addAssign (c.scalar pr) q = .ok a ∧ q.addAssign (c.scalar pr) p = .ok b ∧
      c.Represents a T ∧ c.Represents b T) ∧
    (∃ a b a' b' T, p.addAssign (c.scalar pr) q = .ok a ∧ a.addAssign (c.scalar pr) r = .ok a' ∧
      q.addAssign (c.scalar pr) r = .ok b ∧ p.addAssign (c.scalar pr) b = .ok b' ∧
      c.Represents a' T ∧ c.Represents b' T) := by
  obtain ⟨_, a1, -, a2⟩ := C26_add_partial c pr hp hq h1
  obtain ⟨d, d1, -, d2⟩ := C26_add_partial c pr hq hp h2
  obtain ⟨_, b1, -, b2⟩ := C26_add_partial c pr hq hr h3
  cases Except.ok.inj (ha.symm.trans a1)
  cases Except.ok.inj (hb.symm.trans b1)
  obtain ⟨e, e1, -, e2⟩ := C26_add_partial c pr a2 hr h4
  obtain ⟨f, f1, -, f2⟩ := C26_add_partial c pr hp b2 h5
  exact ⟨⟨a, d, P + Q, a1, d1, a2, by rw [add_comm]; exact d2⟩,
    ⟨a, b, e, f, P + Q + R, a1, e1, b1, f1, e2, by rw [add_assoc]; exact f2⟩⟩

theorem C35_statement_false : ¬ C35_statement := by
  intro h
  obtain ⟨h1, r, h2, h3⟩ := C26_counterexample .e521 .debug
  obtain ⟨⟨a, b, T, h4, -, h5, -⟩, -⟩ := h .e521 .debug _ _ _ _ _ _ h1 h1 h1
  have e := Except.ok.inj (h2.symm.trans h4)
  exact h3 _ (e ▸ h5.1)

end Verif

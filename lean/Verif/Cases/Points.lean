import Verif.Cases.Elements
import Verif.Props.RepairsNeeded
import Verif.Props.Agreement
import Verif.Props.Commute
import Verif.Props.Exceptional
import Verif.Props.Discipline
import Verif.Props.PointIntegers
import Verif.Props.FullClients

/-!
# Cases of the theorems about points

The theorems about points are applied to the base points of the five curves, in coordinates of which all four are in general position,
to a point of order four and to the neutral element.  The theorems about the generic code over a correct scalar type are applied to the
repaired types, so that they speak of words.
-/

namespace Verif
open Fld FieldCode EdwardsExtended

variable (c : Crv) (pr : Profile)

/-! ### Points -/

/-- The point `(1, 0)` of order four. -/
def four : c.Point := ⟨1, 0, by simp⟩

theorem four_repr : c.Represents (c.coords 1 0 5) (four c) := by
  refine Crv.represents_of_reprB (x := 1) (y := 0) (by simp [four]) (by simp [four]) ?_
  cases c <;> decide +kernel

theorem neutral_repr : c.Represents (c.coords 0 1 7) (0 : c.Point) := by
  refine Crv.represents_of_reprB (x := 0) (y := 1) (by simp) (by simp) ?_
  cases c <;> decide +kernel

theorem half_repr : c.Represents (c.coords 0 (-1) 9) (halfPoint c.fld.pN c.d) := by
  refine Crv.represents_of_reprB (x := 0) (y := -1) (by simp [halfPoint]) (by simp [halfPoint]) ?_
  cases c <;> decide +kernel

/-- Products exist. -/
theorem mul_some {a b : Elem} (ha : c.fld.Tight a) (hb : c.fld.Tight b) : ∃ r, c.fld.code.mul pr a b = .ok r ∧ c.fld.Tight r := by
  obtain ⟨r, h, ht, -⟩ := C41_mul_value c.fld pr ha.loose hb.loose
  exact ⟨r, h, ht⟩

theorem base_canonical : c.RepresentsCanonically (c.baseCoords 1) c.base := by
  obtain ⟨⟨-, z0, ex, ey⟩, et⟩ := c.base1
  refine ⟨⟨?_, z0, ex, ey⟩, et⟩
  refine ⟨?_, ?_, ?_, ?_⟩ <;> refine canon_of_canonB ?_ <;> cases c <;> decide +kernel

/-! ### C26 -/

example := C26_law c.base (four c)

/-- Of words: the repaired types are a correct scalar type. -/
example := C26_add_exact_partial (Repaired.lawful c pr) c.base1 (four_repr c)

example : ∃ r, c.goodQ.addAssign (c.scalar pr) c.goodP = .ok r ∧ c.goodQ.add (c.scalar pr) c.goodP = .ok r ∧
    c.Represents r (c.goodQPoint + c.base) := by
  obtain ⟨-, -, -, h, -⟩ := c.addF_sound pr (goodQ_repr c).1.1 (goodP_repr c).1.1 (add_right c)
  exact C26_add_partial c pr (goodQ_repr c) (goodP_repr c) (h rfl)

theorem base3 : c.Represents (c.baseCoords 3) c.base := by
  apply Crv.baseCoords_repr
  cases c <;> decide +kernel

/-- The value of a product of elements with product `x`, on three curves. -/
def red (x : Int) : Int := x - c.fld.p * (x / 2 ^ c.fld.n + c.fld.c * (x / 2 ^ c.fld.n / 2 ^ (c.fld.L * (c.fld.k - 1))) / 2 ^ c.fld.tb)

theorem mul_red (hc : c ≠ .e222 ∧ c ≠ .curve1174) {a b : Elem} (ha : c.fld.Tight a) (hb : c.fld.Tight b) :
    ∃ r, c.fld.code.mul pr a b = .ok r ∧ c.fld.Tight r ∧ c.fld.V r = red c (c.fld.V a * c.fld.V b) := by
  rcases c with _ | _ | _ | _ | _
  · exact absurd rfl hc.1
  · exact absurd rfl hc.2
  · exact C41_mul_value .e382_105 pr ha.loose hb.loose
  · exact C41_mul_value .e414_17 pr ha.loose hb.loose
  · exact C41_mul_value .e521_1 pr ha.loose hb.loose

theorem square_red (hc : c ≠ .e222 ∧ c ≠ .curve1174) {a : Elem} (ha : c.fld.Tight a) :
    ∃ r, c.fld.code.squared pr a = .ok r ∧ c.fld.Tight r ∧ c.fld.V r = red c (c.fld.V a * c.fld.V a) := by
  have h : c.fld.code.squared pr a = c.fld.code.mul pr a a :=
    (C41_square_eq_mul c.fld pr ha).2 fun h => by
      rcases c with _ | _ | _ | _ | _ <;> first | exact absurd rfl hc.2 | cases h
  rw [h]
  exact mul_red c pr hc ha ha

theorem d_tight : c.fld.Tight c.dElem := by
  have := (c.impl .debug).dVal.1
  rw [c.scalar_eq] at this
  exact this

/-- The products of `baseCoords 3 + baseCoords 1` have no carry. -/
theorem good_products (hc : c ≠ .e222 ∧ c ≠ .curve1174) : ∃ a b t u, c.fld.code.mul pr (c.baseCoords 3).x (c.baseCoords 1).x = .ok a ∧
    c.fld.code.mul pr (c.baseCoords 3).y (c.baseCoords 1).y = .ok b ∧ c.fld.code.mul pr (c.baseCoords 3).t c.dElem = .ok t ∧
    c.fld.code.mul pr t (c.baseCoords 1).t = .ok u ∧ c.CarryFree a ∧ c.CarryFree b ∧ c.CarryFree u := by
  obtain ⟨kx, ky, -, kt⟩ := (base3 c).1.1
  obtain ⟨lx, ly, -, lt⟩ := c.base1.1.1
  obtain ⟨a, ha, -, va⟩ := mul_red c pr hc kx lx
  obtain ⟨b, hb, -, vb⟩ := mul_red c pr hc ky ly
  obtain ⟨t, ht, tt, vt⟩ := mul_red c pr hc kt (d_tight c)
  obtain ⟨u, hu, -, vu⟩ := mul_red c pr hc tt lt
  refine ⟨a, b, t, u, ha, hb, ht, hu, ?_, ?_, ?_⟩ <;> unfold Crv.CarryFree
  · rw [va]
    rcases c with _ | _ | _ | _ | _ <;> first | exact absurd rfl hc.1 | exact absurd rfl hc.2 | decide +kernel
  · rw [vb]
    rcases c with _ | _ | _ | _ | _ <;> first | exact absurd rfl hc.1 | exact absurd rfl hc.2 | decide +kernel
  · rw [vu, vt]
    rcases c with _ | _ | _ | _ | _ <;> first | exact absurd rfl hc.1 | exact absurd rfl hc.2 | decide +kernel

example (hc : c ≠ .e222 ∧ c ≠ .curve1174) :
    ∃ r, (c.baseCoords 3).addAssign (c.scalar pr) (c.baseCoords 1) = .ok r ∧ c.Represents r (c.base + c.base) := by
  obtain ⟨a, b, t, u, ha, hb, ht, hu, h1, h2, h3⟩ := good_products c pr hc
  exact C26_add_carry_free_partial c hc pr (base3 c) c.base1 ha hb ht hu h1 h2 h3

/-- Both outcomes of the test: `baseCoords 3 + baseCoords 1` is right, `baseCoords 1 + baseCoords 1` is not. -/
example (hc : c ≠ .e222 ∧ c ≠ .curve1174) : (∃ a b u, c.CarryFree a ∧ c.CarryFree b ∧ c.CarryFree u ∧
      c.fld.code.mul pr (c.baseCoords 3).x (c.baseCoords 1).x = .ok a ∧ c.fld.code.mul pr (c.baseCoords 3).y (c.baseCoords 1).y = .ok b) ∧
    ∃ a b u, c.fld.code.mul pr (c.baseCoords 1).x (c.baseCoords 1).x = .ok a ∧
      c.fld.code.mul pr (c.baseCoords 1).y (c.baseCoords 1).y = .ok b ∧ ¬ (c.CarryFree a ∧ c.CarryFree b ∧ c.CarryFree u) := by
  constructor
  · obtain ⟨a, b, t, u, ha, hb, ht, hu, h1, h2, h3⟩ := good_products c pr hc
    have px : 0 ≤ c.fld.V (c.baseCoords 3).x ∧ 0 ≤ c.fld.V (c.baseCoords 3).y := by cases c <;> decide +kernel
    obtain ⟨qx, qy⟩ := base1_nonneg c
    have h := (C26_add_nonneg_iff c hc pr (base3 c) c.base1 px.1 px.2 qx qy ha hb ht hu).1
      (C26_add_carry_free_partial c hc pr (base3 c) c.base1 ha hb ht hu h1 h2 h3)
    exact ⟨a, b, u, h.1, h.2.1, h3, ha, hb⟩
  · obtain ⟨kx, ky, -, kt⟩ := c.base1.1.1
    obtain ⟨a, ha, -⟩ := mul_some c pr kx kx
    obtain ⟨b, hb, -⟩ := mul_some c pr ky ky
    have hd : c.fld.Tight c.dElem := d_tight c
    obtain ⟨m, hm, tm⟩ := mul_some c pr kt hd
    obtain ⟨u, hu, -⟩ := mul_some c pr tm kt
    obtain ⟨qx, qy⟩ := base1_nonneg c
    refine ⟨a, b, u, ha, hb, fun h => ?_⟩
    obtain ⟨r, h1, h2⟩ := (C26_add_nonneg_iff c hc pr c.base1 c.base1 qx qy qx qy ha hb hm hu).2 ⟨h.1, h.2.1, .inl h.2.2⟩
    obtain ⟨-, r', h1', h2'⟩ := C26_counterexample c pr
    obtain rfl : r = r' := Except.ok.inj (h1.symm.trans h1')
    exact h2' _ h2.1

/-- The carries of a wrong sum. -/
example (hc : c ≠ .e222 ∧ c ≠ .curve1174) : ∃ a b m u, c.fld.code.mul pr (c.baseCoords 1).x (c.baseCoords 1).x = .ok a ∧
    c.fld.code.mul pr (c.baseCoords 1).y (c.baseCoords 1).y = .ok b ∧ c.fld.code.mul pr (c.baseCoords 1).t c.dElem = .ok m ∧
    c.fld.code.mul pr m (c.baseCoords 1).t = .ok u ∧
    ¬ (c.fld.V a / 2 ^ c.fld.n + c.fld.V b / 2 ^ c.fld.n = 0 ∧ c.fld.V u / 2 ^ c.fld.n = 0 ∧ c.fld.V a / 2 ^ c.fld.n = 0 ∧
      1 - c.d * c.den (c.baseCoords 1).t * c.den (c.baseCoords 1).t ≠ 0) := by
  obtain ⟨kx, ky, -, kt⟩ := c.base1.1.1
  obtain ⟨a, ha, -⟩ := mul_some c pr kx kx
  obtain ⟨b, hb, -⟩ := mul_some c pr ky ky
  have hd : c.fld.Tight c.dElem := d_tight c
  obtain ⟨m, hm, tm⟩ := mul_some c pr kt hd
  obtain ⟨u, hu, -⟩ := mul_some c pr tm kt
  refine ⟨a, b, m, u, ha, hb, hm, hu, fun ⟨e1, e2, e3, e4⟩ => ?_⟩
  have hz : c.den (c.baseCoords 1).z = 1 := by
    have : c.fld.V (c.baseCoords 1).z = 1 := by cases c <;> decide +kernel
    rw [Crv.den, this, Int.cast_one]
  obtain ⟨r, h1, h2⟩ := (C26_add_correct_iff c hc pr c.base1 c.base1 ha hb hm hu rfl rfl rfl).2 ⟨e1, by
    rw [e2, hz]; push_cast; rw [mul_zero, add_zero, one_mul]; exact e4, by rw [e2, e3]; push_cast; ring⟩
  obtain ⟨-, r', h1', h2'⟩ := C26_counterexample c pr
  obtain rfl : r = r' := Except.ok.inj (h1.symm.trans h1')
  exact h2' _ h2.1

/-- The coordinates of the sum of the base point and the point of order four. -/
example (hc : c ≠ .e222 ∧ c ≠ .curve1174) : ∃ r, (c.baseCoords 1).addAssign (c.scalar pr) (c.coords 1 0 5) = .ok r ∧
    r.Ok c.fld.Tight := by
  obtain ⟨kx, ky, -, kt⟩ := c.base1.1.1
  obtain ⟨lx, ly, -, lt⟩ := (four_repr c).1.1
  obtain ⟨a, ha, -⟩ := mul_some c pr kx lx
  obtain ⟨b, hb, -⟩ := mul_some c pr ky ly
  have hd : c.fld.Tight c.dElem := d_tight c
  obtain ⟨m, hm, tm⟩ := mul_some c pr kt hd
  obtain ⟨u, hu, -⟩ := mul_some c pr tm lt
  obtain ⟨r, h, h', -⟩ := C26_add_value c hc pr c.base1.1.1 (four_repr c).1.1 ha hb hm hu rfl rfl rfl rfl rfl rfl rfl
  exact ⟨r, h, h'⟩

/-! ### C27 and C28 -/

example := C27_double_exact_partial (Repaired.lawful c pr) c.base1.1

example : ∃ r, (c.baseCoords c.goodZ).double (c.scalar pr) = .ok r ∧ (c.baseCoords c.goodZ).doubled (c.scalar pr) = .ok r ∧
    c.Represents r (c.base + c.base) := by
  obtain ⟨-, -, -, h, -⟩ := c.doubleF_sound pr (goodZ_repr c).1.1 (double_right c)
  exact C27_double_partial c pr (goodZ_repr c).1 (h rfl)

/-- The squares of the coordinates with `z = goodZ` have no carry. -/
theorem good_squares (hc : c ≠ .e222 ∧ c ≠ .curve1174) : ∃ a b s w, c.fld.code.squared pr (c.baseCoords c.goodZ).x = .ok a ∧
    c.fld.code.squared pr (c.baseCoords c.goodZ).y = .ok b ∧ c.fld.code.squared pr (c.baseCoords c.goodZ).z = .ok s ∧
    c.fld.code.smallMul pr s 2 = .ok w ∧ c.CarryFree a ∧ c.CarryFree b ∧ c.CarryFree s ∧ c.CarryFree w := by
  obtain ⟨kx, ky, kz, -⟩ := (goodZ_repr c).1.1
  obtain ⟨a, ha, -, va⟩ := square_red c pr hc kx
  obtain ⟨b, hb, -, vb⟩ := square_red c pr hc ky
  obtain ⟨s, hs, ts, vs⟩ := square_red c pr hc kz
  obtain ⟨w, hw, -, vw, hd, hd'⟩ := C67_small_mul c.fld ts (n := 2) (by simp [IsI32])
  have hs2 : c.fld.mulSure (c.fld.V s) 2 = true := by
    rw [vs]
    rcases c with _ | _ | _ | _ | _ <;> first | exact absurd rfl hc.1 | exact absurd rfl hc.2 | decide +kernel
  refine ⟨a, b, s, w, ha, hb, hs, by cases pr; exacts [hd' hs2, hw], ?_, ?_, ?_, ?_⟩ <;> unfold Crv.CarryFree
  · rw [va]
    rcases c with _ | _ | _ | _ | _ <;> first | exact absurd rfl hc.1 | exact absurd rfl hc.2 | decide +kernel
  · rw [vb]
    rcases c with _ | _ | _ | _ | _ <;> first | exact absurd rfl hc.1 | exact absurd rfl hc.2 | decide +kernel
  · rw [vs]
    rcases c with _ | _ | _ | _ | _ <;> first | exact absurd rfl hc.1 | exact absurd rfl hc.2 | decide +kernel
  · rw [vw, vs]
    rcases c with _ | _ | _ | _ | _ <;> first | exact absurd rfl hc.1 | exact absurd rfl hc.2 | decide +kernel

example (hc : c ≠ .e222 ∧ c ≠ .curve1174) :
    ∃ r, (c.baseCoords c.goodZ).double (c.scalar pr) = .ok r ∧ c.Represents r (c.base + c.base) := by
  obtain ⟨a, b, s, w, ha, hb, hs, hw, h1, h2, h3, h4⟩ := good_squares c pr hc
  exact C27_double_carry_free_partial c hc pr (goodZ_repr c).1 ha hb hs hw h1 h2 h3 h4

example (hc : c ≠ .e222 ∧ c ≠ .curve1174) : ∃ r, (c.baseCoords c.goodZ).double (c.scalar pr) = .ok r ∧ r.Ok c.fld.Tight := by
  obtain ⟨a, b, s, w, ha, hb, hs, hw, -⟩ := good_squares c pr hc
  obtain ⟨r, h, h', -⟩ := C27_double_value c hc pr (goodZ_repr c).1.1 ha hb hs hw rfl rfl rfl rfl rfl rfl rfl
  exact ⟨r, h, h'⟩

/-- The test passes for these coordinates, and not for those with `z = badZ`. -/
example (hc : c ≠ .e222 ∧ c ≠ .curve1174) : (∃ s, c.fld.code.squared pr (c.baseCoords c.goodZ).z = .ok s ∧
      (2 * c.fld.V s < 2 ^ c.fld.n ∨ (c.base + c.base).y = 0)) ∧
    ∀ a b s w, c.fld.code.squared pr (c.baseCoords c.badZ).x = .ok a → c.fld.code.squared pr (c.baseCoords c.badZ).y = .ok b →
      c.fld.code.squared pr (c.baseCoords c.badZ).z = .ok s → c.fld.code.smallMul pr s 2 = .ok w →
      ¬ (c.CarryFree a ∧ c.CarryFree b ∧ 2 * c.fld.V s < 2 ^ c.fld.n) := by
  constructor
  · obtain ⟨a, b, s, w, ha, hb, hs, hw, h1, h2, h3, h4⟩ := good_squares c pr hc
    obtain ⟨-, -, h⟩ := (C27_double_correct_iff c hc pr (goodZ_repr c).1 ha hb hs hw).1
      (C27_double_carry_free_partial c hc pr (goodZ_repr c).1 ha hb hs hw h1 h2 h3 h4)
    exact ⟨s, hs, h.imp id And.left⟩
  · intro a b s w ha hb hs hw h
    obtain ⟨hr, r', h1', h2'⟩ := C27_counterexample c pr
    obtain ⟨r, h1, h2⟩ := (C27_double_correct_iff c hc pr hr.1 ha hb hs hw).2 ⟨h.1, h.2.1, .inl h.2.2⟩
    obtain rfl : r = r' := Except.ok.inj (h1.symm.trans h1')
    exact h2' _ h2.1

/-- The triple of the base point is wrong even with correct scalars, that of the neutral element right. -/
example : (∃ r, (c.baseCoords 1).triple (Repaired.scalar c pr) = .ok r ∧ ¬ c.Represents r (c.base + c.base + c.base)) ∧
    ∃ r, (c.coords 0 1 7).triple (Repaired.scalar c pr) = .ok r ∧ c.Represents r (0 + 0 + 0) := by
  obtain ⟨r, h1, -, h2⟩ := C28_triple_exact_iff (Repaired.lawful c pr) c.base1.1
  obtain ⟨s, h3, -, h4⟩ := C28_triple_exact_iff (Repaired.lawful c pr) (neutral_repr c).1
  refine ⟨?_, s, h3, h4.2 (by simp)⟩
  obtain ⟨r', k1, k2, -⟩ := C66_triple c pr
  exact ⟨r', k1, k2⟩

example (hc : c ≠ .e222 ∧ c ≠ .curve1174) : ∃ r, (c.coords 0 1 1).triple (c.scalar pr) = .ok r ∧ c.Represents r (0 + 0 + 0) := by
  have h1 : c.Represents (c.coords 0 1 1) (0 : c.Point) := by
    refine Crv.represents_of_reprB (x := 0) (y := 1) (by simp) (by simp) ?_
    cases c <;> decide +kernel
  have h2 : callI c true tripleP ((c.coords 0 1 1).ints c) ((c.coords 0 1 1).ints c) (fun _ => true) = true := by
    rcases c with _ | _ | _ | _ | _
    · exact absurd rfl hc.1
    · exact absurd rfl hc.2
    all_goals decide +kernel
  obtain ⟨-, -, -, h3, -⟩ := c.tripleI_sound pr h1.1.1 h2
  obtain ⟨r, h4, -, h5⟩ := C28_triple_partial c pr h1.1 (h3 rfl)
  exact ⟨r, h4, h5.2 (by simp)⟩

/-! ### C29 to C32 -/

example := C29_zero_exact (Repaired.lawful c pr) c.base

/-- `zero() + p` for the point of order four. -/
example : ∃ r, (zero (Repaired.scalar c pr)).addAssign (Repaired.scalar c pr) (c.coords 1 0 5) = .ok r ∧ c.Represents r (four c) := by
  obtain ⟨r, h1, h2⟩ := C29_zero_add_exact_iff (Repaired.lawful c pr) (four_repr c)
  exact ⟨r, h1, h2.2 (by simp [four])⟩

example (hc : c ≠ .e222 ∧ c ≠ .curve1174) :
    ∃ r, (zero (c.scalar pr)).addAssign (c.scalar pr) (c.coords 1 0 5) = .ok r ∧ c.Represents r (four c) :=
  (C29_zero_add_partial c hc pr (four_repr c) (by unfold Crv.CarryFree; cases c <;> decide +kernel)
    (by cases c <;> decide +kernel)).1.2 (by simp [four])

example : ¬ c.Represents (init (c.scalar pr) (c.baseCoords 3) c.baseX c.baseY) c.base ∧ c.base.x * c.base.y ≠ 1 := by
  have h := C30_counterexample c pr (c.baseCoords 3)
  obtain ⟨h1, h2, -⟩ := c.base_canon
  exact ⟨h, fun e => h ((C30_init_iff c pr (c.baseCoords 3) h1.tight h2.tight rfl rfl).2.2 e)⟩

example : ∃ x y : Elem, Crv.e222.Represents (init (Crv.e222.scalar pr) (Crv.e222.baseCoords 3) x y) Crv.reciprocal := by
  have h (x : Int) (hx : Crv.e222.fld.canonB x (Crv.e222.words x) = true) :
      Crv.e222.fld.Tight (Crv.e222.words x) ∧ Crv.e222.den (Crv.e222.words x) = (x : Crv.e222.K) := by
    have := Fld.canon_of_canonB hx
    exact ⟨this.tight, by rw [Crv.den, this.2.1]⟩
  obtain ⟨h1, h2⟩ := h 1863460775810595924245899846607548782232440146005309078975797025018 (by decide +kernel)
  obtain ⟨h3, h4⟩ := h 5971782397778979535918220999419832358856670615497413366957751402733 (by decide +kernel)
  have k : (1863460775810595924245899846607548782232440146005309078975797025018 *
      5971782397778979535918220999419832358856670615497413366957751402733 - 1 : Int) % Crv.e222.fld.p = 0 := by decide +kernel
  rw [← Crv.cast_eq_zero] at k
  push_cast at k
  exact ⟨_, _, C30_init_partial .e222 pr _ h1 h3 h2 h4 (sub_eq_zero.1 (by exact_mod_cast k))⟩

example := C30_init_exact_iff (Repaired.lawful c pr) (c.baseCoords 3) (P := c.base) (x := c.baseX) (y := c.baseY)
  ⟨c.base_canon.1.tight, rfl⟩ ⟨c.base_canon.2.1.tight, rfl⟩

/-- The ladder on words of the repaired types, with a scalar that is not reduced. -/
example := C31_ladder_exact (Repaired.lawful c pr) (up_tight c.fld)
  (s := ⟨c.coords 0 1 7, c.baseCoords 1, c.baseCoords 1, c.baseCoords 1, 0, false, up c.fld, up c.fld⟩) (neutral_repr c) c.base1

example := C31_ladder_exact_partial (Repaired.lawful c pr) (up_tight c.fld)
  (s := ⟨c.coords 0 1 7, c.baseCoords 1, c.baseCoords 1, c.baseCoords 1, 0, false, up c.fld, up c.fld⟩) (neutral_repr c) c.base1

example := C31_scalar_mult_exact (Repaired.lawful c pr) (up_tight c.fld) (four_repr c) (by simp [four])

/-- `scalar_mult` of the point of order four is wrong, that of the neutral element is right. -/
example : (∃ r k', (c.coords 1 0 5).scalarMult (Repaired.scalar c pr) (up c.fld) = .ok (r, k') ∧
      ¬ c.Represents r ((c.den (up c.fld)).val • four c)) ∧
    ∃ r k', (c.coords 0 1 7).scalarMult (Repaired.scalar c pr) (up c.fld) = .ok (r, k') ∧
      c.Represents r ((c.den (up c.fld)).val • (0 : c.Point)) := by
  have h2 : 2 ≤ (Repaired.scalar c pr).nbits := by cases c <;> exact Nat.le_of_ble_eq_true rfl
  obtain ⟨r, k', h3, h4⟩ := C31_scalar_mult_exact_partial (Repaired.lawful c pr) h2 (up_tight c.fld) (four_repr c) (by simp [four])
  obtain ⟨s, l', h5, h6⟩ := C31_scalar_mult_exact_partial (Repaired.lawful c pr) h2 (up_tight c.fld) (neutral_repr c) (by simp)
  refine ⟨⟨r, k', h3, fun h => ?_⟩, s, l', h5, h6.2 rfl⟩
  have h := congrArg EdPoint.y (h4.1 h)
  simp [four] at h

example := C31_exact_counterexample (Repaired.lawful c pr) (k := c.fld.code.ZERO) (zero_canon c.fld).tight
  (by rw [Crv.den, (zero_canon c.fld).2.1, Int.cast_zero]) (half_repr c)

example : ∃ r ev, (c.baseCoords 1).scalarMultNormalizedT (c.scalar pr) c.order = .ok (r, ev) ∧
    ∀ e ∈ ev, e.iter < c.fld.n := by
  obtain ⟨r, ev, h, -⟩ := C32_total c pr c.base1.1.1 (k := c.order) (by cases c <;> rfl)
  refine ⟨r, ev, h, fun e he => ?_⟩
  have := ((C32_operations _ h).1 e he).1
  have hn : (c.scalar pr).nbits = c.fld.n := by cases c <;> rfl
  rwa [hn] at this

/-! ### C35 -/

example := C35_exact_partial (Repaired.lawful c pr) c.base1 (four_repr c) (half_repr c)

/-- Three coordinates of the base point of E-382. -/
example : ∃ a b a' b' T, (Crv.e382.baseCoords 1).addAssign (Crv.e382.scalar pr) (Crv.e382.baseCoords 4) = .ok a ∧
    a.addAssign (Crv.e382.scalar pr) (Crv.e382.baseCoords 2) = .ok a' ∧
    (Crv.e382.baseCoords 4).addAssign (Crv.e382.scalar pr) (Crv.e382.baseCoords 2) = .ok b ∧
    (Crv.e382.baseCoords 1).addAssign (Crv.e382.scalar pr) b = .ok b' ∧ Crv.e382.Represents a' T ∧ Crv.e382.Represents b' T := by
  have r1 := Crv.base1 .e382
  have r2 : Crv.e382.Represents (Crv.e382.baseCoords 4) Crv.e382.base := Crv.baseCoords_repr (by decide +kernel)
  have r3 : Crv.e382.Represents (Crv.e382.baseCoords 2) Crv.e382.base := Crv.baseCoords_repr (by decide +kernel)
  obtain ⟨a, ha, ta, h1, ka⟩ := Crv.e382.addF_sound pr r1.1.1 r2.1.1 (chk := true)
    (k := fun s => addF .e382 true s ((Crv.e382.baseCoords 2).ints .e382) fun _ => true) (by decide +kernel)
  obtain ⟨-, -, -, h2, -⟩ := Crv.e382.addF_sound pr r2.1.1 r1.1.1 (chk := true) (k := fun _ => true) (by decide +kernel)
  obtain ⟨b, hb, tb, h3, kb⟩ := Crv.e382.addF_sound pr r2.1.1 r3.1.1 (chk := true)
    (k := fun s => addF .e382 true ((Crv.e382.baseCoords 1).ints .e382) s fun _ => true) (by decide +kernel)
  obtain ⟨-, -, -, h4, -⟩ := Crv.e382.addF_sound pr ta r3.1.1 ka
  obtain ⟨-, -, -, h5, -⟩ := Crv.e382.addF_sound pr r1.1.1 tb kb
  exact (C35_partial .e382 pr r1 r2 r3 (h1 rfl) (h2 rfl) (h3 rfl) ha hb (h4 rfl) (h5 rfl)).2

/-- The two orders of adding the base point and the point of order four. -/
example (hc : c ≠ .e222 ∧ c ≠ .curve1174) : ∃ r s, (c.baseCoords 1).addAssign (c.scalar pr) (c.coords 1 0 5) = .ok r ∧
    (c.coords 1 0 5).addAssign (c.scalar pr) (c.baseCoords 1) = .ok s ∧ c.den r.x * c.den s.z = c.den s.x * c.den r.z := by
  obtain ⟨kx, -, -, kt⟩ := c.base1.1.1
  obtain ⟨lx, -, -, lt⟩ := (four_repr c).1.1
  have hd : c.fld.Tight c.dElem := d_tight c
  obtain ⟨a, ha, -⟩ := mul_some c pr kx lx
  obtain ⟨m, hm, tm⟩ := mul_some c pr kt hd
  obtain ⟨u, hu, -⟩ := mul_some c pr tm lt
  obtain ⟨m', hm', tm'⟩ := mul_some c pr lt hd
  obtain ⟨u', hu', -⟩ := mul_some c pr tm' kt
  obtain ⟨r, s, h1, h2, h3, -⟩ := C35_commute_iff c hc pr c.base1.1.1 (four_repr c).1.1 ha hm hu hm' hu' rfl rfl rfl
  exact ⟨r, s, h1, h2, h3⟩

/-! ### C47, C57, C63 and C65 -/

example := C47_add c pr (base_canonical c) (base_canonical c)

example := C47_double c pr (base_canonical c).1

example := C57_points c pr c.base1 (four_repr c)

example := C57_scalar_mult c pr c.base1 (down_tight c.fld)

example := C63_ladder_exact_partial (Repaired.lawful c pr) (up_tight c.fld) (down_tight c.fld)
  (s := ⟨c.coords 0 1 7, c.baseCoords 1, c.baseCoords 1, c.baseCoords 1, 0, false, up c.fld, up c.fld⟩) (neutral_repr c) c.base1

example := C63_scalar_mult_exact_partial (Repaired.lawful c pr) (up_tight c.fld) (down_tight c.fld) (four_repr c) (by simp [four])

example := C63_repaired c pr c.base1 (up_tight c.fld) (down_tight c.fld)

example := C65_operations c pr c.base1.1.1 (four_repr c).1.1 (down_tight c.fld)

example := C65_right_iff c pr c.base1 (four_repr c) (down_tight c.fld)

end Verif

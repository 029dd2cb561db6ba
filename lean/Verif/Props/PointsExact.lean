import Verif.Curve.Values
import Verif.Props.SmallMulAll
import Verif.Props.Products

/-!
# C26, C27 and C29 on E-382, Curve41417 and E-521: exactly when sums and doubles are right

The `carry_free` theorems in `Props/Points.lean` give conditions under which `+` and `double` are
right.  Here the coordinates of the results are given exactly, for all coordinates, on the curve or
not, and the conditions become equivalences.
-/

namespace Verif
open EdwardsExtended Fld

namespace Crv
variable (c : Crv)

theorem int_cast_zero {x : Int} (h1 : -2 ^ 199 ≤ x) (h2 : x ≤ 2 ^ 199) :
    ((x : Int) : c.K) = 0 ↔ x = 0 := by
  constructor
  · intro h
    have h' : x ≡ 0 [ZMOD c.fld.p] := Fld.modEq_iff.2 (by simpa using h)
    exact eq_zero_of_dvd (Int.modEq_zero_iff_dvd.1 h') h1 h2
  · rintro rfl; simp

theorem two_c_ne : (2 * c.fld.c : c.K) ≠ 0 := by
  have hc : (c.fld.c : Int) < 256 := by exact_mod_cast c.fld.c_lt
  have hc1 : (1 : Int) ≤ c.fld.c := by exact_mod_cast c.fld.c_pos
  intro h
  have := (c.int_cast_zero (x := 2 * c.fld.c) (by omega) (by omega)).1 (by push_cast; exact h)
  omega

theorem carry_eq_zero {a : Elem} (h : c.fld.Tight a) : c.carry a = 0 ↔ c.CarryFree a := by
  have := h.carry_small
  rw [carry, c.int_cast_zero (by omega) (by omega), carry_zero_iff, CarryFree]

end Crv

/-! ## C26 -/

/-- The coordinates of `p + q`, whatever the coordinates of `p` and `q` are: `a`, `b`, `u` being
the products with these names in the code, `k_a`, `k_b`, `k_u` what they have above `2 ^ n`, the
code computes the unified addition formulas with `E`, `F` and `H` off by `2 c (k_a + k_b)`,
`2 c k_u` and `2 c k_a`. -/
theorem C26_add_value (c : Crv) (hc : c ≠ .e222 ∧ c ≠ .curve1174) (pr : Profile)
    {p q : EdwardsExtended Elem} (hp : p.Ok c.fld.Tight) (hq : q.Ok c.fld.Tight) {a b m u : Elem}
    (ha : c.fld.code.mul pr p.x q.x = .ok a) (hb : c.fld.code.mul pr p.y q.y = .ok b)
    (hm : c.fld.code.mul pr p.t c.dElem = .ok m) (hu : c.fld.code.mul pr m q.t = .ok u)
    {E F G H : c.K} {ka kb ku : Int} (hka : ka = c.fld.V a / 2 ^ c.fld.n)
    (hkb : kb = c.fld.V b / 2 ^ c.fld.n) (hku : ku = c.fld.V u / 2 ^ c.fld.n)
    (hE : E = c.den p.x * c.den q.y + c.den p.y * c.den q.x + 2 * c.fld.c * (ka + kb))
    (hF : F = c.den p.z * c.den q.z - c.d * c.den p.t * c.den q.t + 2 * c.fld.c * ku)
    (hG : G = c.den p.z * c.den q.z + c.d * c.den p.t * c.den q.t)
    (hH : H = c.den p.y * c.den q.y - c.den p.x * c.den q.x + 2 * c.fld.c * ka) :
    ∃ r, p.addAssign (c.scalar pr) q = .ok r ∧ r.Ok c.fld.Tight ∧ c.den r.x = E * F ∧
      c.den r.y = G * H ∧ c.den r.z = F * G ∧ c.den r.t = E * H := by
  have e := c.scalar_eq pr
  exact c.add_value hc pr hp hq (by rw [e]; exact ha) (by rw [e]; exact hb)
    (by rw [e]; exact hm) (by rw [e]; exact hu) (by rw [hE, hka, hkb]; rfl)
    (by rw [hF, hku]; rfl) hG (by rw [hH, hka]; rfl)

/-- For representations of points `P` and `Q`, `p + q` represents `P + Q` exactly when the errors
in `E` cancel, `z` is not zero, and the errors in `F` and `H` are in the ratio of `F` to `H`. -/
theorem C26_add_correct_iff (c : Crv) (hc : c ≠ .e222 ∧ c ≠ .curve1174) (pr : Profile)
    {p q : EdwardsExtended Elem} {P Q : c.Point} (hp : c.Represents p P) (hq : c.Represents q Q)
    {a b m u : Elem} (ha : c.fld.code.mul pr p.x q.x = .ok a)
    (hb : c.fld.code.mul pr p.y q.y = .ok b) (hm : c.fld.code.mul pr p.t c.dElem = .ok m)
    (hu : c.fld.code.mul pr m q.t = .ok u)
    {ka kb ku : Int} (hka : ka = c.fld.V a / 2 ^ c.fld.n)
    (hkb : kb = c.fld.V b / 2 ^ c.fld.n) (hku : ku = c.fld.V u / 2 ^ c.fld.n) :
    (∃ r, p.addAssign (c.scalar pr) q = .ok r ∧ c.Represents r (P + Q)) ↔
      ka + kb = 0 ∧
      c.den p.z * c.den q.z - c.d * c.den p.t * c.den q.t + 2 * c.fld.c * ku ≠ 0 ∧
      ka * (c.den p.z * c.den q.z - c.d * c.den p.t * c.den q.t) =
        ku * (c.den p.y * c.den q.y - c.den p.x * c.den q.x) := by
  obtain ⟨r, h1, h2, hx, hy, hz, ht⟩ := C26_add_value c hc pr hp.1.1 hq.1.1 ha hb hm hu hka hkb hku
    rfl rfl rfl rfl
  have tA : -4 ≤ ka + kb ∧ ka + kb ≤ 4 := by
    obtain ⟨a', h, ta, -⟩ := c.mul_den hc pr hp.1.1.1 hq.1.1.1
    rw [c.scalar_eq] at h
    obtain rfl : a = a' := Except.ok.inj (ha.symm.trans h)
    obtain ⟨b', h, tb, -⟩ := c.mul_den hc pr hp.1.1.2.1 hq.1.1.2.1
    rw [c.scalar_eq] at h
    obtain rfl : b = b' := Except.ok.inj (hb.symm.trans h)
    have := ta.carry_small
    have := tb.carry_small
    omega
  have hk : ((ka : c.K) + kb) = 0 ↔ ka + kb = 0 := by
    rw [← c.int_cast_zero (x := ka + kb) (by omega) (by omega)]; push_cast; rfl
  rw [← hk]
  have t1 := hp.t_eq
  have t2 := hq.t_eq
  obtain ⟨⟨-, z1, x1, y1⟩, -⟩ := hp
  obtain ⟨⟨-, z2, x2, y2⟩, -⟩ := hq
  have dp := EdPoint.den_pos P Q
  have dm := EdPoint.den_neg P Q
  have hc2 := c.two_c_ne
  have ex := EdPoint.add_x P Q
  have ey := EdPoint.add_y P Q
  rw [eq_div_iff dp] at ex
  rw [eq_div_iff dm] at ey
  rw [t1, t2] at hx hy hz ⊢
  rw [x1, y1, x2, y2] at hx hy ht ⊢
  generalize hX : (P + Q).x = X at *
  generalize hY : (P + Q).y = Y at *
  generalize (c.den p.z) = v at *
  generalize (c.den q.z) = w at *
  generalize (2 * (c.fld.c : c.K)) = C at *
  generalize hF : v * w - c.d * (P.x * P.y * v) * (Q.x * Q.y * w) + C * ku = F at *
  have hF' : F = v * w * (1 - c.d * P.x * Q.x * P.y * Q.y) + C * ku := by rw [← hF]; ring
  have hG : v * w + c.d * (P.x * P.y * v) * (Q.x * Q.y * w) =
    v * w * (1 + c.d * P.x * Q.x * P.y * Q.y) := by ring
  rw [hG] at hy hz
  have hG0 := mul_ne_zero (mul_ne_zero z1 z2) dp
  have hF0 := mul_ne_zero (mul_ne_zero z1 z2) dm
  constructor
  · rintro ⟨r', h1', ⟨-, gz, gx, gy⟩, -⟩
    obtain rfl : r = r' := Except.ok.inj (h1.symm.trans h1')
    rw [hz] at gz
    have fz : F ≠ 0 := left_ne_zero_of_mul gz
    rw [hX, hx, hz] at gx
    rw [hY, hy, hz] at gy
    refine ⟨?_, fz, ?_⟩
    · refine mul_left_cancel₀ (mul_ne_zero hc2 fz) ?_
      linear_combination gx + F * v * w * ex
    · have k1 := mul_left_cancel₀ hG0 (gy.trans
        (show _ = v * w * (1 + c.d * P.x * Q.x * P.y * Q.y) * (Y * F) by ring))
      refine mul_left_cancel₀ hc2 ?_
      linear_combination v * w * (1 - c.d * P.x * Q.x * P.y * Q.y) * k1 + v * w * F * ey +
        v * w * (P.y * Q.y - P.x * Q.x) * hF'
  · rintro ⟨k0, fz, k1⟩
    refine ⟨r, h1, ⟨h2, ?_, ?_, ?_⟩, ?_⟩
    · rw [hz]; exact mul_ne_zero fz hG0
    · rw [hX, hx, hz]
      linear_combination F * C * k0 - F * v * w * ex
    · rw [hY, hy, hz]
      refine mul_left_cancel₀ hF0 ?_
      linear_combination v * w * (1 + c.d * P.x * Q.x * P.y * Q.y) *
        (C * k1 - F * v * w * ey - v * w * (P.y * Q.y - P.x * Q.x) * hF')
    · rw [hx, hy, hz, ht]; ring

/-- With coordinates that are not negative (in particular unpacked or normalized ones): the sum is
right exactly when `a` and `b` have no carry and `u` has none either, except that a carry of `u`
does no harm if the sum is a point `(±1, 0)` of order 4 and `z` happens not to be zero. -/
theorem C26_add_nonneg_iff (c : Crv) (hc : c ≠ .e222 ∧ c ≠ .curve1174) (pr : Profile)
    {p q : EdwardsExtended Elem} {P Q : c.Point} (hp : c.Represents p P) (hq : c.Represents q Q)
    (px : 0 ≤ c.fld.V p.x) (py : 0 ≤ c.fld.V p.y) (qx : 0 ≤ c.fld.V q.x) (qy : 0 ≤ c.fld.V q.y)
    {a b m u : Elem} (ha : c.fld.code.mul pr p.x q.x = .ok a)
    (hb : c.fld.code.mul pr p.y q.y = .ok b) (hm : c.fld.code.mul pr p.t c.dElem = .ok m)
    (hu : c.fld.code.mul pr m q.t = .ok u) :
    (∃ r, p.addAssign (c.scalar pr) q = .ok r ∧ c.Represents r (P + Q)) ↔
      c.CarryFree a ∧ c.CarryFree b ∧
      (c.CarryFree u ∨ (P + Q).y = 0 ∧ c.den p.z * c.den q.z - c.d * c.den p.t * c.den q.t +
        2 * c.fld.c * (c.fld.V u / 2 ^ c.fld.n : Int) ≠ 0) := by
  rw [C26_add_correct_iff c hc pr hp hq ha hb hm hu rfl rfl rfl]
  obtain ⟨a', h, ha0, -⟩ := C41_mul_nonneg c.fld pr hp.1.1.1.loose hq.1.1.1.loose (mul_nonneg px qx)
  obtain rfl : a = a' := Except.ok.inj (ha.symm.trans h)
  obtain ⟨b', h, hb0, -⟩ := C41_mul_nonneg c.fld pr hp.1.1.2.1.loose hq.1.1.2.1.loose
    (mul_nonneg py qy)
  obtain rfl : b = b' := Except.ok.inj (hb.symm.trans h)
  obtain ⟨m', h, tm, -⟩ := c.mul_den hc pr hp.1.1.2.2.2 (c.impl pr).dVal.1
  rw [c.scalar_eq] at h
  obtain rfl : m = m' := Except.ok.inj (hm.symm.trans h)
  obtain ⟨u', h, tu, -⟩ := c.mul_den hc pr tm hq.1.1.2.2.2
  rw [c.scalar_eq] at h
  obtain rfl : u = u' := Except.ok.inj (hu.symm.trans h)
  have hN : (0 : Int) < 2 ^ c.fld.n := by positivity
  have ka0 := Int.ediv_nonneg ha0 hN.le
  have kb0 := Int.ediv_nonneg hb0 hN.le
  have cu := c.carry_eq_zero tu
  rw [Crv.carry] at cu
  rw [Crv.CarryFree, Crv.CarryFree, ← carry_zero_iff (f := c.fld) (x := c.fld.V a),
    ← carry_zero_iff (f := c.fld) (x := c.fld.V b), ← cu]
  have hs : c.fld.V a / 2 ^ c.fld.n + c.fld.V b / 2 ^ c.fld.n = 0 ↔
      c.fld.V a / 2 ^ c.fld.n = 0 ∧ c.fld.V b / 2 ^ c.fld.n = 0 := by omega
  rw [hs, and_assoc]
  refine and_congr_right fun ea => and_congr_right fun eb => ?_
  rw [ea, Int.cast_zero, zero_mul, eq_comm, mul_eq_zero]
  have t1 := hp.t_eq
  have t2 := hq.t_eq
  obtain ⟨⟨-, z1, x1, y1⟩, -⟩ := hp
  obtain ⟨⟨-, z2, x2, y2⟩, -⟩ := hq
  have dm := EdPoint.den_neg P Q
  have hF0 := mul_ne_zero (mul_ne_zero z1 z2) dm
  have hY : c.den p.y * c.den q.y - c.den p.x * c.den q.x = 0 ↔ (P + Q).y = 0 := by
    rw [EdPoint.add_y, div_eq_zero_iff, or_iff_left dm, x1, x2, y1, y2]
    rw [show P.y * c.den p.z * (Q.y * c.den q.z) - P.x * c.den p.z * (Q.x * c.den q.z) =
      c.den p.z * c.den q.z * (P.y * Q.y - P.x * Q.x) by ring, mul_eq_zero,
      or_iff_right (mul_ne_zero z1 z2)]
  rw [hY]
  constructor
  · rintro ⟨h1, h2 | h2⟩
    · exact .inl h2
    · exact .inr ⟨h2, h1⟩
  · rintro (h | ⟨h1, h2⟩)
    · refine ⟨?_, .inl h⟩
      rw [h, mul_zero, add_zero, t1, t2]
      intro h'
      exact hF0 (by linear_combination h')
    · exact ⟨h2, .inr h1⟩

/-- Coordinates of the base point with `x` and `y` exchanged. -/
def Crv.swapped (c : Crv) : EdwardsExtended Elem :=
  ⟨(c.baseCoords 1).y, (c.baseCoords 1).x, (c.baseCoords 1).z, (c.baseCoords 1).t⟩

/-- The point they represent. -/
def Crv.swappedPoint (c : Crv) : c.Point :=
  ⟨c.base.y, c.base.x, by have := c.base.on; linear_combination this⟩

theorem swapped_repr (c : Crv) : c.Represents c.swapped c.swappedPoint := by
  obtain ⟨⟨⟨hx, hy, hz, ht⟩, z0, ex, ey⟩, et⟩ := c.base1
  exact ⟨⟨⟨hy, hx, hz, ht⟩, z0, ey, ex⟩, et.trans (mul_comm _ _)⟩

/-- The products of `baseCoords 1 + swapped`: `a` and `b` have no carry, `u` has one, `z ≠ 0`. -/
def Crv.exception (c : Crv) (pr : Profile) : Bool :=
  match c.fld.code.mul pr (c.baseCoords 1).x c.swapped.x,
    c.fld.code.mul pr (c.baseCoords 1).y c.swapped.y,
    c.fld.code.mul pr (c.baseCoords 1).t c.dElem with
  | .ok a, .ok b, .ok m => match c.fld.code.mul pr m c.swapped.t with
    | .ok u => decide (0 ≤ c.fld.V a ∧ c.fld.V a < 2 ^ c.fld.n) &&
        decide (0 ≤ c.fld.V b ∧ c.fld.V b < 2 ^ c.fld.n) && decide (2 ^ c.fld.n ≤ c.fld.V u) &&
        decide ((c.fld.V (c.baseCoords 1).z * c.fld.V c.swapped.z -
          c.dInt * c.fld.V (c.baseCoords 1).t * c.fld.V c.swapped.t +
          2 * c.fld.c * (c.fld.V u / 2 ^ c.fld.n)) % c.fld.p ≠ 0)
    | _ => false
  | _, _, _ => false

set_option maxRecDepth 100000 in
theorem exception_ok (c : Crv) (hc : c ≠ .e222 ∧ c ≠ .curve1174) (pr : Profile) :
    c.exception pr = true := by
  rcases c with _ | _ | _ | _ | _
  · exact absurd rfl hc.1
  · exact absurd rfl hc.2
  all_goals cases pr <;> decide +kernel

theorem base1_nonneg (c : Crv) :
    0 ≤ c.fld.V (c.baseCoords 1).x ∧ 0 ≤ c.fld.V (c.baseCoords 1).y := by
  cases c <;> decide +kernel

/-- The exception happens: on each of the three curves the base point plus the same point with `x`
and `y` exchanged is right although `u` has a carry.  (That the base point plus itself is wrong,
`C26_counterexample`, is the ordinary case.) -/
theorem C26_exception (c : Crv) (hc : c ≠ .e222 ∧ c ≠ .curve1174) (pr : Profile) :
    c.Represents (c.baseCoords 1) c.base ∧ c.Represents c.swapped c.swappedPoint ∧
    (∃ m u, c.fld.code.mul pr (c.baseCoords 1).t c.dElem = .ok m ∧
      c.fld.code.mul pr m c.swapped.t = .ok u ∧ ¬ c.CarryFree u) ∧
    ∃ r, (c.baseCoords 1).addAssign (c.scalar pr) c.swapped = .ok r ∧
      c.Represents r (c.base + c.swappedPoint) := by
  refine ⟨c.base1, swapped_repr c, ?_⟩
  have h := exception_ok c hc pr
  unfold Crv.exception at h
  split at h
  · rename_i a b m ha hb hm
    split at h
    · rename_i u hu
      simp only [Bool.and_eq_true, decide_eq_true_eq] at h
      obtain ⟨⟨⟨ca, cb⟩, cu⟩, hF⟩ := h
      refine ⟨⟨m, u, hm, hu, fun h => absurd h.2 (not_lt.2 cu)⟩, ?_⟩
      obtain ⟨n1, n2⟩ := base1_nonneg c
      rw [C26_add_nonneg_iff c hc pr c.base1 (swapped_repr c) n1 n2 n2 n1 ha hb hm hu]
      refine ⟨ca, cb, .inr ⟨?_, ?_⟩⟩
      · rw [EdPoint.add_y]
        simp only [Crv.swappedPoint]
        rw [mul_comm, sub_self, zero_div]
      · intro h0
        apply hF
        rw [← Int.dvd_iff_emod_eq_zero, Fld.dvd_iff]
        push_cast
        exact h0
    · cases h
  · cases h

/-! ## C27 -/

/-- The coordinates of `p.double()`, whatever the coordinates of `p` are: `a`, `b`, `s` being the
squares of `x`, `y`, `z` and `w` the doubled `s`, the code computes the doubling formulas with `E`
and `H` off by `2 c (k_a + k_b)` and `2 c k_b`, and with `w` less twice `c` times its carry instead
of twice the square of `z`. -/
theorem C27_double_value (c : Crv) (hc : c ≠ .e222 ∧ c ≠ .curve1174) (pr : Profile)
    {p : EdwardsExtended Elem} (hp : p.Ok c.fld.Tight) {a b s w : Elem}
    (ha : c.fld.code.squared pr p.x = .ok a) (hb : c.fld.code.squared pr p.y = .ok b)
    (hs : c.fld.code.squared pr p.z = .ok s) (hw : c.fld.code.smallMul pr s 2 = .ok w)
    {E F G H : c.K} {ka kb kw : Int} (hka : ka = c.fld.V a / 2 ^ c.fld.n)
    (hkb : kb = c.fld.V b / 2 ^ c.fld.n) (hkw : kw = c.fld.V w / 2 ^ c.fld.n)
    (hE : E = 2 * c.den p.x * c.den p.y + 2 * c.fld.c * (ka + kb))
    (hF : F = c.den p.x ^ 2 + c.den p.y ^ 2 - c.den w + 2 * c.fld.c * kw)
    (hG : G = c.den p.x ^ 2 + c.den p.y ^ 2)
    (hH : H = c.den p.x ^ 2 - c.den p.y ^ 2 + 2 * c.fld.c * kb) :
    ∃ r, p.double (c.scalar pr) = .ok r ∧ r.Ok c.fld.Tight ∧ c.den r.x = E * F ∧
      c.den r.y = G * H ∧ c.den r.z = F * G ∧ c.den r.t = E * H := by
  have e := c.scalar_eq pr
  exact c.double_value hc pr hp (by rw [e]; exact ha) (by rw [e]; exact hb)
    (by rw [e]; exact hs) (by rw [e]; exact hw) (by rw [hE, hka, hkb]; rfl)
    (by rw [hF, hkw]; rfl) hG (by rw [hH, hkb]; rfl)

/-- The doubled square, with its carry subtracted in the wrong way, is right exactly when there is
no carry. -/
theorem doubled_right (c : Crv) (pr : Profile) {s w : Elem} (ts : c.fld.Tight s)
    (h0 : 0 ≤ c.fld.V s) (hw : c.fld.code.smallMul pr s 2 = .ok w) :
    c.den w - 2 * c.fld.c * (c.fld.V w / 2 ^ c.fld.n : Int) = 2 * c.den s ↔
      2 * c.fld.V s < 2 ^ c.fld.n := by
  have hN : (0 : Int) < 2 ^ c.fld.n := by positivity
  have key : c.den w - 2 * c.fld.c * (c.fld.V w / 2 ^ c.fld.n : Int) = 2 * c.den s ↔
      c.fld.p ∣ c.fld.V w - 2 * c.fld.V s - 2 * c.fld.c * (c.fld.V w / 2 ^ c.fld.n) := by
    rw [← Int.modEq_zero_iff_dvd, Fld.modEq_iff, Crv.den, Crv.den]
    push_cast
    constructor <;> intro h <;> linear_combination h
  have hcs := ts.carry_small
  have hk0 := Int.ediv_nonneg h0 hN.le
  have es := Int.emod_add_mul_ediv (c.fld.V s) (2 ^ c.fld.n)
  have es0 := Int.emod_nonneg (c.fld.V s) hN.ne'
  have es1 := Int.emod_lt_of_pos (c.fld.V s) hN
  have hc : (c.fld.c : Int) < 256 := by exact_mod_cast c.fld.c_lt
  have hc1 : (1 : Int) ≤ c.fld.c := by exact_mod_cast c.fld.c_pos
  have hbig := big c.fld
  rw [key]
  constructor
  swap
  · intro h
    obtain ⟨w', h1, -, h2⟩ := C07_small_mul_two pr c.fld ts ⟨h0, by linarith⟩
    obtain rfl : w = w' := Except.ok.inj (hw.symm.trans h1)
    rw [h2, Int.ediv_eq_zero_of_lt (by linarith) h]
    simp
  have fin : ∀ q : Int, q = c.fld.V s / 2 ^ c.fld.n → c.fld.V w = 2 * c.fld.V s + c.fld.c * q →
      q = 2 * (c.fld.V w / 2 ^ c.fld.n) → 2 * c.fld.V s < 2 ^ c.fld.n := by
    intro q hq hV h
    rw [← hq] at es hk0
    have hge : 2 * q ≤ c.fld.V w / 2 ^ c.fld.n := by
      rw [Int.le_ediv_iff_mul_le hN, hV]
      nlinarith
    obtain rfl : q = 0 := by omega
    have hz : c.fld.V w / 2 ^ c.fld.n = 0 := by omega
    rw [carry_zero_iff, hV] at hz
    linarith [hz.2]
  intro hd
  by_cases hf : c.fld = e521_1
  · obtain rfl : c = .e521 := by cases c <;> first | rfl | exact absurd hf (by decide)
    obtain ⟨w', c5, c6, c7, c8, h1, -, k5, k6, k7, k8, h2, -⟩ :=
      smallMul521 pr (b := 2) ts (by norm_num)
    obtain rfl : w = w' := Except.ok.inj (hw.symm.trans h1)
    obtain ⟨w', h3, tw⟩ := smallMul_two_loose .e521_1 pr ts
    obtain rfl : w = w' := Except.ok.inj (hw.symm.trans h3)
    have bw : -2 ^ 5 ≤ e521_1.V w / 2 ^ 521 ∧ e521_1.V w / 2 ^ 521 ≤ 2 ^ 5 := by
      obtain ⟨d, top, hV, h0, h1, ht, h2, h3⟩ := Shape.V_eq tw
      have td : top / 2 ^ e521_1.tb = e521_1.V w / 2 ^ 521 := Shape.top_div tw ht
      rw [← td]
      have hp : (0 : Int) < 2 ^ e521_1.tb := by positivity
      rw [pow_add] at h2 h3
      constructor
      · rw [Int.le_ediv_iff_mul_le hp]; linarith
      · apply Int.ediv_le_of_le_mul hp; linarith
    have hcs' : -2 ≤ e521_1.V s / 2 ^ 521 ∧ e521_1.V s / 2 ^ 521 ≤ 2 := hcs
    have e : e521_1.V w - 2 * e521_1.V s - 2 * (1 : Nat) * (e521_1.V w / 2 ^ 521) =
        (e521_1.V s / 2 ^ 521 - 2 * (e521_1.V w / 2 ^ 521)) + 2 ^ 378 * (c5 - c6) +
        2 ^ 432 * (c6 - c7) + 2 ^ 486 * (c7 - c8) := by
      clear * - h2
      generalize e521_1.V w / 2 ^ 521 = k at *
      generalize e521_1.V s / 2 ^ 521 = q at *
      rw [h2]; push_cast; ring
    have hd' : (2 : Int) ^ 521 - 1 ∣ e521_1.V w - 2 * e521_1.V s -
      2 * (1 : Nat) * (e521_1.V w / 2 ^ 521) := hd
    rw [e] at hd'
    have hq : -2 ^ 63 ≤ e521_1.V s / 2 ^ 521 - 2 * (e521_1.V w / 2 ^ 521) ∧
        e521_1.V s / 2 ^ 521 - 2 * (e521_1.V w / 2 ^ 521) ≤ 2 ^ 63 := by
      clear * - bw hcs'
      generalize e521_1.V w / 2 ^ 521 = k at *
      generalize e521_1.V s / 2 ^ 521 = q at *
      omega
    obtain ⟨q0, e5, e6, e7⟩ := sum_zero hq k5 k6 k7 k8
      (small_of_dvd hd' (sum_bound hq k5 k6 k7 k8))
    refine fin _ rfl ?_ ?_
    · show e521_1.V w = 2 * e521_1.V s + (1 : Nat) * (e521_1.V s / 2 ^ 521)
      clear * - h2 e5 e6 e7
      generalize e521_1.V s / 2 ^ 521 = q at *
      rw [h2, e5, e6, e7]; push_cast; ring
    · exact sub_eq_zero.1 q0
  · obtain ⟨w', h1, -, h2⟩ := smallMul_tight hf pr (b := 2) ts (by
      clear * - hf
      revert hf
      generalize c.fld = f
      intro hf
      cases f <;> first | exact absurd rfl hf | (constructor <;> decide))
    obtain rfl : w = w' := Except.ok.inj (hw.symm.trans h1)
    refine fin _ rfl (by rw [h2]; ring) ?_
    generalize hq : c.fld.V s / 2 ^ c.fld.n = q at *
    have hd' : c.fld.p ∣ c.fld.c * (q - 2 * (c.fld.V w / 2 ^ c.fld.n)) := by
      have e : c.fld.c * (q - 2 * (c.fld.V w / 2 ^ c.fld.n)) =
        c.fld.V w - 2 * c.fld.V s - 2 * c.fld.c * (c.fld.V w / 2 ^ c.fld.n) := by rw [h2]; ring
      rw [e]; exact hd
    have b1 : c.fld.V w / 2 ^ c.fld.n ≤ 10 := by
      have : c.fld.V w / 2 ^ c.fld.n < 11 := by
        rw [Int.ediv_lt_iff_lt_mul hN, h2]
        norm_num at hbig
        nlinarith
      omega
    have b0 : 0 ≤ c.fld.V w / 2 ^ c.fld.n := Int.ediv_nonneg (by rw [h2]; nlinarith) hN.le
    generalize c.fld.V w / 2 ^ c.fld.n = k at *
    have := eq_zero_of_dvd hd' (by norm_num; nlinarith) (by norm_num; nlinarith)
    rcases mul_eq_zero.1 this with h | h
    · omega
    · omega

/-- For coordinates of a point `P`, with any `t`, `double` represents `P + P` exactly when the
squares of `x` and `y` have no carry and twice the square of `z` has none either, except that the
last does no harm if `P + P` is a point `(±1, 0)` of order 4 and `z` happens not to be zero. -/
theorem C27_double_correct_iff (c : Crv) (hc : c ≠ .e222 ∧ c ≠ .curve1174) (pr : Profile)
    {p : EdwardsExtended Elem} {P : c.Point} (hp : p.ReprXYZ c.fld.Tight c.den P)
    {a b s w : Elem} (ha : c.fld.code.squared pr p.x = .ok a)
    (hb : c.fld.code.squared pr p.y = .ok b) (hs : c.fld.code.squared pr p.z = .ok s)
    (hw : c.fld.code.smallMul pr s 2 = .ok w) :
    (∃ r, p.double (c.scalar pr) = .ok r ∧ c.Represents r (P + P)) ↔
      c.CarryFree a ∧ c.CarryFree b ∧ (2 * c.fld.V s < 2 ^ c.fld.n ∨
        (P + P).y = 0 ∧ c.den p.x ^ 2 + c.den p.y ^ 2 - c.den w +
          2 * c.fld.c * (c.fld.V w / 2 ^ c.fld.n : Int) ≠ 0) := by
  have hne : ∀ x, c.fld = .e251_9 → |c.fld.V x| < 2 ^ 252 := by
    intro _ h
    exact absurd (by cases c <;> first | rfl | exact absurd h (by decide)) hc.2
  have sq : ∀ x y, c.fld.Tight x → c.fld.code.squared pr x = .ok y →
      c.fld.Tight y ∧ 0 ≤ c.fld.V y ∧ c.den y = c.den x ^ 2 := by
    intro x y hx hy
    obtain ⟨y', h, ty, dy⟩ := (c.impl pr).squared hx
    rw [c.scalar_eq] at h
    obtain rfl : y = y' := Except.ok.inj (hy.symm.trans h)
    have e := (C41_square_eq_mul c.fld pr hx).2 (hne x)
    obtain ⟨y', h', h0, -⟩ := C41_mul_nonneg c.fld pr hx.loose hx.loose (mul_self_nonneg _)
    rw [← e] at h'
    obtain rfl : y = y' := Except.ok.inj (hy.symm.trans h')
    exact ⟨ty, h0, dy⟩
  obtain ⟨ta, a0, -⟩ := sq _ _ hp.1.1 ha
  obtain ⟨tb, b0, -⟩ := sq _ _ hp.1.2.1 hb
  obtain ⟨ts, s0, ds⟩ := sq _ _ hp.1.2.2.1 hs
  obtain ⟨r, h1, h2, hx, hy, hz, ht⟩ := C27_double_value c hc pr hp.1 ha hb hs hw rfl rfl rfl
    rfl rfl rfl rfl
  have hN : (0 : Int) < 2 ^ c.fld.n := by positivity
  have ka0 := Int.ediv_nonneg a0 hN.le
  have kb0 := Int.ediv_nonneg b0 hN.le
  have ka1 := ta.carry_small
  have kb1 := tb.carry_small
  rw [← doubled_right c pr ts s0 hw, ds, Crv.CarryFree, Crv.CarryFree,
    ← carry_zero_iff (f := c.fld) (x := c.fld.V a), ← carry_zero_iff (f := c.fld) (x := c.fld.V b),
    ← and_assoc]
  generalize c.fld.V a / 2 ^ c.fld.n = ka at *
  generalize c.fld.V b / 2 ^ c.fld.n = kb at *
  have hk : ((ka : c.K) + kb) = 0 ↔ ka = 0 ∧ kb = 0 := by
    rw [← Int.cast_add, c.int_cast_zero (by omega) (by omega)]; omega
  have hc2 := c.two_c_ne
  obtain ⟨-, z1, x1, y1⟩ := hp
  have s1 := sum_ne P
  have s2 := two_sub_ne P
  have ex := double_x P
  have ey := double_y P
  have hY : (P + P).y = 0 ↔ P.y ^ 2 - P.x ^ 2 = 0 := by
    rw [ey, div_eq_zero_iff, or_iff_left s2]
  rw [hY]
  rw [eq_div_iff s1] at ex
  rw [eq_div_iff s2] at ey
  rw [x1, y1] at hx hy hz ht ⊢
  generalize hX' : (P + P).x = X at *
  generalize hY' : (P + P).y = Y at *
  generalize (c.den p.z) = v at *
  generalize hW : c.den w - 2 * c.fld.c * ((c.fld.V w / 2 ^ c.fld.n : Int) : c.K) = W at *
  generalize (2 * (c.fld.c : c.K)) = C at *
  have hFe : (P.x * v) ^ 2 + (P.y * v) ^ 2 - c.den w + C * ((c.fld.V w / 2 ^ c.fld.n : Int) : c.K) =
      (P.x * v) ^ 2 + (P.y * v) ^ 2 - W := by rw [← hW]; ring
  rw [hFe] at hx hz ⊢
  generalize hF : (P.x * v) ^ 2 + (P.y * v) ^ 2 - W = F at *
  have hv2 : v ^ 2 ≠ 0 := pow_ne_zero _ z1
  have hG0 : (P.x * v) ^ 2 + (P.y * v) ^ 2 ≠ 0 := by
    rw [show (P.x * v) ^ 2 + (P.y * v) ^ 2 = v ^ 2 * (P.x ^ 2 + P.y ^ 2) by ring]
    exact mul_ne_zero hv2 s1
  have hG : (P.x * v) ^ 2 + (P.y * v) ^ 2 = v ^ 2 * (P.x ^ 2 + P.y ^ 2) := by ring
  constructor
  · rintro ⟨r', h1', ⟨-, gz, gx, gy⟩, -⟩
    obtain rfl : r = r' := Except.ok.inj (h1.symm.trans h1')
    rw [hz] at gz
    have fz : F ≠ 0 := left_ne_zero_of_mul gz
    rw [hX', hx, hz] at gx
    rw [hY', hy, hz] at gy
    have k0 : (ka : c.K) + kb = 0 := by
      refine mul_left_cancel₀ (mul_ne_zero hc2 fz) ?_
      linear_combination gx + F * v ^ 2 * ex
    have k0' := hk.1 k0
    refine ⟨k0', ?_⟩
    rw [k0'.2, Int.cast_zero, mul_zero, add_zero] at gy
    by_cases hy0 : P.y ^ 2 - P.x ^ 2 = 0
    · exact .inr ⟨hy0, fz⟩
    · left
      have k1 := mul_left_cancel₀ hG0 (gy.trans
        (show _ = ((P.x * v) ^ 2 + (P.y * v) ^ 2) * (Y * F) by ring))
      refine mul_left_cancel₀ hy0 ?_
      linear_combination (2 - P.x ^ 2 - P.y ^ 2) * k1 + F * ey - (P.y ^ 2 - P.x ^ 2) * hF
  · rintro ⟨k0, hor⟩
    obtain ⟨rfl, rfl⟩ := k0
    have fz : F ≠ 0 := by
      rcases hor with h | h
      · rw [← hF, h]
        intro h'
        exact mul_ne_zero hv2 s2 (by linear_combination -h')
      · exact h.2
    simp only [Int.cast_zero, mul_zero, add_zero] at hx hy ht
    refine ⟨r, h1, ⟨h2, ?_, ?_, ?_⟩, ?_⟩
    · rw [hz]; exact mul_ne_zero fz hG0
    · rw [hX', hx, hz]
      linear_combination -F * v ^ 2 * ex
    · rw [hY', hy, hz]
      refine mul_left_cancel₀ s2 ?_
      rcases hor with h | h
      · linear_combination ((P.x * v) ^ 2 + (P.y * v) ^ 2) *
          (-F * ey + (P.y ^ 2 - P.x ^ 2) * (h + hF))
      · linear_combination ((P.x * v) ^ 2 + (P.y * v) ^ 2) *
          (-F * ey - (v ^ 2 * (2 - P.x ^ 2 - P.y ^ 2) + F) * h.1)
    · rw [hx, hy, hz, ht]; ring

/-! ## C29 -/

theorem mulVal_small (c : Crv) (hc : c ≠ .e222 ∧ c ≠ .curve1174) {x : Int} (h0 : 0 ≤ x)
    (h1 : x < 2 ^ c.fld.n) : c.fld.mulVal x = x := by
  have e := Int.ediv_eq_zero_of_lt h0 h1
  rcases c with _ | _ | _ | _ | _
  · exact absurd rfl hc.1
  · exact absurd rfl hc.2
  all_goals
    simp only [Crv.fld, mulVal] at e ⊢
    rw [e]
    simp

/-- A product below `2 ^ n` is left as it is. -/
theorem mul_small_V (c : Crv) (hc : c ≠ .e222 ∧ c ≠ .curve1174) (pr : Profile) {x y b : Elem}
    (hx : c.fld.Tight x) (hy : c.fld.Tight y) (h0 : 0 ≤ c.fld.V x * c.fld.V y)
    (h1 : c.fld.V x * c.fld.V y < 2 ^ c.fld.n) (hb : c.fld.code.mul pr x y = .ok b) :
    c.fld.V b = c.fld.V x * c.fld.V y := by
  obtain ⟨b', h, -, h'⟩ := mul_value pr hx.loose hy.loose
  obtain rfl : b = b' := Except.ok.inj (hb.symm.trans h)
  rw [h', mulVal_small c hc h0 h1]

/-- The sum with `zero()` as the code computes it, when the carries of `a` and `b` are zero. -/
theorem zero_add_iff (c : Crv) {P : c.Point} {p r : EdwardsExtended Elem} (hp : c.Represents p P)
    (hr : r.Ok c.fld.Tight) {e F : c.K} (h0 : P.x * P.y = 0 → e = 0)
    (hF : F = c.den p.z - c.d * c.den p.t + e) (hx : c.den r.x = c.den p.x * F)
    (hy : c.den r.y = (c.den p.z + c.d * c.den p.t) * c.den p.y)
    (hz : c.den r.z = F * (c.den p.z + c.d * c.den p.t))
    (ht : c.den r.t = c.den p.x * c.den p.y) : c.Represents r P ↔ P.x * P.y = 0 := by
  have et := hp.t_eq
  obtain ⟨⟨-, z0, ex, ey⟩, -⟩ := hp
  have d0 : c.d ≠ 0 := by
    intro h
    exact (Fact.out : ¬ IsSquare c.d) ⟨0, by rw [h]; simp⟩
  rw [et] at hF hy hz
  rw [ex] at hx ht
  rw [ey] at hy ht
  generalize c.den p.z = v at *
  constructor
  · rintro ⟨⟨-, gz, gx, -⟩, -⟩
    rw [hz] at gz gx
    rw [hx] at gx
    have fz := left_ne_zero_of_mul gz
    have key : F * (v * c.d) * (P.x * (P.x * P.y)) = 0 := by linear_combination -gx
    have := (mul_eq_zero.1 key).resolve_left (mul_ne_zero fz (mul_ne_zero z0 d0))
    rcases mul_eq_zero.1 this with h | h
    · rw [h, zero_mul]
    · exact h
  · intro h
    rw [h0 h] at hF
    rw [h] at hF hy hz
    have hFv : F = v := by rw [hF]; ring
    rw [hFv] at hx hz
    refine ⟨⟨hr, ?_, ?_, ?_⟩, ?_⟩
    · rw [hz]; simpa using z0
    · rw [hx, hz]; ring
    · rw [hy, hz]; ring
    · rw [hx, hy, hz, ht]; ring

/-- On E-382, Curve41417 and E-521, for coordinates in `[0, p)`: adding `zero()`, on either side,
gives a representation of the same point exactly when `x y = 0`. -/
theorem C29_zero_add_partial (c : Crv) (hc : c ≠ .e222 ∧ c ≠ .curve1174) (pr : Profile)
    {p : EdwardsExtended Elem} {P : c.Point} (hp : c.Represents p P) (cy : c.CarryFree p.y)
    (ht : 0 ≤ c.fld.V p.t ∧ c.fld.V p.t < c.fld.p) :
    ((∃ r, (zero (c.scalar pr)).addAssign (c.scalar pr) p = .ok r ∧ c.Represents r P) ↔
      P.x * P.y = 0) ∧
    ((∃ r, p.addAssign (c.scalar pr) (zero (c.scalar pr)) = .ok r ∧ c.Represents r P) ↔
      P.x * P.y = 0) := by
  have ez : zero (c.scalar pr) = ⟨c.fld.code.ZERO, c.fld.code.ONE, c.fld.code.ONE, c.fld.code.ONE⟩ := by
    rw [c.scalar_eq]; rfl
  rw [ez]
  have z0 := zero_canon c.fld
  have o0 := one_canon c.fld
  have dz : c.den c.fld.code.ZERO = 0 := by rw [Crv.den, z0.2.1, Int.cast_zero]
  have d1 : c.den c.fld.code.ONE = 1 := by rw [Crv.den, o0.2.1, Int.cast_one]
  have hN : (0 : Int) < 2 ^ c.fld.n := by positivity
  have okz : EdwardsExtended.Ok c.fld.Tight
      ⟨c.fld.code.ZERO, c.fld.code.ONE, c.fld.code.ONE, c.fld.code.ONE⟩ :=
    ⟨z0.tight, o0.tight, o0.tight, o0.tight⟩
  have td := (c.dVal_canon).tight
  have mul : ∀ {x y}, c.fld.Tight x → c.fld.Tight y →
      ∃ r, c.fld.code.mul pr x y = .ok r ∧ c.fld.Tight r := by
    intro x y hx hy
    obtain ⟨r, h1, h2, -⟩ := c.mul_den hc pr hx hy
    rw [c.scalar_eq] at h1
    exact ⟨r, h1, h2⟩
  have t0 : P.x * P.y = 0 → c.fld.V p.t = 0 := by
    intro h
    have h' : c.den p.t = 0 := by rw [hp.t_eq, h, zero_mul]
    rw [Crv.den, ← Fld.dvd_iff] at h'
    exact Int.eq_zero_of_dvd_of_nonneg_of_lt ht.1 ht.2 h'
  have hok := hp.1.1
  constructor
  · obtain ⟨a, ha, ta⟩ := mul z0.tight hok.1
    obtain ⟨b, hb, tb⟩ := mul o0.tight hok.2.1
    obtain ⟨m, hm, tm⟩ := mul o0.tight td
    obtain ⟨u, hu, tu⟩ := mul tm hok.2.2.2
    have Va := mul_small_V c hc pr z0.tight hok.1 (by rw [z0.2.1, zero_mul])
      (by rw [z0.2.1, zero_mul]; exact hN) ha
    have Vb := mul_small_V c hc pr o0.tight hok.2.1 (by rw [o0.2.1, one_mul]; exact cy.1)
      (by rw [o0.2.1, one_mul]; exact cy.2) hb
    rw [z0.2.1, zero_mul] at Va
    rw [o0.2.1, one_mul] at Vb
    obtain ⟨r, h1, h2, hx, hy, hz, ht'⟩ := C26_add_value c hc pr okz hok ha hb hm hu
      (ka := 0) (kb := 0) (by rw [Va, Int.zero_ediv])
      (by rw [Vb, Int.ediv_eq_zero_of_lt cy.1 cy.2]) rfl rfl rfl rfl rfl
    simp only [dz, d1, zero_mul, one_mul, mul_one, Int.cast_zero, add_zero, mul_zero, zero_add,
      sub_zero] at hx hy hz ht'
    rw [← zero_add_iff c hp h2 (e := 2 * c.fld.c * (c.fld.V u / 2 ^ c.fld.n : Int)) ?_ rfl hx hy hz
      ht']
    · exact ⟨fun ⟨r', h, h'⟩ => (Except.ok.inj (h1.symm.trans h)) ▸ h', fun h => ⟨r, h1, h⟩⟩
    · intro h
      have Vu := mul_small_V c hc pr tm hok.2.2.2 (by rw [t0 h, mul_zero])
        (by rw [t0 h, mul_zero]; exact hN) hu
      rw [Vu, t0 h]; simp
  · obtain ⟨a, ha, ta⟩ := mul hok.1 z0.tight
    obtain ⟨b, hb, tb⟩ := mul hok.2.1 o0.tight
    obtain ⟨m, hm, tm⟩ := mul hok.2.2.2 td
    obtain ⟨u, hu, tu⟩ := mul tm o0.tight
    have Va := mul_small_V c hc pr hok.1 z0.tight (by rw [z0.2.1, mul_zero])
      (by rw [z0.2.1, mul_zero]; exact hN) ha
    have Vb := mul_small_V c hc pr hok.2.1 o0.tight (by rw [o0.2.1, mul_one]; exact cy.1)
      (by rw [o0.2.1, mul_one]; exact cy.2) hb
    rw [z0.2.1, mul_zero] at Va
    rw [o0.2.1, mul_one] at Vb
    obtain ⟨r, h1, h2, hx, hy, hz, ht'⟩ := C26_add_value c hc pr hok okz ha hb hm hu
      (ka := 0) (kb := 0) (by rw [Va, Int.zero_ediv])
      (by rw [Vb, Int.ediv_eq_zero_of_lt cy.1 cy.2]) rfl rfl rfl rfl rfl
    simp only [dz, d1, zero_mul, one_mul, mul_one, Int.cast_zero, add_zero, mul_zero, zero_add,
      sub_zero] at hx hy hz ht'
    rw [← zero_add_iff c hp h2 (e := 2 * c.fld.c * (c.fld.V u / 2 ^ c.fld.n : Int)) ?_ rfl hx hy hz
      ht']
    · exact ⟨fun ⟨r', h, h'⟩ => (Except.ok.inj (h1.symm.trans h)) ▸ h', fun h => ⟨r, h1, h⟩⟩
    · intro h
      have Vm := mul_small_V c hc pr hok.2.2.2 td (by rw [t0 h, zero_mul])
        (by rw [t0 h, zero_mul]; exact hN) hm
      rw [t0 h, zero_mul] at Vm
      have Vu := mul_small_V c hc pr tm o0.tight (by rw [Vm, zero_mul])
        (by rw [Vm, zero_mul]; exact hN) hu
      rw [Vu, Vm]; simp

/-- Coordinates that meet the conditions: those of the base point, where adding `zero()` goes wrong,
and those of `(1, 0)` with `z = 5`, where it is right. -/
example (c : Crv) : c.Represents (c.baseCoords 1) c.base ∧ c.CarryFree (c.baseCoords 1).y ∧
    (0 ≤ c.fld.V (c.baseCoords 1).t ∧ c.fld.V (c.baseCoords 1).t < c.fld.p) ∧
    ∃ P : c.Point, P.x * P.y = 0 ∧ c.Represents (c.coords 1 0 5) P ∧
      c.CarryFree (c.coords 1 0 5).y ∧
      (0 ≤ c.fld.V (c.coords 1 0 5).t ∧ c.fld.V (c.coords 1 0 5).t < c.fld.p) := by
  refine ⟨c.base1, ?_, ?_, ⟨1, 0, by simp⟩, by simp, ?_, ?_, ?_⟩
  · unfold Crv.CarryFree; cases c <;> decide +kernel
  · cases c <;> decide +kernel
  · refine Crv.represents_of_reprB (x := 1) (y := 0) (by simp) (by simp) ?_
    cases c <;> decide +kernel
  · unfold Crv.CarryFree; cases c <;> decide +kernel
  · cases c <;> decide +kernel

end Verif

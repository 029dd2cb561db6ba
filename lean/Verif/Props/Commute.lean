import Verif.Props.PointsExact

/-!
# C35: what the order of the operands does to a sum

`+` computes `t₁ d t₂` as `(t₁ d) t₂`, which is the only place where the order of the operands
matters.
-/

namespace Verif
open EdwardsExtended Fld

theorem Crv.mul_all (c : Crv) (pr : Profile) {a b : Elem} (ha : c.fld.Tight a) (hb : c.fld.Tight b) :
    ∃ r, (c.scalar pr).mul a b = .ok r ∧ (c.scalar pr).mul b a = .ok r ∧ c.fld.Tight r := by
  obtain ⟨r, h1, h2, -⟩ := mul_value pr ha.loose hb.loose
  have h := C41_mul_comm (f := c.fld) (pr := pr) ha.loose hb.loose
  rw [c.scalar_eq]
  exact ⟨r, h1, h.symm.trans h1, h2⟩

/-- On all five curves, for all coordinates, on the curve or not: if `(t₁ d) t₂` and `(t₂ d) t₁`
are the same words, so are `p + q` and `q + p`. -/
theorem C35_commute_words (c : Crv) (pr : Profile) {p q : EdwardsExtended Elem}
    (hp : p.Ok c.fld.Tight) (hq : q.Ok c.fld.Tight) {m m' u : Elem}
    (hm : c.fld.code.mul pr p.t c.dElem = .ok m) (hu : c.fld.code.mul pr m q.t = .ok u)
    (hm' : c.fld.code.mul pr q.t c.dElem = .ok m') (hu' : c.fld.code.mul pr m' p.t = .ok u) :
    ∃ r, p.addAssign (c.scalar pr) q = .ok r ∧ q.addAssign (c.scalar pr) p = .ok r := by
  obtain ⟨px, py, pz, pt⟩ := hp
  obtain ⟨qx, qy, qz, qt⟩ := hq
  have e := c.scalar_eq pr
  have tu : c.fld.Tight u := by
    obtain ⟨m1, h, -, tm⟩ := c.mul_all pr pt (c.impl pr).dVal.1
    rw [e] at h
    obtain rfl : m = m1 := Except.ok.inj (hm.symm.trans h)
    obtain ⟨u1, h, -, tu⟩ := c.mul_all pr tm qt
    rw [e] at h
    obtain rfl : u = u1 := Except.ok.inj (hu.symm.trans h)
    exact tu
  have hm : (c.scalar pr).mul p.t (c.scalar pr).dVal = .ok m := by rw [e]; exact hm
  have hm' : (c.scalar pr).mul q.t (c.scalar pr).dVal = .ok m' := by rw [e]; exact hm'
  have hu : (c.scalar pr).mul m q.t = .ok u := by rw [e]; exact hu
  have hu' : (c.scalar pr).mul m' p.t = .ok u := by rw [e]; exact hu'
  obtain ⟨a, ha, ha', ta⟩ := c.mul_all pr px qx
  obtain ⟨b, hb, hb', tb⟩ := c.mul_all pr py qy
  obtain ⟨v, hv, hv', tv⟩ := c.mul_all pr pz qz
  obtain ⟨s1, h1, t1, -⟩ := (c.impl pr).add px py
  obtain ⟨s2, h2, t2, -⟩ := (c.impl pr).add qx qy
  obtain ⟨s3, h3, h3', t3⟩ := c.mul_all pr t1 t2
  obtain ⟨e1, h4, t4, -⟩ := c.sub_den pr t3.rep ta.rep
  obtain ⟨e, he, te, -⟩ := c.sub_den pr t4.rep tb.rep
  obtain ⟨f, hf, tf, -⟩ := c.sub_den pr tv.rep tu.rep
  obtain ⟨g, hg, tg, -⟩ := (c.impl pr).add tv tu
  obtain ⟨h', hh, th, -⟩ := c.sub_den pr tb.rep ta.rep
  obtain ⟨x, hx, -⟩ := c.mul_all pr te tf
  obtain ⟨y, hy, -⟩ := c.mul_all pr tg th
  obtain ⟨z, hz, -⟩ := c.mul_all pr tf tg
  obtain ⟨t, ht, -⟩ := c.mul_all pr te th
  exact ⟨_, addAssign_steps _ ha hb hm hu hv h1 h2 h3 h4 he hf hg hh hx hy hz ht,
    addAssign_steps _ ha' hb' hm' hu' hv' h2 h1 h3' h4 he hf hg hh hx hy hz ht⟩

/-- On E-382, Curve41417 and E-521, for all coordinates, on the curve or not, `p + q` and `q + p`
always have the same affine `x`.  They have the same affine `y` exactly if `(t₁ d) t₂` and `(t₂ d) t₁`
have the same carry, or `z₁ z₂ + d t₁ t₂` or what the code computes for `y₁ y₂ - x₁ x₂` is zero. -/
theorem C35_commute_iff (c : Crv) (hc : c ≠ .e222 ∧ c ≠ .curve1174) (pr : Profile)
    {p q : EdwardsExtended Elem} (hp : p.Ok c.fld.Tight) (hq : q.Ok c.fld.Tight)
    {a m m' u u' : Elem} (ha : c.fld.code.mul pr p.x q.x = .ok a)
    (hm : c.fld.code.mul pr p.t c.dElem = .ok m) (hu : c.fld.code.mul pr m q.t = .ok u)
    (hm' : c.fld.code.mul pr q.t c.dElem = .ok m') (hu' : c.fld.code.mul pr m' p.t = .ok u')
    {ka ku ku' : Int} (hka : ka = c.fld.V a / 2 ^ c.fld.n) (hku : ku = c.fld.V u / 2 ^ c.fld.n)
    (hku' : ku' = c.fld.V u' / 2 ^ c.fld.n) :
    ∃ r s, p.addAssign (c.scalar pr) q = .ok r ∧ q.addAssign (c.scalar pr) p = .ok s ∧
      c.den r.x * c.den s.z = c.den s.x * c.den r.z ∧
      (c.den r.y * c.den s.z = c.den s.y * c.den r.z ↔
        ku = ku' ∨ c.den p.z * c.den q.z + c.d * c.den p.t * c.den q.t = 0 ∨
          c.den p.y * c.den q.y - c.den p.x * c.den q.x + 2 * c.fld.c * ka = 0) := by
  have e := c.scalar_eq pr
  obtain ⟨b, hb, hb', -⟩ := c.mul_all pr hp.2.1 hq.2.1
  rw [e] at hb hb'
  have ha' : c.fld.code.mul pr q.x p.x = .ok a :=
    (C41_mul_comm (f := c.fld) (pr := pr) hp.1.loose hq.1.loose).symm.trans ha
  have key : ∀ {p q : EdwardsExtended Elem} {m u : Elem}, p.Ok c.fld.Tight → q.Ok c.fld.Tight →
      c.fld.code.mul pr p.t c.dElem = .ok m → c.fld.code.mul pr m q.t = .ok u →
      -16 ≤ c.fld.V u / 2 ^ c.fld.n ∧ c.fld.V u / 2 ^ c.fld.n ≤ 16 := by
    intro p q m u hp hq hm hu
    obtain ⟨m1, h, -, tm⟩ := c.mul_all pr hp.2.2.2 (c.impl pr).dVal.1
    rw [e] at h
    obtain rfl : m = m1 := Except.ok.inj (hm.symm.trans h)
    obtain ⟨u1, h, -, tu⟩ := c.mul_all pr tm hq.2.2.2
    rw [e] at h
    obtain rfl : u = u1 := Except.ok.inj (hu.symm.trans h)
    have := tu.carry_small
    omega
  have k1 := key hp hq hm hu
  have k2 := key hq hp hm' hu'
  rw [← hku] at k1
  rw [← hku'] at k2
  obtain ⟨r, h1, -, rx, ry, rz, -⟩ := C26_add_value c hc pr hp hq ha hb hm hu hka rfl hku
    rfl rfl rfl rfl
  obtain ⟨s, h2, -, sx, sy, sz, -⟩ := C26_add_value c hc pr hq hp ha' hb' hm' hu' hka rfl hku'
    rfl rfl rfl rfl
  refine ⟨r, s, h1, h2, ?_, ?_⟩
  · rw [rx, sz, sx, rz]; ring
  rw [ry, sz, sy, rz]
  have e1 : ku = ku' ↔ ((ku : Int) : c.K) = (ku' : Int) := by
    have := c.int_cast_zero (x := ku - ku') (by omega) (by omega)
    rw [Int.cast_sub, sub_eq_zero, sub_eq_zero] at this
    exact this.symm
  rw [e1]
  generalize (ku : c.K) = k at *
  generalize (ku' : c.K) = k' at *
  generalize (ka : c.K) = l at *
  have h2c := c.two_c_ne
  constructor
  · intro h
    have h0 : (2 * c.fld.c : c.K) * ((k - k') *
        ((c.den p.z * c.den q.z + c.d * c.den p.t * c.den q.t) ^ 2 *
        (c.den p.y * c.den q.y - c.den p.x * c.den q.x + 2 * c.fld.c * l))) = 0 := by
      linear_combination -h
    rcases mul_eq_zero.1 h0 with h0 | h0
    · exact absurd h0 h2c
    rcases mul_eq_zero.1 h0 with h0 | h0
    · exact .inl (sub_eq_zero.1 h0)
    rcases mul_eq_zero.1 h0 with h0 | h0
    · exact .inr (.inl (pow_eq_zero_iff two_ne_zero |>.1 h0))
    · exact .inr (.inr h0)
  · intro h
    have h0 : (2 * c.fld.c : c.K) * ((k - k') *
        ((c.den p.z * c.den q.z + c.d * c.den p.t * c.den q.t) ^ 2 *
        (c.den p.y * c.den q.y - c.den p.x * c.den q.x + 2 * c.fld.c * l))) = 0 := by
      rcases h with h | h | h
      · rw [h]; ring
      · rw [h]; ring
      · rw [h]; ring
    linear_combination -h0

/-- A second `z` for the base point such that the order of the operands matters. -/
def Crv.orderZ : Crv → Int
  | .e222 => 4 | .curve1174 => 7 | .e382 => 2 | .curve41417 => 2 | .e521 => 6

/-- The `y` coordinates differ. -/
def differY (c : Crv) (r s : EdwardsExtended Int) : Bool :=
  !decide ((r.y * s.z - s.y * r.z) % c.fld.p = 0)

set_option maxRecDepth 100000 in
theorem order_differ (c : Crv) :
    (addF c false ((c.baseCoords 1).ints c) ((c.baseCoords c.orderZ).ints c) fun r =>
      addF c false ((c.baseCoords c.orderZ).ints c) ((c.baseCoords 1).ints c) fun s =>
        differY c r s) = true := by
  cases c <;> decide +kernel

theorem orderZ_repr (c : Crv) : c.Represents (c.baseCoords c.orderZ) c.base := by
  apply Crv.baseCoords_repr
  cases c <;> decide +kernel

/-- On each of the five curves there are representations `p` and `q` of a point, the base point, for
which `p + q` and `q + p` have different affine `y`. -/
theorem C35_commute_counterexample (c : Crv) (pr : Profile) :
    c.Represents (c.baseCoords 1) c.base ∧ c.Represents (c.baseCoords c.orderZ) c.base ∧
    ∃ r s, (c.baseCoords 1).addAssign (c.scalar pr) (c.baseCoords c.orderZ) = .ok r ∧
      (c.baseCoords c.orderZ).addAssign (c.scalar pr) (c.baseCoords 1) = .ok s ∧
      c.den r.y * c.den s.z ≠ c.den s.y * c.den r.z := by
  have b1 := c.base1
  have b2 := orderZ_repr c
  obtain ⟨r, h1, -, -, h⟩ := c.addF_sound pr b1.1.1 b2.1.1 (order_differ c)
  obtain ⟨s, h2, -, -, h⟩ := c.addF_sound pr b2.1.1 b1.1.1 h
  refine ⟨b1, b2, r, s, h1, h2, fun h' => ?_⟩
  rw [differY, Bool.not_eq_true', decide_eq_false_iff_not] at h
  apply h
  rw [← Crv.cast_eq_zero]
  simp only [ints]
  push_cast
  simp only [Crv.den] at h'
  rw [h', sub_self]

/-- Operands with the same `t`, the base point and the point with its coordinates swapped: the order
does not matter. -/
example (c : Crv) (pr : Profile) : ∃ r,
    (c.baseCoords 1).addAssign (c.scalar pr) c.swapped = .ok r ∧
      c.swapped.addAssign (c.scalar pr) (c.baseCoords 1) = .ok r := by
  have ht : (c.baseCoords 1).t = c.swapped.t := by cases c <;> decide +kernel
  have b1 := c.base1.1.1
  obtain ⟨m, hm, -, tm⟩ := c.mul_all pr b1.2.2.2 (c.impl pr).dVal.1
  obtain ⟨u, hu, -, -⟩ := c.mul_all pr tm b1.2.2.2
  rw [c.scalar_eq] at hm hu
  exact C35_commute_words c pr b1 (swapped_repr c).1.1 hm (by rw [← ht]; exact hu)
    (by rw [← ht]; exact hm) hu

end Verif

import Verif.Props.Points

/-!
# What the point formulas of the code compute

In the scalar types of E-382, Curve41417 and E-521 `+`, `*` and `square` are right for all operands, and `-` is off
by a multiple of the carry of the subtrahend.  So the coordinates of sums and doubles can be written down exactly,
also for coordinates that represent no point.
-/

namespace Verif
open EdwardsExtended Fld

section
variable {S : Type} (C : Scalar S)

theorem addAssign_steps {p q : EdwardsExtended S} {a b m u v s1 s2 s3 e1 e f g h x y z t : S}
    (ha : C.mul p.x q.x = .ok a) (hb : C.mul p.y q.y = .ok b) (hm : C.mul p.t C.dVal = .ok m)
    (hu : C.mul m q.t = .ok u) (hv : C.mul p.z q.z = .ok v) (h1 : C.add p.x p.y = .ok s1)
    (h2 : C.add q.x q.y = .ok s2) (h3 : C.mul s1 s2 = .ok s3) (h4 : C.sub s3 a = .ok e1) (he : C.sub e1 b = .ok e)
    (hf : C.sub v u = .ok f) (hg : C.add v u = .ok g) (hh : C.sub b a = .ok h) (hx : C.mul e f = .ok x)
    (hy : C.mul g h = .ok y) (hz : C.mul f g = .ok z) (ht : C.mul e h = .ok t) :
    p.addAssign C q = .ok ⟨x, y, z, t⟩ := by
  have g0 : (regs p q).get 0 = some p.x := rfl
  have g1 : (regs p q).get 1 = some p.y := rfl
  have g2 : (regs p q).get 2 = some p.z := rfl
  have g3 : (regs p q).get 3 = some p.t := rfl
  have g4 : (regs p q).get 4 = some q.x := rfl
  have g5 : (regs p q).get 5 = some q.y := rfl
  have g6 : (regs p q).get 6 = some q.z := rfl
  have g7 : (regs p q).get 7 = some q.t := rfl
  unfold addAssign call
  generalize regs p q = ρ at *
  simp [addP, runPoint, PExpr.eval, ofRegs, Tree.get_set, bind, Except.bind, ha, hb, hm, hu, hv, h1, h2, h3, h4,
    he, hf, hg, hh, hx, hy, hz, ht, *]

theorem double_steps {p : EdwardsExtended S} {a b s w s1 s2 e1 e g f h x y z t : S}
    (ha : C.squared p.x = .ok a) (hb : C.squared p.y = .ok b) (hs : C.squared p.z = .ok s)
    (hw : C.smallMul s 2 = .ok w) (h1 : C.add p.x p.y = .ok s1) (h2 : C.squared s1 = .ok s2)
    (h3 : C.sub s2 a = .ok e1) (he : C.sub e1 b = .ok e) (hg : C.add a b = .ok g) (hf : C.sub g w = .ok f)
    (hh : C.sub a b = .ok h) (hx : C.mul e f = .ok x) (hy : C.mul g h = .ok y) (hz : C.mul f g = .ok z)
    (ht : C.mul e h = .ok t) : p.double C = .ok ⟨x, y, z, t⟩ := by
  have g0 : (regs p p).get 0 = some p.x := rfl
  have g1 : (regs p p).get 1 = some p.y := rfl
  have g2 : (regs p p).get 2 = some p.z := rfl
  unfold double call
  generalize regs p p = ρ at *
  simp [doubleP, runPoint, PExpr.eval, ofRegs, Tree.get_set, bind, Except.bind, *]

end

namespace Crv
variable (c : Crv)

/-- The carry of an element, in the field. -/
def carry (a : Elem) : c.K := ((c.fld.V a / 2 ^ c.fld.n : Int) : c.K)

theorem mulOk_all (hc : c ≠ e222 ∧ c ≠ curve1174) (a b : Elem) : c.MulOk a b := by
  rw [MulOk]
  rcases c with _ | _ | _ | _ | _
  · exact absurd rfl hc.1
  · exact absurd rfl hc.2
  all_goals trivial

theorem p_cast : (c.fld.p : c.K) = 0 := by
  have h : c.fld.p ≡ 0 [ZMOD c.fld.p] := Int.emod_self.trans (Int.zero_emod _).symm
  rw [Fld.modEq_iff] at h
  simpa using h

theorem sub_den (pr : Profile) {a b : Elem} (ha : c.fld.Rep a) (hb : c.fld.Rep b) :
    ∃ r, (c.scalar pr).sub a b = .ok r ∧ c.fld.Tight r ∧ c.den r = c.den a - c.den b + 2 * c.fld.c * c.carry b := by
  rw [scalar_eq]
  obtain ⟨r, h1, -, h3⟩ := Fld.sub_exact (f := c.fld) pr ha hb
  obtain ⟨r', h1', h2', -⟩ := C02_sub_correct_iff c.fld pr ha hb
  obtain rfl : r = r' := Except.ok.inj (h1.symm.trans h1')
  refine ⟨r, h1, h2', ?_⟩
  have hp : ((2 : c.K) ^ c.fld.n) = c.fld.c := by
    have := c.p_cast
    rw [Fld.p] at this
    push_cast at this
    linear_combination this
  have hp' := c.p_cast
  have := congrArg (Int.cast : Int → c.K) h3
  push_cast at this
  rw [den, den, den, carry, this, hp, hp']
  ring

theorem mul_den (hc : c ≠ e222 ∧ c ≠ curve1174) (pr : Profile) {a b : Elem} (ha : c.fld.Tight a)
    (hb : c.fld.Tight b) :
    ∃ r, (c.scalar pr).mul a b = .ok r ∧ c.fld.Tight r ∧ c.den r = c.den a * c.den b :=
  (c.impl pr).mul ha hb (c.mulOk_all hc a b)

theorem add_value (hc : c ≠ e222 ∧ c ≠ curve1174) (pr : Profile) {p q : EdwardsExtended Elem}
    (hp : p.Ok c.fld.Tight) (hq : q.Ok c.fld.Tight) {a b m u : Elem}
    (ha : (c.scalar pr).mul p.x q.x = .ok a) (hb : (c.scalar pr).mul p.y q.y = .ok b)
    (hm : (c.scalar pr).mul p.t (c.scalar pr).dVal = .ok m) (hu : (c.scalar pr).mul m q.t = .ok u)
    {E F G H : c.K}
    (hE : E = c.den p.x * c.den q.y + c.den p.y * c.den q.x +
      2 * c.fld.c * (c.carry a + c.carry b))
    (hF : F = c.den p.z * c.den q.z - c.d * c.den p.t * c.den q.t + 2 * c.fld.c * c.carry u)
    (hG : G = c.den p.z * c.den q.z + c.d * c.den p.t * c.den q.t)
    (hH : H = c.den p.y * c.den q.y - c.den p.x * c.den q.x + 2 * c.fld.c * c.carry a) :
    ∃ r, p.addAssign (c.scalar pr) q = .ok r ∧ r.Ok c.fld.Tight ∧ c.den r.x = E * F ∧
      c.den r.y = G * H ∧ c.den r.z = F * G ∧ c.den r.t = E * H := by
  obtain ⟨px, py, pz, pt⟩ := hp
  obtain ⟨qx, qy, qz, qt⟩ := hq
  obtain ⟨a', h, ta, da⟩ := c.mul_den hc pr px qx
  obtain rfl : a = a' := Except.ok.inj (ha.symm.trans h)
  obtain ⟨b', h, tb, db⟩ := c.mul_den hc pr py qy
  obtain rfl : b = b' := Except.ok.inj (hb.symm.trans h)
  obtain ⟨m', h, tm, dm⟩ := c.mul_den hc pr pt (c.impl pr).dVal.1
  obtain rfl : m = m' := Except.ok.inj (hm.symm.trans h)
  obtain ⟨u', h, tu, du⟩ := c.mul_den hc pr tm qt
  obtain rfl : u = u' := Except.ok.inj (hu.symm.trans h)
  obtain ⟨v, hv, tv, dv⟩ := c.mul_den hc pr pz qz
  obtain ⟨s1, h1, t1, d1⟩ := (c.impl pr).add px py
  obtain ⟨s2, h2, t2, d2⟩ := (c.impl pr).add qx qy
  obtain ⟨s3, h3, t3, d3⟩ := c.mul_den hc pr t1 t2
  obtain ⟨e1, h4, t4, d4⟩ := c.sub_den pr t3.rep ta.rep
  obtain ⟨e, he, te, de⟩ := c.sub_den pr t4.rep tb.rep
  obtain ⟨f, hf, tf, df⟩ := c.sub_den pr tv.rep tu.rep
  obtain ⟨g, hg, tg, dg⟩ := (c.impl pr).add tv tu
  obtain ⟨h', hh, th, dh⟩ := c.sub_den pr tb.rep ta.rep
  obtain ⟨x, hx, tx, dx⟩ := c.mul_den hc pr te tf
  obtain ⟨y, hy, ty, dy⟩ := c.mul_den hc pr tg th
  obtain ⟨z, hz, tz, dz⟩ := c.mul_den hc pr tf tg
  obtain ⟨t, ht, tt, dt⟩ := c.mul_den hc pr te th
  have eE : c.den e = E := by rw [de, d4, d3, d1, d2, da, db, hE]; ring
  have eF : c.den f = F := by rw [df, dv, du, dm, (c.impl pr).dVal.2, hF]; ring
  have eG : c.den g = G := by rw [dg, dv, du, dm, (c.impl pr).dVal.2, hG]; ring
  have eH : c.den h' = H := by rw [dh, da, db, hH]
  refine ⟨_, addAssign_steps _ ha hb hm hu hv h1 h2 h3 h4 he hf hg hh hx hy hz ht,
    ⟨tx, ty, tz, tt⟩, ?_, ?_, ?_, ?_⟩
  · rw [dx, eE, eF]
  · rw [dy, eG, eH]
  · rw [dz, eF, eG]
  · rw [dt, eE, eH]

theorem double_value (hc : c ≠ e222 ∧ c ≠ curve1174) (pr : Profile) {p : EdwardsExtended Elem}
    (hp : p.Ok c.fld.Tight) {a b s w : Elem}
    (ha : (c.scalar pr).squared p.x = .ok a) (hb : (c.scalar pr).squared p.y = .ok b)
    (hs : (c.scalar pr).squared p.z = .ok s) (hw : (c.scalar pr).smallMul s 2 = .ok w)
    {E F G H : c.K}
    (hE : E = 2 * c.den p.x * c.den p.y + 2 * c.fld.c * (c.carry a + c.carry b))
    (hF : F = c.den p.x ^ 2 + c.den p.y ^ 2 - c.den w + 2 * c.fld.c * c.carry w)
    (hG : G = c.den p.x ^ 2 + c.den p.y ^ 2)
    (hH : H = c.den p.x ^ 2 - c.den p.y ^ 2 + 2 * c.fld.c * c.carry b) :
    ∃ r, p.double (c.scalar pr) = .ok r ∧ r.Ok c.fld.Tight ∧ c.den r.x = E * F ∧
      c.den r.y = G * H ∧ c.den r.z = F * G ∧ c.den r.t = E * H := by
  obtain ⟨px, py, pz, -⟩ := hp
  obtain ⟨a', h, ta, da⟩ := (c.impl pr).squared px
  obtain rfl : a = a' := Except.ok.inj (ha.symm.trans h)
  obtain ⟨b', h, tb, db⟩ := (c.impl pr).squared py
  obtain rfl : b = b' := Except.ok.inj (hb.symm.trans h)
  obtain ⟨s', h, ts, ds⟩ := (c.impl pr).squared pz
  obtain rfl : s = s' := Except.ok.inj (hs.symm.trans h)
  have tw : c.fld.Rep w := by
    obtain ⟨w', h, tw⟩ := Fld.smallMul_two_loose c.fld pr ts
    rw [scalar_eq] at hw
    obtain rfl : w = w' := Except.ok.inj (hw.symm.trans h)
    exact tw.rep
  obtain ⟨s1, h1, t1, d1⟩ := (c.impl pr).add px py
  obtain ⟨s2, h2, t2, d2⟩ := (c.impl pr).squared t1
  obtain ⟨e1, h4, t4, d4⟩ := c.sub_den pr t2.rep ta.rep
  obtain ⟨e, he, te, de⟩ := c.sub_den pr t4.rep tb.rep
  obtain ⟨g, hg, tg, dg⟩ := (c.impl pr).add ta tb
  obtain ⟨f, hf, tf, df⟩ := c.sub_den pr tg.rep tw
  obtain ⟨h', hh, th, dh⟩ := c.sub_den pr ta.rep tb.rep
  obtain ⟨x, hx, tx, dx⟩ := c.mul_den hc pr te tf
  obtain ⟨y, hy, ty, dy⟩ := c.mul_den hc pr tg th
  obtain ⟨z, hz, tz, dz⟩ := c.mul_den hc pr tf tg
  obtain ⟨t, ht, tt, dt⟩ := c.mul_den hc pr te th
  have eE : c.den e = E := by rw [de, d4, d2, d1, da, db, hE]; ring
  have eF : c.den f = F := by rw [df, dg, da, db, hF]
  have eG : c.den g = G := by rw [dg, da, db, hG]
  have eH : c.den h' = H := by rw [dh, da, db, hH]
  refine ⟨_, double_steps _ ha hb hs hw h1 h2 h4 he hg hf hh hx hy hz ht,
    ⟨tx, ty, tz, tt⟩, ?_, ?_, ?_, ?_⟩
  · rw [dx, eE, eF]
  · rw [dy, eG, eH]
  · rw [dz, eF, eG]
  · rw [dt, eE, eH]

end Crv

end Verif

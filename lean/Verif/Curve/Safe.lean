import Verif.Curve.Witness

/-!
# Sufficient conditions for the point formulas on the field types (helper lemmas)
-/

namespace Verif
namespace Crv

theorem add_safe (c : Crv) (pr : Profile) (hc : c ≠ e222 ∧ c ≠ curve1174)
    {p q : EdwardsExtended Elem} {a b m u : Elem}
    (ha : (c.scalar pr).mul p.x q.x = .ok a) (hb : (c.scalar pr).mul p.y q.y = .ok b)
    (hm : (c.scalar pr).mul p.t (c.scalar pr).dVal = .ok m) (hu : (c.scalar pr).mul m q.t = .ok u)
    (ca : 0 ≤ c.fld.V a ∧ c.fld.V a < 2 ^ c.fld.n) (cb : 0 ≤ c.fld.V b ∧ c.fld.V b < 2 ^ c.fld.n)
    (cu : 0 ≤ c.fld.V u ∧ c.fld.V u < 2 ^ c.fld.n) :
    SafeProg (c.scalar pr) c.SubOk c.MulOk c.SmOk EdwardsExtended.addP
      (EdwardsExtended.regs p q) := by
  have mul_ok : ∀ a b, c.MulOk a b := by
    intro a b
    rw [MulOk]
    rcases c with _ | _ | _ | _ | _
    · exact absurd rfl hc.1
    · exact absurd rfl hc.2
    all_goals trivial
  have sa : ∀ w, c.SubOk w a := fun _ => ca
  have sb : ∀ w, c.SubOk w b := fun _ => cb
  have su : ∀ w, c.SubOk w u := fun _ => cu
  have g0 : (EdwardsExtended.regs p q).get 0 = some p.x := rfl
  have g1 : (EdwardsExtended.regs p q).get 1 = some p.y := rfl
  have g2 : (EdwardsExtended.regs p q).get 2 = some p.z := rfl
  have g3 : (EdwardsExtended.regs p q).get 3 = some p.t := rfl
  have g4 : (EdwardsExtended.regs p q).get 4 = some q.x := rfl
  have g5 : (EdwardsExtended.regs p q).get 5 = some q.y := rfl
  have g6 : (EdwardsExtended.regs p q).get 6 = some q.z := rfl
  have g7 : (EdwardsExtended.regs p q).get 7 = some q.t := rfl
  generalize EdwardsExtended.regs p q = ρ at *
  simp only [EdwardsExtended.addP]
  refine ⟨⟨trivial, trivial, fun _ _ _ _ => mul_ok _ _⟩, fun v hv => ?_⟩
  simp [SafeProg, PExpr.Safe, PExpr.eval, Tree.get_set, g0, g1, g2, g3, g4, g5, g6, g7, ha, hb,
    hm, hu, mul_ok, sb, su, bind, Except.bind] at hv ⊢
  subst hv
  simp [sa]

theorem double_safe (c : Crv) (pr : Profile) (hc : c ≠ e222 ∧ c ≠ curve1174)
    {p : EdwardsExtended Elem} {a b s w : Elem}
    (ha : (c.scalar pr).squared p.x = .ok a) (hb : (c.scalar pr).squared p.y = .ok b)
    (hs : (c.scalar pr).squared p.z = .ok s) (hw : (c.scalar pr).smallMul s 2 = .ok w)
    (ca : 0 ≤ c.fld.V a ∧ c.fld.V a < 2 ^ c.fld.n) (cb : 0 ≤ c.fld.V b ∧ c.fld.V b < 2 ^ c.fld.n)
    (cs : 0 ≤ c.fld.V s ∧ c.fld.V s < 2 ^ c.fld.n) (cw : 0 ≤ c.fld.V w ∧ c.fld.V w < 2 ^ c.fld.n) :
    SafeProg (c.scalar pr) c.SubOk c.MulOk c.SmOk EdwardsExtended.doubleP
      (EdwardsExtended.regs p p) := by
  have mul_ok : ∀ a b, c.MulOk a b := by
    intro a b
    rw [MulOk]
    rcases c with _ | _ | _ | _ | _
    · exact absurd rfl hc.1
    · exact absurd rfl hc.2
    all_goals trivial
  have sa : ∀ w, c.SubOk w a := fun _ => ca
  have sb : ∀ w, c.SubOk w b := fun _ => cb
  have sw : ∀ u, c.SubOk u w := fun _ => cw
  have ss : c.SmOk s 2 := ⟨rfl, cs⟩
  have g0 : (EdwardsExtended.regs p p).get 0 = some p.x := rfl
  have g1 : (EdwardsExtended.regs p p).get 1 = some p.y := rfl
  have g2 : (EdwardsExtended.regs p p).get 2 = some p.z := rfl
  generalize EdwardsExtended.regs p p = ρ at *
  simp only [EdwardsExtended.doubleP]
  simp [SafeProg, PExpr.Safe, PExpr.eval, Tree.get_set, g0, g1, g2, ha, hb, hs, hw, mul_ok,
    sa, sb, sw, ss, bind, Except.bind]

end Crv
end Verif

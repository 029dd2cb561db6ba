import Verif.Field.ChainEval
import Verif.Field.Value

/-!
# Exact integer results of the exponentiation chains (helper lemmas)

`intRun` follows a chain on the integers that the registers denote, using the exact
results of `*`, `square`, `+=` and `-=`.  It can be evaluated quickly by the kernel.
-/

namespace Verif
open Check FieldCode

namespace Fld

/-- Operations on the integers that the registers denote. -/
def intOps (f : Fld) (quart : Int → Option Int) : AbsOps Int where
  sq x := forceInt (f.sqVal (x * x)) some
  mul x y := forceInt (f.mulVal (x * y)) some
  sub x y := forceInt (x - y - f.p * (x / 2 ^ f.n) + (2 ^ f.n + f.c) * (y / 2 ^ f.n)) some
  add x y := forceInt (x + y - f.p * (x / 2 ^ f.n) - f.p * (y / 2 ^ f.n)) some
  quart := quart

/-- The register holds `x`. -/
def IntRel (f : Fld) (x : Int) (v : Elem) : Prop := f.Tight v ∧ f.V v = x

theorem int_sound {f : Fld} (pr : Profile) {quart : Int → Option Int} {q : Elem → Res Elem}
    (hq : ∀ {x y v}, quart x = some y → f.IntRel x v → ∃ r, q v = .ok r ∧ f.IntRel y r) :
    Sound f.code pr q (f.intOps quart) (fun _ _ => True) f.IntRel where
  sq := by
    rintro a b v h1 ⟨h2, rfl⟩
    simp only [intOps, forceInt_eq, Option.some.injEq] at h1
    obtain ⟨r, h3, h4, h5⟩ := square_value pr (Tight.loose h2)
    exact ⟨r, h3, h4, h5.trans h1⟩
  mul := by
    rintro a a' b v w h1 ⟨h2, rfl⟩ ⟨h2', rfl⟩ -
    simp only [intOps, forceInt_eq, Option.some.injEq] at h1
    obtain ⟨r, h3, h4, h5⟩ := mul_value pr (Tight.loose h2) (Tight.loose h2')
    exact ⟨r, h3, h4, h5.trans h1⟩
  sub := by
    rintro a a' b v w h1 ⟨h2, rfl⟩ ⟨h2', rfl⟩
    simp only [intOps, forceInt_eq, Option.some.injEq] at h1
    obtain ⟨r, h3, h4, -⟩ := C02_sub_correct_iff f pr (Tight.rep h2) (Tight.rep h2')
    obtain ⟨r', h3', -, h5⟩ := sub_exact pr (Tight.rep h2) (Tight.rep h2')
    obtain rfl := ok_unique h3' h3
    exact ⟨r', h3, h4, h5.trans h1⟩
  add := by
    rintro a a' b v w h1 ⟨h2, rfl⟩ ⟨h2', rfl⟩
    simp only [intOps, forceInt_eq, Option.some.injEq] at h1
    obtain ⟨r, h3, h4, -⟩ := C01_add f pr (Tight.rep h2) (Tight.rep h2')
    obtain ⟨r', h3', -, h5⟩ := add_exact pr (Tight.rep h2) (Tight.rep h2')
    obtain rfl := ok_unique h3' h3
    exact ⟨r', h3, h4, h5.trans h1⟩
  quart := hq

/-- Integers that the initial registers denote. -/
def intInit (f : Fld) (x : Int) : Tree Int :=
  let A := ((Tree.leaf : Tree Int).set 0 x).set 1 1
  let A := match f.code.M_HALF with
    | some d => A.set 2 (f.V d)
    | none => A
  match f.code.COEFF with
  | some c => A.set 3 (f.V c)
  | none => A

theorem intInit_rel {f : Fld} {a : Elem} (ha : f.Tight a) :
    Rel f.IntRel (f.intInit (f.V a)) (f.code.initRegs a) := by
  have h0 : Rel f.IntRel (Tree.leaf : Tree Int) (Tree.leaf : Regs) := by
    intro i b hb
    rw [Tree.get_leaf] at hb
    cases hb
  have h2 := (h0.set 0 (a := f.V a) ⟨ha, rfl⟩).set 1 (a := 1)
    ⟨(one_canon f).tight, (one_canon f).2.1⟩
  have hm := m_half_shapeB f
  have hc := coeff_shapeB f
  simp only [intInit, initRegs]
  have key : ∀ c, f.optShapeB (some c) = true → f.Tight c := by
    intro c h
    simp only [optShapeB, p2_eq] at h
    exact word_tight (shape_of_shapeB h)
  cases hmh : f.code.M_HALF with
  | none =>
    cases hcf : f.code.COEFF with
    | none => exact h2
    | some c => rw [hcf] at hc; exact h2.set 3 ⟨key c hc, rfl⟩
  | some d =>
    rw [hmh] at hm
    have h3 := h2.set 2 (a := f.V d) ⟨key d hm, rfl⟩
    cases hcf : f.code.COEFF with
    | none => exact h3
    | some c => rw [hcf] at hc; exact h3.set 3 ⟨key c hc, rfl⟩

/-- The integer a chain returns for an operand that denotes the integer `x`. -/
def intRun (f : Fld) (quart : Int → Option Int) (c : Chain) (x : Int) : Option Int :=
  (absSteps (f.intOps quart) (flatten c) (f.intInit x)).bind fun A => A.get 0

theorem intRun_sound {f : Fld} (pr : Profile) {quart : Int → Option Int} {q : Elem → Res Elem}
    (hq : ∀ {x y v}, quart x = some y → f.IntRel x v → ∃ r, q v = .ok r ∧ f.IntRel y r)
    {c : Chain} {a : Elem} (ha : f.Tight a) {y : Int} (h : f.intRun quart c (f.V a) = some y) :
    ∃ r, f.code.runChain pr q c a = .ok r ∧ f.Tight r ∧ f.V r = y := by
  obtain ⟨A, h1, h2⟩ := Option.bind_eq_some_iff.mp h
  obtain ⟨ρ, h3, h4⟩ := sim (int_sound pr hq) _ (intInit_rel ha) h1
    (SafeSteps.of_forall (fun _ _ => trivial) _ _)
  obtain ⟨v, h5, h6⟩ := h4 0 y h2
  exact ⟨v, by simp only [runChain, execChain_eq, h3, bind, Except.bind, reg, h5], h6⟩

/-- For the chains that do not call `quartic_legendre`. -/
theorem intRun_sound' {f : Fld} (pr : Profile) {q : Elem → Res Elem} {c : Chain} {a : Elem}
    (ha : f.Tight a) {y : Int} (h : f.intRun (fun _ => none) c (f.V a) = some y) :
    ∃ r, f.code.runChain pr q c a = .ok r ∧ f.Tight r ∧ f.V r = y :=
  intRun_sound pr (fun h _ => by cases h) ha h

end Fld
end Verif

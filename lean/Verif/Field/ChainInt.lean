import Verif.Field.ChainSym
import Verif.Field.Value

/-!
# The operations of a field type as functions on integers

`plus`, `minus`, `times`, `sq` are what `+`, `-`, `*` and `squared` do to the integers that the words
stand for, right or wrong modulo `p`; `runInt` follows the bodies of `invert`, `legendre`,
`quartic_legendre` and `sqrt` with them.
-/

namespace Verif
open FieldCode

namespace Fld
variable (f : Fld)

/-- `x + y` on integers. -/
def plus (x y : Int) : Int := x + y - f.p * (x / 2 ^ f.n + y / 2 ^ f.n)

/-- `x - y` on integers. -/
def minus (x y : Int) : Int := x - y - f.p * (x / 2 ^ f.n) + (2 ^ f.n + f.c) * (y / 2 ^ f.n)

/-- `x * y` on integers. -/
def times (x y : Int) : Int := f.mulVal (x * y)

/-- `x.squared()` on integers. -/
def sq (x : Int) : Int := f.sqVal (x * x)

/-- Assignment. -/
def upd (ρ : Nat → Int) (x : Nat) (v : Int) : Nat → Int := fun i => if i = x then v else ρ i

/-- A step of a chain on integers. -/
def stepInt (q : Int → Int) (ρ : Nat → Int) : CStep → Nat → Int
  | .clone x y => upd ρ x (ρ y)
  | .squared x y => upd ρ x (f.sq (ρ y))
  | .quartic x y => upd ρ x (q (ρ y))
  | .square x => upd ρ x (f.sq (ρ x))
  | .mulAssign x y => upd ρ x (f.times (ρ x) (ρ y))
  | .subAssign x y => upd ρ x (f.minus (ρ x) (ρ y))
  | .addAssign x y => upd ρ x (f.plus (ρ x) (ρ y))
  | .ret x => upd ρ 0 (ρ x)
  | .retMul x y => upd ρ 0 (f.times (ρ x) (ρ y))

/-- A chain on integers. -/
def chainInt (q : Int → Int) : Chain → (Nat → Int) → Nat → Int
  | [], ρ => ρ
  | .step s :: rest, ρ => chainInt q rest (f.stepInt q ρ s)
  | .loop a b body :: rest, ρ => chainInt q rest ((fun ρ => body.foldl (f.stepInt q) ρ)^[b - a] ρ)

/-- The registers at the beginning: the argument and the constants `ONE`, `M_HALF`, `COEFF`. -/
def initInt (x : Int) : Nat → Int
  | 0 => x
  | 1 => 1
  | 2 => (f.code.M_HALF.map f.V).getD 0
  | 3 => (f.code.COEFF.map f.V).getD 0
  | _ => 0

/-- The integer a chain returns. -/
def runInt (q : Int → Int) (c : Chain) (x : Int) : Int := f.chainInt q c (f.initInt x) 0

/-- `x.inverted()` on integers. -/
def invInt (x : Int) : Int := f.runInt (fun _ => 0) f.code.invertC x

/-- `x.legendre()` on integers. -/
def legInt (x : Int) : Int := f.runInt (fun _ => 0) f.code.legendreC x

/-- `x.quartic_legendre()` on integers. -/
def quarticInt (x : Int) : Int := match f.code.quarticC with
  | some c => f.runInt (fun _ => 0) c x
  | none => 0

/-- `x.sqrt()` on integers. -/
def sqrtInt (x : Int) : Int := f.runInt f.quarticInt f.code.sqrtC x

variable {f} {pr : Profile}

theorem mul_int {a b r : Elem} (ha : f.Tight a) (hb : f.Tight b) (h : f.code.mulAssign pr a b = .ok r) :
    f.Tight r ∧ f.V r = f.times (f.V a) (f.V b) := by
  obtain ⟨s, h1, h2⟩ := mul_value pr ha.loose hb.loose
  cases Except.ok.inj (h.symm.trans h1)
  exact h2

theorem sq_int {a r : Elem} (ha : f.Tight a) (h : f.code.square pr a = .ok r) :
    f.Tight r ∧ f.V r = f.sq (f.V a) := by
  obtain ⟨s, h1, h2⟩ := square_value pr ha.loose
  cases Except.ok.inj (h.symm.trans h1)
  exact h2

theorem add_int {a b r : Elem} (ha : f.Tight a) (hb : f.Tight b) (h : f.code.addAssign pr a b = .ok r) :
    f.Tight r ∧ f.V r = f.plus (f.V a) (f.V b) := by
  obtain ⟨s, h1, h2, -⟩ := C01_add f pr ha.rep hb.rep
  obtain ⟨t, h3, -, h4⟩ := add_exact pr ha.rep hb.rep
  cases Except.ok.inj (h.symm.trans h1)
  cases Except.ok.inj (h.symm.trans h3)
  exact ⟨h2, by rw [h4, plus]; ring⟩

theorem sub_int {a b r : Elem} (ha : f.Tight a) (hb : f.Tight b) (h : f.code.subAssign pr a b = .ok r) :
    f.Tight r ∧ f.V r = f.minus (f.V a) (f.V b) := by
  obtain ⟨s, h1, h2, -⟩ := C02_sub_correct_iff f pr ha.rep hb.rep
  obtain ⟨t, h3, -, h4⟩ := sub_exact pr ha.rep hb.rep
  cases Except.ok.inj (h.symm.trans h1)
  cases Except.ok.inj (h.symm.trans h3)
  exact ⟨h2, h4⟩

/-- The words in the registers stand for the given integers. -/
def Holds (A : Nat → Int) (ρ : Regs) : Prop := ∀ i v, ρ.get i = some v → f.Tight v ∧ f.V v = A i

theorem Holds.set {A : Nat → Int} {ρ : Regs} (h : Holds (f := f) A ρ) (x : Nat) {v : Elem} {y : Int}
    (hv : f.Tight v ∧ f.V v = y) : Holds (f := f) (upd A x y) (ρ.set x v) := by
  intro i w hw
  by_cases hi : i = x
  · subst hi
    rw [Tree.get_set_self] at hw
    cases hw
    rw [upd, if_pos rfl]
    exact hv
  · rw [Tree.get_set_ne _ _ hi] at hw
    rw [upd, if_neg hi]
    exact h i w hw

/-- `q` does on words what `qi` does on integers. -/
def Follows (q : Elem → Res Elem) (qi : Int → Int) : Prop :=
  ∀ v r, f.Tight v → q v = .ok r → f.Tight r ∧ f.V r = qi (f.V v)

variable {q : Elem → Res Elem} {qi : Int → Int}

theorem bind_ok {α β : Type} {x : Res α} {k : α → Res β} {r : β} (h : (x >>= k) = .ok r) :
    ∃ v, x = .ok v ∧ k v = .ok r := by
  cases x with
  | error e => cases h
  | ok v => exact ⟨v, rfl, h⟩

theorem reg_ok {A : Nat → Int} {ρ : Regs} (h : Holds (f := f) A ρ) {x : Nat} {v : Elem}
    (hv : reg ρ x = .ok v) : f.Tight v ∧ f.V v = A x := by
  refine h x v ?_
  unfold reg at hv
  split at hv
  · next w hw => cases hv; exact hw
  · cases hv

theorem step_int (hq : Follows (f := f) q qi) {A : Nat → Int} {ρ ρ' : Regs}
    (h : Holds (f := f) A ρ) {s : CStep} (hs : f.code.execStep pr q ρ s = .ok ρ') :
    Holds (f := f) (f.stepInt qi A s) ρ' := by
  cases s with
  | clone x y =>
    obtain ⟨v, hv, hs⟩ := bind_ok hs
    cases hs
    exact h.set x (reg_ok h hv)
  | ret x =>
    obtain ⟨v, hv, hs⟩ := bind_ok hs
    cases hs
    exact h.set 0 (reg_ok h hv)
  | squared x y =>
    obtain ⟨v, hv, hs⟩ := bind_ok hs
    have e := reg_ok h hv
    obtain ⟨w, hw, hs⟩ := bind_ok hs
    cases hs
    have e2 : f.Tight w ∧ f.V w = f.sq (A y) := by rw [← e.2]; exact sq_int e.1 hw
    exact h.set x e2
  | quartic x y =>
    obtain ⟨v, hv, hs⟩ := bind_ok hs
    have e := reg_ok h hv
    obtain ⟨w, hw, hs⟩ := bind_ok hs
    cases hs
    have e2 : f.Tight w ∧ f.V w = qi (A y) := by rw [← e.2]; exact hq _ _ e.1 hw
    exact h.set x e2
  | square x =>
    obtain ⟨v, hv, hs⟩ := bind_ok hs
    have e := reg_ok h hv
    obtain ⟨w, hw, hs⟩ := bind_ok hs
    cases hs
    have e2 : f.Tight w ∧ f.V w = f.sq (A x) := by rw [← e.2]; exact sq_int e.1 hw
    exact h.set x e2
  | mulAssign x y =>
    obtain ⟨v, hv, hs⟩ := bind_ok hs
    have e := reg_ok h hv
    obtain ⟨u, hu, hs⟩ := bind_ok hs
    have e' := reg_ok h hu
    obtain ⟨w, hw, hs⟩ := bind_ok hs
    cases hs
    have e2 : f.Tight w ∧ f.V w = f.times (A x) (A y) := by rw [← e.2, ← e'.2]; exact mul_int e.1 e'.1 hw
    exact h.set x e2
  | subAssign x y =>
    obtain ⟨v, hv, hs⟩ := bind_ok hs
    have e := reg_ok h hv
    obtain ⟨u, hu, hs⟩ := bind_ok hs
    have e' := reg_ok h hu
    obtain ⟨w, hw, hs⟩ := bind_ok hs
    cases hs
    have e2 : f.Tight w ∧ f.V w = f.minus (A x) (A y) := by rw [← e.2, ← e'.2]; exact sub_int e.1 e'.1 hw
    exact h.set x e2
  | addAssign x y =>
    obtain ⟨v, hv, hs⟩ := bind_ok hs
    have e := reg_ok h hv
    obtain ⟨u, hu, hs⟩ := bind_ok hs
    have e' := reg_ok h hu
    obtain ⟨w, hw, hs⟩ := bind_ok hs
    cases hs
    have e2 : f.Tight w ∧ f.V w = f.plus (A x) (A y) := by rw [← e.2, ← e'.2]; exact add_int e.1 e'.1 hw
    exact h.set x e2
  | retMul x y =>
    obtain ⟨v, hv, hs⟩ := bind_ok hs
    have e := reg_ok h hv
    obtain ⟨u, hu, hs⟩ := bind_ok hs
    have e' := reg_ok h hu
    obtain ⟨w, hw, hs⟩ := bind_ok hs
    cases hs
    have e2 : f.Tight w ∧ f.V w = f.times (A x) (A y) := by rw [← e.2, ← e'.2]; exact mul_int e.1 e'.1 hw
    exact h.set 0 e2

theorem steps_int (hq : Follows (f := f) q qi) (l : List CStep) : ∀ {A : Nat → Int} {ρ ρ' : Regs},
    Holds (f := f) A ρ → f.code.execSteps pr q l ρ = .ok ρ' →
    Holds (f := f) (l.foldl (f.stepInt qi) A) ρ' := by
  induction l with
  | nil => intro A ρ ρ' h hs; cases hs; exact h
  | cons s l ih =>
    intro A ρ ρ' h hs
    obtain ⟨ρ1, h1, h2⟩ := bind_ok hs
    exact ih (step_int hq h h1) h2

theorem loop_int (hq : Follows (f := f) q qi) (l : List CStep) (n : Nat) :
    ∀ {A : Nat → Int} {ρ ρ' : Regs}, Holds (f := f) A ρ → f.code.execLoop pr q l n ρ = .ok ρ' →
    Holds (f := f) ((fun A => l.foldl (f.stepInt qi) A)^[n] A) ρ' := by
  induction n with
  | zero => intro A ρ ρ' h hs; cases hs; exact h
  | succ n ih =>
    intro A ρ ρ' h hs
    obtain ⟨ρ1, h1, h2⟩ := bind_ok hs
    rw [Function.iterate_succ_apply]
    exact ih (steps_int hq l h h1) h2

theorem chain_int (hq : Follows (f := f) q qi) (c : Chain) : ∀ {A : Nat → Int} {ρ ρ' : Regs},
    Holds (f := f) A ρ → f.code.execChain pr q c ρ = .ok ρ' →
    Holds (f := f) (f.chainInt qi c A) ρ' := by
  induction c with
  | nil => intro A ρ ρ' h hs; cases hs; exact h
  | cons s c ih =>
    intro A ρ ρ' h hs
    cases s with
    | step s =>
      obtain ⟨ρ1, h1, h2⟩ := bind_ok hs
      exact ih (step_int hq h h1) h2
    | loop a b body =>
      obtain ⟨ρ1, h1, h2⟩ := bind_ok hs
      exact ih (loop_int hq body _ h h1) h2

theorem init_int {a : Elem} (ha : f.Tight a) : Holds (f := f) (f.initInt (f.V a)) (f.code.initRegs a) := by
  have key : ∀ {o : Option Elem} {c}, f.optShapeB o = true → o = some c → f.Tight c := by
    rintro _ c h rfl
    simp only [optShapeB, Check.p2_eq] at h
    exact word_tight (shape_of_shapeB h)
  intro i v hv
  unfold initRegs at hv
  dsimp only at hv
  by_cases h3 : i = 3
  · subst h3
    cases hc : f.code.COEFF with
    | some c =>
      rw [hc] at hv
      dsimp only at hv
      rw [Tree.get_set_self] at hv
      cases hv
      exact ⟨key (coeff_shapeB f) hc, by simp [initInt, hc]⟩
    | none =>
      rw [hc] at hv
      dsimp only at hv
      cases hm : f.code.M_HALF <;> rw [hm] at hv <;> dsimp only at hv <;>
        simp [Tree.get_set, Tree.get_leaf] at hv
  have hv : (match f.code.M_HALF with
      | some c => (((Tree.leaf : Regs).set 0 a).set 1 f.code.ONE).set 2 c
      | none => ((Tree.leaf : Regs).set 0 a).set 1 f.code.ONE).get i = some v := by
    cases hc : f.code.COEFF with
    | some c => rw [hc] at hv; dsimp only at hv; rwa [Tree.get_set_ne _ _ h3] at hv
    | none => rw [hc] at hv; exact hv
  by_cases h2 : i = 2
  · subst h2
    cases hm : f.code.M_HALF with
    | some c =>
      rw [hm] at hv
      dsimp only at hv
      rw [Tree.get_set_self] at hv
      cases hv
      exact ⟨key (m_half_shapeB f) hm, by simp [initInt, hm]⟩
    | none => rw [hm] at hv; dsimp only at hv; simp [Tree.get_set, Tree.get_leaf] at hv
  have hv : (((Tree.leaf : Regs).set 0 a).set 1 f.code.ONE).get i = some v := by
    cases hm : f.code.M_HALF with
    | some c => rw [hm] at hv; dsimp only at hv; rwa [Tree.get_set_ne _ _ h2] at hv
    | none => rw [hm] at hv; exact hv
  by_cases h1 : i = 1
  · subst h1
    rw [Tree.get_set_self] at hv
    cases hv
    exact ⟨(one_canon f).tight, (one_canon f).2.1⟩
  rw [Tree.get_set_ne _ _ h1] at hv
  by_cases h0 : i = 0
  · subst h0
    rw [Tree.get_set_self] at hv
    cases hv
    exact ⟨ha, rfl⟩
  · rw [Tree.get_set_ne _ _ h0, Tree.get_leaf] at hv
    cases hv

theorem run_int (hq : Follows (f := f) q qi) {c : Chain} {a r : Elem} (ha : f.Tight a)
    (h : f.code.runChain pr q c a = .ok r) : f.Tight r ∧ f.V r = f.runInt qi c (f.V a) := by
  obtain ⟨ρ, h1, h2⟩ := bind_ok h
  exact reg_ok (chain_int hq c (init_int ha) h1) h2

theorem noQuartic_follows : Follows (f := f) noQuartic (fun _ => 0) := fun _ _ _ h => by cases h

theorem quartic_follows : Follows (f := f) (f.code.quarticLegendre pr) f.quarticInt := by
  intro v r hv h
  unfold quarticLegendre at h
  unfold quarticInt
  cases hc : f.code.quarticC with
  | none => rw [hc] at h; cases h
  | some c => rw [hc] at h; exact run_int noQuartic_follows hv h

end Fld
end Verif

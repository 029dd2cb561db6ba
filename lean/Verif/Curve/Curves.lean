import Verif.Curve.Points
import Verif.Props.Power
import Verif.Props.Constants

/-!
# The five Edwards curves

`Crv` is the table of published curves (specification); `Crv.scalar` is the modelled code.
-/

namespace Verif

/-- The five Edwards curves of the repository. -/
inductive Crv where
  | e222 | curve1174 | e382 | curve41417 | e521
  deriving DecidableEq, Repr

namespace Crv

/-- The field of the curve. -/
def fld : Crv → Fld
  | e222 => .e222_117 | curve1174 => .e251_9 | e382 => .e382_105 | curve41417 => .e414_17
  | e521 => .e521_1

/-- The published coefficient: the curve is `x² + y² = 1 + d x² y²`. -/
def dInt : Crv → Int
  | e222 => 160102 | curve1174 => -1174 | e382 => -67254 | curve41417 => 3617 | e521 => -376014

/-- The field. -/
abbrev K (c : Crv) : Type := ZMod c.fld.pN

/-- The coefficient in the field. -/
def d (c : Crv) : c.K := (c.dInt : c.K)

/-- The modelled code of the curve type. -/
def scalar (c : Crv) (pr : Profile) : Scalar Elem :=
  match c with
  | e222 => Verif.e222 pr | curve1174 => Verif.curve1174 pr | e382 => Verif.e382 pr
  | curve41417 => Verif.curve41417 pr | e521 => Verif.e521 pr

/-- The `d_val()` of the code. -/
def dElem : Crv → Elem
  | e222 => Fields.E222_117.E222_D | curve1174 => Fields.E251_9.CURVE1174_D
  | e382 => Fields.E382_105.E382_D | curve41417 => Fields.E414_17.CURVE41417_D
  | e521 => Fields.E521_1.E521_D

theorem scalar_eq (c : Crv) (pr : Profile) : c.scalar pr = c.fld.code.scalar pr c.dElem := by
  cases c <;> rfl

/-- Points of the curve. -/
abbrev Point (c : Crv) : Type := EdPoint c.K c.d

/-- The residue class denoted by the words of an element. -/
def den (c : Crv) (a : Elem) : c.K := (c.fld.V a : c.K)

/-- `d_val()` is the canonical representation of the published coefficient. -/
theorem dVal_canon (c : Crv) : c.fld.Canon (c.dInt % c.fld.p) c.dElem := by
  apply Fld.canon_of_canonB
  cases c <;> decide +kernel

theorem dVal_den (c : Crv) : c.den c.dElem = c.d := by
  rw [den, (dVal_canon c).2.1, d, ← Fld.modEq_iff]
  exact Int.mod_modEq _ _

/-! ### `d` is not a square -/

/-- `d` as a natural number below `p`. -/
def dNat (c : Crv) : Nat := (c.dInt % c.fld.p).toNat

theorem dNat_cast (c : Crv) : ((c.dNat : Nat) : c.K) = c.d := by
  have h : (0 : Int) ≤ c.dInt % c.fld.p := Int.emod_nonneg _ (by cases c <;> decide +kernel)
  have e : ((c.dNat : Nat) : Int) = c.dInt % c.fld.p := Int.toNat_of_nonneg h
  rw [d, ← Int.cast_natCast, e, ← Fld.modEq_iff]
  exact Int.mod_modEq _ _

set_option maxRecDepth 100000 in
theorem d_pow (c : Crv) :
    Prime.powM c.fld.pN c.fld.n c.dNat (c.fld.pN / 2) 1 = c.fld.pN - 1 := by
  cases c <;> decide +kernel

set_option maxRecDepth 100000 in
theorem d_nonsquare (c : Crv) : ¬ IsSquare c.d := by
  have h := Prime.powM_modEq c.fld.pN c.fld.n c.dNat (c.fld.pN / 2) 1 (by
    cases c <;> decide +kernel)
  rw [d_pow, one_mul, ← ZMod.natCast_eq_natCast_iff] at h
  have hp := c.fld.pN_facts.1
  rw [Nat.cast_sub (by omega), ZMod.natCast_self, zero_sub, Nat.cast_pow, dNat_cast,
    Nat.cast_one] at h
  have h2 : (2 : ZMod c.fld.pN) ≠ 0 := by
    intro h2
    have : ((2 : Nat) : ZMod c.fld.pN) = 0 := by exact_mod_cast h2
    rw [ZMod.natCast_eq_zero_iff] at this
    exact absurd (Nat.le_of_dvd (by norm_num) this) (by omega)
  have h0 : c.d ≠ 0 := by
    intro h0
    rw [h0, zero_pow (by omega)] at h
    exact one_ne_zero (neg_eq_zero.1 h)
  intro hs
  rw [ZMod.euler_criterion _ h0] at hs
  change c.d ^ (c.fld.pN / 2) = 1 at hs
  rw [hs] at h
  exact h2 (by linear_combination -h)

instance (c : Crv) : Fact (¬ IsSquare c.d) := ⟨d_nonsquare c⟩

theorem two_ne_zero (c : Crv) : (2 : c.K) ≠ 0 := by
  have hp := c.fld.pN_facts.1
  intro h2
  have : ((2 : Nat) : ZMod c.fld.pN) = 0 := by exact_mod_cast h2
  rw [ZMod.natCast_eq_zero_iff] at this
  exact absurd (Nat.le_of_dvd (by norm_num) this) (by omega)

instance (c : Crv) : NeZero (2 : c.K) := ⟨two_ne_zero c⟩

end Crv
end Verif

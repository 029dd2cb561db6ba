import Verif.Curve.Order

/-!
# Base points (helper definitions and lemmas)
-/

namespace Verif
namespace Crv

/-- `*_BASE_X` of the code. -/
def baseX : Crv → Elem
  | e222 => Fields.E222_117.E222_BASE_X | curve1174 => Fields.E251_9.CURVE1174_BASE_X
  | e382 => Fields.E382_105.E382_BASE_X | curve41417 => Fields.E414_17.CURVE41417_BASE_X
  | e521 => Fields.E521_1.E521_BASE_X

/-- `*_BASE_Y` of the code. -/
def baseY : Crv → Elem
  | e222 => Fields.E222_117.E222_BASE_Y | curve1174 => Fields.E251_9.CURVE1174_BASE_Y
  | e382 => Fields.E382_105.E382_BASE_Y | curve41417 => Fields.E414_17.CURVE41417_BASE_Y
  | e521 => Fields.E521_1.E521_BASE_Y

/-- `*_ORDER` of the code. -/
def order : Crv → Elem
  | e222 => Fields.E222_117.E222_ORDER | curve1174 => Fields.E251_9.CURVE1174_ORDER
  | e382 => Fields.E382_105.E382_ORDER | curve41417 => Fields.E414_17.CURVE41417_ORDER
  | e521 => Fields.E521_1.E521_ORDER

/-- Value of the words as a natural number. -/
def nat (c : Crv) (a : Elem) : Nat := (c.fld.V a).toNat

variable (c : Crv)

theorem nat_cast {a : Elem} (h : 0 ≤ c.fld.V a) : ((c.nat a : Nat) : c.K) = c.den a := by
  rw [den, ← Int.cast_natCast, nat, Int.toNat_of_nonneg h]

/-- `x² + y² = 1 + d x² y²` for integers modulo `p`. -/
def onB (x y : Int) : Bool :=
  decide ((x * x % c.fld.p + y * y % c.fld.p - 1 -
    c.dInt * ((x * x % c.fld.p) * (y * y % c.fld.p) % c.fld.p)) % c.fld.p = 0)

theorem on_of_onB {x y : Int} (h : c.onB x y = true) :
    (x : c.K) ^ 2 + (y : c.K) ^ 2 = 1 + c.d * (x : c.K) ^ 2 * (y : c.K) ^ 2 := by
  have h := of_decide_eq_true h
  have e : ∀ u : Int, ((u % c.fld.p : Int) : c.K) = (u : c.K) := fun u =>
    Fld.modEq_iff.1 (Int.mod_modEq _ _)
  have h' := congrArg (Int.cast : Int → c.K) h
  simp only [e, Int.cast_sub, Int.cast_add, Int.cast_mul, Int.cast_one, Int.cast_zero] at h'
  rw [d]
  linear_combination h'

theorem base_on : (c.den c.baseX) ^ 2 + (c.den c.baseY) ^ 2 =
    1 + c.d * (c.den c.baseX) ^ 2 * (c.den c.baseY) ^ 2 := by
  apply on_of_onB
  cases c <;> decide +kernel

/-- The base point. -/
def base : c.Point := ⟨c.den c.baseX, c.den c.baseY, base_on c⟩

theorem base_canon : c.fld.Canon (c.fld.V c.baseX) c.baseX ∧ c.fld.Canon (c.fld.V c.baseY) c.baseY ∧
    c.fld.Canon (c.fld.V c.order) c.order := by
  refine ⟨?_, ?_, ?_⟩ <;> apply Fld.canon_of_canonB <;> cases c <;> decide +kernel

set_option maxRecDepth 100000 in
theorem base_order : c.smulZero (c.nat c.order) (c.nat c.baseX) (c.nat c.baseY) = true := by
  cases c <;> decide +kernel

theorem order_smul : (c.nat c.order) • c.base = 0 := by
  obtain ⟨h1, h2, h3⟩ := c.base_canon
  have lt : ((c.nat c.order : Nat) : Int) < 2 ^ c.fld.n := by
    rw [nat, Int.toNat_of_nonneg h3.2.2.1]
    exact lt_of_lt_of_le h3.2.2.2 (by cases c <;> decide +kernel)
  refine (smulZero_iff (c := c) (P := c.base) (c.nat_cast h1.2.2.1) (c.nat_cast h2.2.2.1) ?_).1
    c.base_order
  exact_mod_cast lt

end Crv
end Verif

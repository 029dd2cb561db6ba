import Verif.Field.Arith

/-!
# Constants (helper lemmas)
-/

namespace Verif
open Check
namespace Fld

/-- Decidable form of `Canon`. -/
def canonB (f : Fld) (x : Int) (a : Elem) : Bool :=
  f.shapeB 0 (p2 f.tb - 1) a && decide (f.V a = x) && decide (0 ≤ x) && decide (x < f.p)

theorem canon_of_canonB {f : Fld} {x : Int} {a : Elem} (h : f.canonB x a = true) :
    f.Canon x a := by
  simp only [canonB, Bool.and_eq_true, decide_eq_true_eq, p2_eq] at h
  exact ⟨shape_of_shapeB h.1.1.1, h.1.1.2, h.1.2, h.2⟩

set_option maxRecDepth 100000 in
theorem zero_canon (f : Fld) : f.Canon 0 f.code.ZERO := by
  apply canon_of_canonB; cases f <;> decide +kernel

set_option maxRecDepth 100000 in
theorem one_canon (f : Fld) : f.Canon 1 f.code.ONE := by
  apply canon_of_canonB; cases f <;> decide +kernel

set_option maxRecDepth 100000 in
theorem m_one_canon (f : Fld) : f.Canon (f.p - 1) f.code.M_ONE := by
  apply canon_of_canonB; cases f <;> decide +kernel

end Fld
end Verif

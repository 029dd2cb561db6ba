import Verif.Model.Operators
import Verif.Spec
import Mathlib.Tactic.Linarith

/-!
# Property C23: operator variants agree
-/

namespace Verif
open FieldCode

/-- The operand has the Rust type. -/
def OpVal.HasType : OpTy → OpVal → Prop
  | .ref, .elem _ | .val, .elem _ => True
  | .i32, .int n => IsI32 n
  | .i16, .int n => -2 ^ 15 ≤ n ∧ n < 2 ^ 15
  | .i8, .int n => -2 ^ 7 ≤ n ∧ n < 2 ^ 7
  | _, _ => False

/-- What an operator must compute, whatever the form: the limb code for two elements, the
`small` method for an element and an integer (in either order). -/
def opSpec (F : FieldCode) (pr : Profile) : OpKind → OpVal → OpVal → Res Elem
  | .add, .elem a, .elem b => F.addAssign pr a b
  | .sub, .elem a, .elem b => F.subAssign pr a b
  | .mul, .elem a, .elem b => F.mulAssign pr a b
  | .div, .elem a, .elem b => F.divAssign pr a b
  | .add, .elem a, .int n | .add, .int n, .elem a => F.smallAddAssign pr a n
  | .sub, .elem a, .int n => F.smallSubAssign pr a n
  | .mul, .elem a, .int n | .mul, .int n, .elem a => F.smallMulAssign pr a n
  | _, _, _ => .error .index

/-- Operand types for which an operator exists: two elements, both by value or both by
reference; an element and an integer; an integer and a reference, for `+` and `*`. -/
def opExists (o : OpKind) (assign : Bool) (l r : OpTy) : Bool :=
  match assign, l, r with
  | true, .val, .val | true, .val, .ref | false, .val, .val | false, .ref, .ref => true
  | true, .val, _ | false, .val, .i32 | false, .val, .i16 | false, .val, .i8
  | false, .ref, .i32 | false, .ref, .i16 | false, .ref, .i8 => o ≠ .div
  | false, .i32, .ref | false, .i16, .ref | false, .i8, .ref => o = .add ∨ o = .mul
  | _, _, _ => false

theorem asI32_of {n : Int} (h : IsI32 n) : asI32 n = n := by
  obtain ⟨h1, h2⟩ := h
  simp only [asI32]
  omega

theorem asI32_i16 {n : Int} (h1 : -2 ^ 15 ≤ n) (h2 : n < 2 ^ 15) : asI32 n = n :=
  asI32_of ⟨by linarith, by linarith⟩

theorem asI32_i8 {n : Int} (h1 : -2 ^ 7 ≤ n) (h2 : n < 2 ^ 7) : asI32 n = n :=
  asI32_of ⟨by linarith, by linarith⟩

theorem small_eq (f : Fld) (pr : Profile) {n : Int} (hn : asI32 n = n) {a : Elem} {o : OpKind}
    {assign : Bool} {l r : OpTy} (ho : o ≠ .div) (hl : l = .val ∨ l = .ref)
    (ha : assign = true → l = .val) (hr : r = .i16 ∨ r = .i8) :
    f.code.opCall pr 4 o assign l r (.elem a) (.int n) = opSpec f.code pr o (.elem a) (.int n) := by
  have e : opSpec f.code pr o (.elem a) (.int n) =
      opSpec f.code pr o (.elem a) (.int (asI32 n)) := by rw [hn]
  rw [e]
  rcases hl with rfl | rfl <;> rcases hr with rfl | rfl <;> cases assign <;> cases o <;>
    first | rfl | exact absurd rfl ho | cases ha rfl

theorem small_eq' (f : Fld) (pr : Profile) {n : Int} (hn : asI32 n = n) {a : Elem} {o : OpKind}
    {l : OpTy} (ho : o = .add ∨ o = .mul) (hl : l = .i16 ∨ l = .i8) :
    f.code.opCall pr 4 o false l .ref (.int n) (.elem a) = opSpec f.code pr o (.int n) (.elem a) := by
  have e : opSpec f.code pr o (.int n) (.elem a) =
      opSpec f.code pr o (.int (asI32 n)) (.elem a) := by rw [hn]
  rw [e]
  rcases hl with rfl | rfl <;> rcases ho with rfl | rfl <;> rfl

/-- C23, operators: every form of every operator that is supposed to exist does exist, and
all forms compute the same for the same operands. -/
theorem C23_operators (f : Fld) (pr : Profile) (o : OpKind) (assign : Bool) (l r : OpTy)
    (he : opExists o assign l r = true) (x y : OpVal) (hx : x.HasType l) (hy : y.HasType r) :
    f.code.opCall pr 4 o assign l r x y = opSpec f.code pr o x y := by
  cases o <;> cases assign <;> cases l <;> cases r <;> first
    | (exfalso; revert he; decide)
    | (cases x <;> cases y <;> first
        | exact hx.elim
        | exact hy.elim
        | rfl
        | (have hn := asI32_i16 hy.1 hy.2; apply small_eq f pr hn <;> decide)
        | (have hn := asI32_i8 hy.1 hy.2; apply small_eq f pr hn <;> decide)
        | (have hn := asI32_i16 hx.1 hx.2; apply small_eq' f pr hn <;> decide)
        | (have hn := asI32_i8 hx.1 hx.2; apply small_eq' f pr hn <;> decide))

/-- There are no other forms. -/
theorem C23_no_other_forms (o : OpKind) (assign : Bool) (l r : OpTy) :
    (∃ i ∈ opTable, i.op = o ∧ i.assign = assign ∧ i.lhs = l ∧ i.rhs = r) ↔
      opExists o assign l r = true := by
  cases o <;> cases assign <;> cases l <;> cases r <;> decide

/-- C23, methods: the functional forms compute what the in-place forms do. -/
theorem C23_methods (f : Fld) (pr : Profile) (a b : Elem) (n : Int) :
    f.code.squared pr a = f.code.square pr a ∧ f.code.inverted pr a = f.code.invert pr a ∧
    f.code.smallAdd pr a n = f.code.smallAddAssign pr a n ∧
    f.code.smallSub pr a n = f.code.smallSubAssign pr a n ∧
    f.code.smallMul pr a n = f.code.smallMulAssign pr a n ∧
    f.code.add pr a b = f.code.opCall pr 4 .add false .ref .ref (.elem a) (.elem b) ∧
    f.code.sub pr a b = f.code.opCall pr 4 .sub false .ref .ref (.elem a) (.elem b) ∧
    f.code.mul pr a b = f.code.opCall pr 4 .mul false .ref .ref (.elem a) (.elem b) ∧
    f.code.div pr a b = f.code.opCall pr 4 .div false .ref .ref (.elem a) (.elem b) :=
  ⟨rfl, rfl, rfl, rfl, rfl, rfl, rfl, rfl, rfl⟩

/-- `a - 5i8`, by value and by reference. -/
example (f : Fld) (a : Elem) :
    f.code.opCall .debug 4 .sub false .val .i8 (.elem a) (.int 5) =
      f.code.opCall .debug 4 .sub false .ref .i8 (.elem a) (.int 5) :=
  (C23_operators f .debug .sub false .val .i8 rfl (.elem a) (.int 5) trivial
      ⟨by norm_num, by norm_num⟩).trans
    (C23_operators f .debug .sub false .ref .i8 rfl (.elem a) (.int 5) trivial
      ⟨by norm_num, by norm_num⟩).symm

end Verif

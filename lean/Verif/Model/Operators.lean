import Verif.Model.Field

/-!
# The operator trait implementations

Every `impl` of an operator trait for a field type: a table of the 49 impls with their
bodies, and an evaluator that resolves operators in the bodies by trait and by the types
of the two operands, as the compiler does.  Lines are those of
`/repo/src/field/mod_e221_3.rs`; the other eight files contain the same 49 impls with the
same bodies (compared mechanically), up to the name of the type.
-/

namespace Verif

/-- Operand types: `&Self`, `Self`, `i32`, `i16`, `i8`. -/
inductive OpTy where
  | ref | val | i32 | i16 | i8
  deriving DecidableEq, Repr

/-- The operator. -/
inductive OpKind where
  | add | sub | mul | div
  deriving DecidableEq, Repr

/-- Bodies of the impls.  The flag says whether the integer is converted with `as i32`. -/
inductive OpBody where
  /-- limb arithmetic, modelled separately -/
  | limb
  /-- `*self ∘= &rhs;` -/
  | assignRef (o : OpKind)
  /-- `let mut out = self.clone(); out ∘= a; out` -/
  | cloneAssign (o : OpKind)
  /-- `&self ∘ &a` -/
  | refRef (o : OpKind)
  /-- `&self ∘ a` -/
  | refVal (o : OpKind)
  /-- `self.small_∘_assign(rhs [as i32]);` -/
  | smallAssign (o : OpKind) (cast : Bool)
  /-- `self.small_∘(a [as i32])` -/
  | smallSelf (o : OpKind) (cast : Bool)
  /-- `a.small_∘(self [as i32])` -/
  | smallArg (o : OpKind) (cast : Bool)
  /-- `*self *= &rhs.inverted();` -/
  | mulInverted
  deriving DecidableEq, Repr

/-- An impl: the operator, whether it is the assigning form, the types of the left and of
the right operand, and the body. -/
structure OpImpl where
  op : OpKind
  assign : Bool
  lhs : OpTy
  rhs : OpTy
  body : OpBody
  deriving DecidableEq, Repr

/-- All operator impls of a field type, in the order of the file. -/
def opTable : List OpImpl := [
  /- AddAssign<&T> for T (lines 165–191): limb code -/
  ⟨.add, true, .val, .ref, .limb⟩,
  /- AddAssign<T> for T (lines 193–197): *self += &rhs -/
  ⟨.add, true, .val, .val, .assignRef .add⟩,
  /- AddAssign<i32> for T (lines 199–203): self.small_add_assign(rhs) -/
  ⟨.add, true, .val, .i32, .smallAssign .add false⟩,
  /- AddAssign<i16> for T (lines 205–209): self.small_add_assign(rhs as i32) -/
  ⟨.add, true, .val, .i16, .smallAssign .add true⟩,
  /- AddAssign<i8> for T (lines 211–215): self.small_add_assign(rhs as i32) -/
  ⟨.add, true, .val, .i8, .smallAssign .add true⟩,
  /- Add<&T> for &T (lines 217–225): let mut out = self.clone(); out += a; out -/
  ⟨.add, false, .ref, .ref, .cloneAssign .add⟩,
  /- Add<T> for T (lines 227–233): &self + &a -/
  ⟨.add, false, .val, .val, .refRef .add⟩,
  /- Add<&T> for i32 (lines 235–241): a.small_add(self) -/
  ⟨.add, false, .i32, .ref, .smallArg .add false⟩,
  /- Add<&T> for i16 (lines 243–249): a.small_add(self as i32) -/
  ⟨.add, false, .i16, .ref, .smallArg .add true⟩,
  /- Add<&T> for i8 (lines 251–257): a.small_add(self as i32) -/
  ⟨.add, false, .i8, .ref, .smallArg .add true⟩,
  /- Add<i32> for &T (lines 259–265): self.small_add(a) -/
  ⟨.add, false, .ref, .i32, .smallSelf .add false⟩,
  /- Add<i16> for &T (lines 267–273): self.small_add(a as i32) -/
  ⟨.add, false, .ref, .i16, .smallSelf .add true⟩,
  /- Add<i8> for &T (lines 275–281): self.small_add(a as i32) -/
  ⟨.add, false, .ref, .i8, .smallSelf .add true⟩,
  /- Add<i32> for T (lines 283–289): &self + a -/
  ⟨.add, false, .val, .i32, .refVal .add⟩,
  /- Add<i16> for T (lines 291–297): &self + a -/
  ⟨.add, false, .val, .i16, .refVal .add⟩,
  /- Add<i8> for T (lines 299–305): &self + a -/
  ⟨.add, false, .val, .i8, .refVal .add⟩,
  /- DivAssign<&T> for T (lines 307–311): *self *= &rhs.inverted() -/
  ⟨.div, true, .val, .ref, .mulInverted⟩,
  /- DivAssign<T> for T (lines 313–317): *self /= &rhs -/
  ⟨.div, true, .val, .val, .assignRef .div⟩,
  /- Div<&T> for &T (lines 319–327): let mut out = self.clone(); out /= a; out -/
  ⟨.div, false, .ref, .ref, .cloneAssign .div⟩,
  /- Div<T> for T (lines 329–335): &self / &a -/
  ⟨.div, false, .val, .val, .refRef .div⟩,
  /- SubAssign<i32> for T (lines 337–341): self.small_sub_assign(rhs) -/
  ⟨.sub, true, .val, .i32, .smallAssign .sub false⟩,
  /- SubAssign<i16> for T (lines 343–347): self.small_sub_assign(rhs as i32) -/
  ⟨.sub, true, .val, .i16, .smallAssign .sub true⟩,
  /- SubAssign<i8> for T (lines 349–353): self.small_sub_assign(rhs as i32) -/
  ⟨.sub, true, .val, .i8, .smallAssign .sub true⟩,
  /- SubAssign<&T> for T (lines 355–381): limb code -/
  ⟨.sub, true, .val, .ref, .limb⟩,
  /- SubAssign<T> for T (lines 383–387): *self -= &rhs -/
  ⟨.sub, true, .val, .val, .assignRef .sub⟩,
  /- Sub<i32> for &T (lines 389–395): self.small_sub(a) -/
  ⟨.sub, false, .ref, .i32, .smallSelf .sub false⟩,
  /- Sub<i16> for &T (lines 397–403): self.small_sub(a as i32) -/
  ⟨.sub, false, .ref, .i16, .smallSelf .sub true⟩,
  /- Sub<i8> for &T (lines 405–411): self.small_sub(a as i32) -/
  ⟨.sub, false, .ref, .i8, .smallSelf .sub true⟩,
  /- Sub<i32> for T (lines 413–419): &self - a -/
  ⟨.sub, false, .val, .i32, .refVal .sub⟩,
  /- Sub<i16> for T (lines 421–427): &self - a -/
  ⟨.sub, false, .val, .i16, .refVal .sub⟩,
  /- Sub<i8> for T (lines 429–435): &self - a -/
  ⟨.sub, false, .val, .i8, .refVal .sub⟩,
  /- Sub<&T> for &T (lines 437–445): let mut out = self.clone(); out -= a; out -/
  ⟨.sub, false, .ref, .ref, .cloneAssign .sub⟩,
  /- Sub<T> for T (lines 447–453): &self - &a -/
  ⟨.sub, false, .val, .val, .refRef .sub⟩,
  /- MulAssign<i32> for T (lines 455–459): self.small_mul_assign(rhs) -/
  ⟨.mul, true, .val, .i32, .smallAssign .mul false⟩,
  /- MulAssign<i16> for T (lines 461–465): self.small_mul_assign(rhs as i32) -/
  ⟨.mul, true, .val, .i16, .smallAssign .mul true⟩,
  /- MulAssign<i8> for T (lines 467–471): self.small_mul_assign(rhs as i32) -/
  ⟨.mul, true, .val, .i8, .smallAssign .mul true⟩,
  /- MulAssign<&T> for T (lines 473–652): limb code -/
  ⟨.mul, true, .val, .ref, .limb⟩,
  /- MulAssign<T> for T (lines 654–658): *self *= &rhs -/
  ⟨.mul, true, .val, .val, .assignRef .mul⟩,
  /- Mul<&T> for i32 (lines 660–666): a.small_mul(self) -/
  ⟨.mul, false, .i32, .ref, .smallArg .mul false⟩,
  /- Mul<&T> for i16 (lines 668–674): a.small_mul(self as i32) -/
  ⟨.mul, false, .i16, .ref, .smallArg .mul true⟩,
  /- Mul<&T> for i8 (lines 676–682): a.small_mul(self as i32) -/
  ⟨.mul, false, .i8, .ref, .smallArg .mul true⟩,
  /- Mul<i32> for &T (lines 684–690): self.small_mul(a) -/
  ⟨.mul, false, .ref, .i32, .smallSelf .mul false⟩,
  /- Mul<i16> for &T (lines 692–698): self.small_mul(a as i32) -/
  ⟨.mul, false, .ref, .i16, .smallSelf .mul true⟩,
  /- Mul<i8> for &T (lines 700–706): self.small_mul(a as i32) -/
  ⟨.mul, false, .ref, .i8, .smallSelf .mul true⟩,
  /- Mul<i32> for T (lines 708–714): &self * a -/
  ⟨.mul, false, .val, .i32, .refVal .mul⟩,
  /- Mul<i16> for T (lines 716–722): &self * a -/
  ⟨.mul, false, .val, .i16, .refVal .mul⟩,
  /- Mul<i8> for T (lines 724–730): &self * a -/
  ⟨.mul, false, .val, .i8, .refVal .mul⟩,
  /- Mul<&T> for &T (lines 732–740): let mut out = self.clone(); out *= a; out -/
  ⟨.mul, false, .ref, .ref, .cloneAssign .mul⟩,
  /- Mul<T> for T (lines 742–748): &self * &a -/
  ⟨.mul, false, .val, .val, .refRef .mul⟩]

/-- An operand: an element (by value or by reference) or a machine integer. -/
inductive OpVal where
  | elem (a : Elem)
  | int (n : Int)

namespace FieldCode
variable (F : FieldCode) (pr : Profile)

/-- `small_add_assign`, `small_sub_assign`, `small_mul_assign`. -/
def smallAssignOp : OpKind → Elem → Int → Res Elem
  | .add, a, n => F.smallAddAssign pr a n
  | .sub, a, n => F.smallSubAssign pr a n
  | .mul, a, n => F.smallMulAssign pr a n
  | .div, _, _ => .error .index

/-- `small_add`, `small_sub`, `small_mul`. -/
def smallOp : OpKind → Elem → Int → Res Elem
  | .add, a, n => F.smallAdd pr a n
  | .sub, a, n => F.smallSub pr a n
  | .mul, a, n => F.smallMul pr a n
  | .div, _, _ => .error .index

/-- The conversion `as i32`, if written. -/
def castI32 (cast : Bool) (n : Int) : Int := if cast then asI32 n else n

/-- Evaluate `x ∘ y` or `x ∘= y` (returning the new `x`) for operands of the given types:
find the impl and run its body.  `fuel` bounds the nesting of operators in bodies; `.error`
if there is no such impl. -/
def opCall : Nat → OpKind → Bool → OpTy → OpTy → OpVal → OpVal → Res Elem
  | 0, _, _, _, _, _, _ => .error .index
  | fuel + 1, op, assign, l, r, x, y =>
    match opTable.find? (fun i => i.op = op ∧ i.assign = assign ∧ i.lhs = l ∧ i.rhs = r) with
    | none => .error .index
    | some i =>
      match i.body, x, y with
      | .limb, .elem a, .elem b =>
        match op with
        | .add => F.addAssign pr a b
        | .sub => F.subAssign pr a b
        | .mul => F.mulAssign pr a b
        | .div => .error .index
      | .assignRef o, _, _ => opCall fuel o true .val .ref x y
      | .cloneAssign o, _, _ => opCall fuel o true .val r x y
      | .refRef o, _, _ => opCall fuel o false .ref .ref x y
      | .refVal o, _, _ => opCall fuel o false .ref r x y
      | .smallAssign o c, .elem a, .int n => F.smallAssignOp pr o a (castI32 c n)
      | .smallSelf o c, .elem a, .int n => F.smallOp pr o a (castI32 c n)
      | .smallArg o c, .int n, .elem a => F.smallOp pr o a (castI32 c n)
      | .mulInverted, .elem _, .elem b => do
        opCall fuel .mul true .val .ref x (.elem (← F.inverted pr b))
      | _, _, _ => .error .index

end FieldCode
end Verif

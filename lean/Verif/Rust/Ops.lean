import Verif.Rust.Wrappers
import Verif.Props.Operators

/-!
# The operators of the field files

The 46 operator impls other than the three limb functions: their text, and what interpreting it
computes.
-/

namespace Verif.Rust

open Limb

/-! ### The text -/

/-- The trait of an operator. -/
def opId : OpKind → Bool → Id
  | .add, false => id! "Add"
  | .sub, false => id! "Sub"
  | .mul, false => id! "Mul"
  | .div, false => id! "Div"
  | .add, true => id! "AddAssign"
  | .sub, true => id! "SubAssign"
  | .mul, true => id! "MulAssign"
  | .div, true => id! "DivAssign"

/-- The function of the trait. -/
def opName : OpKind → Bool → Id
  | .add, false => id! "add"
  | .sub, false => id! "sub"
  | .mul, false => id! "mul"
  | .div, false => id! "div"
  | .add, true => id! "add_assign"
  | .sub, true => id! "sub_assign"
  | .mul, true => id! "mul_assign"
  | .div, true => id! "div_assign"

def opBin : OpKind → BinOp
  | .add => .add
  | .sub => .sub
  | .mul => .mul
  | .div => .div

def smallName : OpKind → Id
  | .add => id! "small_add"
  | .sub => id! "small_sub"
  | .mul => id! "small_mul"
  | .div => 0

def smallAssignName : OpKind → Id
  | .add => id! "small_add_assign"
  | .sub => id! "small_sub_assign"
  | .mul => id! "small_mul_assign"
  | .div => 0

/-- Operand types. -/
def opTy (f : Fld) : OpTy → Ty
  | .ref => tyR (tyId f)
  | .val => tyV (tyId f)
  | .i32 => tyV (id! "i32")
  | .i16 => tyV (id! "i16")
  | .i8 => tyV (id! "i8")

/-- Operand types as the interpreter finds them. -/
def opT (f : Fld) (t : OpTy) : Bool × Id := ((opTy f t).ref, (opTy f t).name)

@[simp] theorem trait_opBin (o : OpKind) : traitOf (opBin o) = opId o false := by cases o <;> rfl
@[simp] theorem assignTrait_opBin (o : OpKind) : assignTraitOf (opBin o) = opId o true := by
  cases o <;> rfl

/-- `e` or `e as i32`. -/
def castE (cast : Bool) (e : Expr) : Expr := if cast then .cast e .i32 else e

/-- Statements and final expression of an impl. -/
def opText : OpBody → Block × Expr
  | .limb => (.nil, .unit)
  | .assignRef o => (.opAssign (opBin o) (.deref (.var (id! "self"))) (.ref (.var (id! "rhs"))) .nil, .unit)
  | .cloneAssign o => (.let (id! "out") (.method (.var (id! "self")) (id! "clone") .anil)
      (.opAssign (opBin o) (.var (id! "out")) (.var (id! "a")) .nil), .var (id! "out"))
  | .refRef o => (.nil, .bin (opBin o) (.ref (.var (id! "self"))) (.ref (.var (id! "a"))))
  | .refVal o => (.nil, .bin (opBin o) (.ref (.var (id! "self"))) (.var (id! "a")))
  | .smallAssign o c => (.expr (.method (.var (id! "self")) (smallAssignName o)
      (.acons (castE c (.var (id! "rhs"))) .anil)) .nil, .unit)
  | .smallSelf o c => (.nil, .method (.var (id! "self")) (smallName o)
      (.acons (castE c (.var (id! "a"))) .anil))
  | .smallArg o c => (.nil, .method (.var (id! "a")) (smallName o)
      (.acons (castE c (.var (id! "self"))) .anil))
  | .mulInverted => (.opAssign .mul (.deref (.var (id! "self")))
      (.ref (.method (.var (id! "rhs")) (id! "inverted") .anil)) .nil, .unit)

/-- The function of an impl. -/
def opFnOf (f : Fld) (i : OpImpl) : Fn :=
  mkFn (opTy f i.lhs).name (opName i.op i.assign) (if i.assign then .mut else .val)
    [(if i.assign then id! "rhs" else id! "a", opTy f i.rhs)]
    (if i.assign then tyV (id! "()") else tyV (tyId f)) (opText i.body)

/-- The impls other than the limb functions have the text above. -/
theorem opF_eq (f : Fld) : ∀ i ∈ opTable, i.body ≠ .limb →
    opF f (opId i.op i.assign) (opT f i.lhs) (opT f i.rhs) = opFnOf f i := by
  cases f <;> decide +kernel

/-- All impls are found. -/
theorem has_op (f : Fld) : ∀ i ∈ opTable,
    ((src f).opFn (opId i.op i.assign) (opT f i.lhs) (opT f i.rhs)).isSome = true := by
  cases f <;> decide +kernel

theorem op_sig (f : Fld) : ∀ i ∈ opTable,
    (opF f (opId i.op i.assign) (opT f i.lhs) (opT f i.rhs)).recv =
      (if i.assign then Recv.mut else .val) ∧
    (opF f (opId i.op i.assign) (opT f i.lhs) (opT f i.rhs)).params.map (·.2.isMut) = [false] := by
  cases f <;> decide +kernel

/-! ### Running -/

/-- The impl for the given operator and operand types. -/
abbrev opG (f : Fld) (o : OpKind) (assign : Bool) (l r : OpTy) : Fn :=
  opF f (opId o assign) (opT f l) (opT f r)

variable {P : Program} {f : Fld} (h : Has P f) (w : World)

include h in
theorem opFn_eq {i : OpImpl} (hi : i ∈ opTable) :
    P.opFn (opId i.op i.assign) (opT f i.lhs) (opT f i.rhs) =
      some (opG f i.op i.assign i.lhs i.rhs) :=
  find_op h (has_op f i hi)

@[simp] theorem opT_val (f : Fld) : opT f .val = (false, tyId f) := rfl
@[simp] theorem opT_ref (f : Fld) : opT f .ref = (true, tyId f) := rfl
@[simp] theorem opT_i32 (f : Fld) : opT f .i32 = (false, id! "i32") := rfl
@[simp] theorem opT_i16 (f : Fld) : opT f .i16 = (false, id! "i16") := rfl
@[simp] theorem opT_i8 (f : Fld) : opT f .i8 = (false, id! "i8") := rfl

/-- The assigning operator with a reference on the right. -/
structure AssignRef (P : Program) (f : Fld) (w : World) (o : OpKind) (k : Nat)
    (g : List Int → List Int → Res (List Int)) : Prop where
  mem : ∃ i ∈ opTable, i.op = o ∧ i.assign = true ∧ i.lhs = .val ∧ i.rhs = .ref
  call : ∀ {n : Nat}, k ≤ n → ∀ {a b : List Int}, a.length = f.code.limbs → b.length = f.code.limbs →
    run P w n (opG f o true .val .ref) [.ref (elem (tyId f) a), .ref (elem (tyId f) b)] =
      (lift (g a b) >>= fun r =>
        .ok (.unit, [.ref (elem (tyId f) r), .ref (elem (tyId f) b)]))

include h in
theorem assignRef_add : AssignRef P f w .add 2 (f.code.addAssign w.pr) :=
  ⟨by decide, fun hn _ _ ha hb => run_add h w hn ha hb⟩
include h in
theorem assignRef_sub : AssignRef P f w .sub 2 (f.code.subAssign w.pr) :=
  ⟨by decide, fun hn _ _ ha hb => run_sub h w hn ha hb⟩
include h in
theorem assignRef_mul : AssignRef P f w .mul 2 (f.code.mulAssign w.pr) :=
  ⟨by decide, fun hn _ _ ha hb => run_mul h w hn ha hb⟩

namespace AssignRef
variable {o : OpKind} {k : Nat} {g : List Int → List Int → Res (List Int)}
  (H : AssignRef P f w o k g)

include h H in
theorem find : P.opFn (opId o true) (false, tyId f) (true, tyId f) =
    some (opG f o true .val .ref) := by
  obtain ⟨i, hi, rfl, h1, h2, h3⟩ := H.mem
  have := opFn_eq h hi
  rw [h1, h2, h3] at this
  exact this

include H in
theorem sig : (opG f o true .val .ref).recv = .mut ∧
    (opG f o true .val .ref).params.map (·.2.isMut) = [false] := by
  obtain ⟨i, hi, rfl, h1, h2, h3⟩ := H.mem
  have := op_sig f i hi
  rw [h1, h2, h3] at this
  exact this

include h H in
/-- `x ∘= y` -/
theorem run_assignRef {i : OpImpl} (hi : i ∈ opTable)
    (hb : i = ⟨o, true, .val, .val, .assignRef o⟩) {n : Nat} (hn : k + 1 ≤ n) {a b : List Int}
    (ha : a.length = f.code.limbs) (hb' : b.length = f.code.limbs) :
    run P w n (opG f o true .val .val) [.ref (elem (tyId f) a), elem (tyId f) b] =
      (lift (g a b) >>= fun r => .ok (.unit, [.ref (elem (tyId f) r), elem (tyId f) b])) := by
  obtain ⟨n, rfl⟩ := Nat.exists_eq_add_of_le' (show 1 ≤ n by omega)
  have e := opF_eq f i hi (by rw [hb]; nofun)
  subst hb
  dsimp only at e
  rw [run_succ, opG, e]
  have h1 := H.find h
  have h2 := H.sig.1
  have h3 := H.sig.2
  have h4 := H.call (n := n) (by omega) ha hb'
  simp only [opG, opT_val, opT_ref] at h1 h2 h3 h4
  interp [opFnOf, opText, h1, h2, h3, h4]

include h H in
/-- `&x ∘ &y` -/
theorem run_cloneAssign {i : OpImpl} (hi : i ∈ opTable)
    (hb : i = ⟨o, false, .ref, .ref, .cloneAssign o⟩) {n : Nat} (hn : k + 1 ≤ n) {a b : List Int}
    (ha : a.length = f.code.limbs) (hb' : b.length = f.code.limbs) :
    run P w n (opG f o false .ref .ref) [.ref (elem (tyId f) a), .ref (elem (tyId f) b)] =
      (lift (g a b) >>= fun r =>
        .ok (elem (tyId f) r, [.ref (elem (tyId f) a), .ref (elem (tyId f) b)])) := by
  obtain ⟨n, rfl⟩ := Nat.exists_eq_add_of_le' (show 1 ≤ n by omega)
  have e := opF_eq f i hi (by rw [hb]; nofun)
  subst hb
  dsimp only at e
  rw [run_succ, opG, e]
  have h1 := H.find h
  have h2 := H.sig.1
  have h3 := H.sig.2
  have h4 := H.call (n := n) (by omega) ha hb'
  simp only [opG, opT_val, opT_ref] at h1 h2 h3 h4
  interp [opFnOf, opText, h1, h2, h3, h4]

include h H in
/-- `x ∘ y` -/
theorem run_refRef {i j : OpImpl} (hi : i ∈ opTable) (hj : j ∈ opTable)
    (hbi : i = ⟨o, false, .val, .val, .refRef o⟩) (hbj : j = ⟨o, false, .ref, .ref, .cloneAssign o⟩)
    {n : Nat} (hn : k + 2 ≤ n) {a b : List Int}
    (ha : a.length = f.code.limbs) (hb' : b.length = f.code.limbs) :
    run P w n (opG f o false .val .val) [elem (tyId f) a, elem (tyId f) b] =
      (lift (g a b) >>= fun r => .ok (elem (tyId f) r, [elem (tyId f) a, elem (tyId f) b])) := by
  obtain ⟨n, rfl⟩ := Nat.exists_eq_add_of_le' (show 1 ≤ n by omega)
  have e := opF_eq f i hi (by rw [hbi]; nofun)
  have h4 := H.run_cloneAssign h w hj hbj (n := n) (by omega) ha hb'
  have h1 := opFn_eq h hj
  obtain ⟨h2, h3⟩ := op_sig f j hj
  subst hbi hbj
  dsimp only at e
  rw [run_succ, opG, e]
  simp only [opG, opT_val, opT_ref] at h1 h2 h3 h4
  interp [opFnOf, opText, h1, h2, h3, h4]

end AssignRef

/-! ### Integer operands -/

/-- Integer operand types. -/
def OpTy.int : OpTy → Option IntTy
  | .i32 => some .i32
  | .i16 => some .i16
  | .i8 => some .i8
  | _ => none

/-- `as i32` for a number of type `i16` or `i8`. -/
theorem castTo_small {t : IntTy} (ht : t = .i16 ∨ t = .i8) (n : Int) :
    castTo .i32 (.int (some t) n) = .ok (.int (some .i32) n) := by
  rcases ht with rfl | rfl <;> rfl

@[simp] theorem ty_int (t : IntTy) (n : Int) : (Val.int (some t) n).ty = some (false, t.id) := rfl

/-- The `small_…` functions on the words. -/
def smallG (f : Fld) (w : World) : OpKind → List Int → Int → Res (List Int)
  | .add => f.code.smallAddAssign w.pr
  | .sub => f.code.smallSubAssign w.pr
  | .mul => f.code.smallMulAssign w.pr
  | .div => fun _ _ => .error .index

include h in
theorem run_smallAssignName {o : OpKind} (ho : o ≠ .div) {n : Nat} (hn : 2 ≤ n) {a : List Int}
    (ha : a.length = f.code.limbs) (k : Int) :
    P.method (tyId f) (smallAssignName o) = some (methF f (smallAssignName o)) ∧
    smallAssignName o ≠ id! "clone" ∧
    (methF f (smallAssignName o)).recv = .mut ∧
    (methF f (smallAssignName o)).params.map (·.2.isMut) = [false] ∧
    run P w n (methF f (smallAssignName o)) [.ref (elem (tyId f) a), .int (some .i32) k] =
      (lift (smallG f w o a k) >>= fun r =>
        .ok (.unit, [.ref (elem (tyId f) r), .int (some .i32) k])) := by
  cases o with
  | add => exact ⟨method_eq h (by decide), by decide, by simp [smallAssignName],
      by simp [smallAssignName], run_small_add_assign h w hn ha k⟩
  | sub => exact ⟨method_eq h (by decide), by decide, by simp [smallAssignName],
      by simp [smallAssignName], run_small_sub_assign h w hn ha k⟩
  | mul => exact ⟨method_eq h (by decide), by decide, by simp [smallAssignName],
      by simp [smallAssignName], run_small_mul_assign h w hn ha k⟩
  | div => exact absurd rfl ho

include h in
theorem run_smallName {o : OpKind} (ho : o ≠ .div) {n : Nat} (hn : 3 ≤ n) {a : List Int}
    (ha : a.length = f.code.limbs) (k : Int) :
    P.method (tyId f) (smallName o) = some (methF f (smallName o)) ∧
    smallName o ≠ id! "clone" ∧
    (methF f (smallName o)).recv = .ref ∧
    (methF f (smallName o)).params.map (·.2.isMut) = [false] ∧
    run P w n (methF f (smallName o)) [.ref (elem (tyId f) a), .int (some .i32) k] =
      (lift (smallG f w o a k) >>= fun r =>
        .ok (elem (tyId f) r, [.ref (elem (tyId f) a), .int (some .i32) k])) := by
  cases o with
  | add => exact ⟨method_eq h (by decide), by decide, by simp [smallName],
      by simp [smallName], run_small_add h w hn ha k⟩
  | sub => exact ⟨method_eq h (by decide), by decide, by simp [smallName],
      by simp [smallName], run_small_sub h w hn ha k⟩
  | mul => exact ⟨method_eq h (by decide), by decide, by simp [smallName],
      by simp [smallName], run_small_mul h w hn ha k⟩
  | div => exact absurd rfl ho

/-- The value of an integer operand after the conversion that its impl makes. -/
theorem eval_castE (c : Ctx) (ρ : Env) (x : Id) {t : IntTy} {b : Bool} {n : Int}
    (ht : t = .i32 ∧ b = false ∨ (t = .i16 ∨ t = .i8) ∧ b = true)
    (hx : ρ.lookup x = some (.int (some t) n)) :
    ∃ p, eval c ρ (castE b (.var x)) = .ok ⟨.int (some .i32) n, [p], ρ⟩ := by
  rcases ht with ⟨rfl, rfl⟩ | ⟨ht, rfl⟩
  · exact ⟨some (x, []), by simp [castE, eval, hx]⟩
  · exact ⟨none, by simp [castE, eval, hx, castTo_small ht]⟩

include h in
/-- `x ∘= k` -/
theorem run_smallAssign {i : OpImpl} (hi : i ∈ opTable) {o : OpKind} (ho : o ≠ .div) {r : OpTy}
    {t : IntTy} {b : Bool} (ht : t = .i32 ∧ b = false ∨ (t = .i16 ∨ t = .i8) ∧ b = true)
    (hb : i = ⟨o, true, .val, r, .smallAssign o b⟩) {n : Nat} (hn : 3 ≤ n) {a : List Int}
    (ha : a.length = f.code.limbs) (k : Int) :
    run P w n (opG f o true .val r) [.ref (elem (tyId f) a), .int (some t) k] =
      (lift (smallG f w o a k) >>= fun r =>
        .ok (.unit, [.ref (elem (tyId f) r), .int (some t) k])) := by
  obtain ⟨n, rfl⟩ := Nat.exists_eq_add_of_le' (show 1 ≤ n by omega)
  have e := opF_eq f i hi (by rw [hb]; nofun)
  subst hb
  dsimp only at e
  rw [run_succ, opG, e]
  obtain ⟨h1, h2, h3, h4, h5⟩ := run_smallAssignName h w ho (n := n) (by omega) ha k
  obtain ⟨p, hp⟩ := eval_castE (ctx P w n) [(id! "self", .ref (elem (tyId f) a)),
    (id! "rhs", .int (some t) k)] (id! "rhs") ht rfl
  interp [opFnOf, opText, h1, h2, h3, h4, h5, hp]

include h in
/-- `&x ∘ k` -/
theorem run_smallSelf {i : OpImpl} (hi : i ∈ opTable) {o : OpKind} (ho : o ≠ .div) {r : OpTy}
    {t : IntTy} {b : Bool} (ht : t = .i32 ∧ b = false ∨ (t = .i16 ∨ t = .i8) ∧ b = true)
    (hb : i = ⟨o, false, .ref, r, .smallSelf o b⟩) {n : Nat} (hn : 4 ≤ n) {a : List Int}
    (ha : a.length = f.code.limbs) (k : Int) :
    run P w n (opG f o false .ref r) [.ref (elem (tyId f) a), .int (some t) k] =
      (lift (smallG f w o a k) >>= fun r =>
        .ok (elem (tyId f) r, [.ref (elem (tyId f) a), .int (some t) k])) := by
  obtain ⟨n, rfl⟩ := Nat.exists_eq_add_of_le' (show 1 ≤ n by omega)
  have e := opF_eq f i hi (by rw [hb]; nofun)
  subst hb
  dsimp only at e
  rw [run_succ, opG, e]
  obtain ⟨h1, h2, h3, h4, h5⟩ := run_smallName h w ho (n := n) (by omega) ha k
  obtain ⟨p, hp⟩ := eval_castE (ctx P w n) [(id! "self", .ref (elem (tyId f) a)),
    (id! "a", .int (some t) k)] (id! "a") ht rfl
  interp [opFnOf, opText, h1, h2, h3, h4, h5, hp]

include h in
/-- `k ∘ &x` -/
theorem run_smallArg {i : OpImpl} (hi : i ∈ opTable) {o : OpKind} (ho : o ≠ .div) {l : OpTy}
    {t : IntTy} {b : Bool} (ht : t = .i32 ∧ b = false ∨ (t = .i16 ∨ t = .i8) ∧ b = true)
    (hb : i = ⟨o, false, l, .ref, .smallArg o b⟩) {n : Nat} (hn : 4 ≤ n) {a : List Int}
    (ha : a.length = f.code.limbs) (k : Int) :
    run P w n (opG f o false l .ref) [.int (some t) k, .ref (elem (tyId f) a)] =
      (lift (smallG f w o a k) >>= fun r =>
        .ok (elem (tyId f) r, [.int (some t) k, .ref (elem (tyId f) a)])) := by
  obtain ⟨n, rfl⟩ := Nat.exists_eq_add_of_le' (show 1 ≤ n by omega)
  have e := opF_eq f i hi (by rw [hb]; nofun)
  subst hb
  dsimp only at e
  rw [run_succ, opG, e]
  obtain ⟨h1, h2, h3, h4, h5⟩ := run_smallName h w ho (n := n) (by omega) ha k
  obtain ⟨p, hp⟩ := eval_castE (ctx P w n) [(id! "self", .int (some t) k),
    (id! "a", .ref (elem (tyId f) a))] (id! "self") ht rfl
  interp [opFnOf, opText, h1, h2, h3, h4, h5, hp]

include h in
/-- `x ∘ k` -/
theorem run_refVal {i j : OpImpl} (hi : i ∈ opTable) (hj : j ∈ opTable) {o : OpKind} (ho : o ≠ .div)
    {r : OpTy} {t : IntTy} {b : Bool} (hr : opT f r = (false, t.id))
    (ht : t = .i32 ∧ b = false ∨ (t = .i16 ∨ t = .i8) ∧ b = true)
    (hbi : i = ⟨o, false, .val, r, .refVal o⟩) (hbj : j = ⟨o, false, .ref, r, .smallSelf o b⟩)
    {n : Nat} (hn : 5 ≤ n) {a : List Int} (ha : a.length = f.code.limbs) (k : Int) :
    run P w n (opG f o false .val r) [elem (tyId f) a, .int (some t) k] =
      (lift (smallG f w o a k) >>= fun r =>
        .ok (elem (tyId f) r, [elem (tyId f) a, .int (some t) k])) := by
  obtain ⟨n, rfl⟩ := Nat.exists_eq_add_of_le' (show 1 ≤ n by omega)
  have e := opF_eq f i hi (by rw [hbi]; nofun)
  have h4 := run_smallSelf h w hj ho ht hbj (n := n) (by omega) ha k
  have h1 := opFn_eq h hj
  obtain ⟨h2, h3⟩ := op_sig f j hj
  subst hbi hbj
  dsimp only at e
  rw [run_succ, opG, e]
  simp only [opG, opT_ref, hr] at h1 h2 h3 h4
  interp [opFnOf, opText, h1, h2, h3, h4]

end Verif.Rust

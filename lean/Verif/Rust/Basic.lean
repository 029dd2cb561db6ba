import Verif.Rust.Eval
import Verif.Rust.Source.E221_3
import Verif.Rust.Source.E222_117
import Verif.Rust.Source.E251_9
import Verif.Rust.Source.E255_19
import Verif.Rust.Source.E382_105
import Verif.Rust.Source.E383_187
import Verif.Rust.Source.E414_17
import Verif.Rust.Source.E511_187
import Verif.Rust.Source.E521_1
import Verif.Spec

/-!
# Running the text of the field files

The program text of a field, how values of the model appear in the interpreter, and equations for
the pieces of the interpreter.
-/

namespace Verif.Rust

/-- The text of the file of a field. -/
def src : Fld → Program
  | .e221_3 => Source.e221_3
  | .e222_117 => Source.e222_117
  | .e251_9 => Source.e251_9
  | .e255_19 => Source.e255_19
  | .e382_105 => Source.e382_105
  | .e383_187 => Source.e383_187
  | .e414_17 => Source.e414_17
  | .e511_187 => Source.e511_187
  | .e521_1 => Source.e521_1

/-- The name of the type of a field. -/
def tyId : Fld → Id
  | .e221_3 => id! "Mod_e221_3"
  | .e222_117 => id! "Mod_e222_117"
  | .e251_9 => id! "Mod_e251_9"
  | .e255_19 => id! "Mod_e255_19"
  | .e382_105 => id! "Mod_e382_105"
  | .e383_187 => id! "Mod_e383_187"
  | .e414_17 => id! "Mod_e414_17"
  | .e511_187 => id! "Mod_e511_187"
  | .e521_1 => id! "Mod_e521_1"

/-- An `i64`. -/
def word (n : Int) : Val := .int (some .i64) n

/-- A `u8`. -/
def byte (n : Int) : Val := .int (some .u8) n

/-- An element of the type `t`: a struct with one array of words. -/
def elem (t : Id) (a : List Int) : Val := .struct t [id! "0"] [.arr (a.map word)]

/-- The program contains the file of the field: what the file defines is found in it. -/
structure Has (P : Program) (f : Fld) : Prop where
  method : ∀ {t m fn}, (src f).method t m = some fn → P.method t m = some fn
  opFn : ∀ {tr l r fn}, (src f).opFn tr l r = some fn → P.opFn tr l r = some fn
  const : ∀ {x v}, (src f).const x = some v → P.const x = some v

theorem has_src (f : Fld) : Has (src f) f := ⟨id, id, id⟩

/-! ### Equations -/

@[simp] theorem ok_bind {ε α β : Type} (x : α) (g : α → Except ε β) :
    ((Except.ok x : Except ε α) >>= g) = g x := rfl

@[simp] theorem error_bind {ε α β : Type} (e : ε) (g : α → Except ε β) :
    ((Except.error e : Except ε α) >>= g) = .error e := rfl

@[simp] theorem pure_ok {ε α : Type} (x : α) : (pure x : Except ε α) = .ok x := rfl

theorem bind_ok_right {ε α : Type} (x : Except ε α) : (x >>= Except.ok) = x := by
  cases x <;> rfl

theorem bind_bind {ε α β γ : Type} (x : Except ε α) (g : α → Except ε β) (h : β → Except ε γ) :
    ((x >>= g) >>= h) = (x >>= fun a => g a >>= h) := by
  cases x <;> rfl

@[simp] theorem lift_ok {α : Type} (x : α) : lift (.ok x : Res α) = .ok x := rfl

@[simp] theorem lift_error {α : Type} (p : Panic) :
    lift (.error p : Res α) = .error (.panic p) := rfl

theorem lift_bind {α β : Type} (x : Res α) (g : α → Res β) :
    lift (x >>= g) = (lift x >>= fun a => lift (g a)) := by
  cases x <;> rfl

/-! ### Calls from outside -/

/-- What a function running with at most `n` nested calls depends on. -/
def ctx (P : Program) (w : World) (n : Nat) : Ctx :=
  ⟨P, w.pr, w.curve, w.rng, P.const, run P w n⟩

theorem run_succ (P : Program) (w : World) (n : Nat) (fn : Fn) (args : List Val) :
    run P w (n + 1) fn args = runBody (ctx P w n) fn args := rfl

/-- Call the function `m` of the type `t` on receiver (if any) and arguments: the result, and the
final values of receiver and arguments. -/
def callFn (P : Program) (w : World) (n : Nat) (t m : Id) (args : List Val) :
    Except Err (Val × List Val) :=
  match P.method t m with
  | some fn => run P w n fn args
  | none => .error .stuck

/-- Call the function of an operator trait on two operands. -/
def callOp (P : Program) (w : World) (n : Nat) (trait : Id) (x y : Val) :
    Except Err (Val × List Val) :=
  match x.ty, y.ty with
  | some l, some r =>
    match P.opFn trait l r with
    | some fn =>
      -- `&mut self` is passed as a reference
      run P w n fn [if fn.recv = .mut then .ref x else x, y]
    | none => .error .stuck
  | _, _ => .error .stuck

/-! ### Elements -/

@[simp] theorem strip_ref (v : Val) : (Val.ref v).strip = v := rfl
@[simp] theorem strip_elem (t : Id) (a : List Int) : (elem t a).strip = elem t a := rfl
@[simp] theorem ty_elem (t : Id) (a : List Int) : (elem t a).ty = some (false, t) := rfl
@[simp] theorem ty_ref_elem (t : Id) (a : List Int) : (Val.ref (elem t a)).ty = some (true, t) := rfl
@[simp] theorem isPrim_elem (t : Id) (a : List Int) : (elem t a).isPrim = false := rfl
@[simp] theorem isPrim_ref (v : Val) : (Val.ref v).isPrim = false := rfl
@[simp] theorem retarget_ref (v w : Val) : (Val.ref v).retarget w = .ref w := rfl
@[simp] theorem retarget_elem (t : Id) (a : List Int) (w : Val) : (elem t a).retarget w = w := rfl
@[simp] theorem coerce_ref (t : Ty) (v : Val) : coerce t (.ref v) = .ref v := rfl
@[simp] theorem coerce_elem (t : Ty) (u : Id) (a : List Int) : coerce t (elem u a) = elem u a := rfl
@[simp] theorem coerce_unit (t : Ty) : coerce t .unit = .unit := rfl
@[simp] theorem coerce_bool (t : Ty) (b : Bool) : coerce t (.bool b) = .bool b := rfl
@[simp] theorem coerce_arr (t : Ty) (l : List Val) : coerce t (.arr l) = .arr l := rfl
@[simp] theorem coerce_typed (t : Ty) (s : IntTy) (n : Int) :
    coerce t (.int (some s) n) = .int (some s) n := rfl

/-- The function `m` of the type of the field, in the file of the field. -/
def methF (f : Fld) (m : Id) : Fn := ((src f).method (tyId f) m).getD ⟨0, 0, .none, [], ⟨false, false, 0⟩, .nil, .unit⟩

/-- The function of an operator trait, in the file of the field. -/
def opF (f : Fld) (trait : Id) (l r : Bool × Id) : Fn :=
  ((src f).opFn trait l r).getD ⟨0, 0, .none, [], ⟨false, false, 0⟩, .nil, .unit⟩

theorem find_method {P : Program} {f : Fld} (h : Has P f) {m : Id}
    (hm : ((src f).method (tyId f) m).isSome = true) : P.method (tyId f) m = some (methF f m) := by
  refine h.method ?_
  rw [methF]
  cases hx : (src f).method (tyId f) m with
  | none => rw [hx] at hm; cases hm
  | some fn => rfl

theorem find_op {P : Program} {f : Fld} (h : Has P f) {tr : Id} {l r : Bool × Id}
    (hm : ((src f).opFn tr l r).isSome = true) : P.opFn tr l r = some (opF f tr l r) := by
  refine h.opFn ?_
  rw [opF]
  cases hx : (src f).opFn tr l r with
  | none => rw [hx] at hm; cases hm
  | some fn => rfl

end Verif.Rust

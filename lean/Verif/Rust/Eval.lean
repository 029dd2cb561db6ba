import Verif.Rust.Syntax
import Verif.Model.Field

/-!
# An interpreter for the Rust subset

Values carry their types, so operators and methods are found at run time by the types of the
operands, as the compiler finds them statically.

References: in safe Rust nobody else can see a value while it is borrowed with `&mut`, so passing
`&mut x` is passing the value and storing the final value back when the function returns; `&x` is a
copy.  (All types of the sources are `Copy`.)  A reference is marked (`Val.ref`) because operators
are implemented separately for `T` and `&T`.

Simplifications: an integer literal without suffix takes its type from the other operand, the
parameter, the result type or the array it is stored in; the variable of a `for` loop is a `usize` (in the sources it
is an index or unused); arithmetic on types other than `i64` is provided as far as it occurs;
writing to a formatter always succeeds; `gen_range(0, hi)` gives the answer of an arbitrary
function `rng` of the number of earlier calls and `hi`.
-/

namespace Verif.Rust

/-- Why the interpreter stops. -/
inductive Err where
  /-- a panic of the program -/
  | panic (p : Panic)
  /-- outside the subset or ill-typed -/
  | stuck
  deriving DecidableEq, Repr

/-- Values. -/
inductive Val where
  /-- integer; no type if it is a literal whose type is not known yet -/
  | int (ty : Option IntTy) (n : Int)
  | bool (b : Bool)
  | unit
  | arr (vs : List Val)
  /-- struct with named fields (`0` for tuple structs) -/
  | struct (t : Id) (names : List Id) (vs : List Val)
  /-- `&v` or `&mut v` -/
  | ref (v : Val)
  /-- formatter: what has been written -/
  | fmt (s : List Char)
  /-- random generator: how often it has been asked -/
  | rng (n : Nat)

/-- Local variables, innermost first. -/
abbrev Env := List (Id × Val)

/-- A step into a value. -/
inductive Proj where
  | field (x : Id)
  | index (i : Nat)

/-- A place: a variable and a path into its value. -/
abbrev Place := Id × List Proj

/-- Result of an expression (or argument list): value, place (or the places of the arguments), and
the new local variables. -/
structure Out where
  val : Val
  places : List (Option Place)
  env : Env

/-- What expressions depend on besides local variables. -/
structure Ctx where
  prog : Program
  pr : Profile
  /-- the type `C` of generic code -/
  curve : Id
  rng : Nat → Int → Int
  /-- values of constants -/
  const : Id → Option Val
  /-- call a function: the result and the final values of receiver and parameters -/
  call : Fn → List Val → Except Err (Val × List Val)

/-- A computation of the model inside the interpreter. -/
def lift {α : Type} : Res α → Except Err α
  | .ok x => .ok x
  | .error p => .error (.panic p)

/-! ### Primitive operations -/

/-- Remove one reference. -/
def Val.strip : Val → Val
  | .ref v => v
  | v => v

/-- Names of types. -/
def IntTy.id : IntTy → Id
  | .i64 => id! "i64"
  | .i32 => id! "i32"
  | .i16 => id! "i16"
  | .i8 => id! "i8"
  | .u8 => id! "u8"
  | .usize => id! "usize"

/-- The type of a value: name, and whether it is a reference. -/
def Val.ty : Val → Option (Bool × Id)
  | .int (some t) _ => some (false, t.id)
  | .struct t _ _ => some (false, t)
  | .ref (.int (some t) _) => some (true, t.id)
  | .ref (.struct t _ _) => some (true, t)
  | _ => none

/-- Common type of two operands. -/
def unify : Option IntTy → Option IntTy → Except Err IntTy
  | some s, some t => if s = t then .ok s else .error .stuck
  | some s, none => .ok s
  | none, some t => .ok t
  | none, none => .error .stuck

/-- `+`, `-`, `*`: on `i64`, and on `usize` (64 bits). -/
def arithTy (pr : Profile) : IntTy → Int → Except Err Int
  | .i64, x => lift (arith pr x)
  | .usize, x =>
    if 0 ≤ x ∧ x < 2 ^ 64 then .ok x
    else match pr with
      | .debug => .error (.panic .overflow)
      | .release => .ok (x % 2 ^ 64)
  | _, _ => .error .stuck

/-- Shift distances: at least 64 is an overflow in debug builds and is reduced in release builds. -/
def distance (pr : Profile) (k : Int) : Except Err Nat :=
  if 0 ≤ k ∧ k < 64 then .ok k.toNat
  else match pr with
    | .debug => .error (.panic .overflow)
    | .release => .ok (k % 64).toNat

/-- The code shifts by literals and by `usize` numbers only. -/
def shiftBy (pr : Profile) : Option IntTy → Int → Except Err Nat
  | none, k => distance pr k
  | some .usize, k => distance pr k
  | _, _ => .error .stuck

/-- Binary operators on primitive values.  `&` and `|` act on the 64-bit patterns of the sign- or
zero-extended numbers, whatever the size of the type. -/
def prim (pr : Profile) : BinOp → Val → Val → Except Err Val
  | .shl, .int (some .i64) x, .int t k => do return .int (some .i64) (shl64 x (← shiftBy pr t k))
  | .shr, .int (some .i64) x, .int t k => do return .int (some .i64) (shr64 x (← shiftBy pr t k))
  | .and, .bool a, .bool b => .ok (.bool (a && b))
  | op, .int s x, .int t y => do
    let ty ← unify s t
    match op, ty with
    | .add, _ => return .int (some ty) (← arithTy pr ty (x + y))
    | .sub, _ => return .int (some ty) (← arithTy pr ty (x - y))
    | .mul, _ => return .int (some ty) (← arithTy pr ty (x * y))
    | .div, .usize => if y = 0 then .error .stuck else return .int (some .usize) (x / y)
    | .rem, .usize => if y = 0 then .error .stuck else return .int (some .usize) (x % y)
    | .and, .i64 => return .int (some .i64) (and64 x y)
    | .or, .i64 => return .int (some .i64) (or64 x y)
    | .and, .u8 => return .int (some .u8) (and64 x y)
    | .or, .u8 => return .int (some .u8) (or64 x y)
    | .eq, _ => return .bool (decide (x = y))
    | _, _ => .error .stuck
  | _, _, _ => .error .stuck

/-- Is it a value of a primitive type? -/
def Val.isPrim : Val → Bool
  | .int _ _ => true
  | .bool _ => true
  | _ => false

/-- `e as t`: a conversion to a type that has all values of the type of `e` keeps the value, others
keep the low bits. -/
def castTo : IntTy → Val → Except Err Val
  | .i64, .bool b => .ok (.int (some .i64) (if b then 1 else 0))
  | .i64, .int (some .u8) n => .ok (.int (some .i64) n)
  | .i32, .int (some .i64) n => .ok (.int (some .i32) (asI32 n))
  | .i32, .int (some .i16) n => .ok (.int (some .i32) n)
  | .i32, .int (some .i8) n => .ok (.int (some .i32) n)
  | .u8, .int (some .i64) n => .ok (.int (some .u8) (asU8 n))
  | _, _ => .error .stuck

/-- `!e` -/
def notV : Val → Except Err Val
  | .bool b => .ok (.bool !b)
  | _ => .error .stuck

/-- Give literals without a type the type `i64` (elements of the arrays in the field types). -/
def asI64 : Val → Val
  | .int none n => .int (some .i64) n
  | v => v

/-- Give a literal without a type the type of a parameter or constant. -/
def coerce (t : Ty) : Val → Val
  | .int none n =>
    if t.name = id! "i32" then .int (some .i32) n
    else if t.name = id! "i64" then .int (some .i64) n
    else if t.name = id! "usize" then .int (some .usize) n
    else .int none n
  | v => v

/-- `T(e)` for the field types, structs with one array of `i64`. -/
def tupleStruct (t : Id) : List Val → Except Err Val
  | [.arr vs] => .ok (.struct t [id! "0"] [.arr (vs.map asI64)])
  | _ => .error .stuck

/-! ### Places -/

/-- Field of a struct, through a reference if need be. -/
def getField (x : Id) (v : Val) : Except Err Val :=
  match v.strip with
  | .struct _ ns vs =>
    match vs[ns.idxOf x]? with
    | some v => .ok v
    | none => .error .stuck
  | _ => .error .stuck

/-- An index or a bound of a loop: a `usize`, or a literal. -/
@[simp]
def Val.index : Val → Option Nat
  | .int none n => some n.toNat
  | .int (some .usize) n => some n.toNat
  | _ => none

/-- Element of an array or slice. -/
def getIndex (v i : Val) : Except Err Val :=
  match v.strip, i.index with
  | .arr vs, some n =>
    match vs[n]? with
    | some v => .ok v
    | none => .error (.panic .index)
  | _, _ => .error .stuck

/-- The step an index makes. -/
def indexProj (i : Val) : Proj := .index (i.index.getD 0)

/-- A reference stays a reference when its target changes. -/
def Val.retarget : Val → Val → Val
  | .ref _, v => .ref v
  | _, v => v

/-- Replace the value at the end of a path. -/
def writePath : Val → List Proj → Val → Except Err Val
  | old, [], v => .ok (old.retarget v)
  | old, .field x :: ps, v =>
    match old.strip with
    | .struct t ns vs =>
      match vs[ns.idxOf x]? with
      | some w => do return old.retarget (.struct t ns (vs.set (ns.idxOf x) (← writePath w ps v)))
      | none => .error .stuck
    | _ => .error .stuck
  | old, .index i :: ps, v =>
    match old.strip with
    | .arr vs =>
      match vs[i]? with
      | some w => do return old.retarget (.arr (vs.set i (← writePath w ps v)))
      | none => .error (.panic .index)
    | _ => .error .stuck

/-- Assign to a place. -/
def setPlace : Env → Place → Val → Except Err Env
  | [], _, _ => .error .stuck
  | (y, old) :: ρ, (x, ps), v =>
    if y = x then do return (y, ← writePath old ps v) :: ρ
    else do return (y, old) :: (← setPlace ρ (x, ps) v)

/-- Store final values of `&mut` arguments.  (An argument without a place is a temporary.) -/
def writeBack : List Bool → List (Option Place) → List Val → Env → Except Err Env
  | true :: fs, some p :: ps, v :: vs, ρ => do writeBack fs ps vs (← setPlace ρ p v.strip)
  | _ :: fs, _ :: ps, _ :: vs, ρ => writeBack fs ps vs ρ
  | _, _, _, ρ => .ok ρ

/-! ### Finding functions -/

/-- Function `m` in an impl for the type `t`. -/
def Program.method (p : Program) (t m : Id) : Option Fn :=
  p.impls.findSome? fun i =>
    if i.self.ref = false ∧ i.self.name = t then i.fns.find? (·.name = m) else none

/-- The function of the impl of an operator trait for the given operand types. -/
def Program.opFn (p : Program) (trait : Id) (l r : Bool × Id) : Option Fn :=
  p.impls.findSome? fun i =>
    if i.trait = trait ∧ i.self.ref = l.1 ∧ i.self.name = l.2 ∧ i.arg.ref = r.1 ∧ i.arg.name = r.2
    then i.fns.head? else none

/-- The associated type `x` of the impls for `t`. -/
def Program.assoc (p : Program) (t x : Id) : Option Id :=
  p.impls.findSome? fun i => if i.self.name = t then i.types.lookup x else none

/-- Operator traits. -/
def traitOf : BinOp → Id
  | .add => id! "Add"
  | .sub => id! "Sub"
  | .mul => id! "Mul"
  | .div => id! "Div"
  | _ => 0

/-- Assigning operator traits. -/
def assignTraitOf : BinOp → Id
  | .add => id! "AddAssign"
  | .sub => id! "SubAssign"
  | .mul => id! "MulAssign"
  | .div => id! "DivAssign"
  | _ => 0

section
variable (c : Ctx)

/-- Call a function with receiver (if it takes one) and arguments, and store back what it changes. -/
def invoke (fn : Fn) (recv : Option (Val × Option Place)) (args : List Val)
    (places : List (Option Place)) (ρ : Env) : Except Err (Val × Env) :=
  match fn.recv, recv with
  | .none, none => do
    let (v, outs) ← c.call fn args
    return (v, ← writeBack (fn.params.map (·.2.isMut)) places outs ρ)
  | .val, some (v, _) => do
    let (r, outs) ← c.call fn (v :: args)
    return (r, ← writeBack (fn.params.map (·.2.isMut)) places outs.tail ρ)
  | .ref, some (v, _) => do
    let (r, outs) ← c.call fn (.ref v.strip :: args)
    return (r, ← writeBack (fn.params.map (·.2.isMut)) places outs.tail ρ)
  | .mut, some (v, p) => do
    let (r, outs) ← c.call fn (.ref v.strip :: args)
    return (r, ← writeBack (true :: fn.params.map (·.2.isMut)) (p :: places) outs ρ)
  | _, _ => .error .stuck

/-- Binary operator: primitive or an impl of its trait. -/
def binop (op : BinOp) (a b : Val) (ρ : Env) : Except Err (Val × Env) :=
  if a.isPrim && b.isPrim then do return (← prim c.pr op a b, ρ)
  else match a.ty, b.ty with
    | some s, some t =>
      match c.prog.opFn (traitOf op) s t with
      | some fn => invoke c fn (some (a, none)) [b] [none] ρ
      | none => .error .stuck
    | _, _ => .error .stuck

/-- `p ∘= b` where the place `p` holds `a`. -/
def opAssign (op : BinOp) (p : Place) (a b : Val) (ρ : Env) : Except Err Env :=
  if a.isPrim && b.isPrim then do setPlace ρ p (← prim c.pr op a b)
  else match a.ty, b.ty with
    | some s, some t =>
      match c.prog.opFn (assignTraitOf op) s t with
      | some fn => do return (← invoke c fn (some (a, some p)) [b] [none] ρ).2
      | none => .error .stuck
    | _, _ => .error .stuck

/-- Method call. -/
def callMethod (recv : Val) (p : Option Place) (m : Id) (args : List Val)
    (places : List (Option Place)) (ρ : Env) : Except Err (Val × Env) :=
  if m = id! "clone" then .ok (recv.strip, ρ)
  else match recv.strip, args, p with
    | .rng n, [.int none 0, .int (some .i64) hi], some p =>
      if m = id! "gen_range" then do
        return (.int (some .i64) (c.rng n hi), ← setPlace ρ p (.rng (n + 1)))
      else .error .stuck
    | v, _, _ =>
      match v.ty with
      | some (_, t) =>
        match c.prog.method t m with
        | some fn => invoke c fn (some (recv, p)) args places ρ
        | none => .error .stuck
      | none => .error .stuck

/-- Call of a function without receiver, tuple struct, `Ok(())` or `i64::from`. -/
def callPath (p : List Id) (args : List Val) (places : List (Option Place)) (ρ : Env) :
    Except Err (Val × Env) :=
  match p with
  | [t] =>
    if t = id! "Ok" then .ok (.unit, ρ)
    else do return (← tupleStruct t args, ρ)
  | [t, f] =>
    if t = id! "i64" then
      match args with
      | [.int (some .i32) n] =>
        if f = id! "from" then .ok (.int (some .i64) n, ρ) else .error .stuck
      | _ => .error .stuck
    else
      match c.prog.method (if t = id! "C" then c.curve else t) f with
      | some fn => invoke c fn none args places ρ
      | none => .error .stuck
  | [t, s, f] =>
    match c.prog.assoc (if t = id! "C" then c.curve else t) s with
    | some t =>
      match c.prog.method t f with
      | some fn => invoke c fn none args places ρ
      | none => .error .stuck
    | none => .error .stuck
  | _ => .error .stuck

/-- The text of one formatted argument. -/
def formatArg (f : Fmt) (v : Val) : Except Err (List Char) :=
  match f, v.strip with
  | .hex, .int (some .i64) n => .ok (FieldCode.hexI64 n)
  | .hex02 u, .int (some .u8) n => .ok (FieldCode.hexByte u n)
  | _, _ => .error .stuck

/-- The text `write!` appends. -/
def format : List Fmt → List Val → Except Err (List Char)
  | [], [] => .ok []
  | .text s :: fs, vs => do return s.map Char.ofNat ++ (← format fs vs)
  | f :: fs, v :: vs => do return (← formatArg f v) ++ (← format fs vs)
  | _, _ => .error .stuck

/-- The values of an evaluated argument list. -/
def Out.list (o : Out) : List Val :=
  match o.val with
  | .arr vs => vs
  | _ => []

/-- Value of an expression. -/
def eval (ρ : Env) : Expr → Except Err Out
  | .lit t n => .ok ⟨.int t n, [none], ρ⟩
  | .bool b => .ok ⟨.bool b, [none], ρ⟩
  | .unit => .ok ⟨.unit, [none], ρ⟩
  | .var x =>
    match ρ.lookup x with
    | some v => .ok ⟨v, [some (x, [])], ρ⟩
    | none =>
      match c.const x with
      | some v => .ok ⟨v, [none], ρ⟩
      | none => .error .stuck
  | .ref e => do
    let o ← eval ρ e
    return ⟨.ref o.val, o.places, o.env⟩
  | .deref e => do
    let o ← eval ρ e
    match o.val with
    | .ref v => return ⟨v, o.places, o.env⟩
    | _ => .error .stuck
  | .not e => do
    let o ← eval ρ e
    return ⟨← notV o.val, [none], o.env⟩
  | .bin op a b => do
    let x ← eval ρ a
    let y ← eval x.env b
    let (v, ρ') ← binop c op x.val y.val y.env
    return ⟨v, [none], ρ'⟩
  | .cast e t => do
    let o ← eval ρ e
    return ⟨← castTo t o.val, [none], o.env⟩
  | .field e x => do
    let o ← eval ρ e
    return ⟨← getField x o.val, o.places.map (·.map fun (y, ps) => (y, ps ++ [.field x])), o.env⟩
  | .index e i => do
    let o ← eval ρ e
    let j ← eval o.env i
    return ⟨← getIndex o.val j.val,
      o.places.map (·.map fun (y, ps) => (y, ps ++ [indexProj j.val])), j.env⟩
  | .array es => do
    let o ← eval ρ es
    return ⟨.arr o.list, [none], o.env⟩
  | .rep e n => do
    let o ← eval ρ e
    return ⟨.arr (List.replicate n o.val), [none], o.env⟩
  | .path p args => do
    let o ← eval ρ args
    let (v, ρ') ← callPath c p o.list o.places o.env
    return ⟨v, [none], ρ'⟩
  | .method e m args => do
    let r ← eval ρ e
    let o ← eval r.env args
    let (v, ρ') ← callMethod c r.val (r.places.head?.getD none) m o.list o.places o.env
    return ⟨v, [none], ρ'⟩
  | .struct t names args => do
    let o ← eval ρ args
    return ⟨.struct t names o.list, [none], o.env⟩
  | .write f parts args => do
    let w ← eval ρ f
    let o ← eval w.env args
    let s ← format parts o.list
    match w.val.strip, w.places with
    | .fmt old, [some p] => return ⟨.unit, [none], ← setPlace o.env p (.fmt (old ++ s))⟩
    | _, _ => .error .stuck
  | .try e => eval ρ e
  | .anil => .ok ⟨.arr [], [], ρ⟩
  | .acons e es => do
    let o ← eval ρ e
    let r ← eval o.env es
    return ⟨.arr (o.val :: r.list), o.places ++ r.places, r.env⟩

/-- `n` iterations of a loop, the variable starting at `i`. -/
def iterate (step : Nat → Env → Except Err Env) : Nat → Nat → Env → Except Err Env
  | 0, _, ρ => .ok ρ
  | n + 1, i, ρ => do iterate step n (i + 1) (← step i ρ)

/-- The bounds of a loop. -/
def bounds (a b : Val) : Except Err (Nat × Nat) :=
  match a.index, b.index with
  | some a, some b => .ok (a, b - a)
  | _, _ => .error .stuck

/-- Execute a block. -/
def exec (ρ : Env) : Block → Except Err Env
  | .nil => .ok ρ
  | .let x e rest => do
    let o ← eval c ρ e
    exec ((x, o.val) :: o.env) rest
  | .assign p e rest => do
    let o ← eval c ρ e
    let q ← eval c o.env p
    match q.places with
    | [some q'] => exec (← setPlace q.env q' o.val) rest
    | _ => .error .stuck
  | .opAssign op p e rest => do
    let o ← eval c ρ e
    let q ← eval c o.env p
    match q.places with
    | [some q'] => exec (← opAssign c op q' q.val o.val q.env) rest
    | _ => .error .stuck
  | .expr e rest => do
    let o ← eval c ρ e
    exec o.env rest
  | .for x a b body rest => do
    let u ← eval c ρ a
    let v ← eval c u.env b
    let (start, n) ← bounds u.val v.val
    let ρ' ← iterate (fun i ρ => do
      let ρ1 ← exec ((x, .int (some .usize) i) :: ρ) body
      return ρ1.drop (ρ1.length - ρ.length)) n start v.env
    exec ρ' rest

end

/-- Values of constants (none mentions another or calls a function). -/
def Program.const (p : Program) (x : Id) : Option Val :=
  match p.consts.lookup x with
  | some (t, e) =>
    match eval ⟨⟨[], []⟩, .debug, 0, fun _ _ => 0, fun _ => none, fun _ _ => .error .stuck⟩ [] e with
    | .ok o => some (coerce t o.val)
    | .error _ => none
  | none => none

/-- The parameters of a function, with the receiver. -/
def Fn.names (fn : Fn) : List Id :=
  match fn.recv with
  | .none => fn.params.map (·.1)
  | _ => id! "self" :: fn.params.map (·.1)

/-- Arguments converted to the types of the parameters (this concerns literals only). -/
def Fn.coerce (fn : Fn) (args : List Val) : List Val :=
  match fn.recv, args with
  | .none, args => List.zipWith (fun p v => Rust.coerce p.2 v) fn.params args
  | _, v :: args => v :: List.zipWith (fun p v => Rust.coerce p.2 v) fn.params args
  | _, [] => []

/-- What a program runs on besides its text: the build profile, the type `C` of generic code, and
the answers of the random generator. -/
structure World where
  pr : Profile
  curve : Id
  rng : Nat → Int → Int

/-- Run the body of a function on arguments, given how to call others. -/
def runBody (c : Ctx) (fn : Fn) (args : List Val) : Except Err (Val × List Val) := do
  let ρ ← exec c (fn.names.zip (fn.coerce args)) fn.body
  let o ← eval c ρ fn.ret
  return (coerce fn.out o.val, (o.env.drop (o.env.length - fn.names.length)).map (·.2))

/-- Call a function, with at most `n` nested calls. -/
def run (p : Program) (w : World) : Nat → Fn → List Val → Except Err (Val × List Val)
  | 0, _, _ => .error .stuck
  | n + 1, fn, args => runBody ⟨p, w.pr, w.curve, w.rng, p.const, run p w n⟩ fn args

end Verif.Rust

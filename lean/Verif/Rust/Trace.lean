import Verif.Rust.Eval

/-!
# What a run does

The interpreter of `Eval.lean` once more, recording what an observer of control flow and memory
accesses sees: which functions are called, how often loops run, which array elements are read, which
places are written, and which primitive operations are executed on which types, with the distances of
shifts and the operands of divisions.  The record does not contain the other numbers computed.
`runT_res` proves that recording does not change the results.

Not recorded: the work of the formatter (`{:x}` writes fewer characters for smaller numbers), and the
time a machine instruction takes.
-/

namespace Verif.Rust

/-- What is recorded. -/
inductive Event where
  /-- a function is entered -/
  | call (fn : Fn)
  /-- a variable or constant is read -/
  | load (x : Id)
  /-- a field is read -/
  | field (x : Id)
  /-- an array element is read -/
  | index (i : Nat)
  /-- a place is written -/
  | store (p : Place)
  /-- an operation on values of primitive types; for integers the types of the operands (none for a
  literal without suffix) -/
  | op (o : BinOp) (s t : Option IntTy)
  /-- distance of a shift, operand of a division -/
  | operand (n : Nat)
  | cast (t : IntTy)
  | not
  /-- the body of a loop is entered, the variable being `i` -/
  | iter (i : Nat)
  /-- text is written -/
  | write (parts : List Fmt)
  /-- the random generator is asked -/
  | random

/-- A computation with its record; the record is there even if it ends with an error. -/
structure T (α : Type) where
  trace : List Event
  res : Except Err α

namespace T

def pure {α : Type} (x : α) : T α := ⟨[], .ok x⟩

def bind {α β : Type} (s : T α) (f : α → T β) : T β :=
  match s.res with
  | .ok x => ⟨s.trace ++ (f x).trace, (f x).res⟩
  | .error e => ⟨s.trace, .error e⟩

instance : Monad T where
  pure := T.pure
  bind := T.bind

/-- A computation that records nothing. -/
def quiet {α : Type} (r : Except Err α) : T α := ⟨[], r⟩

/-- Record an event. -/
def tell (e : Event) : T Unit := ⟨[e], .ok ()⟩

end T

open T (quiet tell)

/-- Type of an integer. -/
def Val.intTy : Val → Option IntTy
  | .int t _ => t
  | _ => none

/-- Assign to a place. -/
def setPlaceT (ρ : Env) (p : Place) (v : Val) : T Env := do
  tell (.store p)
  quiet (setPlace ρ p v)

def writeBackT : List Bool → List (Option Place) → List Val → Env → T Env
  | true :: fs, some p :: ps, v :: vs, ρ => do writeBackT fs ps vs (← setPlaceT ρ p v.strip)
  | _ :: fs, _ :: ps, _ :: vs, ρ => writeBackT fs ps vs ρ
  | _, _, _, ρ => pure ρ

/-- `Ctx`, with the record of calls. -/
structure CtxT where
  prog : Program
  pr : Profile
  curve : Id
  rng : Nat → Int → Int
  const : Id → Option Val
  call : Fn → List Val → T (Val × List Val)

/-- Forget the records. -/
def CtxT.ctx (c : CtxT) : Ctx :=
  ⟨c.prog, c.pr, c.curve, c.rng, c.const, fun fn args => (c.call fn args).res⟩

section
variable (c : CtxT)

def invokeT (fn : Fn) (recv : Option (Val × Option Place)) (args : List Val)
    (places : List (Option Place)) (ρ : Env) : T (Val × Env) :=
  match fn.recv, recv with
  | .none, none => do
    let r ← c.call fn args
    let ρ' ← writeBackT (fn.params.map (·.2.isMut)) places r.2 ρ
    pure (r.1, ρ')
  | .val, some (v, _) => do
    let r ← c.call fn (v :: args)
    let ρ' ← writeBackT (fn.params.map (·.2.isMut)) places r.2.tail ρ
    pure (r.1, ρ')
  | .ref, some (v, _) => do
    let r ← c.call fn (.ref v.strip :: args)
    let ρ' ← writeBackT (fn.params.map (·.2.isMut)) places r.2.tail ρ
    pure (r.1, ρ')
  | .mut, some (v, p) => do
    let r ← c.call fn (.ref v.strip :: args)
    let ρ' ← writeBackT (true :: fn.params.map (·.2.isMut)) (p :: places) r.2 ρ
    pure (r.1, ρ')
  | _, _ => quiet (.error .stuck)

/-- Record a number. -/
def tellOperand (i : Val) : T Unit :=
  match i.index with
  | some n => tell (.operand n)
  | none => pure ()

/-- Record the distances of shifts and the operands of divisions: on a machine, their time may depend
on them. -/
def tellOperands (op : BinOp) (a b : Val) : T Unit :=
  match op with
  | .shl | .shr => tellOperand b
  | .div | .rem => do tellOperand a; tellOperand b
  | _ => pure ()

/-- Primitive operation. -/
def primT (op : BinOp) (a b : Val) : T Val := do
  tell (.op op a.intTy b.intTy)
  tellOperands op a b
  quiet (prim c.pr op a b)

def binopT (op : BinOp) (a b : Val) (ρ : Env) : T (Val × Env) :=
  if a.isPrim && b.isPrim then do
    let v ← primT c op a b
    pure (v, ρ)
  else match a.ty, b.ty with
    | some s, some t =>
      match c.prog.opFn (traitOf op) s t with
      | some fn => invokeT c fn (some (a, none)) [b] [none] ρ
      | none => quiet (.error .stuck)
    | _, _ => quiet (.error .stuck)

def opAssignT (op : BinOp) (p : Place) (a b : Val) (ρ : Env) : T Env :=
  if a.isPrim && b.isPrim then do
    let v ← primT c op a b
    setPlaceT ρ p v
  else match a.ty, b.ty with
    | some s, some t =>
      match c.prog.opFn (assignTraitOf op) s t with
      | some fn => do
        let r ← invokeT c fn (some (a, some p)) [b] [none] ρ
        pure r.2
      | none => quiet (.error .stuck)
    | _, _ => quiet (.error .stuck)

def callMethodT (recv : Val) (p : Option Place) (m : Id) (args : List Val)
    (places : List (Option Place)) (ρ : Env) : T (Val × Env) :=
  if m = id! "clone" then pure (recv.strip, ρ)
  else match recv.strip, args, p with
    | .rng n, [.int none 0, .int (some .i64) hi], some p =>
      if m = id! "gen_range" then do
        tell .random
        let ρ' ← setPlaceT ρ p (.rng (n + 1))
        pure (.int (some .i64) (c.rng n hi), ρ')
      else quiet (.error .stuck)
    | v, _, _ =>
      match v.ty with
      | some (_, t) =>
        match c.prog.method t m with
        | some fn => invokeT c fn (some (recv, p)) args places ρ
        | none => quiet (.error .stuck)
      | none => quiet (.error .stuck)

def callPathT (p : List Id) (args : List Val) (places : List (Option Place)) (ρ : Env) :
    T (Val × Env) :=
  match p with
  | [t] =>
    if t = id! "Ok" then pure (.unit, ρ)
    else do
      let v ← quiet (tupleStruct t args)
      pure (v, ρ)
  | [t, f] =>
    if t = id! "i64" then
      match args with
      | [.int (some .i32) n] =>
        if f = id! "from" then pure (.int (some .i64) n, ρ) else quiet (.error .stuck)
      | _ => quiet (.error .stuck)
    else
      match c.prog.method (if t = id! "C" then c.curve else t) f with
      | some fn => invokeT c fn none args places ρ
      | none => quiet (.error .stuck)
  | [t, s, f] =>
    match c.prog.assoc (if t = id! "C" then c.curve else t) s with
    | some t =>
      match c.prog.method t f with
      | some fn => invokeT c fn none args places ρ
      | none => quiet (.error .stuck)
    | none => quiet (.error .stuck)
  | _ => quiet (.error .stuck)

/-- Record the element that is read. -/
def tellIndex (i : Val) : T Unit :=
  match i.index with
  | some n => tell (.index n)
  | none => pure ()

def evalT (ρ : Env) : Expr → T Out
  | .lit t n => pure ⟨.int t n, [none], ρ⟩
  | .bool b => pure ⟨.bool b, [none], ρ⟩
  | .unit => pure ⟨.unit, [none], ρ⟩
  | .var x => do
    tell (.load x)
    match ρ.lookup x with
    | some v => pure ⟨v, [some (x, [])], ρ⟩
    | none =>
      match c.const x with
      | some v => pure ⟨v, [none], ρ⟩
      | none => quiet (.error .stuck)
  | .ref e => do
    let o ← evalT ρ e
    pure ⟨.ref o.val, o.places, o.env⟩
  | .deref e => do
    let o ← evalT ρ e
    match o.val with
    | .ref v => pure ⟨v, o.places, o.env⟩
    | _ => quiet (.error .stuck)
  | .not e => do
    let o ← evalT ρ e
    tell .not
    let v ← quiet (notV o.val)
    pure ⟨v, [none], o.env⟩
  | .bin op a b => do
    let x ← evalT ρ a
    let y ← evalT x.env b
    let r ← binopT c op x.val y.val y.env
    pure ⟨r.1, [none], r.2⟩
  | .cast e t => do
    let o ← evalT ρ e
    tell (.cast t)
    let v ← quiet (castTo t o.val)
    pure ⟨v, [none], o.env⟩
  | .field e x => do
    let o ← evalT ρ e
    tell (.field x)
    let v ← quiet (getField x o.val)
    pure ⟨v, o.places.map (·.map fun (y, ps) => (y, ps ++ [.field x])), o.env⟩
  | .index e i => do
    let o ← evalT ρ e
    let j ← evalT o.env i
    tellIndex j.val
    let v ← quiet (getIndex o.val j.val)
    pure ⟨v, o.places.map (·.map fun (y, ps) => (y, ps ++ [indexProj j.val])), j.env⟩
  | .array es => do
    let o ← evalT ρ es
    pure ⟨.arr o.list, [none], o.env⟩
  | .rep e n => do
    let o ← evalT ρ e
    pure ⟨.arr (List.replicate n o.val), [none], o.env⟩
  | .path p args => do
    let o ← evalT ρ args
    let r ← callPathT c p o.list o.places o.env
    pure ⟨r.1, [none], r.2⟩
  | .method e m args => do
    let r ← evalT ρ e
    let o ← evalT r.env args
    let s ← callMethodT c r.val (r.places.head?.getD none) m o.list o.places o.env
    pure ⟨s.1, [none], s.2⟩
  | .struct t names args => do
    let o ← evalT ρ args
    pure ⟨.struct t names o.list, [none], o.env⟩
  | .write f parts args => do
    let w ← evalT ρ f
    let o ← evalT w.env args
    tell (.write parts)
    let s ← quiet (format parts o.list)
    match w.val.strip, w.places with
    | .fmt old, [some p] => do
      let ρ' ← setPlaceT o.env p (.fmt (old ++ s))
      pure ⟨.unit, [none], ρ'⟩
    | _, _ => quiet (.error .stuck)
  | .try e => evalT ρ e
  | .anil => pure ⟨.arr [], [], ρ⟩
  | .acons e es => do
    let o ← evalT ρ e
    let r ← evalT o.env es
    pure ⟨.arr (o.val :: r.list), o.places ++ r.places, r.env⟩

def iterateT (step : Nat → Env → T Env) : Nat → Nat → Env → T Env
  | 0, _, ρ => pure ρ
  | n + 1, i, ρ => do
    tell (.iter i)
    let ρ' ← step i ρ
    iterateT step n (i + 1) ρ'

def execT (ρ : Env) : Block → T Env
  | .nil => pure ρ
  | .let x e rest => do
    let o ← evalT c ρ e
    execT ((x, o.val) :: o.env) rest
  | .assign p e rest => do
    let o ← evalT c ρ e
    let q ← evalT c o.env p
    match q.places with
    | [some q'] => do
      let ρ' ← setPlaceT q.env q' o.val
      execT ρ' rest
    | _ => quiet (.error .stuck)
  | .opAssign op p e rest => do
    let o ← evalT c ρ e
    let q ← evalT c o.env p
    match q.places with
    | [some q'] => do
      let ρ' ← opAssignT c op q' q.val o.val q.env
      execT ρ' rest
    | _ => quiet (.error .stuck)
  | .expr e rest => do
    let o ← evalT c ρ e
    execT o.env rest
  | .for x a b body rest => do
    let u ← evalT c ρ a
    let v ← evalT c u.env b
    let r ← quiet (bounds u.val v.val)
    let ρ' ← iterateT (fun i ρ => do
      let ρ1 ← execT ((x, .int (some .usize) i) :: ρ) body
      pure (ρ1.drop (ρ1.length - ρ.length))) r.2 r.1 v.env
    execT ρ' rest

end

def runBodyT (c : CtxT) (fn : Fn) (args : List Val) : T (Val × List Val) := do
  tell (.call fn)
  let ρ ← execT c (fn.names.zip (fn.coerce args)) fn.body
  let o ← evalT c ρ fn.ret
  pure (coerce fn.out o.val, (o.env.drop (o.env.length - fn.names.length)).map (·.2))

/-- Call a function, recording. -/
def runT (p : Program) (w : World) : Nat → Fn → List Val → T (Val × List Val)
  | 0, _, _ => quiet (.error .stuck)
  | n + 1, fn, args => runBodyT ⟨p, w.pr, w.curve, w.rng, p.const, runT p w n⟩ fn args

/-! ### Recording does not change the results -/

section

@[simp] theorem res_pure {α : Type} (x : α) : (Pure.pure x : T α).res = .ok x := rfl
@[simp] theorem res_quiet {α : Type} (r : Except Err α) : (quiet r).res = r := rfl
@[simp] theorem res_tell (e : Event) : (tell e).res = .ok () := rfl
@[simp] theorem res_bind {α β : Type} (s : T α) (f : α → T β) :
    (s >>= f).res = s.res >>= fun x => (f x).res := by
  show (T.bind s f).res = _
  unfold T.bind
  cases s.res <;> rfl

@[simp] theorem setPlaceT_res (ρ : Env) (p : Place) (v : Val) :
    (setPlaceT ρ p v).res = setPlace ρ p v := rfl

@[simp] theorem writeBackT_res (fs : List Bool) (ps : List (Option Place)) (vs : List Val)
    (ρ : Env) : (writeBackT fs ps vs ρ).res = writeBack fs ps vs ρ := by
  induction fs, ps, vs, ρ using writeBackT.induct with
  | case1 fs p ps v vs ρ ih =>
    rw [writeBackT, writeBack, res_bind, setPlaceT_res]
    cases setPlace ρ p v.strip with
    | error e => rfl
    | ok x => exact ih x
  | case2 => rw [writeBackT, writeBack] <;> assumption
  | case3 => rw [writeBackT, writeBack] <;> first | rfl | assumption

variable (c : CtxT)

@[simp] theorem invokeT_res (fn : Fn) (recv : Option (Val × Option Place)) (args : List Val)
    (places : List (Option Place)) (ρ : Env) :
    (invokeT c fn recv args places ρ).res = invoke c.ctx fn recv args places ρ := by
  obtain ⟨ty, name, r, params, out, body, ret⟩ := fn
  rcases r with _ | _ | _ | _ <;> rcases recv with _ | ⟨v, p⟩ <;>
    simp only [invokeT, invoke, res_bind, writeBackT_res, res_pure, res_quiet] <;> rfl

@[simp] theorem tellOperand_res (i : Val) : (tellOperand i).res = .ok () := by
  unfold tellOperand
  split <;> rfl

@[simp] theorem tellOperands_res (op : BinOp) (a b : Val) : (tellOperands op a b).res = .ok () := by
  cases op <;> first | rfl | exact tellOperand_res b |
    (rw [tellOperands, res_bind, tellOperand_res]; exact tellOperand_res b)

@[simp] theorem primT_res (op : BinOp) (a b : Val) : (primT c op a b).res = prim c.pr op a b := by
  rw [primT, res_bind, res_tell]
  show T.res (tellOperands op a b >>= _) = _
  rw [res_bind, tellOperands_res]
  rfl

theorem toCtx_prog : c.ctx.prog = c.prog := rfl

@[simp] theorem binopT_res (op : BinOp) (a b : Val) (ρ : Env) :
    (binopT c op a b ρ).res = binop c.ctx op a b ρ := by
  unfold binopT binop
  split
  · simp only [res_bind, primT_res, res_pure]; rfl
  · rw [toCtx_prog]
    rcases a.ty with _ | s
    · rfl
    rcases b.ty with _ | t
    · rfl
    dsimp only
    rcases c.prog.opFn (traitOf op) s t with _ | fn
    · rfl
    exact invokeT_res c _ _ _ _ _

@[simp] theorem opAssignT_res (op : BinOp) (p : Place) (a b : Val) (ρ : Env) :
    (opAssignT c op p a b ρ).res = opAssign c.ctx op p a b ρ := by
  unfold opAssignT opAssign
  split
  · simp only [res_bind, primT_res, setPlaceT_res]; rfl
  · rw [toCtx_prog]
    rcases a.ty with _ | s
    · rfl
    rcases b.ty with _ | t
    · rfl
    dsimp only
    rcases c.prog.opFn (assignTraitOf op) s t with _ | fn
    · rfl
    dsimp only
    rw [res_bind, invokeT_res]; rfl

/-- Method calls other than those treated specially. -/
theorem callMethodT_else (v recv : Val) (p : Option Place) (m : Id) (args : List Val)
    (places : List (Option Place)) (ρ : Env) :
    (match v.ty with
      | some (_, t) =>
        match c.prog.method t m with
        | some fn => invokeT c fn (some (recv, p)) args places ρ
        | none => quiet (.error .stuck)
      | none => quiet (.error .stuck)).res =
    match v.ty with
      | some (_, t) =>
        match c.ctx.prog.method t m with
        | some fn => invoke c.ctx fn (some (recv, p)) args places ρ
        | none => .error .stuck
      | none => .error .stuck := by
  rw [toCtx_prog]
  rcases v.ty with _ | ⟨r, t⟩
  · rfl
  dsimp only
  rcases c.prog.method t m with _ | fn
  · rfl
  exact invokeT_res c _ _ _ _ _

@[simp] theorem callMethodT_res (recv : Val) (p : Option Place) (m : Id) (args : List Val)
    (places : List (Option Place)) (ρ : Env) :
    (callMethodT c recv p m args places ρ).res = callMethod c.ctx recv p m args places ρ := by
  unfold callMethodT callMethod
  split
  · rfl
  · split
    next n hi p h =>
      simp only [h]
      split
      · simp only [res_bind, res_tell, setPlaceT_res, res_pure]; rfl
      · rfl
    next h =>
      rw [callMethodT_else]
      symm
      split
      · exact (h _ _ _ (by assumption) rfl rfl).elim
      · rfl

@[simp] theorem callPathT_res (p : List Id) (args : List Val) (places : List (Option Place))
    (ρ : Env) : (callPathT c p args places ρ).res = callPath c.ctx p args places ρ := by
  unfold callPathT callPath
  rw [toCtx_prog]
  rcases p with _ | ⟨t, _ | ⟨f, _ | ⟨g, _ | ⟨x, r⟩⟩⟩⟩
  · rfl
  · dsimp only
    split
    · rfl
    · simp only [res_bind, res_quiet, res_pure]; rfl
  · dsimp only
    split
    · split
      · split <;> rfl
      · split
        next h => exact absurd rfl (h _)
        · rfl
    · show _ = match c.prog.method (if t = id! "C" then c.curve else t) f with
        | some fn => _ | none => _
      rcases c.prog.method (if t = id! "C" then c.curve else t) f with _ | fn
      · rfl
      exact invokeT_res c _ _ _ _ _
  · show _ = match c.prog.assoc (if t = id! "C" then c.curve else t) f with
        | some fn => _ | none => _
    dsimp only
    rcases c.prog.assoc (if t = id! "C" then c.curve else t) f with _ | t
    · rfl
    dsimp only
    rcases c.prog.method t g with _ | fn
    · rfl
    exact invokeT_res c _ _ _ _ _
  · rfl

@[simp] theorem tellIndex_res (i : Val) : (tellIndex i).res = .ok () := by
  unfold tellIndex
  split <;> rfl

theorem evalT_res (ρ : Env) (e : Expr) : (evalT c ρ e).res = eval c.ctx ρ e := by
  induction e generalizing ρ with
  | lit | bool | unit | anil => rfl
  | var x =>
    rw [evalT, eval, res_bind]
    show T.res (match ρ.lookup x with | some v => _ | none => _) = _
    cases ρ.lookup x with
    | some v => rfl
    | none =>
      show T.res (match c.const x with | some v => _ | none => _) =
        match c.const x with | some v => _ | none => _
      cases c.const x <;> rfl
  | ref e ih => rw [evalT, eval, res_bind, ih]; rfl
  | deref e ih =>
    rw [evalT, eval, res_bind, ih]
    cases eval c.ctx ρ e with
    | error => rfl
    | ok o => obtain ⟨v, ps, ρ'⟩ := o; cases v <;> rfl
  | not e ih =>
    rw [evalT, eval, res_bind, ih]
    congr 1; funext o
    simp only [res_bind, res_tell, res_quiet, res_pure]; rfl
  | bin op a b iha ihb =>
    rw [evalT, eval, res_bind, iha]
    congr 1; funext x
    rw [res_bind, ihb]
    congr 1; funext y
    rw [res_bind, binopT_res]; rfl
  | cast e t ih =>
    rw [evalT, eval, res_bind, ih]
    congr 1; funext o
    simp only [res_bind, res_tell, res_quiet, res_pure]; rfl
  | field e x ih =>
    rw [evalT, eval, res_bind, ih]
    congr 1; funext o
    simp only [res_bind, res_tell, res_quiet, res_pure]; rfl
  | index e i ihe ihi =>
    rw [evalT, eval, res_bind, ihe]
    congr 1; funext o
    rw [res_bind, ihi]
    congr 1; funext j
    simp only [res_bind, tellIndex_res, res_quiet, res_pure]; rfl
  | array es ih => rw [evalT, eval, res_bind, ih]; rfl
  | rep e n ih => rw [evalT, eval, res_bind, ih]; rfl
  | path p args ih =>
    rw [evalT, eval, res_bind, ih]
    congr 1; funext o
    rw [res_bind, callPathT_res]; rfl
  | method e m args ihe iha =>
    rw [evalT, eval, res_bind, ihe]
    congr 1; funext r
    rw [res_bind, iha]
    congr 1; funext o
    rw [res_bind, callMethodT_res]; rfl
  | struct t names args ih => rw [evalT, eval, res_bind, ih]; rfl
  | write f parts args ihf iha =>
    rw [evalT, eval, res_bind, ihf]
    congr 1; funext w
    rw [res_bind, iha]
    congr 1; funext o
    rw [res_bind, res_tell]
    show T.res (quiet (format parts o.list) >>= _) = _
    rw [res_bind, res_quiet]
    congr 1; funext s
    rcases w.places with _ | ⟨_ | p, _ | ⟨q, r⟩⟩ <;> cases w.val.strip <;>
      first | rfl | (dsimp only; rw [res_bind, setPlaceT_res]; rfl)
  | «try» e ih => rw [evalT, eval, ih]
  | acons e es ihe ihs =>
    rw [evalT, eval, res_bind, ihe]
    congr 1; funext o
    rw [res_bind, ihs]; rfl

theorem iterateT_res {stepT : Nat → Env → T Env} {step : Nat → Env → Except Err Env}
    (h : ∀ i ρ, (stepT i ρ).res = step i ρ) (n i : Nat) (ρ : Env) :
    (iterateT stepT n i ρ).res = iterate step n i ρ := by
  induction n generalizing i ρ with
  | zero => rfl
  | succ n ih =>
    rw [iterateT, iterate, res_bind, res_tell]
    show T.res (stepT i ρ >>= _) = _
    rw [res_bind, h]
    congr 1; funext ρ'
    exact ih _ _

theorem execT_res (ρ : Env) (b : Block) : (execT c ρ b).res = exec c.ctx ρ b := by
  induction b generalizing ρ with
  | nil => rfl
  | «let» x e rest ih =>
    rw [execT, exec, res_bind, evalT_res]
    congr 1; funext o
    exact ih _
  | assign p e rest ih =>
    rw [execT, exec, res_bind, evalT_res]
    congr 1; funext o
    rw [res_bind, evalT_res]
    congr 1; funext q
    rcases q.places with _ | ⟨_ | p, _ | ⟨r, s⟩⟩
    · rfl
    · rfl
    · rfl
    · dsimp only
      rw [res_bind, setPlaceT_res]
      congr 1; funext ρ'
      exact ih _
    · rfl
  | opAssign op p e rest ih =>
    rw [execT, exec, res_bind, evalT_res]
    congr 1; funext o
    rw [res_bind, evalT_res]
    congr 1; funext q
    rcases q.places with _ | ⟨_ | p, _ | ⟨r, s⟩⟩
    · rfl
    · rfl
    · rfl
    · dsimp only
      rw [res_bind, opAssignT_res]
      congr 1; funext ρ'
      exact ih _
    · rfl
  | expr e rest ih =>
    rw [execT, exec, res_bind, evalT_res]
    congr 1; funext o
    exact ih _
  | «for» x a b body rest ihb ih =>
    rw [execT, exec, res_bind, evalT_res]
    congr 1; funext u
    rw [res_bind, evalT_res]
    congr 1; funext v
    rw [res_bind, res_quiet]
    congr 1; funext r
    rw [res_bind, iterateT_res (step := fun i ρ => do
      let ρ1 ← exec c.ctx ((x, .int (some .usize) i) :: ρ) body
      return ρ1.drop (ρ1.length - ρ.length))
      (fun i ρ => by rw [res_bind, ihb]; rfl)]
    show _ = (iterate _ r.2 r.1 v.env >>= fun ρ' => exec c.ctx ρ' rest)
    congr 1; funext ρ'
    exact ih _

theorem runBodyT_res (fn : Fn) (args : List Val) :
    (runBodyT c fn args).res = runBody c.ctx fn args := by
  rw [runBodyT, runBody, res_bind, res_tell]
  show T.res (execT c _ fn.body >>= _) = _
  rw [res_bind, execT_res]
  congr 1; funext ρ
  rw [res_bind, evalT_res]; rfl

end

/-- Recording does not change the results. -/
theorem runT_res (p : Program) (w : World) (n : Nat) (fn : Fn) (args : List Val) :
    (runT p w n fn args).res = run p w n fn args := by
  induction n generalizing fn args with
  | zero => rfl
  | succ n ih =>
    rw [runT, run, runBodyT_res]
    congr 1
    rw [CtxT.ctx]
    congr 1
    funext fn args
    exact ih fn args

end Verif.Rust

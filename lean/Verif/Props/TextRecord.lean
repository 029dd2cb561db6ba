import Verif.Props.TextSecret

/-!
# C56: nothing is left out of the record

C56 compares records.  It would say little if the record left something out; these theorems state, for
every construct of the language and for all expressions and environments, what a successful run of the
construct adds to the record: the parts in the order in which they are executed, then what the
construct itself does.
-/

namespace Verif

open Rust

private theorem tr_bind {α β : Type} {s : T α} {t : List Event} {x : α} (h : s = ⟨t, .ok x⟩)
    (g : α → T β) : (s >>= g).trace = t ++ (g x).trace := by
  subst h; rfl

/-- Reading a variable or constant. -/
theorem C56_observes_load (c : CtxT) (ρ : Rust.Env) (x : Id) : (evalT c ρ (.var x)).trace = [.load x] := by
  rw [evalT]
  show [Event.load x] ++ T.trace _ = _
  split
  · rfl
  · split <;> rfl

/-- Reading a field. -/
theorem C56_observes_field (c : CtxT) (ρ : Rust.Env) (e : Rust.Expr) (x : Id) {t : List Event} {o : Out}
    (h : evalT c ρ e = ⟨t, .ok o⟩) : (evalT c ρ (.field e x)).trace = t ++ [.field x] := by
  rw [evalT, tr_bind h]
  show t ++ ([Event.field x] ++ T.trace _) = _
  congr 1
  cases h' : getField x o.val <;> rfl

/-- Reading an element of an array: the position is recorded, also if it is outside the array. -/
theorem C56_observes_index (c : CtxT) (ρ : Rust.Env) (e i : Rust.Expr) {t s : List Event} {o j : Out} {n : Nat}
    (h : evalT c ρ e = ⟨t, .ok o⟩) (hi : evalT c o.env i = ⟨s, .ok j⟩) (hn : j.val.index = some n) :
    (evalT c ρ (.index e i)).trace = t ++ (s ++ [.index n]) := by
  rw [evalT, tr_bind h, tr_bind hi, tellIndex, hn]
  show t ++ (s ++ ([Event.index n] ++ T.trace _)) = _
  congr 2
  cases h' : getIndex o.val j.val <;> rfl

/-- Negation. -/
theorem C56_observes_not (c : CtxT) (ρ : Rust.Env) (e : Rust.Expr) {t : List Event} {o : Out}
    (h : evalT c ρ e = ⟨t, .ok o⟩) : (evalT c ρ (.not e)).trace = t ++ [.not] := by
  rw [evalT, tr_bind h]
  show t ++ ([Event.not] ++ T.trace _) = _
  congr 1
  cases h' : notV o.val <;> rfl

/-- Conversion to another type. -/
theorem C56_observes_cast (c : CtxT) (ρ : Rust.Env) (e : Rust.Expr) (y : IntTy) {t : List Event} {o : Out}
    (h : evalT c ρ e = ⟨t, .ok o⟩) : (evalT c ρ (.cast e y)).trace = t ++ [.cast y] := by
  rw [evalT, tr_bind h]
  show t ++ ([Event.cast y] ++ T.trace _) = _
  congr 1
  cases h' : castTo y o.val <;> rfl

/-- The operands that are recorded besides the operation. -/
def watched (op : BinOp) (a b : Val) : List Event :=
  match op with
  | .shl | .shr => (b.index.map Event.operand).toList
  | .div | .rem => (a.index.map Event.operand).toList ++ (b.index.map Event.operand).toList
  | _ => []

private theorem tellOperand_eq (a : Val) : tellOperand a = ⟨(a.index.map Event.operand).toList, .ok ()⟩ := by
  unfold tellOperand
  cases a.index <;> rfl

private theorem tellOperands_eq (op : BinOp) (a b : Val) : tellOperands op a b = ⟨watched op a b, .ok ()⟩ := by
  cases op <;> first | rfl | exact tellOperand_eq b |
    (rw [tellOperands, tellOperand_eq, tellOperand_eq]; rfl)

private theorem primT_trace (c : CtxT) (op : BinOp) (a b : Val) :
    (primT c op a b).trace = .op op a.intTy b.intTy :: watched op a b := by
  rw [primT]
  show [Event.op op a.intTy b.intTy] ++ T.trace (tellOperands op a b >>= _) = _
  rw [tr_bind (tellOperands_eq op a b)]
  exact congrArg (_ :: ·) (List.append_nil _)

private theorem primT_eq (c : CtxT) (op : BinOp) (a b : Val) :
    primT c op a b = ⟨.op op a.intTy b.intTy :: watched op a b, prim c.pr op a b⟩ := by
  rw [← primT_trace c, ← primT_res c]

/-- Operation on numbers or truth values, with the distance of a shift and the operands of a division. -/
theorem C56_observes_op (c : CtxT) (ρ : Rust.Env) (op : BinOp) (a b : Rust.Expr) {t s : List Event} {x y : Out}
    (ha : evalT c ρ a = ⟨t, .ok x⟩) (hb : evalT c x.env b = ⟨s, .ok y⟩)
    (hx : x.val.isPrim) (hy : y.val.isPrim) :
    (evalT c ρ (.bin op a b)).trace =
      t ++ (s ++ .op op x.val.intTy y.val.intTy :: watched op x.val y.val) := by
  rw [evalT, tr_bind ha, tr_bind hb, binopT, if_pos (by rw [hx, hy]; rfl), primT_eq]
  cases prim c.pr op x.val y.val with
  | error e => rfl
  | ok v =>
    show t ++ (s ++ ((_ ++ []) ++ [])) = _
    rw [List.append_nil, List.append_nil]

/-- Assignment. -/
theorem C56_observes_assign (c : CtxT) (ρ : Rust.Env) (p e : Rust.Expr) (rest : Block) {t s : List Event}
    {o q : Out} {q' : Place} {ρ' : Rust.Env} (he : evalT c ρ e = ⟨t, .ok o⟩)
    (hq : evalT c o.env p = ⟨s, .ok q⟩) (hp : q.places = [some q'])
    (hs : setPlace q.env q' o.val = .ok ρ') :
    (execT c ρ (.assign p e rest)).trace = t ++ (s ++ .store q' :: (execT c ρ' rest).trace) := by
  rw [execT, tr_bind he, tr_bind hq, hp]
  show t ++ (s ++ T.trace (setPlaceT q.env q' o.val >>= _)) = _
  rw [tr_bind (s := setPlaceT q.env q' o.val) (t := [.store q']) (x := ρ')
    (by rw [setPlaceT, hs]; rfl)]
  rfl

/-- Assignment with an operation on numbers or truth values. -/
theorem C56_observes_op_assign (c : CtxT) (ρ : Rust.Env) (op : BinOp) (p e : Rust.Expr) (rest : Block)
    {t s : List Event} {o q : Out} {q' : Place} {v : Val} {ρ' : Rust.Env} (he : evalT c ρ e = ⟨t, .ok o⟩)
    (hq : evalT c o.env p = ⟨s, .ok q⟩) (hp : q.places = [some q'])
    (hx : q.val.isPrim) (hy : o.val.isPrim) (hv : prim c.pr op q.val o.val = .ok v)
    (hs : setPlace q.env q' v = .ok ρ') :
    (execT c ρ (.opAssign op p e rest)).trace =
      t ++ (s ++ .op op q.val.intTy o.val.intTy :: (watched op q.val o.val ++
        .store q' :: (execT c ρ' rest).trace)) := by
  rw [execT, tr_bind he, tr_bind hq, hp]
  show t ++ (s ++ T.trace (opAssignT c op q' q.val o.val q.env >>= _)) = _
  rw [tr_bind (s := opAssignT c op q' q.val o.val q.env)
    (t := (.op op q.val.intTy o.val.intTy :: watched op q.val o.val) ++ [.store q']) (x := ρ')
    (by rw [opAssignT, if_pos (by rw [hx, hy]; rfl), primT_eq, hv]
        show T.bind ⟨_, .ok v⟩ _ = _
        rw [T.bind]
        show T.mk (_ ++ (setPlaceT q.env q' v).trace) (setPlaceT q.env q' v).res = _
        rw [setPlaceT_res, hs, setPlaceT, hs]; rfl)]
  rw [List.append_assoc]; rfl

/-- Loops: every round is recorded with its number, and what it does. -/
theorem C56_observes_round (step : Nat → Rust.Env → T Rust.Env) (n i : Nat) (ρ ρ' : Rust.Env) {t : List Event}
    (h : step i ρ = ⟨t, .ok ρ'⟩) :
    (iterateT step (n + 1) i ρ).trace = .iter i :: (t ++ (iterateT step n (i + 1) ρ').trace) := by
  rw [iterateT]
  show [Event.iter i] ++ T.trace (step i ρ >>= _) = _
  rw [tr_bind h]
  rfl

/-- Loops: the numbers of the rounds of a loop from `a` to `b`, if the body contains no loop. -/
theorem C56_observes_for (c : CtxT) (ρ ρ' : Rust.Env) (x : Id) (a b : Rust.Expr) (body rest : Block)
    {t s r : List Event} {u v : Out} {i n : Nat} (ha : evalT c ρ a = ⟨t, .ok u⟩)
    (hb : evalT c u.env b = ⟨s, .ok v⟩) (hn : bounds u.val v.val = .ok (i, n))
    (hr : iterateT (fun i ρ => do
      let ρ1 ← execT c ((x, .int (some .usize) i) :: ρ) body
      pure (ρ1.drop (ρ1.length - ρ.length))) n i v.env = ⟨r, .ok ρ'⟩) :
    (execT c ρ (.for x a b body rest)).trace = t ++ (s ++ (r ++ (execT c ρ' rest).trace)) := by
  rw [execT, tr_bind ha, tr_bind hb, hn]
  show t ++ (s ++ ([] ++ T.trace (iterateT _ n i v.env >>= _))) = _
  rw [tr_bind hr]
  rfl

/-- Calls: the function is recorded, then what its body and the result expression do. -/
theorem C56_observes_call (p : Program) (w : World) (n : Nat) (fn : Fn) (args : List Val)
    {t : List Event} {ρ : Rust.Env}
    (h : execT ⟨p, w.pr, w.curve, w.rng, p.const, runT p w n⟩ (fn.names.zip (fn.coerce args)) fn.body =
      ⟨t, .ok ρ⟩) :
    (runT p w (n + 1) fn args).trace =
      .call fn :: (t ++ (evalT ⟨p, w.pr, w.curve, w.rng, p.const, runT p w n⟩ ρ fn.ret).trace) := by
  rw [runT, runBodyT]
  show [Event.call fn] ++ T.trace (execT _ _ fn.body >>= _) = _
  rw [tr_bind h]
  show .call fn :: (t ++ _) = _
  congr 2
  generalize evalT _ ρ fn.ret = o
  obtain ⟨s, o⟩ := o
  cases o with
  | error e => rfl
  | ok o => exact List.append_nil s

/-! ### Calls from expressions -/

/-- Places given as `&mut` are written after the call, in order; the others are not. -/
theorem C56_observes_write_back (fs : List Bool) (p : Place) (q : Option Place) (ps : List (Option Place))
    (v : Val) (vs : List Val) (ρ : Rust.Env) :
    (∀ ρ', setPlace ρ p v.strip = .ok ρ' → (writeBackT (true :: fs) (some p :: ps) (v :: vs) ρ).trace =
      .store p :: (writeBackT fs ps vs ρ').trace) ∧
    writeBackT (false :: fs) (q :: ps) (v :: vs) ρ = writeBackT fs ps vs ρ := by
  refine ⟨fun ρ' h => ?_, by rw [writeBackT]; rintro _ ⟨⟩⟩
  rw [writeBackT, tr_bind (s := setPlaceT ρ p v.strip) (t := [.store p]) (x := ρ')
    (by rw [setPlaceT, h]; rfl)]
  rfl

/-- What a call does is what the function does, followed by the writing back. -/
theorem C56_observes_invoke (c : CtxT) (fn : Fn) (args : List Val) (places : List (Option Place))
    (ρ : Rust.Env) (v : Val) (p : Option Place) {t : List Event} {r : Val} {vs : List Val} :
    (fn.recv = .none → c.call fn args = ⟨t, .ok (r, vs)⟩ →
      (invokeT c fn none args places ρ).trace =
        t ++ (writeBackT (fn.params.map (·.2.isMut)) places vs ρ).trace) ∧
    (fn.recv = .val → c.call fn (v :: args) = ⟨t, .ok (r, vs)⟩ →
      (invokeT c fn (some (v, p)) args places ρ).trace =
        t ++ (writeBackT (fn.params.map (·.2.isMut)) places vs.tail ρ).trace) ∧
    (fn.recv = .ref → c.call fn (.ref v.strip :: args) = ⟨t, .ok (r, vs)⟩ →
      (invokeT c fn (some (v, p)) args places ρ).trace =
        t ++ (writeBackT (fn.params.map (·.2.isMut)) places vs.tail ρ).trace) ∧
    (fn.recv = .mut → c.call fn (.ref v.strip :: args) = ⟨t, .ok (r, vs)⟩ →
      (invokeT c fn (some (v, p)) args places ρ).trace =
        t ++ (writeBackT (true :: fn.params.map (·.2.isMut)) (p :: places) vs ρ).trace) := by
  have key : ∀ (s : T Rust.Env), T.trace (s >>= fun ρ' => (pure (r, ρ') : T (Val × Rust.Env))) = s.trace := by
    rintro ⟨s, _ | x⟩
    · rfl
    · exact List.append_nil s
  obtain ⟨_, _, k, _, _, _, _⟩ := fn
  refine ⟨fun h e => ?_, fun h e => ?_, fun h e => ?_, fun h e => ?_⟩ <;> cases (show k = _ from h) <;>
    exact (tr_bind e _).trans (congrArg (t ++ ·) (key _))

/-- Operators on elements, points or references are calls. -/
theorem C56_observes_operator (c : CtxT) (ρ : Rust.Env) (op : BinOp) (a b : Rust.Expr) {t s r : List Event}
    {x y : Out} {l m : Bool × Id} {fn : Fn} {v : Val × Rust.Env} (ha : evalT c ρ a = ⟨t, .ok x⟩)
    (hb : evalT c x.env b = ⟨s, .ok y⟩) (hp : (x.val.isPrim && y.val.isPrim) = false)
    (hx : x.val.ty = some l) (hy : y.val.ty = some m) (hf : c.prog.opFn (traitOf op) l m = some fn)
    (hr : invokeT c fn (some (x.val, none)) [y.val] [none] y.env = ⟨r, .ok v⟩) :
    (evalT c ρ (.bin op a b)).trace = t ++ (s ++ r) := by
  rw [evalT, tr_bind ha, tr_bind hb, binopT, if_neg (by rw [hp]; decide), hx, hy]
  dsimp only
  rw [hf]
  show t ++ (s ++ T.trace (invokeT c fn (some (x.val, none)) [y.val] [none] y.env >>= _)) = _
  rw [tr_bind hr]
  show t ++ (s ++ (r ++ [])) = _
  rw [List.append_nil]

/-- Assignments with operators on elements, points or references are calls. -/
theorem C56_observes_operator_assign (c : CtxT) (ρ : Rust.Env) (op : BinOp) (p e : Rust.Expr)
    (rest : Block) {t s r : List Event} {o q : Out} {q' : Place} {l m : Bool × Id} {fn : Fn}
    {v : Val × Rust.Env} (he : evalT c ρ e = ⟨t, .ok o⟩) (hq : evalT c o.env p = ⟨s, .ok q⟩)
    (hp : q.places = [some q']) (hprim : (q.val.isPrim && o.val.isPrim) = false)
    (hx : q.val.ty = some l) (hy : o.val.ty = some m)
    (hf : c.prog.opFn (assignTraitOf op) l m = some fn)
    (hr : invokeT c fn (some (q.val, some q')) [o.val] [none] q.env = ⟨r, .ok v⟩) :
    (execT c ρ (.opAssign op p e rest)).trace = t ++ (s ++ (r ++ (execT c v.2 rest).trace)) := by
  rw [execT, tr_bind he, tr_bind hq, hp]
  show t ++ (s ++ T.trace (opAssignT c op q' q.val o.val q.env >>= _)) = _
  rw [tr_bind (s := opAssignT c op q' q.val o.val q.env) (t := r) (x := v.2)
    (by rw [opAssignT, if_neg (by rw [hprim]; decide), hx, hy]
        dsimp only
        rw [hf]
        dsimp only
        rw [hr]
        show T.mk (r ++ []) (.ok v.2) = _
        rw [List.append_nil])]

/-- Method calls. -/
theorem C56_observes_method (c : CtxT) (ρ : Rust.Env) (e args : Rust.Expr) (m : Id)
    {t s r : List Event} {x o : Out} {l : Bool × Id} {fn : Fn} {v : Val × Rust.Env}
    (he : evalT c ρ e = ⟨t, .ok x⟩) (ho : evalT c x.env args = ⟨s, .ok o⟩) (hm : m ≠ id! "clone")
    (hx : x.val.strip.ty = some l) (hf : c.prog.method l.2 m = some fn)
    (hr : invokeT c fn (some (x.val, x.places.head?.getD none)) o.list o.places o.env = ⟨r, .ok v⟩) :
    (evalT c ρ (.method e m args)).trace = t ++ (s ++ r) := by
  rw [evalT, tr_bind he, tr_bind ho]
  have h : callMethodT c x.val (x.places.head?.getD none) m o.list o.places o.env = ⟨r, .ok v⟩ := by
    unfold callMethodT
    rw [if_neg hm]
    split
    · rename_i h1
      simp_all [Val.ty]
    · rw [hx]
      dsimp only
      rw [hf]
      exact hr
  rw [tr_bind h]
  show t ++ (s ++ (r ++ [])) = _
  rw [List.append_nil]

/-- The random generator: the request and the change of its state are recorded. -/
theorem C56_observes_random (c : CtxT) (ρ ρ' : Rust.Env) (x : Val) (n : Nat) (hi : Int) (p : Place)
    (places : List (Option Place)) (hx : x.strip = .rng n) (hs : setPlace ρ p (.rng (n + 1)) = .ok ρ') :
    (callMethodT c x (some p) (id! "gen_range") [.int none 0, .int (some .i64) hi] places ρ).trace =
      [.random, .store p] := by
  unfold callMethodT
  rw [if_neg (by decide), hx]
  show T.trace (if _ then _ else _) = _
  rw [if_pos rfl]
  show [Event.random] ++ T.trace (setPlaceT ρ p (.rng (n + 1)) >>= _) = _
  rw [tr_bind (s := setPlaceT ρ p (.rng (n + 1))) (t := [.store p]) (x := ρ') (by rw [setPlaceT, hs]; rfl)]
  rfl

/-- Calls of functions of a type. -/
theorem C56_observes_path (c : CtxT) (ρ : Rust.Env) (args : Rust.Expr) (t' f : Id)
    {t r : List Event} {o : Out} {fn : Fn} {v : Val × Rust.Env} (ho : evalT c ρ args = ⟨t, .ok o⟩)
    (ht : t' ≠ id! "i64") (hf : c.prog.method (if t' = id! "C" then c.curve else t') f = some fn)
    (hr : invokeT c fn none o.list o.places o.env = ⟨r, .ok v⟩) :
    (evalT c ρ (.path [t', f] args)).trace = t ++ r := by
  rw [evalT, tr_bind ho]
  have h : callPathT c [t', f] o.list o.places o.env = ⟨r, .ok v⟩ := by
    unfold callPathT
    dsimp only
    rw [if_neg ht, hf]
    exact hr
  rw [tr_bind h]
  show t ++ (r ++ []) = _
  rw [List.append_nil]

/-- Calls of functions of a type belonging to a type. -/
theorem C56_observes_path_assoc (c : CtxT) (ρ : Rust.Env) (args : Rust.Expr) (t' s f u : Id)
    {t r : List Event} {o : Out} {fn : Fn} {v : Val × Rust.Env} (ho : evalT c ρ args = ⟨t, .ok o⟩)
    (ha : c.prog.assoc (if t' = id! "C" then c.curve else t') s = some u)
    (hf : c.prog.method u f = some fn)
    (hr : invokeT c fn none o.list o.places o.env = ⟨r, .ok v⟩) :
    (evalT c ρ (.path [t', s, f] args)).trace = t ++ r := by
  rw [evalT, tr_bind ho]
  have h : callPathT c [t', s, f] o.list o.places o.env = ⟨r, .ok v⟩ := by
    rw [callPathT, ha]
    dsimp only
    rw [hf]
    exact hr
  rw [tr_bind h]
  show t ++ (r ++ []) = _
  rw [List.append_nil]

/-! ### Cases -/

/-- Two variables: an array and a number. -/
private def env2 : Rust.Env :=
  [(id! "a", .arr [.int (some .i64) 5, .int (some .i64) 7]), (id! "n", .int (some .usize) 1)]

/-- `n = n;` in a loop. -/
private def again : Block := .assign (.var (id! "n")) (.var (id! "n")) .nil

section
variable (c : CtxT)

example : (evalT c env2 (.index (.var (id! "a")) (.var (id! "n")))).trace =
    [.load (id! "a"), .load (id! "n"), .index 1] :=
  (C56_observes_index c env2 _ _ rfl rfl rfl).trans rfl

example : (evalT c env2 (.index (.var (id! "a")) (.lit none 9))).trace = [.load (id! "a"), .index 9] :=
  (C56_observes_index c env2 _ _ rfl rfl rfl).trans rfl

example : (evalT c env2 (.cast (.var (id! "n")) .i64)).trace = [.load (id! "n"), .cast .i64] :=
  (C56_observes_cast c env2 _ _ rfl).trans rfl

example : (evalT c env2 (.not (.var (id! "n")))).trace = [.load (id! "n"), .not] :=
  (C56_observes_not c env2 _ rfl).trans rfl

example : (evalT c env2 (.bin .shr (.var (id! "n")) (.lit none 3))).trace =
    [.load (id! "n"), .op .shr (some .usize) none, .operand 3] :=
  (C56_observes_op c env2 _ _ _ rfl rfl rfl rfl).trans rfl

example : (evalT c env2 (.bin .div (.var (id! "n")) (.lit none 3))).trace =
    [.load (id! "n"), .op .div (some .usize) none, .operand 1, .operand 3] :=
  (C56_observes_op c env2 _ _ _ rfl rfl rfl rfl).trans rfl

/-- `a[n] = n;` -/
example : (execT c env2 (.assign (.index (.var (id! "a")) (.var (id! "n"))) (.var (id! "n")) .nil)).trace =
    [.load (id! "n"), .load (id! "a"), .load (id! "n"), .index 1, .store (id! "a", [.index 1])] :=
  (C56_observes_assign c env2 _ _ _ rfl rfl rfl rfl).trans rfl

/-- `for i in 2..4 { n = n; }` -/
example : (execT c env2 (.for (id! "i") (.lit none 2) (.lit none 4) again .nil)).trace =
    [.iter 2, .load (id! "n"), .load (id! "n"), .store (id! "n", []),
     .iter 3, .load (id! "n"), .load (id! "n"), .store (id! "n", [])] :=
  (C56_observes_for c env2 env2 _ _ _ _ _ rfl rfl rfl rfl).trans rfl

end

deriving instance DecidableEq for Proj

/-- The functions entered in a record. -/
def entered (l : List Event) : List Id :=
  l.filterMap fun | .call fn => some fn.name | _ => none

/-- The places written in a record. -/
def written (l : List Event) : List Place :=
  l.filterMap fun | .store p => some p | _ => none

/-- The record of `a + b` in `Mod_e221_3` (src/field/mod_e221_3.rs:125-127, 165-191, 217-234): the
operator enters the operator on references, which enters `add_assign`, which asks both operands for
`carry_out` and writes the four words of its own; then the changed operand is written back. -/
theorem C56_record_add (a0 a1 a2 a3 b0 b1 b2 b3 : Int) :
    let w : World := ⟨.release, id! "Curve25519", fun _ _ => 0⟩
    entered (callOpT (src .e221_3) w 4 (id! "Add") (elem (tyId .e221_3) [a0, a1, a2, a3])
      (elem (tyId .e221_3) [b0, b1, b2, b3])).trace =
      [id! "add", id! "add", id! "add_assign", id! "carry_out", id! "carry_out"] ∧
    written (callOpT (src .e221_3) w 4 (id! "Add") (elem (tyId .e221_3) [a0, a1, a2, a3])
      (elem (tyId .e221_3) [b0, b1, b2, b3])).trace =
      [(id! "self", [.field (id! "0"), .index 0]), (id! "self", [.field (id! "0"), .index 1]),
       (id! "self", [.field (id! "0"), .index 2]), (id! "self", [.field (id! "0"), .index 3]),
       (id! "out", [])] := by
  intro w
  rw [C56_operators .e221_3 w rfl 4 (id! "Add") (a := [a0, a1, a2, a3])
    (b := [b0, b1, b2, b3]) (a' := [0, 0, 0, 0]) (b' := [0, 0, 0, 0]) rfl rfl]
  decide +kernel

end Verif

import Verif.Model.Parse

/-!
# Exponentiation chains

Abstract syntax of the bodies of `invert`, `legendre`, `quartic_legendre` and
`sqrt` in `/repo/src/field/mod_e*.rs`, which are sequences of in-place
squarings and multiplications on a few named field elements, with counted loops
`for _ in a..b { … }`, and a parser for their verbatim Rust text
(`rust_chain% "…"`).

Registers: `0` is `self`, `1` is `ONE`, `2` is `M_HALF`, `3` is `COEFF`,
`4, 5, …` are the `let mut` variables in order of appearance.
-/

namespace Verif

inductive CStep where
  /-- `let mut x = y.clone();` -/
  | clone (x y : Nat)
  /-- `let mut x = y.squared();` -/
  | squared (x y : Nat)
  /-- `let mut x = y.quartic_legendre();` -/
  | quartic (x y : Nat)
  /-- `x.square();` -/
  | square (x : Nat)
  /-- `x *= &y;` (also `*self *= &y;`) -/
  | mulAssign (x y : Nat)
  /-- `x -= &y;` -/
  | subAssign (x y : Nat)
  /-- `x += &y;` -/
  | addAssign (x y : Nat)
  /-- final expression `x` -/
  | ret (x : Nat)
  /-- final expression `&x * &y` -/
  | retMul (x y : Nat)
  deriving Repr, DecidableEq

inductive CStmt where
  | step (s : CStep)
  /-- `for _ in a..b { body }` -/
  | loop (a b : Nat) (body : List CStep)
  deriving Repr, DecidableEq

/-- Body of a chain function; the result is register `0` (`invert` works in
place on `self`; `ret`/`retMul` put the returned value there). -/
abbrev Chain := List CStmt

namespace Parse
open Lean

def regOf (x : String) : P Nat := do
  match x with
  | "self" => return 0
  | "ONE" => return 1
  | "M_HALF" => return 2
  | "COEFF" => return 3
  | x => match (← get).names.lookup x with
    | some s => return s
    | none => throw s!"unknown variable {x}"

def ident : P String := do
  match ← next with
  | .id x => return x
  | t => throw s!"expected an identifier, found {repr t}"

/-- `x op= &y;` after `x` has been read. -/
def assignOp (x : Nat) : P CStep := do
  let op ← next
  expect "="; expect "&"
  let y ← regOf (← ident)
  expect ";"
  match op with
  | .sym "*" => return .mulAssign x y
  | .sym "-" => return .subAssign x y
  | .sym "+" => return .addAssign x y
  | t => throw s!"unknown assignment {repr t}"

def cstep : P CStep := do
  match ← next with
  | .id "let" => do
    expect "mut"
    let x ← ident
    expect "="
    let y ← regOf (← ident)
    expect "."
    let f ← ident
    expect "("; expect ")"; expect ";"
    let s := (← get).next
    modify fun st => { st with names := (x, s) :: st.names, next := s + 1 }
    match f with
    | "clone" => return .clone s y
    | "squared" => return .squared s y
    | "quartic_legendre" => return .quartic s y
    | _ => throw s!"unknown method {f}"
  | .sym "*" => do
    expect "self"
    assignOp 0
  | .sym "&" => do
    let x ← regOf (← ident)
    expect "*"; expect "&"
    let y ← regOf (← ident)
    return .retMul x y
  | .id x => do
    let r ← regOf x
    match (← get).toks with
    | [] => return .ret r
    | .sym "." :: _ => do
      expect "."; expect "square"; expect "("; expect ")"; expect ";"
      return .square r
    | _ => assignOp r
  | t => throw s!"unexpected {repr t}"

partial def csteps (acc : List CStep) : P (List CStep) := do
  if (← peek) == some (.sym "}") then
    let _ ← next
    return acc.reverse
  let s ← cstep
  csteps (s :: acc)

partial def cstmts (acc : List CStmt) : P (List CStmt) := do
  match (← get).toks with
  | [] => return acc.reverse
  | .id "for" :: _ => do
    expect "for"; expect "_"; expect "in"
    let a ← number; expect "."; expect "."; let b ← number
    expect "{"
    let body ← csteps []
    cstmts (.loop a b body :: acc)
  | _ => do
    let s ← cstep
    cstmts (.step s :: acc)

def parseChain (text : String) : Except String Chain := do
  let ts ← tokens text.toList
  let (p, _) ← (cstmts []).run ⟨0, 0, 0⟩ |>.run { toks := ts, names := [], next := 4 }
  return p

def qStep : CStep → Lean.Expr
  | .clone x y => mkApp2 (mkConst ``CStep.clone) (qNat x) (qNat y)
  | .squared x y => mkApp2 (mkConst ``CStep.squared) (qNat x) (qNat y)
  | .quartic x y => mkApp2 (mkConst ``CStep.quartic) (qNat x) (qNat y)
  | .square x => mkApp (mkConst ``CStep.square) (qNat x)
  | .mulAssign x y => mkApp2 (mkConst ``CStep.mulAssign) (qNat x) (qNat y)
  | .subAssign x y => mkApp2 (mkConst ``CStep.subAssign) (qNat x) (qNat y)
  | .addAssign x y => mkApp2 (mkConst ``CStep.addAssign) (qNat x) (qNat y)
  | .ret x => mkApp (mkConst ``CStep.ret) (qNat x)
  | .retMul x y => mkApp2 (mkConst ``CStep.retMul) (qNat x) (qNat y)

def qList {α} (ty : Lean.Expr) (q : α → Lean.Expr) (l : List α) : Lean.Expr :=
  l.foldr (fun s acc => mkApp3 (mkConst ``List.cons [.zero]) ty (q s) acc)
    (mkApp (mkConst ``List.nil [.zero]) ty)

def qCStmt : CStmt → Lean.Expr
  | .step s => mkApp (mkConst ``CStmt.step) (qStep s)
  | .loop a b body => mkApp3 (mkConst ``CStmt.loop) (qNat a) (qNat b)
      (qList (mkConst ``CStep) qStep body)

end Parse
end Verif

open Lean Elab Term in
/-- `rust_chain% "…"`: see the module comment. -/
elab "rust_chain% " text:str : term => do
  match Verif.Parse.parseChain text.getString with
  | .ok p => return Verif.Parse.qList (mkConst ``Verif.CStmt) Verif.Parse.qCStmt p
  | .error e => throwError "rust_chain%: {e}"

import Verif.Model.Chain

/-!
# Straight-line point code

Abstract syntax and semantics of the function bodies of `/repo/src/curve/edwards.rs`:

* `PProg`: the formulas (`add_assign`, `double`, `triple`), sequences of `let x = e;` and
  `self.x = e;` where `e` is built from variables, the coordinates of `self` and `rhs`,
  `C::d_val()`, `+ - *`, `.squared()` and `.small_mul(n)` on `C::Scalar`;
* `LStmt`: the body of the loop of `scalar_mult_normalized`, operations on the point
  variables `r0`, `r1`, `d0`, `d1` and the masks `tmask`, `fmask`.

`rust_point% "…"` and `rust_ladder% "…"` read the verbatim Rust text at elaboration time, like
`rust_prog%` and `rust_chain%` do for the field code.

Registers of a `PProg`: `0 … 3` are `self.x`, `self.y`, `self.z`, `self.t`; `4 … 7` are
`rhs.x`, `rhs.y`, `rhs.z`, `rhs.t`; `8 …` are the local variables in order of their `let`.
-/

namespace Verif

/-- Expressions on `C::Scalar`. -/
inductive PExpr where
  | get (r : Nat)
  /-- `C::d_val()` -/
  | dval
  | add (a b : PExpr)
  | sub (a b : PExpr)
  | mul (a b : PExpr)
  /-- `a.squared()` -/
  | squared (a : PExpr)
  /-- `a.small_mul(n)` -/
  | smallMul (a : PExpr) (n : Nat)
  deriving Repr, DecidableEq

inductive PStmt where
  /-- `let x = e;` (fresh register) or `self.x = e;` -/
  | set (r : Nat) (e : PExpr)
  deriving Repr, DecidableEq

abbrev PProg := List PStmt

/-- The point variables of the ladder. -/
inductive LVar where
  | r0 | r1 | d0 | d1
  deriving Repr, DecidableEq

/-- The masks of the ladder. -/
inductive LMask where
  | tmask | fmask
  deriving Repr, DecidableEq

/-- Statements of the ladder's loop body. -/
inductive LStmt where
  /-- `let idx = nbits - 1 - i;` -/
  | letIdx
  /-- `let bit = rhs.bit_normalized(idx);` -/
  | letBit
  /-- `let m = C::Scalar::filled(bit);` or, when `neg`, `filled(!bit)` -/
  | letMask (m : LMask) (neg : Bool)
  /-- `let mut x = y;` or `x = y;` -/
  | copy (x y : LVar)
  /-- `x += y;` -/
  | addAssign (x y : LVar)
  /-- `x.normalized_bitand(&m);` -/
  | bitand (x : LVar) (m : LMask)
  /-- `x.normalized_bitor(&y);` -/
  | bitor (x y : LVar)
  /-- `x.double();` -/
  | double (x : LVar)
  /-- `if bit { … } else { … }` with one statement in each branch.  The source contains none;
  it is in the language so that C32 is not true by syntax alone. -/
  | ifBit (a b : LStmt)
  deriving Repr, DecidableEq

namespace Parse
open Lean

def coord : P Nat := do
  expect "."
  match ← next with
  | .id "x" => return 0
  | .id "y" => return 1
  | .id "z" => return 2
  | .id "t" => return 3
  | t => throw s!"unknown coordinate {repr t}"

mutual
partial def pSum : P PExpr := do
  let mut e ← pProd
  repeat
    match ← peek with
    | some (.sym "+") => let _ ← next; e := .add e (← pProd)
    | some (.sym "-") => let _ ← next; e := .sub e (← pProd)
    | _ => break
  return e
partial def pProd : P PExpr := do
  let mut e ← pPostfix
  while (← peek) == some (.sym "*") do
    let _ ← next; e := .mul e (← pPostfix)
  return e
partial def pPostfix : P PExpr := do
  let mut e ← pAtom
  while (← peek) == some (.sym ".") do
    let _ ← next
    match ← ident with
    | "squared" => expect "("; expect ")"; e := .squared e
    | "small_mul" => expect "("; let n ← number; expect ")"; e := .smallMul e n
    | m => throw s!"unknown method {m}"
  return e
partial def pAtom : P PExpr := do
  match ← next with
  | .sym "(" => do let e ← pSum; expect ")"; return e
  | .id "self" => return .get (← coord)
  | .id "rhs" => return .get (4 + (← coord))
  | .id "C" => do
    expect ":"; expect ":"; expect "d_val"; expect "("; expect ")"
    return .dval
  | .id x => do
    match (← get).names.lookup x with
    | some s => return .get s
    | none => throw s!"unknown variable {x}"
  | t => throw s!"unexpected {repr t}"
end

def pStmt : P PStmt := do
  match ← next with
  | .id "let" => do
    let x ← ident
    expect "="
    let e ← pSum
    expect ";"
    let s := (← get).next
    modify fun st => { st with names := (x, s) :: st.names, next := s + 1 }
    return .set s e
  | .id "self" => do
    let i ← coord
    expect "="; let e ← pSum; expect ";"
    return .set i e
  | t => throw s!"unexpected {repr t}"

partial def pStmts (acc : List PStmt) : P (List PStmt) := do
  if (← get).toks.isEmpty then return acc.reverse
  let s ← pStmt
  pStmts (s :: acc)

def parsePoint (text : String) : Except String PProg := do
  let ts ← tokens text.toList
  let (p, _) ← (pStmts []).run ⟨0, 0, 0⟩ |>.run { toks := ts, names := [], next := 8 }
  return p

def lVarOf : String → Option LVar
  | "r0" => some .r0
  | "r1" => some .r1
  | "d0" => some .d0
  | "d1" => some .d1
  | _ => none

def lMaskOf : String → Option LMask
  | "tmask" => some .tmask
  | "fmask" => some .fmask
  | _ => none

def lVar : P LVar := do
  let x ← ident
  match lVarOf x with
  | some v => return v
  | none => throw s!"unknown point variable {x}"

def lStmt : P LStmt := do
  match ← next with
  | .id "let" => do
    match ← next with
    | .id "idx" => do
      expect "="; expect "nbits"; expect "-"
      unless (← number) == 1 do throw "idx"
      expect "-"; expect "i"; expect ";"
      return .letIdx
    | .id "bit" => do
      for s in ["=", "rhs", ".", "bit_normalized", "(", "idx", ")", ";"] do expect s
      return .letBit
    | .id "mut" => do
      let x ← lVar
      expect "="
      let y ← lVar
      expect ";"
      return .copy x y
    | .id m => do
      match lMaskOf m with
      | none => throw s!"unknown mask {m}"
      | some m => do
        for s in ["=", "C", ":", ":", "Scalar", ":", ":", "filled", "("] do expect s
        let neg := (← peek) == some (.sym "!")
        if neg then expect "!"
        expect "bit"; expect ")"; expect ";"
        return .letMask m neg
    | t => throw s!"unexpected {repr t}"
  | .id x => do
    match lVarOf x with
    | none => throw s!"unknown point variable {x}"
    | some x => do
      match ← next with
      | .sym "=" => do let y ← lVar; expect ";"; return .copy x y
      | .sym "+" => do expect "="; let y ← lVar; expect ";"; return .addAssign x y
      | .sym "." => do
        match ← ident with
        | "double" => expect "("; expect ")"; expect ";"; return .double x
        | "normalized_bitand" => do
          expect "("; expect "&"
          let m ← ident
          expect ")"; expect ";"
          match lMaskOf m with
          | some m => return .bitand x m
          | none => throw s!"unknown mask {m}"
        | "normalized_bitor" => do
          expect "("; expect "&"
          let y ← lVar
          expect ")"; expect ";"
          return .bitor x y
        | m => throw s!"unknown method {m}"
      | t => throw s!"unexpected {repr t}"
  | t => throw s!"unexpected {repr t}"

partial def lStmts (acc : List LStmt) : P (List LStmt) := do
  if (← get).toks.isEmpty then return acc.reverse
  let s ← lStmt
  lStmts (s :: acc)

def parseLadder (text : String) : Except String (List LStmt) := do
  let ts ← tokens text.toList
  let (p, _) ← (lStmts []).run ⟨0, 0, 0⟩ |>.run { toks := ts, names := [], next := 0 }
  return p

def qPExpr : PExpr → Lean.Expr
  | .get r => mkApp (mkConst ``PExpr.get) (qNat r)
  | .dval => mkConst ``PExpr.dval
  | .add a b => mkApp2 (mkConst ``PExpr.add) (qPExpr a) (qPExpr b)
  | .sub a b => mkApp2 (mkConst ``PExpr.sub) (qPExpr a) (qPExpr b)
  | .mul a b => mkApp2 (mkConst ``PExpr.mul) (qPExpr a) (qPExpr b)
  | .squared a => mkApp (mkConst ``PExpr.squared) (qPExpr a)
  | .smallMul a n => mkApp2 (mkConst ``PExpr.smallMul) (qPExpr a) (qNat n)

def qPStmt : PStmt → Lean.Expr
  | .set r e => mkApp2 (mkConst ``PStmt.set) (qNat r) (qPExpr e)

def qLVar : LVar → Lean.Expr
  | .r0 => mkConst ``LVar.r0
  | .r1 => mkConst ``LVar.r1
  | .d0 => mkConst ``LVar.d0
  | .d1 => mkConst ``LVar.d1

def qLMask : LMask → Lean.Expr
  | .tmask => mkConst ``LMask.tmask
  | .fmask => mkConst ``LMask.fmask

def qLStmt : LStmt → Lean.Expr
  | .letIdx => mkConst ``LStmt.letIdx
  | .letBit => mkConst ``LStmt.letBit
  | .letMask m n => mkApp2 (mkConst ``LStmt.letMask) (qLMask m)
      (mkConst (if n then ``Bool.true else ``Bool.false))
  | .copy x y => mkApp2 (mkConst ``LStmt.copy) (qLVar x) (qLVar y)
  | .addAssign x y => mkApp2 (mkConst ``LStmt.addAssign) (qLVar x) (qLVar y)
  | .bitand x m => mkApp2 (mkConst ``LStmt.bitand) (qLVar x) (qLMask m)
  | .bitor x y => mkApp2 (mkConst ``LStmt.bitor) (qLVar x) (qLVar y)
  | .double x => mkApp (mkConst ``LStmt.double) (qLVar x)
  | .ifBit a b => mkApp2 (mkConst ``LStmt.ifBit) (qLStmt a) (qLStmt b)

end Parse
end Verif

open Lean Elab Term in
/-- `rust_point% "…"`: see the module comment. -/
elab "rust_point% " text:str : term => do
  match Verif.Parse.parsePoint text.getString with
  | .ok p => return Verif.Parse.qList (mkConst ``Verif.PStmt) Verif.Parse.qPStmt p
  | .error e => throwError "rust_point%: {e}"

open Lean Elab Term in
/-- `rust_ladder% "…"`: see the module comment. -/
elab "rust_ladder% " text:str : term => do
  match Verif.Parse.parseLadder text.getString with
  | .ok p => return Verif.Parse.qList (mkConst ``Verif.LStmt) Verif.Parse.qLStmt p
  | .error e => throwError "rust_ladder%: {e}"

import Lean.Elab.Term
import Verif.Model.Ast

/-!
# Reading the Rust text of a limb function

`rust_prog% c limb shift "…"` is the `Prog` obtained by parsing the Rust text of
a function body.  The text in `Verif/Model/Fields/*.lean` is copied verbatim from
`/repo/src/field/mod_e*.rs`.  The parameters are the value of the constant
`C_VAL` and the body `self.0[limb] >> shift` of `carry_out`, which are inlined
where the text says `C_VAL`, `self.carry_out()` and `rhs.carry_out()`.

The parser runs at elaboration time and produces a closed `Prog` term; it is
part of the trusted reading of the source (like a hand translation would be).
Operator precedence follows the Rust reference:
`as` > `*` > `+ -` > `<< >>` > `&` > `|`, all left-associative.
-/

namespace Verif.Parse
open Lean

inductive Tok where
  | id (s : String)
  | num (n : Nat)
  | sym (s : String)
  deriving BEq, Repr, Inhabited

def isIdStart (c : Char) : Bool := c.isAlpha || c == '_'
def isIdRest (c : Char) : Bool := c.isAlphanum || c == '_'

def digitVal (c : Char) : Option Nat :=
  if '0' ≤ c && c ≤ '9' then some (c.toNat - '0'.toNat)
  else if 'a' ≤ c && c ≤ 'f' then some (c.toNat - 'a'.toNat + 10)
  else if 'A' ≤ c && c ≤ 'F' then some (c.toNat - 'A'.toNat + 10)
  else none

/-- Read digits in the given base. -/
def readNum (base : Nat) : List Char → Nat → Nat × List Char
  | [], acc => (acc, [])
  | c :: cs, acc =>
    if c == '_' then readNum base cs acc
    else match digitVal c with
      | some d => if d < base then readNum base cs (acc * base + d) else (acc, c :: cs)
      | none => (acc, c :: cs)

partial def tokens : List Char → Except String (List Tok)
  | [] => .ok []
  | '/' :: '/' :: cs => tokens (cs.dropWhile (· != '\n'))
  | '<' :: '<' :: cs => (Tok.sym "<<" :: ·) <$> tokens cs
  | '>' :: '>' :: cs => (Tok.sym ">>" :: ·) <$> tokens cs
  | '0' :: 'x' :: cs => let (n, r) := readNum 16 cs 0; (Tok.num n :: ·) <$> tokens r
  | '0' :: 'b' :: cs => let (n, r) := readNum 2 cs 0; (Tok.num n :: ·) <$> tokens r
  | c :: cs =>
    if c.isWhitespace then tokens cs
    else if c.isDigit then
      let (n, r) := readNum 10 (c :: cs) 0; (Tok.num n :: ·) <$> tokens r
    else if isIdStart c then
      let w := (c :: cs).takeWhile isIdRest
      (Tok.id (String.ofList w) :: ·) <$> tokens ((c :: cs).dropWhile isIdRest)
    else if "+-*&|()[];=.:{}!,".toList.contains c then
      (Tok.sym (String.singleton c) :: ·) <$> tokens cs
    else .error s!"unexpected character {c}"

structure Cfg where
  cval : Nat
  carryLimb : Nat
  carryShift : Nat

structure St where
  toks : List Tok
  names : List (String × Nat)
  next : Nat

abbrev P := ReaderT Cfg (StateT St (Except String))

def peek : P (Option Tok) := do return (← get).toks.head?
def next : P Tok := do
  match (← get).toks with
  | t :: ts => modify ({ · with toks := ts }); return t
  | [] => throw "unexpected end of text"
def expect (s : String) : P Unit := do
  let t ← next
  unless t == .sym s || t == .id s do throw s!"expected {s}, found {repr t}"
def number : P Nat := do
  match ← next with
  | .num n => return n
  | t => throw s!"expected a number, found {repr t}"

/-- `.0[i]` -/
def index : P Nat := do
  expect "."
  let n ← number
  unless n == 0 do throw "tuple field other than 0"
  expect "["; let i ← number; expect "]"
  return i

mutual
partial def orE : P Expr := do
  let mut e ← andE
  while (← peek) == some (.sym "|") do
    let _ ← next; e := .or e (← andE)
  return e
partial def andE : P Expr := do
  let mut e ← shiftE
  while (← peek) == some (.sym "&") do
    let _ ← next; e := .and e (← shiftE)
  return e
partial def shiftE : P Expr := do
  let mut e ← sumE
  repeat
    match ← peek with
    | some (.sym "<<") =>
      let _ ← next; let k ← number
      unless k < 64 do throw "shift distance"
      e := .shl e k
    | some (.sym ">>") =>
      let _ ← next; let k ← number
      unless k < 64 do throw "shift distance"
      e := .shr e k
    | _ => break
  return e
partial def sumE : P Expr := do
  let mut e ← prodE
  repeat
    match ← peek with
    | some (.sym "+") => let _ ← next; e := .add e (← prodE)
    | some (.sym "-") => let _ ← next; e := .sub e (← prodE)
    | _ => break
  return e
partial def prodE : P Expr := do
  let mut e ← castE
  while (← peek) == some (.sym "*") do
    let _ ← next; e := .mul e (← castE)
  return e
partial def castE : P Expr := do
  let mut e ← atomE
  while (← peek) == some (.id "as") do
    let _ ← next
    match ← next with
    | .id "u8" => e := .u8 e
    | .id "i64" => pure ()   -- only applied to `bytes[i] : u8`: the same number
    | t => throw s!"unknown cast to {repr t}"
  return e
partial def atomE : P Expr := do
  match ← next with
  | .num n => return .lit n
  | .sym "(" => do let e ← orE; expect ")"; return e
  | .id "self" => limb 0
  | .id "rhs" => limb 16
  | .id "bytes" => do expect "["; let i ← number; expect "]"; return .get (16 + i)
  | .id "i64" => do
    expect ":"; expect ":"; expect "from"; expect "("; expect "rhs"; expect ")"
    return .get 16
  | .id "C_VAL" => return .lit (← read).cval
  | .id x => do
    match (← get).names.lookup x with
    | some s => return .get s
    | none => throw s!"unknown variable {x}"
  | t => throw s!"unexpected {repr t}"
/-- `.0[i]` or `.carry_out()` after `self` / `rhs`. -/
partial def limb (base : Nat) : P Expr := do
  match (← get).toks with
  | .sym "." :: .id "carry_out" :: .sym "(" :: .sym ")" :: ts => do
    modify ({ · with toks := ts })
    let c ← read
    return .shr (.get (base + c.carryLimb)) c.carryShift
  | _ => do return .get (base + (← index))
end

def stmt : P Stmt := do
  match ← next with
  | .id "let" => do
    match ← next with
    | .id x => do
      expect "="
      let e ← orE
      expect ";"
      let s := (← get).next
      modify fun st => { st with names := (x, s) :: st.names, next := s + 1 }
      return .bind s e
    | t => throw s!"expected a variable, found {repr t}"
  | .id "self" => do
    let i ← index
    expect "="; let e ← orE; expect ";"
    return .store i e
  | .id "bytes" => do
    expect "["; let i ← number; expect "]"
    expect "="; let e ← orE; expect ";"
    return .store (16 + i) e
  | t => throw s!"unexpected {repr t}"

partial def stmts (acc : List Stmt) : P (List Stmt) := do
  if (← get).toks.isEmpty then return acc.reverse
  let s ← stmt
  stmts (s :: acc)

def parseProg (cfg : Cfg) (text : String) : Except String Prog := do
  let ts ← tokens text.toList
  let (p, _) ← (stmts []).run cfg |>.run { toks := ts, names := [], next := 128 }
  return p

/-! Quoting of the syntax trees (with raw literals, which the kernel likes). -/

def qNat (n : Nat) : Lean.Expr := mkRawNatLit n

def qExpr : Verif.Expr → Lean.Expr
  | .lit n => mkApp (mkConst ``Verif.Expr.lit) (qNat n)
  | .get n => mkApp (mkConst ``Verif.Expr.get) (qNat n)
  | .add a b => mkApp2 (mkConst ``Verif.Expr.add) (qExpr a) (qExpr b)
  | .sub a b => mkApp2 (mkConst ``Verif.Expr.sub) (qExpr a) (qExpr b)
  | .mul a b => mkApp2 (mkConst ``Verif.Expr.mul) (qExpr a) (qExpr b)
  | .and a b => mkApp2 (mkConst ``Verif.Expr.and) (qExpr a) (qExpr b)
  | .or a b => mkApp2 (mkConst ``Verif.Expr.or) (qExpr a) (qExpr b)
  | .shl a k => mkApp2 (mkConst ``Verif.Expr.shl) (qExpr a) (qNat k)
  | .shr a k => mkApp2 (mkConst ``Verif.Expr.shr) (qExpr a) (qNat k)
  | .u8 a => mkApp (mkConst ``Verif.Expr.u8) (qExpr a)

def qStmt : Verif.Stmt → Lean.Expr
  | .bind s e => mkApp2 (mkConst ``Verif.Stmt.bind) (qNat s) (qExpr e)
  | .store s e => mkApp2 (mkConst ``Verif.Stmt.store) (qNat s) (qExpr e)

def qProg (p : Prog) : Lean.Expr :=
  let ty := mkConst ``Verif.Stmt
  p.foldr (fun s acc => mkApp3 (mkConst ``List.cons [.zero]) ty (qStmt s) acc)
    (mkApp (mkConst ``List.nil [.zero]) ty)

end Verif.Parse

open Lean Elab Term in
/-- `rust_prog% c limb shift "…"`: see the module comment. -/
elab "rust_prog% " c:num limb:num shift:num text:str : term => do
  match Verif.Parse.parseProg ⟨c.getNat, limb.getNat, shift.getNat⟩ text.getString with
  | .ok p => return Verif.Parse.qProg p
  | .error e => throwError "rust_prog%: {e}"

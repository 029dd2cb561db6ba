import Lean.Elab.Term
import Lean.ToExpr
import Verif.Rust.Syntax

/-!
# Reading Rust source files

A lexer and a parser for whole source files.  `rust_file% t` reads the text `t` at elaboration time
and stands for the `Program`.  Anything outside the subset is an error.

Skipped: comments, attributes, `use`, `struct` and `trait` declarations, generic parameters,
lifetimes, visibility and `mut` of local variables.  `Self` is replaced by the type of
the impl.
-/

namespace Verif.Rust

deriving instance Lean.ToExpr for IntTy
deriving instance Lean.ToExpr for Ty
deriving instance Lean.ToExpr for BinOp
deriving instance Lean.ToExpr for Fmt
deriving instance Lean.ToExpr for Expr
deriving instance Lean.ToExpr for Block
deriving instance Lean.ToExpr for Recv
deriving instance Lean.ToExpr for Fn
deriving instance Lean.ToExpr for Impl
deriving instance Lean.ToExpr for Program

namespace Parse

inductive Tok where
  | id (s : String)
  | num (n : Nat) (suffix : String)
  | str (s : String)
  | sym (s : String)
  deriving BEq, Repr

def isIdStart (c : Char) : Bool := c.isAlpha || c == '_'
def isIdRest (c : Char) : Bool := c.isAlphanum || c == '_'

def digit (c : Char) : Nat :=
  if c.isDigit then c.toNat - 48 else if c.toNat ≥ 97 then c.toNat - 87 else c.toNat - 55

def isDigitOf (base : Nat) (c : Char) : Bool :=
  (c.isDigit || ('a' ≤ c && c ≤ 'f') || ('A' ≤ c && c ≤ 'F')) && digit c < base

/-- A number in the given base with its suffix. -/
def number (base : Nat) (cs : List Char) : Tok × List Char :=
  let ds := cs.takeWhile (isDigitOf base)
  let r := cs.dropWhile (isDigitOf base)
  (.num (ds.foldl (fun n c => n * base + digit c) 0) (String.ofList (r.takeWhile isIdRest)),
    r.dropWhile isIdRest)

/-- Symbols of two characters. -/
def twoSyms : List String :=
  ["::", "->", "==", "<<", ">>", "+=", "-=", "*=", "/=", "&=", "|=", ".."]

partial def tokens : List Char → Except String (List Tok)
  | [] => .ok []
  | '/' :: '/' :: cs => tokens (cs.dropWhile (· != '\n'))
  | '0' :: 'x' :: cs => let (t, r) := number 16 cs; (t :: ·) <$> tokens r
  | '0' :: 'b' :: cs => let (t, r) := number 2 cs; (t :: ·) <$> tokens r
  | '"' :: cs =>
    let s := cs.takeWhile (· != '"')
    if s.contains '\\' then .error "escape in string"
    else (Tok.str (String.ofList s) :: ·) <$> tokens ((cs.dropWhile (· != '"')).drop 1)
  | '\'' :: cs =>   -- lifetime
    if (cs.dropWhile isIdRest).head? == some '\'' then .error "character literal"
    else tokens (cs.dropWhile isIdRest)
  | c :: cs =>
    if c.isWhitespace then tokens cs
    else if c.isDigit then let (t, r) := number 10 (c :: cs); (t :: ·) <$> tokens r
    else if isIdStart c then
      (Tok.id (String.ofList ((c :: cs).takeWhile isIdRest)) :: ·) <$>
        tokens ((c :: cs).dropWhile isIdRest)
    else match cs with
      | d :: cs' =>
        if twoSyms.contains (String.ofList [c, d]) then
          (Tok.sym (String.ofList [c, d]) :: ·) <$> tokens cs'
        else one c cs
      | [] => one c cs
where
  one (c : Char) (cs : List Char) : Except String (List Tok) :=
    if "+-*/%&|()[];=.:{}!,<>#".toList.contains c then
      (Tok.sym (String.singleton c) :: ·) <$> tokens cs
    else .error s!"unexpected character {c}"

structure St where
  toks : List Tok
  /-- type of the impl we are in -/
  self : String

abbrev P := StateT St (Except String)

def peek : P (Option Tok) := do return (← get).toks.head?
def next : P Tok := do
  match (← get).toks with
  | t :: ts => modify ({ · with toks := ts }); return t
  | [] => throw "unexpected end of text"
def fail {α} (what : String) : P α := do
  throw s!"expected {what} at {repr ((← get).toks.take 12)}"
/-- Is the next token this symbol or word? -/
def at? (s : String) : P Bool := do
  return (← peek) == some (.sym s) || (← peek) == some (.id s)
/-- Skip the token if it is next. -/
def opt (s : String) : P Bool := do
  if ← at? s then let _ ← next; return true else return false
def expect (s : String) : P Unit := do
  unless ← opt s do fail s
def ident : P String := do
  match ← peek with
  | some (.id x) => let _ ← next; return x
  | _ => fail "identifier"
def nat : P Nat := do
  match ← peek with
  | some (.num n "") => let _ ← next; return n
  | _ => fail "number"

/-- Skip a bracketed group, the opening bracket having been read. -/
partial def skipTo (close : String) : P Unit := do
  match ← next with
  | .sym s =>
    if s == close then return
    if s == "(" then skipTo ")"
    if s == "[" then skipTo "]"
    if s == "{" then skipTo "}"
    skipTo close
  | _ => skipTo close

/-- `<…>` with nesting, the first `<` having been read. -/
partial def skipAngles (depth : Nat) : P Unit := do
  if depth == 0 then return
  match ← next with
  | .sym "<" => skipAngles (depth + 1)
  | .sym ">" => skipAngles (depth - 1)
  | .sym ">>" =>
    if depth == 1 then modify fun s => { s with toks := .sym ">" :: s.toks }
    skipAngles (depth - 2)
  | _ => skipAngles depth

/-- Generic parameters or arguments, if there are any. -/
def generics : P Unit := do
  if ← opt "<" then skipAngles 1

/-- Replace `Self`. -/
def resolve (s : String) : P String := do
  if s == "Self" then return (← get).self else return s

def mkTy (ref isMut : Bool) (s : String) : Ty := ⟨ref, isMut, idOf s⟩

/-- A type: `&mut? path<…>`, `[T; n]`, `[T]`. -/
partial def ty : P Ty := do
  if ← opt "&" then
    let m ← opt "mut"
    let t ← ty
    return { t with ref := true, isMut := m }
  if ← opt "[" then
    skipTo "]"
    return mkTy false false "[]"
  let _ ← opt "::"
  let mut x ← resolve (← ident)
  generics
  while ← opt "::" do
    x ← ident
    generics
  return mkTy false false x

def intTy : String → P (Option IntTy)
  | "" => return none
  | "i64" => return some .i64
  | "i32" => return some .i32
  | "i16" => return some .i16
  | "i8" => return some .i8
  | "u8" => return some .u8
  | "usize" => return some .usize
  | s => throw s!"unknown integer type {s}"

/-- Split a format string. -/
partial def fmt : List Char → Except String (List Fmt)
  | [] => .ok []
  | '{' :: ':' :: 'x' :: '}' :: r => (Fmt.hex :: ·) <$> fmt r
  | '{' :: ':' :: '0' :: '2' :: 'x' :: '}' :: r => (Fmt.hex02 false :: ·) <$> fmt r
  | '{' :: ':' :: '0' :: '2' :: 'X' :: '}' :: r => (Fmt.hex02 true :: ·) <$> fmt r
  | cs =>
    let t := cs.takeWhile fun c => c != '{' && c != '}'
    if t.isEmpty then .error "format string"
    else (Fmt.text (t.map Char.toNat) :: ·) <$> fmt (cs.dropWhile fun c => c != '{' && c != '}')

def isUpperName (s : String) : Bool :=
  match s.toList with
  | c :: _ => c.isUpper
  | [] => false

mutual
/-- Comparison binds weakest, then `|`, `&`, shifts, sums, products, casts, prefix operators. -/
partial def expr : P Expr := do
  let a ← orE
  if ← opt "==" then return .bin .eq a (← orE) else return a
partial def orE : P Expr := do
  let mut a ← andE
  while ← opt "|" do a := .bin .or a (← andE)
  return a
partial def andE : P Expr := do
  let mut a ← shiftE
  while ← opt "&" do a := .bin .and a (← shiftE)
  return a
partial def shiftE : P Expr := do
  let mut a ← sumE
  repeat
    if ← opt "<<" then a := .bin .shl a (← sumE)
    else if ← opt ">>" then a := .bin .shr a (← sumE)
    else break
  return a
partial def sumE : P Expr := do
  let mut a ← prodE
  repeat
    if ← opt "+" then a := .bin .add a (← prodE)
    else if ← opt "-" then a := .bin .sub a (← prodE)
    else break
  return a
partial def prodE : P Expr := do
  let mut a ← castE
  repeat
    if ← opt "*" then a := .bin .mul a (← castE)
    else if ← opt "/" then a := .bin .div a (← castE)
    else if ← opt "%" then a := .bin .rem a (← castE)
    else break
  return a
partial def castE : P Expr := do
  let mut a ← prefixE
  while ← opt "as" do
    match ← intTy (← ident) with
    | some t => a := .cast a t
    | none => fail "type"
  return a
partial def prefixE : P Expr := do
  if ← opt "&" then
    let _ ← opt "mut"
    return .ref (← prefixE)
  if ← opt "*" then return .deref (← prefixE)
  if ← opt "!" then return .not (← prefixE)
  postfixE (← atom)
partial def postfixE (e : Expr) : P Expr := do
  if ← opt "." then
    match ← next with
    | .num n "" => postfixE (.field e (idOf (toString n)))
    | .id x =>
      if ← opt "(" then postfixE (.method e (idOf x) (← args))
      else postfixE (.field e (idOf x))
    | _ => fail "field or method"
  else if ← opt "[" then
    let i ← expr
    expect "]"
    postfixE (.index e i)
  else return e
/-- Arguments up to the closing parenthesis. -/
partial def args : P Expr := do
  if ← opt ")" then return .anil
  let a ← expr
  if ← opt "," then return .acons a (← args)
  expect ")"
  return .acons a .anil
/-- Elements up to the closing bracket. -/
partial def elems : P Expr := do
  if ← opt "]" then return .anil
  let a ← expr
  if ← opt "," then return .acons a (← elems)
  expect "]"
  return .acons a .anil
/-- Fields of a struct up to the closing brace. -/
partial def fields : P (List Id × Expr) := do
  if ← opt "}" then return ([], .anil)
  let x ← ident
  expect ":"
  let e ← expr
  if ← opt "," then
    let (xs, es) ← fields
    return (idOf x :: xs, .acons e es)
  expect "}"
  return ([idOf x], .acons e .anil)
partial def atom : P Expr := do
  match ← next with
  | .num n s => return .lit (← intTy s) n
  | .sym "(" => do
    if ← opt ")" then return .unit
    let e ← expr
    expect ")"
    return e
  | .sym "[" => do
    if ← opt "]" then return .array .anil
    let e ← expr
    if ← opt ";" then
      let n ← nat
      expect "]"
      return .rep e n
    if ← opt "," then return .array (.acons e (← elems))
    expect "]"
    return .array (.acons e .anil)
  | .id "true" => return .bool true
  | .id "false" => return .bool false
  | .id "try" => do
    expect "!"; expect "("
    let e ← expr
    expect ")"
    return .try e
  | .id "write" => do
    expect "!"; expect "("
    let f ← expr
    expect ","
    match ← next with
    | .str s => do
      let parts ← match fmt s.toList with
        | .ok p => pure p
        | .error e => throw e
      if ← opt "," then return .write f parts (← args)
      expect ")"
      return .write f parts .anil
    | _ => fail "format string"
  | .id x => do
    let x ← resolve x
    if ← at? "::" then
      let mut p := [idOf x]
      while ← opt "::" do p := p ++ [idOf (← ident)]
      expect "("
      return .path p (← args)
    if ← opt "(" then return .path [idOf x] (← args)
    if isUpperName x && (← at? "{") then
      expect "{"
      let (xs, es) ← fields
      return .struct (idOf x) xs es
    return .var (idOf x)
  | t => throw s!"unexpected {repr t}"
end

def assignOp : P (Option BinOp) := do
  for (s, o) in [("+=", BinOp.add), ("-=", .sub), ("*=", .mul), ("/=", .div), ("&=", .and),
      ("|=", .or)] do
    if ← opt s then return some o
  return none

/-- `;`, which may be missing after a final assignment (an expression of type `()`). -/
def semi : P Unit := do
  unless ← at? "}" do expect ";"

/-- Statements up to the closing brace, and the final expression. -/
partial def block : P (Block × Expr) := do
  if ← opt "}" then return (.nil, .unit)
  if ← opt "let" then
    let _ ← opt "mut"
    let x ← ident
    if ← opt ":" then let _ ← ty
    expect "="
    let e ← expr
    expect ";"
    let (b, r) ← block
    return (.let (idOf x) e b, r)
  if ← opt "for" then
    let x ← ident
    expect "in"
    let a ← expr
    expect ".."
    let c ← expr
    expect "{"
    let (body, .unit) ← block | throw "loop body with a value"
    let (b, r) ← block
    return (.for (idOf x) a c body b, r)
  if ← opt "return" then
    let e ← expr
    expect ";"; expect "}"
    return (.nil, e)
  let e ← expr
  if ← opt "=" then
    let v ← expr
    semi
    let (b, r) ← block
    return (.assign e v b, r)
  if let some o ← assignOp then
    let v ← expr
    semi
    let (b, r) ← block
    return (.opAssign o e v b, r)
  if ← opt ";" then
    let (b, r) ← block
    return (.expr e b, r)
  expect "}"
  return (.nil, e)

/-- Parameters other than the receiver, up to the closing parenthesis. -/
partial def params : P (List (Id × Ty)) := do
  if ← opt ")" then return []
  let x ← ident
  expect ":"
  let t ← ty
  if ← opt "," then return (idOf x, t) :: (← params)
  expect ")"
  return [(idOf x, t)]

/-- A function, `fn` having been read. -/
def fn : P Fn := do
  let name ← ident
  generics
  expect "("
  let recv ← match (← get).toks with
    | .id "self" :: _ => do let _ ← next; pure Recv.val
    | .sym "&" :: .id "self" :: _ => do let _ ← next; let _ ← next; pure Recv.ref
    | .sym "&" :: .id "mut" :: .id "self" :: _ => do
      let _ ← next; let _ ← next; let _ ← next; pure Recv.mut
    | _ => pure Recv.none
  unless recv == .none do
    unless ← at? ")" do expect ","
  let ps ← params
  let out ← if ← opt "->" then ty else pure (mkTy false false "()")
  expect "{"
  let (b, r) ← block
  return ⟨idOf (← get).self, idOf name, recv, ps, out, b, r⟩

/-- The inside of an impl up to the closing brace. -/
partial def implItems : P (List (Id × Id) × List Fn) := do
  if ← opt "}" then return ([], [])
  if ← opt "type" then
    let x ← ident
    expect "="
    let t ← ty
    expect ";"
    let (ts, fs) ← implItems
    return ((idOf x, t.name) :: ts, fs)
  let _ ← opt "pub"
  expect "fn"
  let f ← fn
  let (ts, fs) ← implItems
  return (ts, f :: fs)

/-- The name of the type a list of tokens begins with. -/
partial def typeName : List Tok → String
  | .sym "&" :: ts => typeName ts
  | .id "mut" :: ts => typeName ts
  | .id x :: _ => x
  | _ => ""

/-- An impl, `impl` having been read. -/
def impl : P Impl := do
  generics
  let start := (← get).toks
  let t ← ty
  if ← opt "for" then
    -- `t` was the trait; read it again to get its argument
    let after := (← get).toks
    let self := typeName after
    modify fun s => { s with self := self }
    let selfTy ← ty
    let body := (← get).toks
    modify fun s => { s with toks := start }
    let tr ← ident
    let arg ← if ← opt "<" then ty else pure selfTy
    modify fun s => { s with toks := body }
    expect "{"
    let (ts, fs) ← implItems
    return ⟨idOf tr, arg, selfTy, ts, fs⟩
  modify fun s => { s with self := typeName start }
  expect "{"
  let (ts, fs) ← implItems
  return ⟨0, t, t, ts, fs⟩

partial def items (acc : Program) : P Program := do
  if (← get).toks.isEmpty then return acc
  if ← opt "#" then
    expect "["; skipTo "]"
    return ← items acc
  if ← opt "pub" then return ← items acc
  if ← opt "use" then
    skipTo ";"
    return ← items acc
  if ← opt "struct" then
    let _ ← ident
    generics
    if ← opt "(" then
      skipTo ")"; expect ";"
    else
      expect "{"; skipTo "}"
    return ← items acc
  if ← opt "trait" then
    skipTo "{"
    skipTo "}"
    return ← items acc
  if ← opt "const" then
    let x ← ident
    expect ":"
    let t ← ty
    expect "="
    let e ← expr
    expect ";"
    return ← items { acc with consts := acc.consts ++ [(idOf x, t, e)] }
  if ← opt "impl" then
    let i ← impl
    return ← items { acc with impls := acc.impls ++ [i] }
  fail "item"

def parseFile (text : String) : Except String Program := do
  let ts ← tokens text.toList
  let (p, _) ← (items ⟨[], []⟩).run ⟨ts, ""⟩
  return p

end Parse
end Verif.Rust

open Lean Elab Term in
/-- `rust_lines% r"…"`: the lines of a text. -/
elab "rust_lines% " text:str : term =>
  return toExpr ((text.getString.splitOn "\n"))

open Lean Elab Term in
/-- The lines a constant defined with `rust_lines%` stands for. -/
def Verif.Rust.Parse.linesOf (x : Ident) : TermElabM (List String) := do
  let c ← realizeGlobalConstNoOverloadWithInfo x
  let some v := (← getConstInfo c).value? | throwError "no definition"
  let some (_, l) := v.listLit? | throwError "not a list of lines"
  l.mapM fun e => match e with
    | .lit (.strVal s) => return s
    | _ => throwError "not a line"

open Lean Elab Term in
/-- `rust_file% t`, where `t` is a list of lines: see the module comment. -/
elab "rust_file% " x:ident : term => do
  match Verif.Rust.Parse.parseFile ("\n".intercalate (← Verif.Rust.Parse.linesOf x)) with
  | .ok p => return toExpr p
  | .error e => throwError "rust_file%: {e}"

open Lean Elab Term in
/-- `rust_codes% t`, where `t` is a list of lines: the codes of the characters of the lines. -/
elab "rust_codes% " x:ident : term =>
  return toExpr ((← Verif.Rust.Parse.linesOf x).map fun l => l.toList.map Char.toNat)

open Lean Elab Term in
/-- `rust_block% r"…"`: the inside of a function body (without braces), as statements and final
expression. -/
elab "rust_block% " text:str : term => do
  let r : Except String (Verif.Rust.Block × Verif.Rust.Expr) := do
    let ts ← Verif.Rust.Parse.tokens text.getString.toList
    let (p, _) ← Verif.Rust.Parse.block.run ⟨ts ++ [.sym "}"], ""⟩
    return p
  match r with
  | .ok p => return toExpr p
  | .error e => throwError "rust_block%: {e}"

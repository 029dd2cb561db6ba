import Verif.Model.Machine

/-!
# Abstract syntax of the part of Rust used by the sources

The source files `/repo/src/field/mod_e*.rs`, `/repo/src/curve/edwards.rs` and the curve files are
read as wholes (`Parse.lean`) into the syntax below, and given a meaning by an interpreter
(`Eval.lean`).  The interpreter knows nothing about finite fields; `Verif/Rust/*` proves that it
computes the functions of `Verif/Model/*` when run on the text of the sources.

Identifiers are numbers: the bytes of the name in base 256 (so that the kernel compares them
quickly).  `id! "name"` is the number of a name.
-/

namespace Verif.Rust

/-- An identifier. -/
abbrev Id := Nat

/-- The number of a name. -/
def idOf (s : String) : Nat := s.toUTF8.foldl (fun n b => n * 256 + b.toNat) 0

/-- `id! "name"`: the number of a name, as a literal. -/
macro "id! " s:str : term => return Lean.Syntax.mkNumLit (toString (idOf s.getString))

/-- Integer types. -/
inductive IntTy where
  | i64 | i32 | i16 | i8 | u8 | usize
  deriving DecidableEq, Repr

/-- Types, as far as they matter for finding functions: the name, without generic arguments (the
last segment of a path), and whether it is behind `&` or `&mut`.  `[i64; n]`, `[u8]` … have the
name `[]`. -/
structure Ty where
  ref : Bool
  isMut : Bool
  name : Id
  deriving DecidableEq, Repr

inductive BinOp where
  | add | sub | mul | div | rem | and | or | shl | shr | eq
  deriving DecidableEq, Repr

/-- Parts of a format string. -/
inductive Fmt where
  | text (s : List Nat)
  /-- `{:x}` -/
  | hex
  /-- `{:02x}` or, if `upper`, `{:02X}` -/
  | hex02 (upper : Bool)
  deriving DecidableEq, Repr

/-- Expressions.  Argument lists are expressions too (`anil`, `acons`). -/
inductive Expr where
  /-- integer literal, with suffix if written -/
  | lit (ty : Option IntTy) (n : Nat)
  | bool (b : Bool)
  /-- `()` -/
  | unit
  /-- local variable, parameter, `self` or constant -/
  | var (x : Id)
  /-- `&e` and `&mut e` -/
  | ref (e : Expr)
  /-- `*e` -/
  | deref (e : Expr)
  /-- `!e` -/
  | not (e : Expr)
  | bin (op : BinOp) (a b : Expr)
  /-- `e as ty` -/
  | cast (e : Expr) (ty : IntTy)
  /-- `e.x`, `e.0` -/
  | field (e : Expr) (x : Id)
  /-- `e[i]` -/
  | index (e i : Expr)
  /-- `[e, …]` -/
  | array (es : Expr)
  /-- `[e; n]` -/
  | rep (e : Expr) (n : Nat)
  /-- `a::b::f(e, …)` -/
  | path (p : List Id) (args : Expr)
  /-- `e.m(e, …)` -/
  | method (e : Expr) (m : Id) (args : Expr)
  /-- `T { x: e, … }` -/
  | struct (t : Id) (names : List Id) (args : Expr)
  /-- `write!(f, "…", e, …)` -/
  | write (f : Expr) (fmt : List Fmt) (args : Expr)
  /-- `try!(e)` -/
  | try (e : Expr)
  | anil
  | acons (e es : Expr)
  deriving DecidableEq, Repr

/-- Blocks. -/
inductive Block where
  | nil
  /-- `let x = e;`, `let mut x: T = e;` -/
  | let (x : Id) (e : Expr) (rest : Block)
  /-- `p = e;` -/
  | assign (p e : Expr) (rest : Block)
  /-- `p ∘= e;` -/
  | opAssign (op : BinOp) (p e : Expr) (rest : Block)
  /-- `e;` -/
  | expr (e : Expr) (rest : Block)
  /-- `for x in a..b { body }` -/
  | for (x : Id) (a b : Expr) (body rest : Block)
  deriving DecidableEq, Repr

/-- The receiver of a function. -/
inductive Recv where
  | none | val | ref | mut
  deriving DecidableEq, Repr

/-- A function: the type of the impl it is in, its name, receiver, parameters, result type, body and
final expression (`()` if there is none). -/
structure Fn where
  ty : Id
  name : Id
  recv : Recv
  params : List (Id × Ty)
  out : Ty
  body : Block
  ret : Expr
  deriving DecidableEq, Repr

/-- `impl Tr<A> for T { type S = U; … fn … }`; an inherent impl has trait name 0.  `arg` is `T` if
the trait has no argument. -/
structure Impl where
  trait : Id
  arg : Ty
  self : Ty
  types : List (Id × Id)
  fns : List Fn
  deriving DecidableEq, Repr

/-- A program: constants with their declared types and expressions, and impls. -/
structure Program where
  consts : List (Id × Ty × Expr)
  impls : List Impl
  deriving DecidableEq, Repr

end Verif.Rust

import Verif.Model.Machine
import Verif.Model.Tree

/-!
# Straight-line limb code

Abstract syntax and semantics of the part of Rust used by the limb functions of
`/repo/src/field/mod_e*.rs`: `let x = e;`, `self.0[i] = e;`, `bytes[i] = e;`
with `e` built from literals, variables, `self.0[i]`, `rhs.0[i]`, `bytes[i]`,
`i64::from(rhs)`, `+ - * & | << >>` and `as u8` / `as i64`.

All variables live in numbered slots:
* `0 … 15`   : the words of `self`,
* `16 … 127` : the words of the other argument (`rhs.0[i]`, `bytes[i]`; the
  single integer argument `rhs: i32` is slot 16),
* `128 …`    : local variables in order of their `let`.
-/

namespace Verif

inductive Expr where
  | lit (n : Nat)
  | get (slot : Nat)
  | add (a b : Expr)
  | sub (a b : Expr)
  | mul (a b : Expr)
  | and (a b : Expr)
  | or (a b : Expr)
  | shl (a : Expr) (k : Nat)
  | shr (a : Expr) (k : Nat)
  | u8 (a : Expr)
  deriving Repr, DecidableEq

inductive Stmt where
  /-- `let x = e;` (fresh slot). -/
  | bind (slot : Nat) (e : Expr)
  /-- `self.0[i] = e;` or `bytes[i] = e;`: panics when the place does not exist. -/
  | store (slot : Nat) (e : Expr)
  deriving Repr, DecidableEq

abbrev Prog := List Stmt

abbrev Env := Tree Int

/-- Value of an expression. -/
def Expr.eval (pr : Profile) (ρ : Env) : Expr → Res Int
  | .lit n => .ok n
  | .get s => match ρ.get s with
    | some x => .ok x
    | none => .error .index
  | .add a b => do arith pr ((← a.eval pr ρ) + (← b.eval pr ρ))
  | .sub a b => do arith pr ((← a.eval pr ρ) - (← b.eval pr ρ))
  | .mul a b => do arith pr ((← a.eval pr ρ) * (← b.eval pr ρ))
  | .and a b => do return and64 (← a.eval pr ρ) (← b.eval pr ρ)
  | .or a b => do return or64 (← a.eval pr ρ) (← b.eval pr ρ)
  | .shl a k => do return shl64 (← a.eval pr ρ) k
  | .shr a k => do return shr64 (← a.eval pr ρ) k
  | .u8 a => do return asU8 (← a.eval pr ρ)

/-- Effect of a statement. -/
def Stmt.exec (pr : Profile) (ρ : Env) : Stmt → Res Env
  | .bind s e => do return ρ.set s (← e.eval pr ρ)
  | .store s e => do
    let x ← e.eval pr ρ
    match ρ.get s with
    | some _ => return ρ.set s x
    | none => .error .index

/-- Run a function body. -/
def runProg (pr : Profile) : Prog → Env → Res Env
  | [], ρ => .ok ρ
  | st :: rest, ρ => do runProg pr rest (← st.exec pr ρ)

/-- Initial environment: the words of `self` and of the argument.  Only the first
112 entries of a slice argument get a slot; the source mentions no larger index. -/
def initEnv (self arg : List Int) : Env :=
  ((Tree.leaf : Env).setList 0 self).setList 16 (arg.take 112)

/-- Read `n` consecutive slots. -/
def readSlots (ρ : Env) (i : Nat) : Nat → List Int
  | 0 => []
  | n + 1 => (ρ.get i).getD 0 :: readSlots ρ (i + 1) n

end Verif

/-!
# 64-bit machine integers as used by the limb code

A Rust `i64` is modelled by an `Int`.  Arithmetic (`+`, `-`, `*`) is checked
against the 64-bit range: in a `debug` build an overflow panics, in a `release`
build it wraps (the two standard Cargo profiles; the repository sets no
`overflow-checks` option, see /repo/Cargo.toml).  `<<` drops high bits without a
panic as long as the shift distance is below 64 (all distances in the source are
literals below 64), `>>` on `i64` is the arithmetic (floor) shift, `&` and `|`
act on the 64-bit two's complement patterns.
-/

namespace Verif

/-- Cargo build profile. -/
inductive Profile where
  | debug
  | release
  deriving DecidableEq, Repr

/-- Reasons for a panic in the modelled code. -/
inductive Panic where
  /-- "attempt to add/subtract/multiply with overflow" (debug builds only). -/
  | overflow
  /-- "index out of bounds". -/
  | index
  deriving DecidableEq, Repr

/-- Result of a computation that may panic. -/
abbrev Res := Except Panic

/-- `i64::MIN ≤ x ≤ i64::MAX`. -/
def inI64 (x : Int) : Bool :=
  decide (-9223372036854775808 ≤ x) && decide (x ≤ 9223372036854775807)

/-- The `i64` with the same low 64 bits as `x`. -/
def wrap64 (x : Int) : Int :=
  (x + 9223372036854775808) % 18446744073709551616 - 9223372036854775808

/-- Outcome of an `i64` `+`, `-` or `*` whose exact result is `x`. -/
def arith (pr : Profile) (x : Int) : Res Int :=
  if inI64 x then .ok x
  else match pr with
    | .debug => .error .overflow
    | .release => .ok (wrap64 x)

/-- The 64-bit two's complement pattern of an `i64`. -/
def toU64 (x : Int) : Nat := (x % 18446744073709551616).toNat

/-- The `i64` with a given bit pattern. -/
def ofU64 (n : Nat) : Int := wrap64 n

/-- `x & y` on `i64`. -/
def and64 (x y : Int) : Int := ofU64 (toU64 x &&& toU64 y)

/-- `x | y` on `i64`. -/
def or64 (x y : Int) : Int := ofU64 (toU64 x ||| toU64 y)

/-- `x << k` on `i64`, `k < 64`. -/
def shl64 (x : Int) (k : Nat) : Int := wrap64 (x * 2 ^ k)

/-- `x >> k` on `i64`, `k < 64` (arithmetic shift: floor division). -/
def shr64 (x : Int) (k : Nat) : Int := x / 2 ^ k

/-- `x as u8` for an `i64` `x`. -/
def asU8 (x : Int) : Int := x % 256

/-- `x as i32` for an `i64` `x`. -/
def asI32 (x : Int) : Int := (x + 2147483648) % 4294967296 - 2147483648

end Verif

import Verif.Model.Chain

/-!
# Field elements: the code shared (textually) by the nine field types

The nine files `/repo/src/field/mod_e*.rs` contain the same wrapper code around
different limb functions.  `FieldCode` collects what differs (limb functions,
exponentiation chains, constants, sizes); the definitions below are the wrapper
code.  Line numbers refer to `/repo/src/field/mod_e221_3.rs`; the corresponding
text of the other eight files is identical up to the type name, the number of
words and the order of the impls.

Conventions: an element (`Mod_e…([i64; k])`) is the list of its words; a method
taking `&mut self` returns the new value of `self`; `clone()` of a `Copy` value
is the value itself; a panic is an `Except.error`.
-/

namespace Verif

/-- The words of a field element, lowest first. -/
abbrev Elem := List Int

/-- What differs between the nine field modules. -/
structure FieldCode where
  /-- name of the type, e.g. `Mod_e221_3` -/
  typeName : String
  /-- number `k` of words: `pub struct Mod_e221_3([i64; 4]);` -/
  limbs : Nat
  /-- `C_VAL` -/
  cval : Nat
  /-- `carry_out` is `self.0[carryLimb] >> carryShift` -/
  carryLimb : Nat
  carryShift : Nat
  /-- `nbits()` -/
  nbits : Nat
  /-- `nbytes()` -/
  nbytes : Nat
  /-- the `58` of `idx / 58` and `idx % 58` in `bit_normalized` -/
  limbBits : Nat
  ZERO : Elem
  ONE : Elem
  M_ONE : Elem
  MODULUS : Elem
  M_HALF : Option Elem
  COEFF : Option Elem
  addP : Prog
  subP : Prog
  mulP : Prog
  squareP : Prog
  smallAddP : Prog
  smallSubP : Prog
  smallMulP : Prog
  unpackP : Prog
  packP : Prog
  invertC : Chain
  legendreC : Chain
  sqrtC : Chain
  quarticC : Option Chain

namespace FieldCode
variable (F : FieldCode) (pr : Profile)

/-- Run a limb function on `self` and an argument and read back `self`. -/
def runLimb (p : Prog) (a : Elem) (arg : List Int) : Res Elem := do
  return readSlots (← runProg pr p (initEnv a arg)) 0 F.limbs

/-- `carry_out` (lines 125–127). -/
def carryOut (a : Elem) : Res Int :=
  match a[F.carryLimb]? with
  | some x => .ok (shr64 x F.carryShift)
  | none => .error .index

/-- `AddAssign<&Self>::add_assign` (lines 165–191). -/
def addAssign (a b : Elem) : Res Elem := F.runLimb pr F.addP a b

/-- `SubAssign<&Self>::sub_assign` (lines 355–381). -/
def subAssign (a b : Elem) : Res Elem := F.runLimb pr F.subP a b

/-- `MulAssign<&Self>::mul_assign` (lines 473–652). -/
def mulAssign (a b : Elem) : Res Elem := F.runLimb pr F.mulP a b

/-- `PrimeField::square` (lines 1000–1169). -/
def square (a : Elem) : Res Elem := F.runLimb pr F.squareP a []

/-- `PrimeField::small_add_assign` (lines 1241–1262); `b` is an `i32`. -/
def smallAddAssign (a : Elem) (b : Int) : Res Elem := F.runLimb pr F.smallAddP a [b]

/-- `PrimeField::small_sub_assign` (lines 1272–1293). -/
def smallSubAssign (a : Elem) (b : Int) : Res Elem := F.runLimb pr F.smallSubP a [b]

/-- `PrimeField::small_mul_assign` (lines 1303–1337). -/
def smallMulAssign (a : Elem) (b : Int) : Res Elem := F.runLimb pr F.smallMulP a [b]

/-- `PrimeField::squared` (lines 1171–1177). -/
def squared (a : Elem) : Res Elem := F.square pr a

/-- `PrimeField::small_add` (lines 1264–1270). -/
def smallAdd (a : Elem) (b : Int) : Res Elem := F.smallAddAssign pr a b

/-- `PrimeField::small_sub` (lines 1295–1301). -/
def smallSub (a : Elem) (b : Int) : Res Elem := F.smallSubAssign pr a b

/-- `PrimeField::small_mul` (lines 1339–1345). -/
def smallMul (a : Elem) (b : Int) : Res Elem := F.smallMulAssign pr a b

/-- `Add<&Self> for &Self` (lines 217–225): clone, then `+=`. -/
def add (a b : Elem) : Res Elem := F.addAssign pr a b

/-- `Sub<&Self> for &Self` (lines 437–445). -/
def sub (a b : Elem) : Res Elem := F.subAssign pr a b

/-- `Mul<&Self> for &Self` (lines 732–740). -/
def mul (a b : Elem) : Res Elem := F.mulAssign pr a b

/-- `Neg::neg` (lines 154–163): `let mut out = self; out += &MODULUS; out`. -/
def neg (a : Elem) : Res Elem := F.addAssign pr a F.MODULUS

/-- `Normalize::normalize` (lines 847–853).
`&*self + (C_VAL as i32)` is `small_add`, `&MODULUS * (… as i32)` is `small_mul`. -/
def normalize (a : Elem) : Res Elem := do
  let plusc ← F.smallAdd pr a (asI32 F.cval)
  let offset ← F.smallMul pr F.MODULUS (asI32 (← F.carryOut plusc))
  F.subAssign pr a offset

/-- `NormalizeEq::normalize_self_eq` (lines 856–867); returns the new `self`
and the comparison of all words. -/
def normalizeSelfEq (a other : Elem) : Res (Elem × Bool) := do
  let a' ← F.normalize pr a
  return (a', (List.zipWith (fun x y => decide (x = y)) a' other).all id)

/-- `NormalizeEq::normalize_eq` (lines 869–872); returns the new `self`, the new
`other` and the result. -/
def normalizeEq (a other : Elem) : Res (Elem × Elem × Bool) := do
  let other' ← F.normalize pr other
  let (a', r) ← F.normalizeSelfEq pr a other'
  return (a', other', r)

/-! ### Packing (lines 762–845) -/

/-- `Pack::unpack` (lines 763–795): reads `bytes[0..nbytes]`; `a` is the old value of `self`,
all of whose words are overwritten. -/
def unpack (a : Elem) (bytes : List Int) : Res Elem := F.runLimb pr F.unpackP a bytes

/-- `Pack::unpacked` (lines 797–801). -/
def unpacked (bytes : List Int) : Res Elem := F.unpack pr F.ZERO bytes

/-- `Pack::pack_normalized` (lines 808–840): returns the new contents of the slice
`bytes`. -/
def packNormalized (a : Elem) (bytes : List Int) : Res (List Int) := do
  let ρ ← runProg pr F.packP (initEnv a bytes)
  return readSlots ρ 16 (bytes.take 112).length ++ bytes.drop 112

/-- `Pack::pack` (lines 803–806): returns the new `self` and the new slice. -/
def pack (a : Elem) (bytes : List Int) : Res (Elem × List Int) := do
  let a' ← F.normalize pr a
  return (a', ← F.packNormalized pr a' bytes)

/-- `packed` (lines 131–135): returns the new `self` and the array. -/
def packed (a : Elem) : Res (Elem × List Int) := F.pack pr a (List.replicate F.nbytes 0)

/-! ### Masks and bits (lines 875–982) -/

/-- `let mut mask = bit as i64; mask |= mask << 1; … mask |= mask << 32;` -/
def maskWord (bit : Bool) : Int :=
  let mask : Int := if bit then 1 else 0
  let mask := or64 mask (shl64 mask 1)
  let mask := or64 mask (shl64 mask 2)
  let mask := or64 mask (shl64 mask 4)
  let mask := or64 mask (shl64 mask 8)
  let mask := or64 mask (shl64 mask 16)
  or64 mask (shl64 mask 32)

/-- `PrimeField::filled` (lines 923–934; the mask type's version, lines 892–903, is
the same). -/
def filled (bit : Bool) : Elem := List.replicate F.limbs (maskWord bit)

/-- `PrimeField::fill` (lines 907–921; the mask type's version, lines 876–890, is
the same): `self.0[i] = mask` for every word. -/
def fill (a : Elem) (bit : Bool) : Elem := a.map fun _ => maskWord bit

/-- `bit_normalized` (lines 938–943). -/
def bitNormalized (a : Elem) (idx : Nat) : Res Bool :=
  match a[idx / F.limbBits]? with
  | some x => .ok (decide (and64 (shr64 x (idx % F.limbBits)) 1 = 1))
  | none => .error .index

/-- `bit` (lines 945–948); returns the new `self` and the bit. -/
def bit (a : Elem) (idx : Nat) : Res (Elem × Bool) := do
  let a' ← F.normalize pr a
  return (a', ← F.bitNormalized a' idx)

/-- `normalized_bitand` (lines 960–965). -/
def normalizedBitand (a b : Elem) : Elem := List.zipWith and64 a b

/-- `normalized_bitor` (lines 977–982). -/
def normalizedBitor (a b : Elem) : Elem := List.zipWith or64 a b

/-- `normalize_self_bitand` (lines 955–958). -/
def normalizeSelfBitand (a b : Elem) : Res Elem := do
  return normalizedBitand (← F.normalize pr a) b

/-- `normalize_bitand` (lines 950–953): returns the new `self` and the new `rhs`. -/
def normalizeBitand (a b : Elem) : Res (Elem × Elem) := do
  let b' ← F.normalize pr b
  return (← F.normalizeSelfBitand pr a b', b')

/-- `normalize_self_bitor` (lines 972–975). -/
def normalizeSelfBitor (a b : Elem) : Res Elem := do
  return normalizedBitor (← F.normalize pr a) b

/-- `normalize_bitor` (lines 967–970). -/
def normalizeBitor (a b : Elem) : Res (Elem × Elem) := do
  let b' ← F.normalize pr b
  return (← F.normalizeSelfBitor pr a b', b')

/-! ### Exponentiation chains (lines 139–151, 1179–1239) -/

/-- The registers a chain can mention. -/
abbrev Regs := Tree Elem

/-- Read a register. (Every variable of the source is assigned before use; the
error is unreachable for parsed chains.) -/
def reg (ρ : Regs) (x : Nat) : Res Elem :=
  match ρ.get x with
  | some v => .ok v
  | none => .error .index

/-- One step of a chain; `q` is `quartic_legendre`. -/
def execStep (q : Elem → Res Elem) (ρ : Regs) : CStep → Res Regs
  | .clone x y => do return ρ.set x (← reg ρ y)
  | .squared x y => do return ρ.set x (← F.squared pr (← reg ρ y))
  | .quartic x y => do return ρ.set x (← q (← reg ρ y))
  | .square x => do return ρ.set x (← F.square pr (← reg ρ x))
  | .mulAssign x y => do return ρ.set x (← F.mulAssign pr (← reg ρ x) (← reg ρ y))
  | .subAssign x y => do return ρ.set x (← F.subAssign pr (← reg ρ x) (← reg ρ y))
  | .addAssign x y => do return ρ.set x (← F.addAssign pr (← reg ρ x) (← reg ρ y))
  | .ret x => do return ρ.set 0 (← reg ρ x)
  | .retMul x y => do return ρ.set 0 (← F.mul pr (← reg ρ x) (← reg ρ y))

/-- A sequence of steps. -/
def execSteps (q : Elem → Res Elem) : List CStep → Regs → Res Regs
  | [], ρ => .ok ρ
  | s :: rest, ρ => do execSteps q rest (← F.execStep pr q ρ s)

/-- `n` iterations of a loop body. -/
def execLoop (q : Elem → Res Elem) (body : List CStep) : Nat → Regs → Res Regs
  | 0, ρ => .ok ρ
  | n + 1, ρ => do execLoop q body n (← F.execSteps pr q body ρ)

/-- A chain body. `for _ in a..b` runs `b - a` times (never when `b ≤ a`). -/
def execChain (q : Elem → Res Elem) : Chain → Regs → Res Regs
  | [], ρ => .ok ρ
  | .step s :: rest, ρ => do execChain q rest (← F.execStep pr q ρ s)
  | .loop a b body :: rest, ρ => do
    execChain q rest (← F.execLoop pr q body (b - a) ρ)

/-- Initial registers: `self` and the module constants. -/
def initRegs (a : Elem) : Regs :=
  let ρ := ((Tree.leaf : Regs).set 0 a).set 1 F.ONE
  let ρ := match F.M_HALF with
    | some c => ρ.set 2 c
    | none => ρ
  match F.COEFF with
  | some c => ρ.set 3 c
  | none => ρ

/-- Run a chain on `self`. -/
def runChain (q : Elem → Res Elem) (c : Chain) (a : Elem) : Res Elem := do
  reg (← F.execChain pr q c (F.initRegs a)) 0

/-- Stand-in for `quartic_legendre` in modules that do not define it. -/
def noQuartic : Elem → Res Elem := fun _ => .error .index

/-- `quartic_legendre` (lines 139–151; only in the four modules with p ≡ 5 mod 8). -/
def quarticLegendre (a : Elem) : Res Elem :=
  match F.quarticC with
  | some c => F.runChain pr noQuartic c a
  | none => .error .index

/-- `PrimeField::invert` (lines 1179–1195). -/
def invert (a : Elem) : Res Elem := F.runChain pr noQuartic F.invertC a

/-- `PrimeField::inverted` (lines 1197–1203). -/
def inverted (a : Elem) : Res Elem := F.invert pr a

/-- `PrimeField::legendre` (lines 1205–1219). -/
def legendre (a : Elem) : Res Elem := F.runChain pr noQuartic F.legendreC a

/-- `PrimeField::sqrt` (lines 1221–1239). -/
def sqrt (a : Elem) : Res Elem := F.runChain pr (F.quarticLegendre pr) F.sqrtC a

/-- `DivAssign<&Self>::div_assign` (lines 307–311): `*self *= &rhs.inverted();`. -/
def divAssign (a b : Elem) : Res Elem := do F.mulAssign pr a (← F.inverted pr b)

/-- `Div<&Self> for &Self` (lines 319–327). -/
def div (a b : Elem) : Res Elem := F.divAssign pr a b

/-! ### Randomness (lines 750–760) -/

/-- `Rand::rand`: word `i` is `rng.gen_range(0, MODULUS.0[i])`.  The generator is
a function giving the answer to the `i`-th call with upper bound `hi`. -/
def rand (rng : Nat → Int → Int) : Elem :=
  (List.range F.limbs).map fun i => rng i (F.MODULUS.getD i 0)

/-! ### Formatting (lines 83–119) -/

/-- Hex digit, lower or upper case. -/
def hexDigit (upper : Bool) (n : Nat) : Char :=
  if n < 10 then Char.ofNat (48 + n)
  else if upper then Char.ofNat (55 + n) else Char.ofNat (87 + n)

/-- `{:02x}` / `{:02X}` of a `u8`. -/
def hexByte (upper : Bool) (b : Int) : List Char :=
  [hexDigit upper (b.toNat / 16), hexDigit upper (b.toNat % 16)]

/-- `LowerHex::fmt` / `UpperHex::fmt`: works on a clone, prints the packed bytes
from last to first. -/
def fmtHex (upper : Bool) (a : Elem) : Res (List Char) := do
  let (_, bytes) ← F.packed pr a
  return (bytes.reverse.map (hexByte upper)).flatten

/-- Hex digits of a number below `16 ^ n`, most significant first, no leading zeros. -/
def hexNat : Nat → Nat → List Char
  | 0, _ => []
  | n + 1, x => if x < 16 then [hexDigit false x]
    else hexNat n (x / 16) ++ [hexDigit false (x % 16)]

/-- `{:x}` of an `i64`: the two's complement pattern in hex. -/
def hexI64 (x : Int) : List Char := hexNat 16 (toU64 x)

/-- `Debug::fmt`: `"Mod_e221_3: [ w0, w1, … ]"`. -/
def fmtDebug (a : Elem) : List Char :=
  match a with
  | [] => (F.typeName ++ ": [ ").toList ++ " ]".toList
  | w :: ws => (F.typeName ++ ": [ ").toList ++ hexI64 w
      ++ (ws.map fun x => ", ".toList ++ hexI64 x).flatten ++ " ]".toList

end FieldCode
end Verif

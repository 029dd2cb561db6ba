import Verif.Model.Field

/-!
# The helpers of the test modules

The `#[cfg(test)]` module of each field file defines two round-trip helpers; the rest of these modules are calls with
constants.
-/

namespace Verif

/-- How a test ends. -/
inductive TestResult where
  | passes
  /-- An `assert!` fails. -/
  | fails
  /-- Something else panics. -/
  | panics (e : Panic)
  deriving DecidableEq, Repr

/-- The end of a test whose assertions evaluate to `r`. -/
def TestResult.of : Res Bool → TestResult
  | .error e => .panics e
  | .ok true => .passes
  | .ok false => .fails

namespace FieldCode

variable (F : FieldCode) (pr : Profile)

/-- `test_pack_unpack` (mod_e221_3.rs lines 1395–1402, mod_e222_117.rs 1428–1435, mod_e251_9.rs 1493–1500, mod_e255_19.rs
1590–1597, mod_e382_105.rs 2036–2043, mod_e383_187.rs 2158–2165, mod_e414_17.rs 2146–2153, mod_e511_187.rs 2783–2790,
mod_e521_1.rs 2818–2825). -/
def testPackUnpack (expected : List Int) : TestResult := .of do
  let unpacked ← F.unpacked pr expected
  let (_, actual) ← F.packed pr unpacked
  return (List.range F.nbytes).all fun i => expected.getD i 0 == actual.getD i 0

/-- `test_unpack_pack` (mod_e221_3.rs lines 1404–1409, mod_e222_117.rs 1437–1442, mod_e251_9.rs 1502–1507, mod_e255_19.rs
1599–1604, mod_e382_105.rs 2045–2050, mod_e383_187.rs 2167–2172, mod_e414_17.rs 2155–2160, mod_e511_187.rs 2792–2797,
mod_e521_1.rs 2827–2832). -/
def testUnpackPack (expected : Elem) : TestResult := .of do
  let (expected, bytes) ← F.packed pr expected
  let actual ← F.unpacked pr bytes
  let (_, _, r) ← F.normalizeEq pr expected actual
  return r

end FieldCode

end Verif

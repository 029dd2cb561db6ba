import Verif.Model.Fields
import Mathlib.Data.Int.ModEq
import Mathlib.Algebra.Ring.Int.Defs

/-!
# Specification vocabulary for the field types

Everything needed to state the field properties, independent of how the code
works: the table of published parameters, the integer denoted by a list of words,
the shapes of representations, and little-endian byte strings.
-/

namespace Verif

/-- The nine field types. -/
inductive Fld where
  | e221_3 | e222_117 | e251_9 | e255_19 | e382_105 | e383_187 | e414_17 | e511_187 | e521_1
  deriving DecidableEq, Repr

namespace Fld

/-- The field is `ℤ / (2 ^ n - c)`: the exponent. -/
def n : Fld → Nat
  | e221_3 => 221 | e222_117 => 222 | e251_9 => 251 | e255_19 => 255 | e382_105 => 382
  | e383_187 => 383 | e414_17 => 414 | e511_187 => 511 | e521_1 => 521

/-- The field is `ℤ / (2 ^ n - c)`: the small constant. -/
def c : Fld → Nat
  | e221_3 => 3 | e222_117 => 117 | e251_9 => 9 | e255_19 => 19 | e382_105 => 105
  | e383_187 => 187 | e414_17 => 17 | e511_187 => 187 | e521_1 => 1

/-- Number of 64-bit words of an element (documented at each struct). -/
def k : Fld → Nat
  | e221_3 => 4 | e222_117 => 4 | e251_9 => 5 | e255_19 => 5 | e382_105 => 7
  | e383_187 => 7 | e414_17 => 8 | e511_187 => 10 | e521_1 => 10

/-- Bits per word: two digits of 29, 28 or 27 bits (documented at each struct). -/
def L : Fld → Nat
  | e221_3 => 58 | e222_117 => 58 | e251_9 => 56 | e255_19 => 56 | e382_105 => 56
  | e383_187 => 56 | e414_17 => 56 | e511_187 => 54 | e521_1 => 54

/-- Bits of the top word that belong to an `n`-bit number. -/
def tb (f : Fld) : Nat := f.n - f.L * (f.k - 1)

/-- Length of the packed form in bytes: `⌈n / 8⌉`. -/
def nbytes (f : Fld) : Nat := (f.n + 7) / 8

/-- The modulus. -/
def p (f : Fld) : Int := 2 ^ f.n - f.c

/-- The modelled code of the field type. -/
def code : Fld → FieldCode
  | e221_3 => Fields.E221_3.code | e222_117 => Fields.E222_117.code
  | e251_9 => Fields.E251_9.code | e255_19 => Fields.E255_19.code
  | e382_105 => Fields.E382_105.code | e383_187 => Fields.E383_187.code
  | e414_17 => Fields.E414_17.code | e511_187 => Fields.E511_187.code
  | e521_1 => Fields.E521_1.code

end Fld

/-- The integer `x₀ + x₁ 2^L + x₂ 2^(2L) + …`. -/
def digitsVal (L : Nat) : List Int → Int
  | [] => 0
  | x :: xs => x + 2 ^ L * digitsVal L xs

namespace Fld
variable (f : Fld)

/-- The integer denoted by the words of an element. -/
def V (a : Elem) : Int := digitsVal f.L a

/-- All words but the last are `L`-bit digits, the last one lies in `[lo, hi]`. -/
def Shape (lo hi : Int) (a : Elem) : Prop :=
  ∃ low top, a = low ++ [top] ∧ low.length = f.k - 1 ∧
    (∀ x ∈ low, 0 ≤ x ∧ x < 2 ^ f.L) ∧ lo ≤ top ∧ top ≤ hi

/-- Any lazily normalized representation: arbitrary carries, of either sign, in the
top word. -/
def Rep (a : Elem) : Prop := f.Shape (-2 ^ 63) (2 ^ 63 - 1) a

/-- Representations with a bounded carry, `|top word| ≤ 16 · 2 ^ tb`. -/
def Loose (a : Elem) : Prop := f.Shape (-2 ^ (f.tb + 4)) (2 ^ (f.tb + 4)) a

/-- The representations the arithmetic operations return: the value is between
about `-2 ^ n` and `2 · 2 ^ n`. -/
def Tight (a : Elem) : Prop := f.Shape (-2 ^ f.tb - 1) (2 ^ (f.tb + 1) + f.c) a

/-- The canonical representation of the integer `x`. -/
def Canon (x : Int) (a : Elem) : Prop :=
  f.Shape 0 (2 ^ f.tb - 1) a ∧ f.V a = x ∧ 0 ≤ x ∧ x < f.p

/-- The element denotes the residue class of `x`. -/
def Denotes (a : Elem) (x : Int) : Prop := f.V a ≡ x [ZMOD f.p]

/-- Integer products for which the type's `*` is right (see `C04_mul_correct_iff`): all
of them, except in two modules. -/
def MulDomain (x : Int) : Prop :=
  match f with
  | e251_9 => 0 ≤ x ∧ x < 2 ^ 504
  | e222_117 => 0 ≤ x ∧ x < 4588641 * 2 ^ 425
  | _ => True

/-- Folding the carry back in gives a non-negative number. (True of every non-negative
value; false for some negative ones.) -/
def Foldable (v : Int) : Prop := 0 ≤ v % 2 ^ f.n + f.c * (v / 2 ^ f.n)

/-- An array of the right number of 64-bit words. -/
def IsWords (a : Elem) : Prop :=
  a.length = f.k ∧ ∀ x ∈ a, -2 ^ 63 ≤ x ∧ x ≤ 2 ^ 63 - 1

end Fld

/-- A list of bytes. -/
def IsBytes (bs : List Int) : Prop := ∀ b ∈ bs, 0 ≤ b ∧ b < 256

/-- The little-endian integer of a list of bytes. -/
def leVal (bs : List Int) : Int := digitsVal 8 bs

/-- `i32` range. -/
def IsI32 (b : Int) : Prop := -2 ^ 31 ≤ b ∧ b < 2 ^ 31

/-- Value of a hex digit, in lower or in upper case. -/
def hexCharVal (upper : Bool) (c : Char) : Option Nat :=
  if '0' ≤ c ∧ c ≤ '9' then some (c.toNat - 48)
  else if upper ∧ 'A' ≤ c ∧ c ≤ 'F' then some (c.toNat - 55)
  else if ¬ upper ∧ 'a' ≤ c ∧ c ≤ 'f' then some (c.toNat - 87)
  else none

/-- Read hex digits, most significant first, after the digits of `acc`. -/
def hexReadFrom (upper : Bool) : Nat → List Char → Option Nat
  | acc, [] => some acc
  | acc, c :: s => match hexCharVal upper c with
    | some d => hexReadFrom upper (16 * acc + d) s
    | none => none

/-- The number written in hex. -/
def hexRead (upper : Bool) (s : List Char) : Option Nat := hexReadFrom upper 0 s

end Verif

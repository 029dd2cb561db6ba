import Verif.Curve.Ladder
import Verif.Curve.Curves

/-!
# Exact scalars

`/repo/src/curve/edwards.rs` is generic in the scalar type.  `Scalar.Lawful` says what a scalar
type has to provide for the generic code: field arithmetic modulo `p` on all its elements (of
`small_mul` only doubling), masks that select, and bits of the canonical value.  `idealScalar` is such a type, so that theorems about
lawful scalars are not vacuous: it computes in `ZMod p`.
-/

namespace Verif

/-- The methods of `C` compute modulo `p` on all elements with `ok`, without further conditions. -/
structure Scalar.Lawful {S : Type} (C : Scalar S) (p : Nat) [Fact p.Prime] (d : ZMod p)
    (ok : S → Prop) (den : S → ZMod p) : Prop where
  exact : C.Exact (ZMod p) d ok den
  selects : C.Selects ok
  le : p ≤ 2 ^ C.nbits
  normalize : ∀ {a}, ok a → ∃ r, C.normalize a = .ok r ∧ ok r ∧ den r = den a ∧
    ∀ i < C.nbits, C.bitNormalized r i = .ok ((den r).val.testBit i)

/-- Elements of `ZMod p` and masks. -/
inductive Ideal (K : Type) where
  | val (k : K)
  | mask (b : Bool)

namespace Ideal
variable {K : Type} [Field K]

/-- Apply an operation to values. -/
def lift (f : K → K → K) : Ideal K → Ideal K → Res (Ideal K)
  | .val a, .val b => .ok (.val (f a b))
  | _, _ => .error .index

/-- The element denoted. -/
def den : Ideal K → K
  | .val k => k
  | .mask _ => 0

/-- An element, not a mask. -/
def Ok (a : Ideal K) : Prop := ∃ k, a = .val k

/-- Keep or clear. -/
def and : Ideal K → Ideal K → Ideal K
  | a, .mask true => a
  | _, _ => .mask false

/-- Combine with a cleared element. -/
def or : Ideal K → Ideal K → Ideal K
  | .mask false, b => b
  | a, _ => a

end Ideal

/-- A lawful scalar type: exact arithmetic modulo `p`. -/
def idealScalar (p n : Nat) [Fact p.Prime] (d : ZMod p) : Scalar (Ideal (ZMod p)) where
  zero := .val 0
  one := .val 1
  add := Ideal.lift (· + ·)
  sub := Ideal.lift (· - ·)
  mul := Ideal.lift (· * ·)
  squared := fun a => Ideal.lift (· * ·) a a
  smallMul := fun a m => Ideal.lift (· * ·) a (.val m)
  normalize := fun a => .ok a
  nbits := n
  bitNormalized := fun a i => .ok (a.den.val.testBit i)
  filled := .mask
  normalizedBitand := Ideal.and
  normalizedBitor := Ideal.or
  dVal := .val d

theorem ideal_lawful (p n : Nat) [Fact p.Prime] (d : ZMod p) (h : p ≤ 2 ^ n) :
    (idealScalar p n d).Lawful p d Ideal.Ok Ideal.den where
  exact := by
    constructor
    · exact ⟨⟨_, rfl⟩, rfl⟩
    · exact ⟨⟨_, rfl⟩, rfl⟩
    · exact ⟨⟨_, rfl⟩, rfl⟩
    · rintro a b ⟨x, rfl⟩ ⟨y, rfl⟩; exact ⟨_, rfl, ⟨_, rfl⟩, rfl⟩
    · rintro a b ⟨x, rfl⟩ ⟨y, rfl⟩ _; exact ⟨_, rfl, ⟨_, rfl⟩, rfl⟩
    · rintro a b ⟨x, rfl⟩ ⟨y, rfl⟩ _; exact ⟨_, rfl, ⟨_, rfl⟩, rfl⟩
    · rintro a ⟨x, rfl⟩; exact ⟨_, rfl, ⟨_, rfl⟩, (pow_two x).symm⟩
    · rintro a m ⟨x, rfl⟩ _; exact ⟨_, rfl, ⟨_, rfl⟩, rfl⟩
  selects := by
    rintro x y ⟨a, rfl⟩ ⟨b, rfl⟩ (_ | _) <;> rfl
  le := h
  normalize := by
    intro a ha
    exact ⟨a, rfl, ha, rfl, fun i _ => rfl⟩

namespace Crv

theorem pN_le (c : Crv) : c.fld.pN ≤ 2 ^ c.fld.n := by
  cases c <;> decide +kernel

/-- Exact scalars for the curve. -/
noncomputable def ideal (c : Crv) : Scalar (Ideal c.K) := idealScalar c.fld.pN c.fld.n c.d

theorem ideal_lawful (c : Crv) : c.ideal.Lawful c.fld.pN c.d Ideal.Ok Ideal.den :=
  Verif.ideal_lawful _ _ _ c.pN_le

end Crv
end Verif

import Verif.Check.Swap
import Verif.Field.SmallMul521

/-!
# `small_mul_assign` by any `i32` (helper lemmas)

In six types the top word is split in two digits, and the product of the upper digit is shifted
left without a check, so that high bits may be lost.  The top word of the result is then the true
top word reduced to 64 bits, and in a debug build the additions that follow may panic.
-/

namespace Verif
open Check

/-- `wrap64` subtracts a multiple of `2 ^ 64`. -/
theorem wrap64_eq (x : Int) : wrap64 x = x - 2 ^ 64 * ((x + 2 ^ 63) / 2 ^ 64) := by
  have := Int.emod_add_mul_ediv (x + 2 ^ 63) (2 ^ 64)
  norm_num [wrap64] at *
  omega

theorem wrap64_range (x : Int) : -2 ^ 63 ≤ wrap64 x ∧ wrap64 x ≤ 2 ^ 63 - 1 := by
  norm_num [wrap64]; omega

theorem wrap64_of_range {x : Int} (h : -2 ^ 63 ≤ x ∧ x ≤ 2 ^ 63 - 1) : wrap64 x = x := by
  norm_num [wrap64] at *; omega

theorem wrap64_add (x y z : Int) : wrap64 (wrap64 (x + wrap64 y) + z) = wrap64 (x + y + z) := by
  norm_num [wrap64]; omega

theorem arith_release (x : Int) : arith .release x = .ok (wrap64 x) := by
  simp only [arith]
  split
  · next h =>
    simp only [inI64, Bool.and_eq_true, decide_eq_true_eq] at h
    rw [wrap64_of_range (by norm_num; omega)]
  · rfl

theorem arith_of_range (pr : Profile) {x : Int} (h : -2 ^ 63 ≤ x ∧ x ≤ 2 ^ 63 - 1) :
    arith pr x = .ok x := by
  have : inI64 x = true := by
    simp only [inI64, Bool.and_eq_true, decide_eq_true_eq]
    norm_num at h; omega
  simp only [arith, this, if_true]

theorem arith_debug {x v : Int} (h : arith .debug x = .ok v) :
    v = x ∧ -2 ^ 63 ≤ x ∧ x ≤ 2 ^ 63 - 1 := by
  simp only [arith] at h
  split at h
  · next hi =>
    simp only [inI64, Bool.and_eq_true, decide_eq_true_eq] at hi
    cases h
    exact ⟨rfl, by norm_num; omega⟩
  · cases h

theorem arith_cases (pr : Profile) (x : Int) :
    arith pr x = .ok (wrap64 x) ∨ pr = .debug ∧ arith pr x = .error .overflow := by
  cases pr with
  | release => exact .inl (arith_release x)
  | debug =>
    by_cases h : inI64 x = true
    · left
      have h' := h
      simp only [inI64, Bool.and_eq_true, decide_eq_true_eq] at h'
      rw [wrap64_of_range (by norm_num; omega)]
      simp only [arith, h, if_true]
    · right; exact ⟨rfl, by simp only [arith, h]; rfl⟩

namespace Fld
variable {f : Fld}

/-- Number of statements before the top word of the product. -/
def smJ (f : Fld) : Nat := 2 * f.nd + 2 * f.k
/-- Slot of the top word of the product. -/
def smD (f : Fld) : Nat := 128 + f.smJ
/-- Slot of the product of digit `i`. -/
def smM (f : Fld) (i : Nat) : Nat := 129 + f.nd + i

def smX (f : Fld) : Expr := .add (.shr (.get (f.smM (f.nd - 3))) f.w) (.get (f.smM (f.nd - 2)))
/-- The top word as the code computes it. -/
def smTop (f : Fld) : Expr :=
  .add (.add f.smX (.shl (.get (f.smM (f.nd - 1))) f.w)) (.get (f.smD - 1))
/-- The top word without the product of the upper digit. -/
def smRest (f : Fld) : Expr := .add f.smX (.get (f.smD - 1))

/-- The statements before the top word, after the digits. -/
def smP2 (f : Fld) : Prog := (f.code.smallMulP.take f.smJ).drop (f.nd + 1)
/-- The stores of the words other than the top word. -/
def smS (f : Fld) : Prog := (f.code.smallMulP.drop (f.smJ + 1)).take (f.k - 1)

/-- The code of `small_mul_assign` has the described form. -/
def smForm (f : Fld) : Bool :=
  decide (f.code.smallMulP =
    f.code.smallMulP.take (f.nd + 1) ++ viaSlot f.smP2 f.smD f.smTop f.smS (f.k - 1)) &&
  f.smS.all fun st => !needs f.smD st && !assigns f.smD st

def smMid (f : Fld) (lo hi blo bhi : Int) : List (Nat × Int × Int) :=
  rng 0 (f.shapeR lo hi) ++ (rng 128 (f.smDigR lo hi) ++ rng (128 + f.nd) [(blo, bhi)])

def smCkA (f : Fld) (lo hi blo bhi : Int) : Bool :=
  check 0 0 0 (f.code.smallMulP.take (f.nd + 1)) (rng 0 (f.shapeR lo hi) ++ rng 16 [(blo, bhi)])
    (vform f.w 128 f.nd 1) (vform f.L 0 f.k 1) (f.smMid lo hi blo bhi)

def smCkB (f : Fld) (lo hi blo bhi : Int) : Bool :=
  check 0 0 0 (f.code.smallMulP.take (f.nd + 1)) (rng 0 (f.shapeR lo hi) ++ rng 16 [(blo, bhi)])
    (vform f.w (128 + f.nd) 1 1) (vform f.w 16 1 1) []

def smCkT (f : Fld) (lo hi blo bhi : Int) : Bool :=
  check 0 0 0 (f.code.smallMulP.take (f.nd + 1)) (rng 0 (f.shapeR lo hi) ++ rng 16 [(blo, bhi)])
    [(f.k - 1, .fl 0, 1)] [(f.k - 1, .fl 0, 1)] []

/-- All but the product of the upper digit of the top word, exactly. -/
def smCkC (f : Fld) (lo hi blo bhi : Int) : Bool :=
  check 0 128 (128 + f.nd + 1) (viaSlot f.smP2 f.smD f.smRest f.smS (f.k - 1))
    (f.smMid lo hi blo bhi) (vform f.L 0 f.k 1)
    (outer f.w (128 + f.nd) 1 128 (f.nd - 1) 1 ++ [(f.k - 1, Kind.fl f.tb, (f.c : Int))])
    (rng 0 f.repR)

/-- The product of the upper digit. -/
def smCkM (f : Fld) (lo hi blo bhi : Int) : Bool :=
  check 0 128 (128 + f.nd + 1) f.smP2 (f.smMid lo hi blo bhi)
    [(f.smM (f.nd - 1), .fl 0, 1)] [(128 + (f.nd - 1), .pd (128 + f.nd), 1)]
    [(f.smM (f.nd - 1), -p2 63, p2 63 - 1), (f.smM (f.nd - 2), -p2 63, p2 63 - 1),
     (f.smM (f.nd - 3), -p2 63, p2 63 - 1), (f.smD - 1, -p2 63, p2 63 - 1)]

/-- Signs of the other summands of the top word. -/
def smCkS (f : Fld) (lo hi blo bhi slo shi : Int) : Bool :=
  check 0 128 (128 + f.nd + 1) f.smP2 (f.smMid lo hi blo bhi) [] []
    [(f.smM (f.nd - 1), slo, shi), (f.smM (f.nd - 2), slo, shi),
     (f.smM (f.nd - 3), slo, shi), (f.smD - 1, slo, shi)]

def smFull (f : Fld) : Bool :=
  let lo := -p2 f.tb - 1
  let hi := p2 (f.tb + 1) + f.c
  f.smForm && f.smCkA lo hi (-p2 31) (p2 31) && f.smCkB lo hi (-p2 31) (p2 31) &&
    f.smCkT lo hi (-p2 31) (p2 31) && f.smCkM lo hi (-p2 31) (p2 31)

def smSigns (f : Fld) : Bool :=
  let hi := p2 f.tb - 1
  f.smCkA 0 hi 0 (p2 31) && f.smCkA 0 hi (-p2 31) 0 &&
    f.smCkS 0 hi 0 (p2 31) 0 (p2 63) && f.smCkS 0 hi (-p2 31) 0 (-p2 63) 0

def smExact (f : Fld) : Bool := f.smCkC (-p2 f.tb - 1) (p2 (f.tb + 1) + f.c) (-p2 31) (p2 31)

set_option maxRecDepth 100000 in
theorem smFull_ok (f : Fld) (hf : f.split = true) : f.smFull = true := by
  cases f <;> first | exact absurd hf (by decide) | decide +kernel

set_option maxRecDepth 100000 in
theorem smSigns_ok (f : Fld) (hf : f.split = true) : f.smSigns = true := by
  cases f <;> first | exact absurd hf (by decide) | decide +kernel

set_option maxRecDepth 100000 in
theorem smExact_ok (f : Fld) (hf : f.split = true) (h : f ≠ e521_1) : f.smExact = true := by
  cases f <;> first | exact absurd hf (by decide) | exact absurd rfl h | decide +kernel

end Fld
end Verif

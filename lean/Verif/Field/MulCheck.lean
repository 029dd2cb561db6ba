import Verif.Field.Linear

/-!
# Multiplication, squaring, multiplication by a machine integer: checker runs
-/

namespace Verif
open Check

namespace Fld
variable {f : Fld}

/-- Number of digits the multiplication splits an operand into. -/
def nd : Fld → Nat
  | e221_3 => 8 | e222_117 => 8 | e251_9 => 9 | e255_19 => 10 | e382_105 => 14
  | e383_187 => 14 | e414_17 => 15 | e511_187 => 19 | e521_1 => 20

/-- Bits per digit. -/
def w (f : Fld) : Nat := f.L / 2

/-- Is the top word split in two digits? -/
def split (f : Fld) : Bool := f.nd == 2 * f.k

/-- Intervals of the words of a `Loose` representation. -/
def looseR (f : Fld) : List (Int × Int) := f.shapeR (-p2 (f.tb + 4)) (p2 (f.tb + 4))

/-- Intervals of the digits of a `Loose` representation. -/
def digR (f : Fld) : List (Int × Int) :=
  let e := f.tb + 4 - (if f.split then f.w else 0)
  List.replicate (f.nd - 1) (0, p2 f.w - 1) ++ [(-p2 e, p2 e)]

/-- What is known between the two phases of a multiplication. -/
def midMul (f : Fld) : List (Nat × Int × Int) :=
  rng 0 f.looseR ++ (rng 128 f.digR ++ rng (128 + f.nd) f.digR)

/-- What is known between the two phases of a squaring. -/
def midSq (f : Fld) : List (Nat × Int × Int) := rng 0 f.looseR ++ rng 128 f.digR

/-- The digits of `self`. -/
def mulCheckA (f : Fld) : Bool :=
  check 0 0 0 (f.code.mulP.take (2 * f.nd)) (rng 0 f.looseR ++ rng 16 f.looseR)
    (vform f.w 128 f.nd 1) (vform f.L 0 f.k 1) f.midMul

/-- The digits of `rhs`. -/
def mulCheckB (f : Fld) : Bool :=
  check 0 0 0 (f.code.mulP.take (2 * f.nd)) (rng 0 f.looseR ++ rng 16 f.looseR)
    (vform f.w (128 + f.nd) f.nd 1) (vform f.L 16 f.k 1) []

/-- Slot of `d0` in `mul_assign`. -/
def dMul (f : Fld) : Nat := 128 + 2 * f.nd + f.nd * f.nd

/-- Slot of `d0` in `square`. -/
def dSq (f : Fld) : Nat := 128 + f.nd + f.nd * f.nd

/-- What the reduction of the double-width product drops in `mul_assign`: in
`e251_9` the bits of `d8` above 56, in `e222_117` the bits of `hc7_0` above 29. -/
def droppedMul (f : Fld) : EForm :=
  match f with
  | .e251_9 => [(f.dMul + 16, .fl 56, p2 504)]
  | .e222_117 => [(f.dMul + 34, .fl 29, p2 232)]
  | _ => []

/-- What the reduction of the double-width product drops in `square`: in `e222_117`
the bits of `hc7_0` above 29. -/
def droppedSq (f : Fld) : EForm :=
  match f with
  | .e222_117 => [(f.dSq + 34, .fl 29, p2 232)]
  | _ => []

/-- Lower bound for the top word of a product. -/
def mulLo (f : Fld) : Int :=
  match f with
  | .e251_9 => 0
  | .e222_117 => 0
  | _ => -1

/-- Lower bound for the top word of a square. -/
def sqLo (f : Fld) : Int :=
  match f with
  | .e222_117 => 0
  | _ => -1

/-- The second phase of `mul_assign`, modulo `p`. -/
def mulCheckC (f : Fld) : Bool :=
  check f.pK 128 (128 + 2 * f.nd) (f.code.mulP.drop (2 * f.nd)) f.midMul
    (vform f.L 0 f.k 1 ++ f.droppedMul) (outer f.w (128 + f.nd) f.nd 128 f.nd 1)
    (rng 0 (f.shapeR f.mulLo (p2 (f.tb + 1) + f.c)))

/-- The digits in `square`. -/
def sqCheckA (f : Fld) : Bool :=
  check 0 0 0 (f.code.squareP.take f.nd) (rng 0 f.looseR ++ rng 16 [])
    (vform f.w 128 f.nd 1) (vform f.L 0 f.k 1) f.midSq

/-- The second phase of `square`, modulo `p`. -/
def sqCheckC (f : Fld) : Bool :=
  check f.pK 128 (128 + f.nd) (f.code.squareP.drop f.nd) f.midSq
    (vform f.L 0 f.k 1 ++ f.droppedSq) (outer f.w 128 f.nd 128 f.nd 1)
    (rng 0 (f.shapeR f.sqLo (p2 (f.tb + 1) + f.c)))

/-- The double-width product in the words `d0, …, d_(n-1)` at slots `base, base + 2, …`:
all but the last reduced to `L` bits. -/
def dform (L : Nat) : Nat → Nat → Int → EForm
  | _, 0, _ => []
  | base, 1, w => [(base, .fl 0, w)]
  | base, n + 2, w => (base, .fl 0, w) :: (base, .fl L, -(w * p2 L)) ::
      dform L (base + 2) (n + 1) (w * p2 L)

/-- The double-width product of `mul_assign`, exactly. -/
def mulCheckD (f : Fld) (D : Nat) : Bool :=
  check 0 128 (128 + 2 * f.nd) (f.code.mulP.drop (2 * f.nd)) f.midMul
    (dform f.L f.dMul D 1) (outer f.w (128 + f.nd) f.nd 128 f.nd 1) []

/-- The double-width product of `square`, exactly. -/
def sqCheckD (f : Fld) (D : Nat) : Bool :=
  check 0 128 (128 + f.nd) (f.code.squareP.drop f.nd) f.midSq
    (dform f.L f.dSq D 1) (outer f.w 128 f.nd 128 f.nd 1) []

/-- `hc7_0 = 117 * (d7 >> 19)` in `mul_assign` of `e222_117`. -/
def mulCheckH : Bool :=
  check 0 128 (128 + 2 * e222_117.nd) (e222_117.code.mulP.drop (2 * e222_117.nd)) e222_117.midMul
    [(e222_117.dMul + 34, .fl 0, 1), (e222_117.dMul + 14, .fl 19, -117)] [] []

/-- `hc7_0 = 117 * (d7 >> 19)` in `square` of `e222_117`. -/
def sqCheckH : Bool :=
  check 0 128 (128 + e222_117.nd) (e222_117.code.squareP.drop e222_117.nd) e222_117.midSq
    [(e222_117.dSq + 34, .fl 0, 1), (e222_117.dSq + 14, .fl 19, -117)] [] []

/-- Digits of an operand of `small_mul_assign`. -/
def smDigR (f : Fld) (lo hi : Int) : List (Int × Int) :=
  List.replicate (f.nd - 1) (0, p2 f.w - 1) ++
    [if f.split then (lo / p2 f.w, hi / p2 f.w) else (lo, hi)]

def midSm (f : Fld) (lo hi B : Int) : List (Nat × Int × Int) :=
  rng 0 (f.shapeR lo hi) ++ (rng 128 (f.smDigR lo hi) ++ rng (128 + f.nd) [(-B, B)])

/-- The digits in `small_mul_assign`. -/
def smCheckA (f : Fld) (lo hi B : Int) : Bool :=
  check 0 0 0 (f.code.smallMulP.take (f.nd + 1)) (rng 0 (f.shapeR lo hi) ++ rng 16 [(-B, B)])
    (vform f.w 128 f.nd 1) (vform f.L 0 f.k 1) (f.midSm lo hi B)

/-- The integer operand in `small_mul_assign`. -/
def smCheckB (f : Fld) (lo hi B : Int) : Bool :=
  check 0 0 0 (f.code.smallMulP.take (f.nd + 1)) (rng 0 (f.shapeR lo hi) ++ rng 16 [(-B, B)])
    (vform f.w (128 + f.nd) 1 1) (vform f.w 16 1 1) []

/-- The first phase of `small_mul_assign` leaves the top word alone. -/
def smCheckT (f : Fld) (lo hi B : Int) : Bool :=
  check 0 0 0 (f.code.smallMulP.take (f.nd + 1)) (rng 0 (f.shapeR lo hi) ++ rng 16 [(-B, B)])
    [(f.k - 1, .fl 0, 1)] [(f.k - 1, .fl 0, 1)] []

/-- The second phase of `small_mul_assign`, exactly. -/
def smCheckC (f : Fld) (lo hi B : Int) : Bool :=
  check 0 128 (128 + f.nd + 1) (f.code.smallMulP.drop (f.nd + 1)) (f.midSm lo hi B)
    (vform f.L 0 f.k 1)
    (outer f.w (128 + f.nd) 1 128 f.nd 1 ++ [(f.k - 1, Kind.fl f.tb, (f.c : Int))])
    (rng 0 f.repR)

end Fld
end Verif

import Verif.Field.MulCheck

/-!
# Exact values of products and squares: checker runs (definitions)
-/

namespace Verif
open Check

namespace Fld

/-- Is the product with `C_VAL` computed digit by digit (`hm0_0, …`)? -/
def viaDigits : Fld → Bool
  | e222_117 => true | e383_187 => true | _ => false

/-- `⌊y / 2 ^ tb⌋` for the number `y` in the words at `base, base + 2, …` (see `dform`). -/
def hform (L tb : Nat) : Nat → Nat → EForm
  | _, 0 => []
  | base, 1 => [(base, .fl tb, 1)]
  | base, n + 2 => (base, .fl tb, 1) :: (base, .fl L, -p2 (L - tb)) ::
      dform L (base + 2) (n + 1) (p2 (L - tb))

/-- Slot of `kin_0`, given the slot of `d0`. -/
def kinSlot (f : Fld) (d0 : Nat) : Nat :=
  let e := d0 + 2 * f.nd - 1 + f.k
  bif f.viaDigits then e + 2 * f.nd + 2 * f.k - 1
  else match f with
    | e521_1 => e + f.k
    | _ => e + 2 * f.k

/-- What `d8 & 0xffffffffffffff` drops in `mul_assign` of `e251_9`. -/
def hiMul (f : Fld) (w : Int) : EForm :=
  match f with
  | e251_9 => [(f.dMul + 16, .fl 56, w)]
  | _ => []

/-- The bits of the product above `n`. -/
def hF (f : Fld) (d0 : Nat) : EForm := hform f.L f.tb (d0 + 2 * (f.k - 1)) (f.nd - (f.k - 1))

/-- The same above `n + L * (k - 1)`. -/
def tF (f : Fld) (d0 : Nat) : EForm :=
  hform f.L f.tb (d0 + 2 * (2 * (f.k - 1))) (f.nd - 2 * (f.k - 1))

/-- What is known about the words `d0, …` of the double-width product. -/
def midD (f : Fld) (d0 : Nat) : List (Nat × Int × Int) :=
  let t : Int := bif f.split then p2 (2 * (f.tb + 4 - f.w)) + p2 (f.tb + 7 - f.w) else p2 63 - 1
  (d0 + 2 * (f.nd - 1), -t, t) ::
    ((List.range (f.nd - 1)).map fun i => (d0 + 2 * i, -p2 62, p2 62))

/-- Number of statements up to the double-width product. -/
def lenD (f : Fld) : Nat := f.nd * f.nd + (2 * f.nd - 1)

/-- The double-width product. -/
def prodCheck (f : Fld) (d0 w1 : Nat) (Q : Prog) (mid : List (Nat × Int × Int)) (pre : EForm) :
    Bool :=
  check 0 128 w1 (Q.take f.lenD) mid (dform f.L d0 f.nd 1) pre (rng 0 f.looseR ++ f.midD d0)

/-- The result in terms of the double-width product and of `kin_0`. -/
def sumCheck (f : Fld) (d0 w1 : Nat) (Q : Prog) (drop hd : EForm) : Bool :=
  check 0 128 w1 (Q.drop f.lenD) (rng 0 f.looseR ++ f.midD d0)
    (vform f.L 0 f.k 1 ++ (scale f.pK (f.hF d0 ++ hd) ++ ((f.kinSlot d0, .fl 0, f.pK) :: drop)))
    (dform f.L d0 f.nd 1) []

/-- An equation between final values. -/
def endCheck (f : Fld) (d0 w1 : Nat) (Q : Prog) (post : EForm) : Bool :=
  check 0 128 w1 (Q.drop f.lenD) (rng 0 f.looseR ++ f.midD d0) post [] []

/-- The words `d0, …` keep their values. -/
def keepCheck (f : Fld) (d0 w1 : Nat) (Q : Prog) : Bool :=
  check 0 128 w1 (Q.drop f.lenD) (rng 0 f.looseR ++ f.midD d0) (dform f.L d0 f.nd 1)
    (dform f.L d0 f.nd 1) []

/-- What is checked about the second half of a multiplication or squaring: the result in
terms of the double-width product and of `kin_0`, and `kin_0`. -/
def restCheck (f : Fld) (d0 w1 : Nat) (Q : Prog) (drop hd td : EForm) : Bool :=
  let kin := f.kinSlot d0
  f.sumCheck d0 w1 Q drop hd &&
  (f.keepCheck d0 w1 Q &&
  (f.endCheck d0 w1 Q [(kin, .fl 0, 1), (kin - 1, .fl f.tb, -1)] &&
   bif f.viaDigits then
     f.endCheck d0 w1 Q (dform f.L (kin - (2 * f.k - 1)) f.k 1 ++ (drop ++ scale (-f.c) (f.hF d0)))
   else f.endCheck d0 w1 Q ((kin - 1, .fl 0, 1) :: scale (-f.c) (f.tF d0 ++ td))))

/-- The statements of `mul_assign` after the splitting into digits. -/
def mulQ (f : Fld) : Prog := f.code.mulP.drop (2 * f.nd)

/-- The statements of `square` after the splitting into digits. -/
def sqQ (f : Fld) : Prog := f.code.squareP.drop f.nd

def mulProdCheck (f : Fld) : Bool :=
  f.prodCheck f.dMul (128 + 2 * f.nd) f.mulQ f.midMul (outer f.w (128 + f.nd) f.nd 128 f.nd 1)

def mulRestCheck (f : Fld) : Bool :=
  f.restCheck f.dMul (128 + 2 * f.nd) f.mulQ f.droppedMul (f.hiMul (-p2 253)) (f.hiMul (-p2 29))

def sqProdCheck (f : Fld) : Bool :=
  f.prodCheck f.dSq (128 + f.nd) f.sqQ f.midSq (outer f.w 128 f.nd 128 f.nd 1)

def sqRestCheck (f : Fld) : Bool :=
  f.restCheck f.dSq (128 + f.nd) f.sqQ f.droppedSq [] []

end Fld
end Verif

import Verif.Model.Point
import Verif.Model.Fields

/-!
# Edwards points

The generic code of `/repo/src/curve/edwards.rs` (`EdwardsExtended<C>`), over any
implementation of the methods of `PrimeField` it uses, and its five instances
`/repo/src/curve/{e_222,curve1174,e_382,curve41417,e_521}.rs`.

Conventions as in `Verif/Model/Field.lean`: `&mut self` methods return the new `self`,
`clone()` and assignment of a `Copy` value are the value, a panic is an `Except.error`.
The operators `+ - *` between scalars are those of the scalar type; all their by-value and
by-reference forms are the same function (C23).
-/

namespace Verif

/-- `EdwardsExtended` (lines 14–20): homogeneous extended coordinates. -/
structure EdwardsExtended (S : Type) where
  x : S
  y : S
  z : S
  t : S
  deriving DecidableEq, Repr

/-- The methods of `C::Scalar : PrimeField` and of `C : EdwardsCurve` that
`/repo/src/curve/edwards.rs` calls. -/
structure Scalar (S : Type) where
  zero : S
  one : S
  add : S → S → Res S
  sub : S → S → Res S
  mul : S → S → Res S
  squared : S → Res S
  smallMul : S → Nat → Res S
  normalize : S → Res S
  nbits : Nat
  bitNormalized : S → Nat → Res Bool
  filled : Bool → S
  normalizedBitand : S → S → S
  normalizedBitor : S → S → S
  /-- `EdwardsCurve::d_val` -/
  dVal : S

variable {S : Type} (C : Scalar S)

/-- Value of an expression. -/
def PExpr.eval (ρ : Tree S) : PExpr → Res S
  | .get r => match ρ.get r with
    | some v => .ok v
    | none => .error .index
  | .dval => .ok C.dVal
  | .add a b => do C.add (← a.eval ρ) (← b.eval ρ)
  | .sub a b => do C.sub (← a.eval ρ) (← b.eval ρ)
  | .mul a b => do C.mul (← a.eval ρ) (← b.eval ρ)
  | .squared a => do C.squared (← a.eval ρ)
  | .smallMul a n => do C.smallMul (← a.eval ρ) n

/-- Run a straight-line function body. -/
def runPoint : PProg → Tree S → Res (Tree S)
  | [], ρ => .ok ρ
  | .set r e :: rest, ρ => do runPoint rest (ρ.set r (← e.eval C ρ))

namespace EdwardsExtended

/-- The registers before a function body is run. -/
def regs (p q : EdwardsExtended S) : Tree S :=
  (Tree.leaf : Tree S).setList 0 [p.x, p.y, p.z, p.t, q.x, q.y, q.z, q.t]

/-- `self` after a function body has been run. -/
def ofRegs (ρ : Tree S) : Res (EdwardsExtended S) :=
  match ρ.get 0, ρ.get 1, ρ.get 2, ρ.get 3 with
  | some x, some y, some z, some t => .ok ⟨x, y, z, t⟩
  | _, _, _, _ => .error .index

/-- Call a function with body `b` on `self = p` and `rhs = q`. -/
def call (b : PProg) (p q : EdwardsExtended S) : Res (EdwardsExtended S) := do
  ofRegs (← runPoint C b (regs p q))

/-- Body of `AddAssign<&Self>::add_assign`, /repo/src/curve/edwards.rs:25-41. -/
def addP : PProg := rust_point% "
        let a = self.x * rhs.x;
        let b = self.y * rhs.y;
        let c = self.t * C::d_val() * rhs.t;
        let d = self.z * rhs.z;
        let e = ((self.x + self.y) * (rhs.x + rhs.y)) - a - b;
        let f = d - c;
        let g = d + c;
        let h = b - a;
        let x3 = e * f;
        let y3 = g * h;
        let z3 = f * g;
        let t3 = e * h;

        self.x = x3;
        self.y = y3;
        self.z = z3;
        self.t = t3;
"

/-- Body of `Point::double`, /repo/src/curve/edwards.rs:162-178. -/
def doubleP : PProg := rust_point% "
        let a = self.x.squared();
        let b = self.y.squared();
        let c = self.z.squared().small_mul(2);
        let d = a;
        let e = (self.x + self.y).squared() - a - b;
        let g = d + b;
        let f = g - c;
        let h = d - b;
        let x3 = e * f;
        let y3 = g * h;
        let z3 = f * g;
        let t3 = e * h;

        self.x = x3;
        self.y = y3;
        self.z = z3;
        self.t = t3;
"

/-- Body of `Point::triple`, /repo/src/curve/edwards.rs:188-209. -/
def tripleP : PProg := rust_point% "
        let yy = self.y.squared();
        let xx = self.x.squared();
        let ap = yy + xx;
        let b = (self.z.squared().small_mul(2) - ap).small_mul(2);
        let xb = xx * b;
        let yb = yy * b;
        let aa = ap * (yy - xx);
        let f = aa - yb;
        let g = aa - xb;
        let xe = self.x * (yb + aa);
        let yh = self.y * (xb - aa);
        let zf = self.z * f;
        let zg = self.z * g;
        let x3 = xe * zf;
        let y3 = yh * zg;
        let z3 = zf * zg;
        let t3 = xe * yh;

        self.x = x3;
        self.y = y3;
        self.z = z3;
        self.t = t3;
"

/-- `AddAssign<&Self>::add_assign` (lines 22–43); `AddAssign<Self>` (lines 45–50) calls it. -/
def addAssign (p q : EdwardsExtended S) : Res (EdwardsExtended S) := call C addP p q

/-- `Add<&Self> for &Self` (lines 52–61): clone, then `+=`; `Add<Self> for Self`
(lines 63–69) calls it. -/
def add (p q : EdwardsExtended S) : Res (EdwardsExtended S) := addAssign C p q

/-- `Point::double` (lines 161–179). (The body does not mention `rhs`.) -/
def double (p : EdwardsExtended S) : Res (EdwardsExtended S) := call C doubleP p p

/-- `Point::doubled`: clone, then `double`. -/
def doubled (p : EdwardsExtended S) : Res (EdwardsExtended S) := double C p

/-- `Point::triple` (lines 187–210). -/
def triple (p : EdwardsExtended S) : Res (EdwardsExtended S) := call C tripleP p p

/-- `Point::tripled`: clone, then `triple`. -/
def tripled (p : EdwardsExtended S) : Res (EdwardsExtended S) := triple C p

/-- `normalized_bitand` (lines 72–77). -/
def normalizedBitand (p : EdwardsExtended S) (mask : S) : EdwardsExtended S :=
  ⟨C.normalizedBitand p.x mask, C.normalizedBitand p.y mask, C.normalizedBitand p.z mask,
    C.normalizedBitand p.t mask⟩

/-- `normalized_bitor` (lines 79–84). -/
def normalizedBitor (p q : EdwardsExtended S) : EdwardsExtended S :=
  ⟨C.normalizedBitor p.x q.x, C.normalizedBitor p.y q.y, C.normalizedBitor p.z q.z,
    C.normalizedBitor p.t q.t⟩

/-- `Point::zero` (lines 90–97). -/
def zero : EdwardsExtended S := ⟨C.zero, C.one, C.one, C.one⟩

/-- `Point::init` (lines 99–104): all fields are overwritten. -/
def init (_self : EdwardsExtended S) (x y : S) : EdwardsExtended S := ⟨x, y, C.one, C.one⟩

end EdwardsExtended

/-! ### The ladder -/

/-- The variables of `scalar_mult_normalized`.  `d0`, `d1`, `idx`, `bit` and the masks are
local to an iteration and assigned in it before use; here they keep old values between
iterations. -/
structure Ladder (S : Type) where
  r0 : EdwardsExtended S
  r1 : EdwardsExtended S
  d0 : EdwardsExtended S
  d1 : EdwardsExtended S
  idx : Nat
  bit : Bool
  tmask : S
  fmask : S

namespace Ladder

def get (s : Ladder S) : LVar → EdwardsExtended S
  | .r0 => s.r0
  | .r1 => s.r1
  | .d0 => s.d0
  | .d1 => s.d1

def set (s : Ladder S) : LVar → EdwardsExtended S → Ladder S
  | .r0, p => { s with r0 := p }
  | .r1, p => { s with r1 := p }
  | .d0, p => { s with d0 := p }
  | .d1, p => { s with d1 := p }

def mask (s : Ladder S) : LMask → S
  | .tmask => s.tmask
  | .fmask => s.fmask

def setMask (s : Ladder S) : LMask → S → Ladder S
  | .tmask, m => { s with tmask := m }
  | .fmask, m => { s with fmask := m }

/-- What the ladder does, as an observer of its control flow sees it: the statement executed and
the index of the loop variable, not the data. -/
structure Event where
  iter : Nat
  stmt : LStmt
  deriving DecidableEq, Repr

/-- Execute one statement of iteration `i` with scalar `k`; also returns the events. -/
def exec (k : S) (i : Nat) (s : Ladder S) : LStmt → Res (Ladder S × List Event)
  | .letIdx => .ok ({ s with idx := C.nbits - 1 - i }, [⟨i, .letIdx⟩])
  | .letBit => do return ({ s with bit := ← C.bitNormalized k s.idx }, [⟨i, .letBit⟩])
  | .letMask m neg => .ok (s.setMask m (C.filled (if neg then !s.bit else s.bit)),
      [⟨i, .letMask m neg⟩])
  | .copy x y => .ok (s.set x (s.get y), [⟨i, .copy x y⟩])
  | .addAssign x y => do
    return (s.set x (← (s.get x).addAssign C (s.get y)), [⟨i, .addAssign x y⟩])
  | .bitand x m => .ok (s.set x ((s.get x).normalizedBitand C (s.mask m)), [⟨i, .bitand x m⟩])
  | .bitor x y => .ok (s.set x ((s.get x).normalizedBitor C (s.get y)), [⟨i, .bitor x y⟩])
  | .double x => do return (s.set x (← (s.get x).double C), [⟨i, .double x⟩])
  | .ifBit a b => if s.bit then exec k i s a else exec k i s b

/-- Execute a sequence of statements. -/
def execAll (k : S) (i : Nat) : List LStmt → Ladder S → Res (Ladder S × List Event)
  | [], s => .ok (s, [])
  | a :: rest, s => do
    let (s', ev) ← exec C k i s a
    let (s'', ev') ← execAll k i rest s'
    return (s'', ev ++ ev')

/-- `n` iterations starting with loop variable `i`. -/
def loop (k : S) (body : List LStmt) : Nat → Nat → Ladder S → Res (Ladder S × List Event)
  | 0, _, s => .ok (s, [])
  | n + 1, i, s => do
    let (s', ev) ← execAll C k i body s
    let (s'', ev') ← loop k body n (i + 1) s'
    return (s'', ev ++ ev')

/-- Body of the loop `for i in 0..nbits`, /repo/src/curve/edwards.rs:120-152. -/
def body : List LStmt := rust_ladder% "
            let idx = nbits - 1 - i;
            let bit = rhs.bit_normalized(idx);
            // Note that we fill everything with 0s or 1s.  This
            // allows us to skip normalization.
            let tmask = C::Scalar::filled(bit);
            let fmask = C::Scalar::filled(!bit);
            let mut d0 = r0;
            let mut d1 = r1;

            // r0 = r1 = r0 + r1
            r0 += r1;
            r1 = r0;

            // d0 = bit ? r0 : r1
            d0.normalized_bitand(&tmask);
            d1.normalized_bitand(&fmask);
            d0.normalized_bitor(&d1);

            // d0 *= 2
            d0.double();

            // d1 = d0
            d1 = d0;

            // r0 = bit ? d0 : r0
            r0.normalized_bitand(&fmask);
            d0.normalized_bitand(&tmask);
            r0.normalized_bitor(&d0);

            // r1 = bit ? r1 : d1
            r1.normalized_bitand(&tmask);
            d1.normalized_bitand(&fmask);
            r1.normalized_bitor(&d1);
"

end Ladder

namespace EdwardsExtended

/-- `Point::scalar_mult_normalized` (lines 111–159); returns the new `self` and the events of the loop. -/
def scalarMultNormalizedT (p : EdwardsExtended S) (k : S) :
    Res (EdwardsExtended S × List Ladder.Event) := do
  let r0 := zero C
  let r1 := p
  let nbits := C.nbits
  let (s, ev) ← Ladder.loop C k Ladder.body nbits 0
    ⟨r0, r1, r0, r1, 0, false, C.filled false, C.filled false⟩
  return (⟨s.r0.x, s.r0.y, s.r0.z, s.r0.t⟩, ev)

/-- `Point::scalar_mult_normalized` without the record of events. -/
def scalarMultNormalized (p : EdwardsExtended S) (k : S) : Res (EdwardsExtended S) := do
  return (← scalarMultNormalizedT C p k).1

/-- `Point::scalar_mult` (lines 106–109): returns the new `self` and the new `rhs`. -/
def scalarMult (p : EdwardsExtended S) (k : S) : Res (EdwardsExtended S × S) := do
  let k' ← C.normalize k
  return (← scalarMultNormalized C p k', k')

end EdwardsExtended

/-- The methods of a field type as a `Scalar` (`small_mul` takes an `i32`; the only literal in
the source is `2`). -/
def FieldCode.scalar (F : FieldCode) (pr : Profile) (d : Elem) : Scalar Elem where
  zero := F.ZERO
  one := F.ONE
  add := F.add pr
  sub := F.sub pr
  mul := F.mul pr
  squared := F.squared pr
  smallMul := fun a n => F.smallMul pr a n
  normalize := F.normalize pr
  nbits := F.nbits
  bitNormalized := F.bitNormalized
  filled := F.filled
  normalizedBitand := FieldCode.normalizedBitand
  normalizedBitor := FieldCode.normalizedBitor
  dVal := d

/-- `impl EdwardsCurve for E222`, /repo/src/curve/e_222.rs:7-11. -/
def e222 (pr : Profile) : Scalar Elem :=
  Fields.E222_117.code.scalar pr Fields.E222_117.E222_D

/-- `impl EdwardsCurve for Curve1174`, /repo/src/curve/curve1174.rs:7-11. -/
def curve1174 (pr : Profile) : Scalar Elem :=
  Fields.E251_9.code.scalar pr Fields.E251_9.CURVE1174_D

/-- `impl EdwardsCurve for E382`, /repo/src/curve/e_382.rs:7-11. -/
def e382 (pr : Profile) : Scalar Elem :=
  Fields.E382_105.code.scalar pr Fields.E382_105.E382_D

/-- `impl EdwardsCurve for Curve41417`, /repo/src/curve/curve41417.rs:7-11. -/
def curve41417 (pr : Profile) : Scalar Elem :=
  Fields.E414_17.code.scalar pr Fields.E414_17.CURVE41417_D

/-- `impl EdwardsCurve for E521`, /repo/src/curve/e_521.rs:7-11. -/
def e521 (pr : Profile) : Scalar Elem :=
  Fields.E521_1.code.scalar pr Fields.E521_1.E521_D

end Verif

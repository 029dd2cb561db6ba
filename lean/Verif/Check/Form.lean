import Verif.Model.Ast

/-!
# A checker for straight-line limb code

This file contains no repo code and no specification; it is proof automation.
`wp` walks through a program, bounding every intermediate value by an interval
(forward) and rewriting a linear combination of the final variables into one of
the initial variables (backward).  `Verif.Check.Sound` proves that a successful
run of the checker implies the corresponding statement about `runProg`.
-/

namespace Verif.Check

/-- What a coefficient at slot `s` is multiplied with: `1`, `⌊ρ s / 2 ^ k⌋` or
`ρ s * ρ t`. -/
inductive Kind where
  | one
  | fl (k : Nat)
  | pd (t : Nat)

/-- Boolean equality of kinds. -/
def Kind.beq : Kind → Kind → Bool
  | .one, .one => true
  | .fl a, .fl b => Nat.beq a b
  | .pd a, .pd b => Nat.beq a b
  | _, _ => false

/-- A linear combination as a list: slot, kind, coefficient. -/
abbrev EForm := List (Nat × Kind × Int)

/-- A linear combination as a trie indexed by slot. -/
inductive FT where
  | leaf
  | node (l : FT) (v : List (Kind × Int)) (r : FT)

/-- Add a coefficient to the list of a slot. -/
def insL (kd : Kind) (c : Int) : List (Kind × Int) → List (Kind × Int)
  | [] => [(kd, c)]
  | (k', c') :: r => bif kd.beq k' then (k', c' + c) :: r else (k', c') :: insL kd c r

/-- Add a coefficient (`fuel > i`). -/
def FT.ins : Nat → FT → Nat → Kind → Int → FT
  | 0, t, _, _, _ => t
  | n + 1, leaf, i, kd, c =>
    bif Nat.beq i 0 then node leaf [(kd, c)] leaf
    else bif Nat.beq (i % 2) 1 then node (ins n leaf (i / 2) kd c) [] leaf
    else node leaf [] (ins n leaf (i / 2 - 1) kd c)
  | n + 1, node l v r, i, kd, c =>
    bif Nat.beq i 0 then node l (insL kd c v) r
    else bif Nat.beq (i % 2) 1 then node (ins n l (i / 2) kd c) v r
    else node l v (ins n r (i / 2 - 1) kd c)

/-- The list at a slot. -/
def FT.getL : FT → Nat → List (Kind × Int)
  | leaf, _ => []
  | node l v r, i =>
    bif Nat.beq i 0 then v
    else bif Nat.beq (i % 2) 1 then l.getL (i / 2) else r.getL (i / 2 - 1)

/-- Remove everything at a slot. -/
def FT.clear : FT → Nat → FT
  | leaf, _ => leaf
  | node l v r, i =>
    bif Nat.beq i 0 then node l [] r
    else bif Nat.beq (i % 2) 1 then node (l.clear (i / 2)) v r
    else node l v (r.clear (i / 2 - 1))

/-- `f` times `c`, added to a trie. -/
def FT.addForm (c : Int) : EForm → FT → FT
  | [], t => t
  | (s, kd, a) :: r, t => FT.addForm c r (t.ins (s + 1) s kd (c * a))

/-- All coefficients are `0` modulo `m` (`m = 0`: equal to `0`). -/
def FT.zero (m : Int) : FT → Bool
  | leaf => true
  | node l v r => (v.all fun x => decide (x.2 % m = 0)) && l.zero m && r.zero m

/-- `2 ^ k` as an integer, fast in the kernel. -/
def p2 (k : Nat) : Int := Int.ofNat (Nat.pow 2 k)

/-- Multiply a form by a constant. -/
def scale (c : Int) : EForm → EForm
  | [] => []
  | (s, kd, a) :: r => (s, kd, c * a) :: scale c r

/-- All coefficients divisible by `2 ^ s`: the quotient. -/
def divAll (s : Nat) : EForm → Option EForm
  | [] => some []
  | (sl, kd, c) :: r =>
    bif decide (c % p2 s = 0) then (divAll s r).map ((sl, kd, c / p2 s) :: ·) else none

/-- `⌊f / 2 ^ s⌋` when at most one term is not divisible by `2 ^ s`, and that term
is a power of two times a floor. -/
def floorDiv (s : Nat) : EForm → Option EForm
  | [] => some []
  | (sl, kd, c) :: r =>
    bif decide (c % p2 s = 0) then (floorDiv s r).map ((sl, kd, c / p2 s) :: ·)
    else match kd with
      | .fl k =>
        let j := Nat.log2 c.toNat
        bif decide (c = p2 j) && Nat.blt j s then
          (divAll s r).map ((sl, .fl (k + (s - j)), 1) :: ·)
        else none
      | _ => none

/-- Abstract value of an expression. If `ex`, the value lies in `[lo, hi]` and equals
`f`; otherwise it is only known to be `f` modulo `2 ^ 64`. -/
structure AV where
  ex : Bool
  lo : Int
  hi : Int
  f : EForm

/-- An exact value, provided the bounds are in the `i64` range. -/
def exact64 (lo hi : Int) (f : EForm) : Option AV :=
  bif inI64 lo && inI64 hi then some ⟨true, lo, hi, f⟩ else none

/-- `⌊x / 2 ^ b⌋`: nothing if `x` is known to lie in `[0, 2 ^ b)`. -/
def floorTop (x : AV) (b : Nat) : Option EForm :=
  bif x.ex && decide (0 ≤ x.lo) && decide (x.hi < p2 b) then some [] else floorDiv b x.f

/-- `x & mask` for `mask = 2 ^ b - 2 ^ a`. -/
def maskAV (x : AV) (M : Nat) : Option AV :=
  let b := Nat.log2 M + 1
  let r := 2 ^ b - M
  let a := Nat.log2 r
  bif Nat.beq r (2 ^ a) && Nat.ble b 63 && Nat.ble a b then
    bif Nat.beq a 0 && x.ex && decide (0 ≤ x.lo) && decide (x.hi < p2 b) then some x
    else do
      let f1 ← floorDiv a x.f
      let f2 ← floorTop x b
      some ⟨true, 0, M, scale (p2 a) f1 ++ scale (-p2 b) f2⟩
  else none

/-- All coefficients divisible by `2 ^ t`. -/
def divisible (t : Nat) (f : EForm) : Bool := f.all fun x => decide (x.2.2 % p2 t = 0)

/-- `x | y` with `x` in `[0, 2 ^ t)` and `y` divisible by `2 ^ t`. -/
def orAV (x y : AV) : Option AV :=
  let t := Nat.log2 x.hi.toNat + 1
  bif decide (0 ≤ x.lo) && divisible t y.f && Nat.ble t 63 then
    exact64 (x.lo + y.lo) (x.hi + y.hi) (x.f ++ y.f)
  else none

/-- Form of a product: by a constant, or of two variables the second of which lies
in the window `[w0, w1)`. -/
def mulForm (w0 w1 : Nat) (f g : EForm) : Option EForm :=
  match g with
  | [(_, .one, c)] => some (scale c f)
  | [(t, .fl 0, 1)] =>
    match f with
    | [(s, .fl 0, 1)] =>
      bif Nat.ble s t then
        bif Nat.ble w0 t && Nat.blt t w1 then some [(s, .pd t, 1)] else none
      else bif Nat.ble w0 s && Nat.blt s w1 then some [(t, .pd s, 1)] else none
    | _ => none
  | _ => none

/-- Abstract value of an expression, given intervals for the variables. -/
def absE (w0 w1 : Nat) (ι : Tree (Int × Int)) : Expr → Option AV
  | .lit n => exact64 n n [(2047, .one, n)]
  | .get s => match ι.get s with
    | some (lo, hi) => some ⟨true, lo, hi, [(s, .fl 0, 1)]⟩
    | none => none
  | .add a b => do
    let x ← absE w0 w1 ι a
    let y ← absE w0 w1 ι b
    bif x.ex && y.ex then exact64 (x.lo + y.lo) (x.hi + y.hi) (x.f ++ y.f) else none
  | .sub a b => do
    let x ← absE w0 w1 ι a
    let y ← absE w0 w1 ι b
    bif x.ex && y.ex then
      exact64 (x.lo - y.hi) (x.hi - y.lo) (x.f ++ scale (-1) y.f) else none
  | .mul a b => do
    let x ← absE w0 w1 ι a
    let y ← absE w0 w1 ι b
    let f ← mulForm w0 w1 x.f y.f
    let p := x.lo * y.lo
    let q := x.lo * y.hi
    let r := x.hi * y.lo
    let s := x.hi * y.hi
    bif x.ex && y.ex then
      exact64 (min (min p q) (min r s)) (max (max p q) (max r s)) f else none
  | .and a (.lit M) => do
    let x ← absE w0 w1 ι a
    maskAV x M
  | .and _ _ => none
  | .or a b => do
    let x ← absE w0 w1 ι a
    let y ← absE w0 w1 ι b
    bif x.ex && y.ex then
      match orAV x y with
      | some z => some z
      | none => orAV y x
    else none
  | .shl a k => do
    let x ← absE w0 w1 ι a
    bif x.ex then
      let f := scale (p2 k) x.f
      match exact64 (x.lo * p2 k) (x.hi * p2 k) f with
      | some z => some z
      | none => some ⟨false, 0, 0, f⟩
    else none
  | .shr a k => do
    let x ← absE w0 w1 ι a
    let f ← floorDiv k x.f
    bif x.ex then some ⟨true, x.lo / p2 k, x.hi / p2 k, f⟩ else none
  | .u8 a => do
    let x ← absE w0 w1 ι a
    maskAV x 255

/-- Sum of the coefficients of `fl 0`. -/
def coef0 : List (Kind × Int) → Int
  | [] => 0
  | (.fl 0, c) :: r => c + coef0 r
  | _ :: r => coef0 r

/-- All coefficients of kinds other than `fl 0` vanish modulo `m`. -/
def restZero (m : Int) : List (Kind × Int) → Bool
  | [] => true
  | (.fl 0, _) :: r => restZero m r
  | (_, c) :: r => decide (c % m = 0) && restZero m r

/-- Substitute `x := f`. -/
def subst (m : Int) (Φ : FT) (x : Nat) (f : EForm) : Option FT :=
  let L := Φ.getL x
  bif restZero m L then some (FT.addForm (coef0 L) f (Φ.clear x)) else none

/-- Place of a statement. -/
def place : Stmt → Nat
  | .bind x _ => x
  | .store x _ => x

/-- Right-hand side of a statement. -/
def rhs : Stmt → Expr
  | .bind _ e => e
  | .store _ e => e

/-- Is the assignment allowed? -/
def placeOk (w0 w1 : Nat) (ι : Tree (Int × Int)) : Stmt → Bool
  | .bind x _ => !(Nat.ble w0 x && Nat.blt x w1)
  | .store x _ => !(Nat.ble w0 x && Nat.blt x w1) && (ι.get x).isSome

/-- Forward intervals and backward rewriting. -/
def wp (m : Int) (w0 w1 : Nat) : Prog → Tree (Int × Int) → FT → Option (FT × Tree (Int × Int))
  | [], ι, Φ => some (Φ, ι)
  | st :: rest, ι, Φ =>
    match absE w0 w1 ι (rhs st) with
    | none => none
    | some av =>
      bif av.ex && placeOk w0 w1 ι st then
        match wp m w0 w1 rest (ι.set (place st) (av.lo, av.hi)) Φ with
        | none => none
        | some (Φ', ι') =>
          match subst m Φ' (place st) av.f with
          | none => none
          | some Φ'' => some (Φ'', ι')
      else none

/-- The trie of a form. -/
def ofForm (f : EForm) : FT := FT.addForm 1 f .leaf

/-- Intervals for consecutive slots. -/
def ranges (l : List (Nat × Int × Int)) : Tree (Int × Int) :=
  l.foldl (fun t x => t.set x.1 x.2) .leaf

/-- `post` after the program equals `pre` before it (mod `m`), and the final intervals
of the listed slots are contained in the given ones. -/
def check (m : Int) (w0 w1 : Nat) (p : Prog) (ι : List (Nat × Int × Int))
    (post pre : EForm) (out : List (Nat × Int × Int)) : Bool :=
  match wp m w0 w1 p (ranges ι) (ofForm post) with
  | none => false
  | some (Φ, ι') =>
    (FT.addForm (-1) pre Φ).zero m && out.all fun x =>
      match ι'.get x.1 with
      | some (lo, hi) => decide (x.2.1 ≤ lo) && decide (hi ≤ x.2.2)
      | none => false

end Verif.Check

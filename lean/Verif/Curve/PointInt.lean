import Verif.Curve.LadderValue
import Verif.Field.ChainInt
import Verif.Props.Observed

/-!
# The operations on points as functions on integers

`sumInt`, `dblInt`, `triInt` and `multInt` are what `+`, `double`, `triple` and the multiplications by a scalar do to
the integers that the words of the four coordinates stand for.
-/

namespace Verif
open FieldCode Check

namespace Crv
variable (c : Crv)

/-- `x.small_mul(2)` on integers. -/
def twice (x : Int) : Int :=
  match c with
  | e521 =>
    let q := x / 2 ^ 521
    let c5 := Fld.mulCarry x 2 q 5
    let c6 := Fld.mulCarry x 2 q 6
    let c7 := Fld.mulCarry x 2 (q + 2 ^ 378 * (c5 - c6)) 7
    let c8 := Fld.mulCarry x 2 (q + 2 ^ 378 * (c5 - c6) + 2 ^ 432 * (c6 - c7)) 8
    x * 2 + q + 2 ^ 378 * (c5 - c6) + 2 ^ 432 * (c6 - c7) + 2 ^ 486 * (c7 - c8)
  | _ => x * 2 + c.fld.c * (x / 2 ^ c.fld.n)

/-- `p + q` on integers. -/
def sumInt (p q : EdwardsExtended Int) : EdwardsExtended Int :=
  let f := c.fld
  let a := f.times p.x q.x
  let b := f.times p.y q.y
  let k := f.times (f.times p.t (c.dInt % f.p)) q.t
  let d := f.times p.z q.z
  let e := f.minus (f.minus (f.times (f.plus p.x p.y) (f.plus q.x q.y)) a) b
  let g := f.plus d k
  let h := f.minus b a
  let u := f.minus d k
  ⟨f.times e u, f.times g h, f.times u g, f.times e h⟩

/-- `p.doubled()` on integers. -/
def dblInt (p : EdwardsExtended Int) : EdwardsExtended Int :=
  let f := c.fld
  let a := f.sq p.x
  let b := f.sq p.y
  let e := f.minus (f.minus (f.sq (f.plus p.x p.y)) a) b
  let g := f.plus a b
  let u := f.minus g (c.twice (f.sq p.z))
  let h := f.minus a b
  ⟨f.times e u, f.times g h, f.times u g, f.times e h⟩

/-- `p.tripled()` on integers. -/
def triInt (p : EdwardsExtended Int) : EdwardsExtended Int :=
  let f := c.fld
  let yy := f.sq p.y
  let xx := f.sq p.x
  let ap := f.plus yy xx
  let b := c.twice (f.minus (c.twice (f.sq p.z)) ap)
  let xb := f.times xx b
  let yb := f.times yy b
  let aa := f.times ap (f.minus yy xx)
  let xe := f.times p.x (f.plus yb aa)
  let yh := f.times p.y (f.minus xb aa)
  let zf := f.times p.z (f.minus aa yb)
  let zg := f.times p.z (f.minus aa xb)
  ⟨f.times xe zf, f.times yh zg, f.times zf zg, f.times xe yh⟩

/-- The ladder on integers: `bits` are the bits of the scalar, the most significant first. -/
def ladInt : List Bool → EdwardsExtended Int → EdwardsExtended Int → EdwardsExtended Int
  | [], r0, _ => r0
  | true :: bits, r0, r1 => ladInt bits (c.dblInt r0) (c.sumInt r0 r1)
  | false :: bits, r0, r1 => ladInt bits (c.sumInt r0 r1) (c.dblInt r1)

/-- The bits of `x` that the ladder reads, the most significant first. -/
def bitsInt (x : Int) : List Bool :=
  (List.range c.fld.n).map fun i => decide (x / 2 ^ (c.fld.n - 1 - i) % 2 = 1)

/-- `p.scalar_mult_normalized(x)` on integers. -/
def multInt (p : EdwardsExtended Int) (x : Int) : EdwardsExtended Int :=
  c.ladInt (c.bitsInt x) ⟨0, 1, 1, 1⟩ p

/-! ### Proofs -/

theorem addI_plus (x y : Int) : c.addI x y = c.fld.plus x y := by
  rw [addI_eq, Fld.plus]; ring

theorem subI_minus (x y : Int) : c.subI x y = c.fld.minus x y := subI_eq c x y

theorem mulI_times (x y : Int) : c.mulI (x * y) = c.fld.times x y := mulI_eq c _

theorem sqI_sq (x : Int) : c.sqI (x * x) = c.fld.sq x := sqI_eq c _

theorem twiceI_twice (x : Int) : c.twiceI x = c.twice x := by
  cases c <;> simp only [twiceI, twice, carryI_eq, p2_eq]

theorem V_dElem : c.fld.V c.dElem = c.dInt % c.fld.p := c.dVal_canon.2.1

section
attribute [local irreducible] Crv.addI Crv.subI Crv.mulI Crv.sqI Crv.twiceI Crv.freeB Crv.prodB
  Fld.V FieldCode.forceInt Crv.dElem
open EdwardsExtended

/-- `callI` of `tripleP`, unfolded. -/
def tripleF (p : EdwardsExtended Int) (k : EdwardsExtended Int → Bool) : Bool :=
  let mul := fun (u v : Int) (k : Int → Bool) => forceInt (u * v) fun x =>
    (!false || c.prodB x) && forceInt (c.mulI x) k
  let sq := fun (u : Int) (k : Int → Bool) => forceInt (u * u) fun x => forceInt (c.sqI x) k
  let add := fun (u v : Int) (k : Int → Bool) => forceInt (c.addI u v) k
  let sub := fun (u v : Int) (k : Int → Bool) => (!false || c.freeB v) && forceInt (c.subI u v) k
  let twice := fun (u : Int) (k : Int → Bool) => (!false || c.freeB u) && forceInt (c.twiceI u) k
  sq p.y fun yy => sq p.x fun xx => add yy xx fun ap =>
  sq p.z fun z => twice z fun z => sub z ap fun z => twice z fun b =>
  mul xx b fun xb => mul yy b fun yb => sub yy xx fun w => mul ap w fun aa =>
  sub aa yb fun f => sub aa xb fun g =>
  add yb aa fun w => mul p.x w fun xe => sub xb aa fun w => mul p.y w fun yh =>
  mul p.z f fun zf => mul p.z g fun zg =>
  mul xe zf fun x => mul yh zg fun y => mul zf zg fun z => mul xe yh fun t => k ⟨x, y, z, t⟩

set_option maxRecDepth 10000 in
theorem tripleF_eq (p : EdwardsExtended Int) (k : EdwardsExtended Int → Bool) :
    callI c false tripleP p p k = c.tripleF p k := rfl

end

open EdwardsExtended

theorem addF_int (p q : EdwardsExtended Int) (k : EdwardsExtended Int → Bool) :
    addF c false p q k = k (c.sumInt p q) := by
  simp only [addF, forceInt_eq, Bool.not_false, Bool.true_or, Bool.true_and, mulI_times, addI_plus, subI_minus, V_dElem,
    sumInt]

theorem doubleF_int (p : EdwardsExtended Int) (k : EdwardsExtended Int → Bool) :
    doubleF c false p k = k (c.dblInt p) := by
  simp only [doubleF, forceInt_eq, Bool.not_false, Bool.true_or, Bool.true_and, mulI_times, addI_plus, subI_minus, sqI_sq,
    twiceI_twice, dblInt]

theorem tripleF_int (p : EdwardsExtended Int) (k : EdwardsExtended Int → Bool) :
    c.tripleF p k = k (c.triInt p) := by
  simp only [tripleF, forceInt_eq, Bool.not_false, Bool.true_or, Bool.true_and, mulI_times, addI_plus, subI_minus, sqI_sq,
    twiceI_twice, triInt]

theorem ladI_int (bits : List Bool) (κ : EdwardsExtended Int → Bool) : ∀ r0 r1 : EdwardsExtended Int,
    ladI c bits r0 r1 κ = κ (c.ladInt bits r0 r1) := by
  induction bits with
  | nil => intro r0 r1; rfl
  | cons b l ih =>
    intro r0 r1
    rw [ladI, addF_int]
    cases b
    · rw [cond_false, doubleF_int, ih, ladInt]
    · rw [cond_true, doubleF_int, ih, ladInt]

variable {c} {pr : Profile}

theorem sum_int {p q : EdwardsExtended Elem} (hp : p.Ok c.fld.Tight) (hq : q.Ok c.fld.Tight) :
    ∃ r, p.addAssign (c.scalar pr) q = .ok r ∧ r.Ok c.fld.Tight ∧ r.ints c = c.sumInt (p.ints c) (q.ints c) := by
  obtain ⟨r, h1, h2, -, h3⟩ := c.addF_sound pr hp hq
    (k := fun s => decide (s = c.sumInt (p.ints c) (q.ints c))) (chk := false) (by
      rw [addF_int]; exact decide_eq_true rfl)
  exact ⟨r, h1, h2, of_decide_eq_true h3⟩

theorem dbl_int {p : EdwardsExtended Elem} (hp : p.Ok c.fld.Tight) :
    ∃ r, p.double (c.scalar pr) = .ok r ∧ r.Ok c.fld.Tight ∧ r.ints c = c.dblInt (p.ints c) := by
  obtain ⟨r, h1, h2, -, h3⟩ := c.doubleF_sound pr hp
    (k := fun s => decide (s = c.dblInt (p.ints c))) (chk := false) (by
      rw [doubleF_int]; exact decide_eq_true rfl)
  exact ⟨r, h1, h2, of_decide_eq_true h3⟩

theorem tri_int {p : EdwardsExtended Elem} (hp : p.Ok c.fld.Tight) :
    ∃ r, p.triple (c.scalar pr) = .ok r ∧ r.Ok c.fld.Tight ∧ r.ints c = c.triInt (p.ints c) := by
  obtain ⟨r, h1, h2, -, h3⟩ := c.tripleI_sound pr hp
    (k := fun s => decide (s = c.triInt (p.ints c))) (chk := false) (by
      rw [tripleF_eq, tripleF_int]; exact decide_eq_true rfl)
  exact ⟨r, h1, h2, of_decide_eq_true h3⟩

end Crv

/-- A bit of the words is that bit of the integer, in two's complement. -/
theorem Fld.bitWords_exact {f : Fld} {a : Elem} (ha : f.Tight a) {i : Nat} (hi : i < f.L * f.k) :
    f.code.bitNormalized a i = .ok (decide (f.V a / 2 ^ i % 2 = 1)) := by
  have hLpos : 0 < f.L := by cases f <;> decide
  have hlen := Shape.length ha
  have hq : i / f.L < f.k := Nat.div_lt_of_lt_mul hi
  have hget : a[i / f.L]? = some (a[i / f.L]'(by omega)) := List.getElem?_eq_getElem _
  have hpre : ∀ j x, j < i / f.L → a[j]? = some x → 0 ≤ x ∧ x < 2 ^ f.L := by
    intro j x hj hx
    obtain ⟨low, top, rfl, hl, hd, -, -⟩ := ha
    rw [List.getElem?_append_left (by omega)] at hx
    exact hd x (List.mem_of_getElem? hx)
  obtain ⟨R, hR, -⟩ := digitsVal_get f.L a _ _ hget hpre
  simp only [FieldCode.bitNormalized, limbBits_eq, hget]
  rw [and64_one, shr64]
  suffices e0 : f.V a / 2 ^ i % 2 = a[i / f.L] / 2 ^ (i % f.L) % 2 by rw [e0]
  have hm : i % f.L < f.L := Nat.mod_lt _ hLpos
  have e : f.V a / 2 ^ i = (a[i / f.L]'(by omega) + 2 ^ f.L * R) / 2 ^ (i % f.L) := by
    rw [← hR, Int.ediv_ediv_of_nonneg (by positivity), ← pow_add, Nat.div_add_mod]; rfl
  have e2 : (2 : Int) ^ f.L * R = 2 ^ (i % f.L) * (2 * (2 ^ (f.L - i % f.L - 1) * R)) := by
    have : (2 : Int) ^ f.L = 2 ^ (i % f.L) * (2 * 2 ^ (f.L - i % f.L - 1)) := by
      rw [← pow_succ', ← pow_add]; congr 1; omega
    rw [this]; ring
  rw [e, e2, Int.add_mul_ediv_left _ _ (by positivity), Int.add_mul_emod_self_left]

namespace Crv
variable {c : Crv} {pr : Profile}
open EdwardsExtended

theorem zero_ints : (zero (c.scalar pr)).ints c = ⟨0, 1, 1, 1⟩ := by
  rw [c.scalar_eq]
  simp only [zero, ints, FieldCode.scalar, (Fld.zero_canon c.fld).2.1, (Fld.one_canon c.fld).2.1]

theorem multN_int {p : EdwardsExtended Elem} (hp : p.Ok c.fld.Tight) {k : Elem} (hk : c.fld.Tight k) :
    ∃ r, p.scalarMultNormalized (c.scalar pr) k = .ok r ∧ r.Ok c.fld.Tight ∧
      r.ints c = c.multInt (p.ints c) (c.fld.V k) := by
  have hn : (c.scalar pr).nbits = c.fld.n := by rw [scalar_eq]; exact (C20_nbits c.fld).1
  have hL : c.fld.n ≤ c.fld.L * c.fld.k := by cases c <;> decide
  have hz : (zero (c.scalar pr)).Ok c.fld.Tight := by
    have z := (c.impl pr).zero.1
    have o := (c.impl pr).one.1
    exact ⟨z, o, o, o⟩
  obtain ⟨s', h1, h2, h3⟩ := c.ladI_sound pr (k := k) (bits := c.bitsInt (c.fld.V k))
    (by simp [bitsInt, hn]) (by
      intro i hi
      have hi' : i < c.fld.n := by simpa [bitsInt] using hi
      have hb := Fld.bitWords_exact hk (i := c.fld.n - 1 - i) (by omega)
      simp only [hn, bitsInt, List.getElem_map, List.getElem_range]
      rw [c.scalar_eq]
      exact hb)
    (s := ⟨zero (c.scalar pr), p, zero (c.scalar pr), p, 0, false, (c.scalar pr).filled false,
      (c.scalar pr).filled false⟩) hz hp
    (κ := fun s => decide (s = c.multInt (p.ints c) (c.fld.V k))) (by
      rw [ladI_int, zero_ints]; exact decide_eq_true rfl)
  refine ⟨s'.r0, ?_, h2, of_decide_eq_true h3⟩
  simp only [scalarMultNormalized, scalarMultNormalizedT, h1, bind, Except.bind, pure, Except.pure]

theorem mult_int {p : EdwardsExtended Elem} (hp : p.Ok c.fld.Tight) {k : Elem} (hk : c.fld.Tight k) :
    ∃ r k', p.scalarMult (c.scalar pr) k = .ok (r, k') ∧ r.Ok c.fld.Tight ∧ c.fld.Tight k' ∧
      c.fld.V k' = c.fld.normVal (c.fld.V k) ∧
      r.ints c = c.multInt (p.ints c) (c.fld.normVal (c.fld.V k)) := by
  obtain ⟨k', h1, h2, h3⟩ := C09_normalize_value c.fld pr hk.rep
  obtain ⟨r, h4, h5, h6⟩ := multN_int (pr := pr) hp h2
  refine ⟨r, k', ?_, h5, h2, h3, h3 ▸ h6⟩
  rw [scalarMult, show (c.scalar pr).normalize k = .ok k' by rw [c.scalar_eq]; exact h1]
  simp only [bind, Except.bind, h4, pure, Except.pure]

end Crv
end Verif

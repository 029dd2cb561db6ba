import Verif.Curve.XZProgram
import Verif.Curve.Base

/-!
# A program for the Edwards curves (definitions and helper lemmas)

The program a client of the field types would write for key agreement on the five Edwards curves, without `/repo/src/curve/edwards.rs`:
check that the two strings received are the coordinates of a point of the subgroup of prime order, multiply it by a scalar and return
the coordinates.  Points are in projective coordinates; the addition law is complete, doubling is addition.  The inverse of the last
coordinate is a power of it: for `inverted` in `Mod_e251_9` there is no proof, even if everything is normalized (C15, C42; `sqrt` is wrong
there, C18).
-/

namespace Verif
open Fld FieldCode

/-- Add the points in `x`, `y`, `z` and `x'`, `y'`, `z'`; `n` registers are in use, `3` holds `d`.  The sum is in `n + 13`, `n + 15` and
`n + 16`. -/
def edAdd (n x y z x' y' z' : Nat) : List Op :=
  [.mul z z', .square n, .mul x x', .mul y y', .mul (n + 2) (n + 3), .mul 3 (n + 4), .sub (n + 1) (n + 5), .add (n + 1) (n + 5),
   .mul x y', .mul y x', .add (n + 8) (n + 9), .sub (n + 3) (n + 2), .mul n (n + 6), .mul (n + 12) (n + 10), .mul n (n + 7),
   .mul (n + 14) (n + 11), .mul (n + 6) (n + 7)]

/-- A round: double the point in the last three registers, add the point in `x`, `y`, `4` and select. -/
def edRound (b : Bool) (n x y : Nat) : List Op :=
  edAdd (n + 3) n (n + 1) (n + 2) n (n + 1) (n + 2) ++ edAdd (n + 20) (n + 16) (n + 18) (n + 19) x y 4 ++
    [.select b (n + 33) (n + 16), .select b (n + 35) (n + 18), .select b (n + 36) (n + 19)]

/-- The rounds. -/
def edRounds : List Bool → Nat → Nat → Nat → List Op
  | [], _, _, _ => []
  | b :: l, n, x, y => edRound b n x y ++ edRounds l (n + 37) x y

/-- The point in `x`, `y`, `4` times a scalar, in the last three registers, when `n` registers are in use. -/
def edMul (l : List Bool) (n x y : Nat) : List Op := [.zero, .one, .one] ++ edRounds l n x y

/-- A power of register `z` in the last register, when `n + 1` registers are in use. -/
def edPower (z : Nat) : List Bool → Nat → List Op
  | [], _ => []
  | b :: l, n => [.square n, if b then .mul (n + 1) z else .mul (n + 1) 4] ++ edPower z l (n + 2)

/-- The bits of the order of the base point. -/
def Crv.orderBits (c : Crv) : List Bool := scalarBits (leBytes c.fld.nbytes (c.fld.V c.order).toNat)

/-- The bits of `p - 2`. -/
def Crv.inverseBits (c : Crv) : List Bool := scalarBits (leBytes c.fld.nbytes (c.fld.pN - 2))

/-- The multiples of the point in `x`, `y`, `4` by the order (in three registers from `n + 37 * c.orderBits.length` on) and by the scalar `s`,
the inverse of the last coordinate of the latter and the two quotients (in the last two registers), when `n` registers are in use. -/
def Crv.multiply (c : Crv) (s : List Int) (n x y : Nat) : List Op :=
  let m := n + 37 * c.orderBits.length
  let k := m + 3 + 37 * (scalarBits s).length
  let i := k + 3 + 2 * c.inverseBits.length
  edMul c.orderBits n x y ++ edMul (scalarBits s) (m + 3) x y ++ [.one] ++ edPower (k + 2) c.inverseBits (k + 3) ++
    [.mul k i, .mul (k + 1) i]

/-- The number of registers in use after these, but two. -/
def Crv.multiplied (c : Crv) (s : List Int) (n : Nat) : Nat :=
  n + 37 * c.orderBits.length + 3 + 37 * (scalarBits s).length + 3 + 2 * c.inverseBits.length + 1

/-- The whole program: registers `0` and `1` (the coordinates), `2` (`ZERO`), `3` (`d`), `4` (`ONE`), `7` and `10` (the two sides of the
equation of the curve), then the multiples.  The answers are used at the end only. -/
def Crv.program (c : Crv) (s xs ys : List Int) : Client (Option (List Int × List Int)) :=
  let m := 11 + 37 * c.orderBits.length
  let e := c.multiplied s 11
  Client.ops ([.bytes xs, .bytes ys, .zero, .addI 2 c.dInt, .one, .square 0, .square 1, .add 5 6, .mul 5 6, .mul 3 8, .add 4 9] ++
    c.multiply s 11 0 1) <|
  .eq 7 10 fun q => .eq m 2 fun q' => .eq (m + 1) (m + 2) fun q'' =>
  .packed e fun x => .packed (e + 1) fun y => .done (if q && q' && q'' then some (x, y) else none)

/-- The bytes of the coordinates of the exported base point. -/
def Crv.baseBytes (c : Crv) : List Int × List Int := (leBytes c.fld.nbytes c.base.x.val, leBytes c.fld.nbytes c.base.y.val)

/-- The two sides of the equation of the curve, in `n + 2` and `n + 5`. -/
def edOn (n x y : Nat) : List Op := [.square x, .square y, .add n (n + 1), .mul n (n + 1), .mul 3 (n + 3), .add 4 (n + 4)]

/-- Test of a signature: `A` (`ax`, `ay`) is the public key, `R` (`rx`, `ry`) and `s` are the signature, `h` is the challenge.  Registers
`0`, `1` (`A`), `5`, `6` (`R`), `7`, `8` (the base point), the equations of the curve for `A` and `R`, their multiples by the order, the
multiple of the base point by `s`, the one of `A` by `h`, the sum of the latter and `R`, and the comparison. -/
def Crv.verify (c : Crv) (s h ax ay rx ry : List Int) : Client Bool :=
  let m := 21 + 37 * c.orderBits.length
  let m' := m + 3 + 37 * c.orderBits.length
  let k := m' + 3 + 37 * (scalarBits s).length
  let j := k + 3 + 37 * (scalarBits h).length
  Client.ops ([.bytes ax, .bytes ay, .zero, .addI 2 c.dInt, .one, .bytes rx, .bytes ry, .bytes c.baseBytes.1, .bytes c.baseBytes.2] ++
    edOn 9 0 1 ++ edOn 15 5 6 ++ edMul c.orderBits 21 0 1 ++ edMul c.orderBits (m + 3) 5 6 ++ edMul (scalarBits s) (m' + 3) 7 8 ++
    edMul (scalarBits h) (k + 3) 0 1 ++ edAdd (j + 3) j (j + 1) (j + 2) 5 6 4 ++
    [.mul k (j + 19), .mul (j + 16) (k + 2), .mul (k + 1) (j + 19), .mul (j + 18) (k + 2)]) <|
  .eq 11 14 fun q0 => .eq 17 20 fun q1 => .eq m 2 fun q2 => .eq (m + 1) (m + 2) fun q3 => .eq m' 2 fun q4 => .eq (m' + 1) (m' + 2) fun q5 =>
  .eq (j + 20) (j + 21) fun q6 => .eq (j + 22) (j + 23) fun q7 => .done (q0 && q1 && q2 && q3 && q4 && q5 && q6 && q7)

/-- The bits of `(p + 1) / 4`. -/
def Crv.rootBits (c : Crv) : List Bool := scalarBits (leBytes c.fld.nbytes ((c.fld.pN + 1) / 4))

/-- The register of `(1 - y²) / (1 - d y²)`, … -/
def Crv.squareAt (c : Crv) : Nat := 10 + 2 * c.inverseBits.length

/-- … and the one of its power. -/
def Crv.rootAt (c : Crv) : Nat := c.squareAt + 1 + 2 * c.rootBits.length

/-- From the bytes of `y`: `(1 - y²) / (1 - d y²)`, its power that is a root of it if it is a square, the square of the power and the
negative power. -/
def Crv.decode (c : Crv) (ys : List Int) : List Op :=
  [.bytes ys, .zero, .zero, .addI 2 c.dInt, .one, .square 0, .mul 3 5, .sub 4 5, .sub 4 6, .one] ++ edPower 8 c.inverseBits 9 ++
    [.mul 7 (c.squareAt - 1), .one] ++ edPower c.squareAt c.rootBits (c.squareAt + 1) ++ [.square c.rootAt, .sub 2 c.rootAt]

/-- As `Crv.program`, with compressed points: the bytes of `y` and the lowest bit of `x`. -/
def Crv.packedProgram (c : Crv) (s ys : List Int) (sg : Bool) : Client (Option (List Int × Bool)) :=
  let r := c.rootAt
  let m := r + 4 + 37 * c.orderBits.length
  let e := c.multiplied s (r + 4)
  Client.ops (c.decode ys) <| .bit r 0 fun b =>
  Client.ops ([.select (b == sg) r (r + 2)] ++ c.multiply s (r + 4) (r + 3) 0) <|
  .eq (r + 1) c.squareAt fun q => .eq m 2 fun q' => .eq (m + 1) (m + 2) fun q'' =>
  .packed (e + 1) fun y => .bit e 0 fun b' => .done (if q && q' && q'' then some (y, b') else none)

/-! ### Helper lemmas -/

section
variable (f : Fld)

/-- The registers after instructions, as residues. -/
noncomputable def opsRun (ds : List (ZMod f.pN)) (os : List Op) : List (ZMod f.pN) :=
  os.foldl (fun ds o => ds ++ [o.ideal f ds]) ds

theorem ideal_ops {α : Type} (os : List Op) (k : Client α) (ds : List (ZMod f.pN)) :
    (Client.ops os k).ideal f ds = k.ideal f (opsRun f ds os) := by
  induction os generalizing ds with
  | nil => rfl
  | cons o os ih => exact ih _

theorem opsRun_append (ds : List (ZMod f.pN)) (os os' : List Op) : opsRun f ds (os ++ os') = opsRun f (opsRun f ds os) os' :=
  List.foldl_append

theorem opsRun_prefix (ds : List (ZMod f.pN)) (os : List Op) : ∃ ex, opsRun f ds os = ds ++ ex ∧ ex.length = os.length := by
  induction os generalizing ds with
  | nil => exact ⟨[], (List.append_nil _).symm, rfl⟩
  | cons o os ih =>
    obtain ⟨ex, h1, h2⟩ := ih (ds ++ [o.ideal f ds])
    exact ⟨o.ideal f ds :: ex, by rw [show opsRun f ds (o :: os) = opsRun f (ds ++ [o.ideal f ds]) os from rfl, h1]; simp, by simp [h2]⟩

theorem opsRun_length (ds : List (ZMod f.pN)) (os : List Op) : (opsRun f ds os).length = ds.length + os.length := by
  obtain ⟨ex, h1, h2⟩ := opsRun_prefix f ds os
  rw [h1, List.length_append, h2]

theorem opsRun_old (ds : List (ZMod f.pN)) (os : List Op) {i : Nat} (h : i < ds.length) : (opsRun f ds os).getD i 0 = ds.getD i 0 := by
  obtain ⟨ex, h1, -⟩ := opsRun_prefix f ds os
  rw [h1]
  simp [List.getD_eq_getElem?_getD, List.getElem?_append_left h]

private theorem get_new {K : Type} [Zero K] (ds l : List K) (i : Nat) : (ds ++ l).getD (ds.length + i) 0 = l.getD i 0 := by
  simp [List.getD_eq_getElem?_getD, List.getElem?_append_right]

private theorem get_new0 {K : Type} [Zero K] (ds l : List K) : (ds ++ l).getD ds.length 0 = l.getD 0 0 := get_new ds l 0

private theorem get_old {K : Type} [Zero K] (ds l : List K) {i : Nat} (h : i < ds.length) : (ds ++ l).getD i 0 = ds.getD i 0 := by
  simp [List.getD_eq_getElem?_getD, List.getElem?_append_left h]

variable {f}

theorem run_edAdd (ds : List (ZMod f.pN)) {n x y z x' y' z' : Nat} (hn : ds.length = n) (hx : x < n) (hy : y < n) (hz : z < n)
    (hx' : x' < n) (hy' : y' < n) (hz' : z' < n) (h3 : 3 < n) :
    let g := fun i => ds.getD i 0
    let e := fun i => (opsRun f ds (edAdd n x y z x' y' z')).getD i 0
    let A := g z * g z'
    let E := g 3 * (g x * g x' * (g y * g y'))
    e (n + 13) = A * (A * A - E) * (g x * g y' + g y * g x') ∧ e (n + 15) = A * (A * A + E) * (g y * g y' - g x * g x') ∧
      e (n + 16) = (A * A - E) * (A * A + E) := by
  subst hn
  simp only [opsRun, edAdd, List.foldl_cons, List.foldl_nil, Op.ideal, List.append_assoc, List.cons_append, List.nil_append, get_new,
    get_new0, get_old _ _ hx, get_old _ _ hy, get_old _ _ hz, get_old _ _ hx', get_old _ _ hy', get_old _ _ hz', get_old _ _ h3,
    List.getD_cons_zero, List.getD_cons_succ, and_self]

/-- The registers hold projective coordinates of the point. -/
def EdRep {c : Crv} (ds : List c.K) (x y z : Nat) (P : c.Point) : Prop :=
  ds.getD x 0 = P.x * ds.getD z 0 ∧ ds.getD y 0 = P.y * ds.getD z 0 ∧ ds.getD z 0 ≠ 0

variable {c : Crv}

theorem rep_edAdd {ds : List c.K} {n x y z x' y' z' : Nat} (hn : ds.length = n) (hx : x < n) (hy : y < n) (hz : z < n)
    (hx' : x' < n) (hy' : y' < n) (hz' : z' < n) (h3 : 3 < n) (hd : ds.getD 3 0 = c.d) {P Q : c.Point} (hP : EdRep ds x y z P)
    (hQ : EdRep ds x' y' z' Q) :
    EdRep (c := c) (opsRun c.fld ds (edAdd n x y z x' y' z')) (n + 13) (n + 15) (n + 16) (P + Q) := by
  obtain ⟨e1, e2, e3⟩ := run_edAdd ds hn hx hy hz hx' hy' hz' h3
  obtain ⟨p1, p2, p3⟩ := hP
  obtain ⟨q1, q2, q3⟩ := hQ
  have d1 := EdPoint.den_pos P Q
  have d2 := EdPoint.den_neg P Q
  dsimp only at e1 e2 e3
  rw [p1, p2, q1, q2, hd] at e1 e2 e3
  generalize ds.getD z 0 = Z at *
  generalize ds.getD z' 0 = Z' at *
  have ep : (Z * Z') * (Z * Z') + c.d * (P.x * Z * (Q.x * Z') * (P.y * Z * (Q.y * Z'))) =
      (Z * Z') ^ 2 * (1 + c.d * P.x * Q.x * P.y * Q.y) := by ring
  have em : (Z * Z') * (Z * Z') - c.d * (P.x * Z * (Q.x * Z') * (P.y * Z * (Q.y * Z'))) =
      (Z * Z') ^ 2 * (1 - c.d * P.x * Q.x * P.y * Q.y) := by ring
  rw [ep, em] at e3
  rw [em] at e1
  rw [ep] at e2
  refine ⟨?_, ?_, ?_⟩
  · rw [e1, e3, EdPoint.add_x]
    field_simp
  · rw [e2, e3, EdPoint.add_y]
    field_simp
  · rw [e3]
    have := mul_ne_zero p3 q3
    exact mul_ne_zero (mul_ne_zero (pow_ne_zero 2 this) d2) (mul_ne_zero (pow_ne_zero 2 this) d1)

theorem EdRep.zero_iff {ds : List c.K} {x y z : Nat} {P : c.Point} (h : EdRep ds x y z P) :
    ds.getD x 0 = 0 ∧ ds.getD y 0 = ds.getD z 0 ↔ P = 0 := by
  obtain ⟨u, v, hw⟩ := h
  constructor
  · rintro ⟨u', v'⟩
    refine EdPoint.ext ?_ ?_
    · exact (mul_eq_zero.1 (u.symm.trans u')).resolve_right hw
    · exact mul_right_cancel₀ hw (by rw [← v, v', EdPoint.zero_y, one_mul])
  · intro h
    rw [u, v, h, EdPoint.zero_x, EdPoint.zero_y, zero_mul, one_mul]
    exact ⟨rfl, rfl⟩

theorem EdRep.eq_iff {ds : List c.K} {x y z x' y' z' : Nat} {P Q : c.Point} (hP : EdRep ds x y z P) (hQ : EdRep ds x' y' z' Q) :
    ds.getD x 0 * ds.getD z' 0 = ds.getD x' 0 * ds.getD z 0 ∧ ds.getD y 0 * ds.getD z' 0 = ds.getD y' 0 * ds.getD z 0 ↔ P = Q := by
  obtain ⟨u, v, hw⟩ := hP
  obtain ⟨u', v', hw'⟩ := hQ
  constructor
  · rintro ⟨e1, e2⟩
    rw [u, u'] at e1
    rw [v, v'] at e2
    exact EdPoint.ext (mul_right_cancel₀ (mul_ne_zero hw hw') (by linear_combination e1))
      (mul_right_cancel₀ (mul_ne_zero hw hw') (by linear_combination e2))
  · intro h
    rw [u, v, u', v', h]
    constructor <;> ring

theorem EdRep.mono {ds : List c.K} {x y z : Nat} {P : c.Point} (h : EdRep ds x y z P) (os : List Op) (hx : x < ds.length)
    (hy : y < ds.length) (hz : z < ds.length) : EdRep (c := c) (opsRun c.fld ds os) x y z P := by
  unfold EdRep
  rw [opsRun_old _ _ _ hx, opsRun_old _ _ _ hy, opsRun_old _ _ _ hz]
  exact h

/-- The registers that all rounds use. -/
structure EdBase (ds : List c.K) (x y : Nat) (P : c.Point) : Prop where
  len : 5 ≤ ds.length
  lx : x < ds.length
  ly : y < ds.length
  d : ds.getD 3 0 = c.d
  one : ds.getD 4 0 = 1
  pt : EdRep ds x y 4 P

theorem EdBase.mono {ds : List c.K} {x y : Nat} {P : c.Point} (h : EdBase ds x y P) (os : List Op) :
    EdBase (c := c) (opsRun c.fld ds os) x y P := by
  have := h.len
  have := h.lx
  have := h.ly
  refine ⟨?_, ?_, ?_, ?_, ?_, h.pt.mono os (by omega) (by omega) (by omega)⟩
  · rw [opsRun_length]; omega
  · rw [opsRun_length]; omega
  · rw [opsRun_length]; omega
  · rw [opsRun_old _ _ _ (by omega), h.d]
  · rw [opsRun_old _ _ _ (by omega), h.one]

theorem rep_edRound {ds : List c.K} {n x y : Nat} (hn : ds.length = n + 3) {P Q : c.Point} (hP : EdBase ds x y P)
    (hQ : EdRep ds n (n + 1) (n + 2) Q) (b : Bool) :
    EdRep (c := c) (opsRun c.fld ds (edRound b n x y)) (n + 37) (n + 38) (n + 39) (Q + Q + if b then P else 0) := by
  have l5 := hP.len
  have lx := hP.lx
  have ly := hP.ly
  unfold edRound
  rw [opsRun_append, opsRun_append]
  have h1 := rep_edAdd hn (by omega) (by omega) (by omega) (by omega) (by omega) (by omega) (by omega) hP.d hQ hQ
  have h2 := hP.mono (edAdd (n + 3) n (n + 1) (n + 2) n (n + 1) (n + 2))
  have hn2 : (opsRun c.fld ds (edAdd (n + 3) n (n + 1) (n + 2) n (n + 1) (n + 2))).length = n + 20 := by
    rw [opsRun_length, hn]; simp [edAdd]
  generalize opsRun c.fld ds (edAdd (n + 3) n (n + 1) (n + 2) n (n + 1) (n + 2)) = ds2 at *
  have h3 := rep_edAdd hn2 (by omega) (by omega) (by omega) (by omega) (by omega) (by omega) (by omega) h2.d h1 h2.pt
  have h4 := h1.mono (edAdd (n + 20) (n + 16) (n + 18) (n + 19) x y 4) (by omega) (by omega) (by omega)
  have hn3 : (opsRun c.fld ds2 (edAdd (n + 20) (n + 16) (n + 18) (n + 19) x y 4)).length = n + 37 := by
    rw [opsRun_length, hn2]; simp [edAdd]
  generalize opsRun c.fld ds2 (edAdd (n + 20) (n + 16) (n + 18) (n + 19) x y 4) = ds3 at *
  have get (i : Nat) (l : List c.K) : (ds3 ++ l).getD (n + 37 + i) 0 = l.getD i 0 := by rw [← hn3, get_new]
  have old (i : Nat) (l : List c.K) (hi : i < n + 37) : (ds3 ++ l).getD i 0 = ds3.getD i 0 := get_old _ _ (by omega)
  have g0 := fun l => get 0 l
  have g1 := fun l => get 1 l
  have g2 := fun l => get 2 l
  simp only [Nat.add_assoc, Nat.reduceAdd, Nat.add_zero] at g0 g1 g2
  unfold EdRep
  cases b
  · simp only [opsRun, List.foldl_cons, List.foldl_nil, Op.ideal, List.append_assoc, List.cons_append, List.nil_append, g0, g1, g2,
      List.getD_cons_zero, List.getD_cons_succ, Bool.false_eq_true, if_false, add_zero, old (n + 18) _ (by omega),
      old (n + 19) _ (by omega)]
    exact h4
  · simp only [opsRun, List.foldl_cons, List.foldl_nil, Op.ideal, List.append_assoc, List.cons_append, List.nil_append, g0, g1, g2,
      List.getD_cons_zero, List.getD_cons_succ, if_true, old (n + 35) _ (by omega), old (n + 36) _ (by omega)]
    exact h3

theorem edRound_length (b : Bool) (n : Nat) : (edRound b n x y).length = 37 := rfl

theorem edRounds_length (l : List Bool) (n x y : Nat) : (edRounds l n x y).length = 37 * l.length := by
  induction l generalizing n with
  | nil => rfl
  | cons b l ih =>
    rw [edRounds, List.length_append, edRound_length, ih, List.length_cons]
    omega

theorem edMul_length (l : List Bool) (n x y : Nat) : (edMul l n x y).length = 3 + 37 * l.length := by
  rw [edMul, List.length_append, edRounds_length]; rfl

theorem rep_edRounds (l : List Bool) {ds : List c.K} {n m x y : Nat} (hn : ds.length = n + 3) {P : c.Point} (hP : EdBase ds x y P)
    (hQ : EdRep ds n (n + 1) (n + 2) (m • P)) :
    EdRep (c := c) (opsRun c.fld ds (edRounds l n x y)) (n + 37 * l.length) (n + 37 * l.length + 1) (n + 37 * l.length + 2)
      (Mont.bitsVal l m • P) := by
  induction l generalizing ds n m with
  | nil => exact hQ
  | cons b l ih =>
    rw [edRounds, opsRun_append]
    have h := rep_edRound hn hP hQ b
    have e : m • P + m • P + (if b then P else 0) = (2 * m + b.toNat) • P := by
      cases b <;> simp [add_smul, two_mul]
    rw [e] at h
    have h' := ih (n := n + 37) (by rw [opsRun_length, hn, edRound_length]) (hP.mono (edRound b n x y)) h
    have e2 : n + 37 * (b :: l).length = n + 37 + 37 * l.length := by rw [List.length_cons]; omega
    rw [e2]
    exact h'

theorem rep_edMul (l : List Bool) {ds : List c.K} {n x y : Nat} (hn : ds.length = n) {P : c.Point} (hP : EdBase ds x y P) :
    EdRep (c := c) (opsRun c.fld ds (edMul l n x y)) (n + 37 * l.length) (n + 37 * l.length + 1) (n + 37 * l.length + 2)
      (Mont.bitsVal l 0 • P) := by
  rw [edMul, opsRun_append]
  refine rep_edRounds l (by rw [opsRun_length, hn]; rfl) (hP.mono _) ?_
  subst hn
  rw [zero_smul]
  unfold EdRep
  simp only [opsRun, List.foldl_cons, List.foldl_nil, Op.ideal, List.append_assoc, List.cons_append, List.nil_append, get_new, get_new0,
      List.getD_cons_zero, List.getD_cons_succ, EdPoint.zero_x, EdPoint.zero_y, zero_mul, one_mul, true_and]
  exact one_ne_zero

theorem edPower_length (z : Nat) (l : List Bool) (n : Nat) : (edPower z l n).length = 2 * l.length := by
  induction l generalizing n with
  | nil => rfl
  | cons b l ih => rw [edPower, List.length_append, ih, List.length_cons, List.length_cons, List.length_cons, List.length_nil]; omega

theorem run_edPower (l : List Bool) {ds : List c.K} {n m z : Nat} (hn : ds.length = n + 1) (hz : z < n + 1) (h4 : 4 < n + 1)
    (h1 : ds.getD 4 0 = 1) (h : ds.getD n 0 = ds.getD z 0 ^ m) :
    (opsRun c.fld ds (edPower z l n)).getD (n + 2 * l.length) 0 = ds.getD z 0 ^ Mont.bitsVal l m := by
  induction l generalizing ds n m with
  | nil => exact h
  | cons b l ih =>
    rw [edPower, opsRun_append]
    have e2 : n + 2 * (b :: l).length = n + 2 + 2 * l.length := by rw [List.length_cons]; omega
    have oz : (opsRun c.fld ds [.square n, if b then .mul (n + 1) z else .mul (n + 1) 4]).getD z 0 = ds.getD z 0 :=
      opsRun_old _ _ _ (by omega)
    rw [e2, ih (m := 2 * m + b.toNat) (by rw [opsRun_length, hn]; rfl) (by omega) (by omega)
      (by rw [opsRun_old _ _ _ (by omega), h1]) ?_, oz]
    · rfl
    · rw [oz]
      have get (i : Nat) (l : List c.K) : (ds ++ l).getD (n + 1 + i) 0 = l.getD i 0 := by rw [← hn, get_new]
      have g0 := fun l => get 0 l
      have g1 := fun l => get 1 l
      simp only [Nat.add_assoc, Nat.reduceAdd, Nat.add_zero] at g0 g1
      have o4 (l : List c.K) : (ds ++ l).getD 4 0 = 1 := by rw [get_old _ _ (by omega), h1]
      have oz' (l : List c.K) : (ds ++ l).getD z 0 = ds.getD z 0 := get_old _ _ (by omega)
      cases b <;>
        simp only [opsRun, List.foldl_cons, List.foldl_nil, Op.ideal, List.append_assoc, List.cons_append, List.nil_append, g0, g1,
          List.getD_cons_zero, List.getD_cons_succ, Bool.false_eq_true, if_false, if_true, o4, oz', h, Bool.toNat_false, Bool.toNat_true] <;> ring

end

end Verif

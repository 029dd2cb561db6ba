import Verif.Field.ChainEval
import Verif.Props.Primes
import Verif.Props.Power
import Verif.Field.Consts
import Mathlib.AlgebraicGeometry.EllipticCurve.Affine.Point

/-!
# Montgomery curves and their base points (definitions and helper lemmas)

The repository has no code for Montgomery curves (`/repo/src/curve/{curve25519,curve383187,m_383,
m_511}.rs` are empty, `m_221.rs` is a comment) but exports base points and orders for five of
them.  The curves are `y² = x³ + A x² + x` with the published coefficient `A`; their points are
those of Mathlib's `WeierstrassCurve`.
-/

namespace Verif

/-- The five Montgomery curves with exported constants. -/
inductive Mont where
  | m221 | curve25519 | m383 | curve383187 | m511
  deriving DecidableEq, Repr

namespace Mont

/-- The field type. -/
def fld : Mont → Fld
  | m221 => .e221_3 | curve25519 => .e255_19 | m383 => .e383_187 | curve383187 => .e383_187
  | m511 => .e511_187

/-- The published coefficient (SafeCurves). -/
def A : Mont → Int
  | m221 => 117050 | curve25519 => 486662 | m383 => 2065150 | curve383187 => 229969
  | m511 => 530438

/-- `*_BASE_X` of the code. -/
def baseX : Mont → Elem
  | m221 => Fields.E221_3.M221_BASE_X | curve25519 => Fields.E255_19.CURVE25519_BASE_X
  | m383 => Fields.E383_187.M383_BASE_X | curve383187 => Fields.E383_187.CURVE383187_BASE_X
  | m511 => Fields.E511_187.M511_BASE_X

/-- `*_BASE_Y` of the code. -/
def baseY : Mont → Elem
  | m221 => Fields.E221_3.M221_BASE_Y | curve25519 => Fields.E255_19.CURVE25519_BASE_Y
  | m383 => Fields.E383_187.M383_BASE_Y | curve383187 => Fields.E383_187.CURVE383187_BASE_Y
  | m511 => Fields.E511_187.M511_BASE_Y

/-- `*_ORDER` of the code. -/
def order : Mont → Elem
  | m221 => Fields.E221_3.M221_ORDER | curve25519 => Fields.E255_19.CURVE25519_ORDER
  | m383 => Fields.E383_187.M383_ORDER | curve383187 => Fields.E383_187.CURVE383187_ORDER
  | m511 => Fields.E511_187.M511_ORDER

/-- The field. -/
abbrev K (c : Mont) : Type := ZMod c.fld.pN

/-- The curve `y² = x³ + A x² + x`. -/
def curve (c : Mont) : WeierstrassCurve.Affine c.K := ⟨0, (c.A : c.K), 0, 1, 0⟩

end Mont

/-! ### Projective arithmetic on integers modulo `p` -/

namespace Mont

/-- Projective coordinates. -/
structure Proj where
  x : Int
  y : Int
  z : Int

open FieldCode in
/-- The point with slope `u / v`, for a first summand `a` and the sum `s / w` of the `x` coordinates
and of `A`, where `a.z e = w`. -/
def Proj.line (p u v s w e : Int) (a : Proj) (k : Proj → Bool) : Bool :=
  !decide (v % p = 0) &&
  forceInt (v * v % p) fun v2 => forceInt (v2 * v % p) fun v3 =>
  forceInt ((u * u % p * w - v2 * s) % p) fun b =>
  forceInt ((b * v) % p) fun x =>
  forceInt ((u * ((a.x * e % p * v2 - b) % p) - a.y * e % p * v3) % p) fun y =>
  forceInt (v3 * w % p) fun z => k ⟨x, y, z⟩

open FieldCode in
/-- Doubling. -/
def Proj.dbl (p A : Int) (a : Proj) (k : Proj → Bool) : Bool :=
  forceInt ((3 * (a.x * a.x) + 2 * A * (a.x * a.z) + a.z * a.z) % p) fun u =>
  forceInt (2 * a.y * a.z % p) fun v => forceInt ((A * a.z + 2 * a.x) % p) fun s =>
  Proj.line p u v s a.z 1 a k

open FieldCode in
/-- Adding the affine point `(x, y)`. -/
def Proj.addA (p A x y : Int) (a : Proj) (k : Proj → Bool) : Bool :=
  forceInt ((a.y - y * a.z) % p) fun u =>
  forceInt ((a.x - x * a.z) % p) fun v => forceInt ((A * a.z + a.x + x * a.z) % p) fun s =>
  Proj.line p u v s a.z 1 a k

/-- Double-and-add. -/
def Proj.smul (p A x y : Int) (k : Proj → Bool) : List Bool → Proj → Bool
  | [], a => k a
  | b :: l, a => a.dbl p A fun a' =>
    bif b then a'.addA p A x y fun a'' => Proj.smul p A x y k l a'' else Proj.smul p A x y k l a'

variable {c : Mont}

open WeierstrassCurve.Affine

/-- The coordinates represent the point. -/
def Proj.Is (c : Mont) (a : Proj) (P : c.curve.Point) : Prop :=
  ∃ x y h, P = .some x y h ∧ (a.z : c.K) ≠ 0 ∧ (a.x : c.K) = x * (a.z : c.K) ∧
    (a.y : c.K) = y * (a.z : c.K)

theorem emod_cast (u : Int) : ((u % c.fld.p : Int) : c.K) = (u : c.K) :=
  Fld.modEq_iff.1 (Int.mod_modEq _ _)

theorem cast_eq_zero {u : Int} : (u : c.K) = 0 ↔ u % c.fld.p = 0 := by
  rw [← Int.cast_zero, ← Fld.modEq_iff, Int.ModEq, Int.zero_emod]

theorem Proj.line_is {u v s : Int} {a : Proj} {k : Proj → Bool}
    (h : Proj.line c.fld.p u v s a.z 1 a k = true) :
    (v : c.K) ≠ 0 ∧ ∃ r, k r = true ∧
      (r.z : c.K) = (v : c.K) ^ 3 * a.z ∧
      (r.x : c.K) = ((u : c.K) ^ 2 * a.z - (v : c.K) ^ 2 * s) * v ∧
      (r.y : c.K) = (u : c.K) * (a.x * (v : c.K) ^ 2 - ((u : c.K) ^ 2 * a.z - (v : c.K) ^ 2 * s)) -
        a.y * (v : c.K) ^ 3 := by
  simp only [Proj.line, FieldCode.forceInt_eq, Bool.and_eq_true, Bool.not_eq_true',
    decide_eq_false_iff_not] at h
  rw [← cast_eq_zero] at h
  refine ⟨h.1, _, h.2, ?_, ?_, ?_⟩
  all_goals simp only [emod_cast, Int.cast_mul, Int.cast_sub, Int.cast_one]; ring

theorem Proj.dbl_is {a : Proj} {P : c.curve.Point} (ha : a.Is c P) {k : Proj → Bool}
    (h : a.dbl c.fld.p c.A k = true) : ∃ r, k r = true ∧ r.Is c (P + P) := by
  obtain ⟨x, y, hP, rfl, hz, hx, hy⟩ := ha
  simp only [Proj.dbl, FieldCode.forceInt_eq] at h
  obtain ⟨hv, r, h1, h2, h3, h4⟩ := Proj.line_is h
  simp only [emod_cast, Int.cast_mul, Int.cast_add, Int.cast_ofNat] at hv h2 h3 h4
  rw [hx, hy] at *
  generalize (a.z : c.K) = z at *
  have hy0 : (2 * y : c.K) ≠ 0 := by
    intro h; apply hv; linear_combination z ^ 2 * h
  have y0 : y ≠ 0 := right_ne_zero_of_mul hy0
  have two0 : (2 : c.K) ≠ 0 := left_ne_zero_of_mul hy0
  have hne : y ≠ c.curve.negY x y := by
    intro h
    apply hy0
    simp only [WeierstrassCurve.Affine.negY, curve] at h
    linear_combination h
  refine ⟨r, h1, ?_⟩
  rw [Point.add_self_of_Y_ne hne]
  refine ⟨_, _, _, rfl, ?_, ?_, ?_⟩
  · rw [h2]; exact mul_ne_zero (pow_ne_zero _ hv) hz
  · rw [slope_of_Y_ne rfl hne, h3, h2]
    simp only [addX, WeierstrassCurve.Affine.negY, curve]
    have e : y - (-y - 0 * x - 0) = 2 * y := by ring
    rw [e]
    field_simp
    ring
  · rw [slope_of_Y_ne rfl hne, h4, h2]
    simp only [addY, negAddY, addX, WeierstrassCurve.Affine.negY, curve]
    have e : y - (-y - 0 * x - 0) = 2 * y := by ring
    rw [e]
    field_simp
    ring

theorem Proj.addA_is {a : Proj} {P : c.curve.Point} (ha : a.Is c P) {x y : Int}
    (hQ : c.curve.Nonsingular (x : c.K) (y : c.K)) {k : Proj → Bool}
    (h : a.addA c.fld.p c.A x y k = true) :
    ∃ r, k r = true ∧ r.Is c (P + Point.some _ _ hQ) := by
  obtain ⟨x1, y1, hP, rfl, hz, hx, hy⟩ := ha
  simp only [Proj.addA, FieldCode.forceInt_eq] at h
  obtain ⟨hv, r, h1, h2, h3, h4⟩ := Proj.line_is h
  simp only [emod_cast, Int.cast_mul, Int.cast_add, Int.cast_sub] at hv h2 h3 h4
  rw [hx, hy] at *
  generalize (a.z : c.K) = z at *
  revert hQ hv h2 h3 h4
  generalize (x : c.K) = x2
  generalize (y : c.K) = y2
  intro hQ hv h2 h3 h4
  have hd : x1 - x2 ≠ 0 := by
    intro h; apply hv; linear_combination z * h
  have hne : x1 ≠ x2 := sub_ne_zero.1 hd
  refine ⟨r, h1, ?_⟩
  rw [Point.add_of_X_ne hne]
  refine ⟨_, _, _, rfl, ?_, ?_, ?_⟩
  · rw [h2]; exact mul_ne_zero (pow_ne_zero _ hv) hz
  · rw [slope_of_X_ne hne, h3, h2]
    simp only [addX, curve]
    field_simp
    ring
  · rw [slope_of_X_ne hne, h4, h2]
    simp only [addY, negAddY, addX, WeierstrassCurve.Affine.negY, curve]
    field_simp
    ring

/-- The number with leading part `m` and the given further bits. -/
def bitsVal : List Bool → Nat → Nat
  | [], m => m
  | b :: l, m => bitsVal l (2 * m + (bif b then 1 else 0))

theorem Proj.smul_is {x y : Int} (hQ : c.curve.Nonsingular (x : c.K) (y : c.K))
    {k : Proj → Bool} : ∀ (l : List Bool) (m : Nat) (a : Proj),
    a.Is c (m • Point.some _ _ hQ) → Proj.smul c.fld.p c.A x y k l a = true →
    ∃ r, k r = true ∧ r.Is c (bitsVal l m • Point.some _ _ hQ) := by
  intro l
  induction l with
  | nil => intro m a ha h; exact ⟨a, h, ha⟩
  | cons b l ih =>
    intro m a ha h
    simp only [Proj.smul] at h
    obtain ⟨a', h1, h2⟩ := Proj.dbl_is ha h
    rw [← add_smul, ← two_mul] at h2
    cases b with
    | false => exact ih (2 * m) a' h2 h1
    | true =>
      obtain ⟨a'', h3, h4⟩ := Proj.addA_is h2 hQ h1
      rw [← succ_nsmul] at h4
      exact ih (2 * m + 1) a'' h4 h3

/-- The bits of `m` below bit `n`, most significant first. -/
def lowBits (n m : Nat) : List Bool :=
  (List.range n).map fun i => Nat.beq (m / Nat.pow 2 (n - 1 - i) % 2) 1

/-- `m P = -P` for the affine point `P = (x, y)`, when `m` has `n + 1` bits. -/
def minusB (c : Mont) (x y : Int) (n m : Nat) : Bool :=
  Nat.beq (bitsVal (lowBits n m) 1) m &&
  Proj.smul c.fld.p c.A x y (fun r => decide ((r.x - x * r.z) % c.fld.p = 0) &&
    decide ((r.y + y * r.z) % c.fld.p = 0)) (lowBits n m) ⟨x, y, 1⟩

theorem minus_of_minusB {x y : Int} (hQ : c.curve.Nonsingular (x : c.K) (y : c.K)) {n m : Nat}
    (h : c.minusB x y n m = true) : (m + 1) • Point.some _ _ hQ = 0 := by
  simp only [minusB, Bool.and_eq_true] at h
  obtain ⟨r, h1, x', y', hP, h2, hz, hx, hy⟩ := Proj.smul_is hQ (lowBits n m) 1 ⟨x, y, 1⟩
    ⟨_, _, hQ, by rw [one_smul], by simp⟩ h.2
  rw [Nat.eq_of_beq_eq_true h.1] at h2
  simp only [Bool.and_eq_true, decide_eq_true_eq] at h1
  rw [← cast_eq_zero, ← cast_eq_zero] at h1
  simp only [Int.cast_mul, Int.cast_add, Int.cast_sub] at h1
  rw [hx, hy] at h1
  have ex : x' = (x : c.K) := mul_right_cancel₀ hz (sub_eq_zero.1 h1.1)
  have ey : y' = -(y : c.K) := by
    refine mul_right_cancel₀ hz ?_
    linear_combination h1.2
  rw [succ_nsmul, h2]
  apply Point.add_of_Y_eq ex
  rw [ey]
  simp [WeierstrassCurve.Affine.negY, curve]

end Mont
end Verif

import Verif.Curve.Concrete
import Verif.Curve.Base

/-!
# Concrete points (helper lemmas)

Build profiles, and deciders by which the kernel checks that given words represent a given point or
no point at all.
-/

namespace Verif

/-- What `C` computes without a panic, `C'` computes too. -/
structure Scalar.Le {S : Type} (C C' : Scalar S) : Prop where
  dVal : C.dVal = C'.dVal
  add : ∀ {a b r}, C.add a b = .ok r → C'.add a b = .ok r
  sub : ∀ {a b r}, C.sub a b = .ok r → C'.sub a b = .ok r
  mul : ∀ {a b r}, C.mul a b = .ok r → C'.mul a b = .ok r
  squared : ∀ {a r}, C.squared a = .ok r → C'.squared a = .ok r
  smallMul : ∀ {a n r}, C.smallMul a n = .ok r → C'.smallMul a n = .ok r

section
variable {S : Type} {C C' : Scalar S} (L : C.Le C')
include L

theorem eval_le (ρ : Tree S) : ∀ (e : PExpr) {v : S}, e.eval C ρ = .ok v → e.eval C' ρ = .ok v := by
  intro e
  induction e with
  | get r => intro v h; exact h
  | dval => intro v h; rw [PExpr.eval, ← L.dVal]; exact h
  | add a b iha ihb =>
    intro v h
    simp only [PExpr.eval, bind, Except.bind] at h ⊢
    cases h1 : a.eval C ρ with
    | error e => rw [h1] at h; cases h
    | ok x =>
      cases h2 : b.eval C ρ with
      | error e => rw [h1, h2] at h; cases h
      | ok y => rw [h1, h2] at h; rw [iha h1, ihb h2]; exact L.add h
  | sub a b iha ihb =>
    intro v h
    simp only [PExpr.eval, bind, Except.bind] at h ⊢
    cases h1 : a.eval C ρ with
    | error e => rw [h1] at h; cases h
    | ok x =>
      cases h2 : b.eval C ρ with
      | error e => rw [h1, h2] at h; cases h
      | ok y => rw [h1, h2] at h; rw [iha h1, ihb h2]; exact L.sub h
  | mul a b iha ihb =>
    intro v h
    simp only [PExpr.eval, bind, Except.bind] at h ⊢
    cases h1 : a.eval C ρ with
    | error e => rw [h1] at h; cases h
    | ok x =>
      cases h2 : b.eval C ρ with
      | error e => rw [h1, h2] at h; cases h
      | ok y => rw [h1, h2] at h; rw [iha h1, ihb h2]; exact L.mul h
  | squared a iha =>
    intro v h
    simp only [PExpr.eval, bind, Except.bind] at h ⊢
    cases h1 : a.eval C ρ with
    | error e => rw [h1] at h; cases h
    | ok x => rw [h1] at h; rw [iha h1]; exact L.squared h
  | smallMul a n iha =>
    intro v h
    simp only [PExpr.eval, bind, Except.bind] at h ⊢
    cases h1 : a.eval C ρ with
    | error e => rw [h1] at h; cases h
    | ok x => rw [h1] at h; rw [iha h1]; exact L.smallMul h

theorem runPoint_le : ∀ (p : PProg) {ρ ρ' : Tree S},
    runPoint C p ρ = .ok ρ' → runPoint C' p ρ = .ok ρ' := by
  intro p
  induction p with
  | nil => intro ρ ρ' h; exact h
  | cons s p ih =>
    intro ρ ρ' h
    obtain ⟨r, e⟩ := s
    simp only [runPoint, bind, Except.bind] at h ⊢
    cases h1 : e.eval C ρ with
    | error e => rw [h1] at h; cases h
    | ok x => rw [h1] at h; rw [eval_le L ρ e h1]; exact ih h

theorem call_le {b : PProg} {p q r : EdwardsExtended S}
    (h : EdwardsExtended.call C b p q = .ok r) : EdwardsExtended.call C' b p q = .ok r := by
  simp only [EdwardsExtended.call, bind, Except.bind] at h ⊢
  cases h1 : runPoint C b (EdwardsExtended.regs p q) with
  | error e => rw [h1] at h; cases h
  | ok ρ => rw [h1] at h; rw [runPoint_le L b h1]; exact h

end

namespace Crv
variable (c : Crv)

theorem scalar_le (pr : Profile) : (c.scalar .debug).Le (c.scalar pr) := by
  rw [scalar_eq, scalar_eq]
  constructor
  · rfl
  all_goals
    intros
    rename_i h
    exact FieldCode.runLimb_mono _ pr h

/-- The extended coordinates `p` represent the curve point `P`: the words are valid (any number of
carries the operations can produce), `z ≠ 0`, `x / z` and `y / z` are the coordinates of `P`, and
`t z = x y`. -/
def Represents (p : EdwardsExtended Elem) (P : c.Point) : Prop := p.Repr c.fld.Tight c.den P

/-- The canonical words of `x`. -/
def words (x : Int) : Elem :=
  (List.range c.fld.k).map fun i => x / Check.p2 (c.fld.L * i) % Check.p2 c.fld.L

/-- Canonical extended coordinates of the affine point `(x, y)` with the given `z`. -/
def coords (x y z : Int) : EdwardsExtended Elem :=
  ⟨c.words (x * z % c.fld.p), c.words (y * z % c.fld.p), c.words (z % c.fld.p),
    c.words (x * y % c.fld.p * z % c.fld.p)⟩

/-- The words are canonical and represent the affine point `(x, y)`. -/
def reprB (x y : Int) (r : EdwardsExtended Elem) : Bool :=
  c.fld.canonB (c.fld.V r.x) r.x && c.fld.canonB (c.fld.V r.y) r.y &&
  c.fld.canonB (c.fld.V r.z) r.z && c.fld.canonB (c.fld.V r.t) r.t &&
  !decide (c.fld.V r.z % c.fld.p = 0) &&
  decide ((c.fld.V r.x - x * c.fld.V r.z) % c.fld.p = 0) &&
  decide ((c.fld.V r.y - y * c.fld.V r.z) % c.fld.p = 0) &&
  decide ((c.fld.V r.t * c.fld.V r.z - c.fld.V r.x * c.fld.V r.y) % c.fld.p = 0)

/-- The projective coordinates do not satisfy the curve equation. -/
def offB (r : EdwardsExtended Elem) : Bool :=
  let x := c.fld.V r.x % c.fld.p
  let y := c.fld.V r.y % c.fld.p
  let z := c.fld.V r.z % c.fld.p
  !decide ((x * x % c.fld.p * (z * z) + y * y % c.fld.p * (z * z) - z * z * (z * z) -
    c.dInt * (x * x * (y * y))) % c.fld.p = 0)

variable {c}

theorem emod_cast (u : Int) : ((u % c.fld.p : Int) : c.K) = (u : c.K) :=
  Fld.modEq_iff.1 (Int.mod_modEq _ _)

theorem cast_eq_zero {u : Int} : (u : c.K) = 0 ↔ u % c.fld.p = 0 := by
  rw [← Int.cast_zero, ← Fld.modEq_iff, Int.ModEq, Int.zero_emod]

theorem represents_of_reprB {P : c.Point} {x y : Int} (hx : P.x = (x : c.K)) (hy : P.y = (y : c.K))
    {r : EdwardsExtended Elem} (h : c.reprB x y r = true) : c.Represents r P := by
  simp only [reprB, Bool.and_eq_true, Bool.not_eq_true', decide_eq_false_iff_not,
    decide_eq_true_eq] at h
  obtain ⟨⟨⟨⟨⟨⟨⟨h1, h2⟩, h3⟩, h4⟩, h5⟩, h6⟩, h7⟩, h8⟩ := h
  rw [← cast_eq_zero] at h5 h6 h7 h8
  push_cast at h6 h7 h8
  refine ⟨⟨⟨(Fld.canon_of_canonB h1).tight, (Fld.canon_of_canonB h2).tight,
    (Fld.canon_of_canonB h3).tight, (Fld.canon_of_canonB h4).tight⟩, h5, ?_, ?_⟩, ?_⟩
  · rw [hx]; simp only [den]; linear_combination h6
  · rw [hy]; simp only [den]; linear_combination h7
  · simp only [den]; linear_combination h8

theorem not_represents_of_offB {r : EdwardsExtended Elem} (h : c.offB r = true) (P : c.Point) :
    ¬ r.ReprXYZ c.fld.Tight c.den P := by
  rintro ⟨-, -, hx, hy⟩
  simp only [offB, Bool.not_eq_true', decide_eq_false_iff_not] at h
  rw [← cast_eq_zero] at h
  apply h
  simp only [Int.cast_sub, Int.cast_add, Int.cast_mul, emod_cast]
  simp only [den] at hx hy
  have on := P.on
  simp only [Crv.d] at on
  rw [hx, hy]
  linear_combination (c.fld.V r.z : c.K) ^ 4 * on

/-- The point with the given affine coordinates. -/
def pt (c : Crv) (x y : Int) (h : c.onB x y = true) : c.Point := ⟨x, y, on_of_onB c h⟩

variable (c)
open EdwardsExtended

/-- All operations of a run of `b` on `p` and `q` are in the domains where the field type is
right: right operands of `-` have no carry (C02), products are in the domain of C04, and operands
of `small_mul(2)` have no carry (C07). -/
def RunsRight (pr : Profile) (b : PProg) (p q : EdwardsExtended Elem) : Prop :=
  SafeProg (c.scalar pr) c.SubOk c.MulOk c.SmOk b (regs p q)

/-- Kernel check that `b` runs right and that the result satisfies `k`. -/
def rightB (b : PProg) (p q : EdwardsExtended Elem) (k : EdwardsExtended Elem → Bool) : Bool :=
  callK (c.scalar .debug) c.subB c.mulB c.smB b p q k

/-- Kernel check that the result of `b` satisfies `k`. -/
def runB (b : PProg) (p q : EdwardsExtended Elem) (k : EdwardsExtended Elem → Bool) : Bool :=
  callK (c.scalar .debug) (fun _ _ => true) (fun _ _ => true) (fun _ _ => true) b p q k

variable {c}

theorem of_rightB {b : PProg} {p q : EdwardsExtended Elem} {k : EdwardsExtended Elem → Bool}
    (h : c.rightB b p q k = true) : c.RunsRight .debug b p q := by
  obtain ⟨r, -, h2, -⟩ := callK_sound c.subB_ok c.mulB_ok c.smB_ok h
  exact h2

theorem of_runB {b : PProg} {p q : EdwardsExtended Elem} {k : EdwardsExtended Elem → Bool}
    (h : c.runB b p q k = true) (pr : Profile) :
    ∃ r, call (c.scalar pr) b p q = .ok r ∧ k r = true := by
  obtain ⟨r, h1, h2⟩ := callK_run h
  exact ⟨r, call_le (c.scalar_le pr) h1, h2⟩

/-- The base point with the given `z`. -/
def baseCoords (c : Crv) (z : Int) : EdwardsExtended Elem :=
  c.coords (c.fld.V c.baseX) (c.fld.V c.baseY) z

theorem baseCoords_repr {z : Int}
    (h : c.reprB (c.fld.V c.baseX) (c.fld.V c.baseY) (c.baseCoords z) = true) :
    c.Represents (c.baseCoords z) c.base := represents_of_reprB rfl rfl h

set_option maxRecDepth 100000 in
theorem base1 (c : Crv) : c.Represents (c.baseCoords 1) c.base := by
  apply baseCoords_repr
  cases c <;> decide +kernel

end Crv
end Verif

import Verif.Props.RepairedClients

/-!
# Clients of the repaired curves

Clients as in C58 that have points besides elements.  Points are made by the repaired `init` (after a check of the curve
equation), `zero`, `triple` and `scalar_mult` and the unchanged `+` and `double`; what is seen of them are their affine
coordinates and whether two are equal.  `edwards.rs` has no functions for the last two and for the check; here they are
written in terms of the operations of the field.
-/

namespace Verif.Repaired
open EdwardsExtended

section
variable (c : Crv) (pr : Profile)

/-- Does `x² + y² = 1 + d x² y²` hold?  (Not in the repository.) -/
def onCurve (x y : Elem) : Res Bool := do
  let C := scalar c pr
  let xx ← C.squared x
  let yy ← C.squared y
  let l ← C.add xx yy
  let r ← C.add C.one (← C.mul (← C.mul C.dVal xx) yy)
  let (_, _, b) ← normalizeEq c.fld pr l r
  return b

/-- The affine coordinates.  (Not in the repository.) -/
def affine (p : EdwardsExtended Elem) : Res (Elem × Elem) := do
  let zi ← (code c.fld).inverted pr p.z
  let x ← (scalar c pr).mul p.x zi
  let y ← (scalar c pr).mul p.y zi
  return (x, y)

/-- Are the points equal?  (Not in the repository.) -/
def samePoint (p q : EdwardsExtended Elem) : Res Bool := do
  let C := scalar c pr
  let (_, _, b1) ← normalizeEq c.fld pr (← C.mul p.x q.z) (← C.mul q.x p.z)
  let (_, _, b2) ← normalizeEq c.fld pr (← C.mul p.y q.z) (← C.mul q.y p.z)
  return b1 && b2

end

/-- Instructions that make a new point. -/
inductive PtInstr where
  | zero
  | add (p q : Nat)
  | double (p : Nat)
  | triple (p : Nat)

/-- Clients with results of type `α`. -/
inductive CClient (α : Type) where
  | done (x : α)
  | step (o : Instr) (k : CClient α)
  | normalize (i : Nat) (k : CClient α)
  | eq (i j : Nat) (k : Bool → CClient α)
  | bit (i idx : Nat) (k : Bool → CClient α)
  | packed (i : Nat) (k : List Int → CClient α)
  | hex (upper : Bool) (i : Nat) (k : List Char → CClient α)
  /-- A new point. -/
  | point (o : PtInstr) (k : CClient α)
  /-- A new point, the element `i` times the point `p`; the element is normalized. -/
  | mult (p i : Nat) (k : CClient α)
  /-- A new point with the affine coordinates `i` and `j`, if there is one. -/
  | init (i j : Nat) (k : Bool → CClient α)
  /-- Two new elements, the affine coordinates of the point `p`. -/
  | affine (p : Nat) (k : CClient α)
  | same (p q : Nat) (k : Bool → CClient α)

section
variable (c : Crv) (pr : Profile)

/-- Run an instruction with the repaired code. -/
def PtInstr.exec (ps : List (EdwardsExtended Elem)) (o : PtInstr) : Res (EdwardsExtended Elem) :=
  let q := fun p => ps.getD p (Repaired.zero (scalar c pr))
  match o with
  | zero => .ok (Repaired.zero (scalar c pr))
  | add p p' => (q p).add (scalar c pr) (q p')
  | double p => (q p).doubled (scalar c pr)
  | triple p => Repaired.triple (scalar c pr) (q p)

/-- Run a client with the repaired code. -/
def CClient.run {α : Type} : CClient α → List Elem → List (EdwardsExtended Elem) → Res α
  | done x, _, _ => .ok x
  | step o k, rs, ps => do k.run (rs ++ [← o.exec c.fld pr rs]) ps
  | normalize i k, rs, ps => do
    k.run (rs.set i (← Repaired.normalize c.fld pr (rs.getD i c.fld.code.ZERO))) ps
  | eq i j k, rs, ps => do
    let (x, y, b) ← normalizeEq c.fld pr (rs.getD i c.fld.code.ZERO) (rs.getD j c.fld.code.ZERO)
    (k b).run ((rs.set i x).set j y) ps
  | bit i idx k, rs, ps => do
    let (x, b) ← Repaired.bit c.fld pr (rs.getD i c.fld.code.ZERO) idx
    (k b).run (rs.set i x) ps
  | packed i k, rs, ps => do
    let (x, out) ← Repaired.packed c.fld pr (rs.getD i c.fld.code.ZERO)
    (k out).run (rs.set i x) ps
  | hex upper i k, rs, ps => do
    let s ← fmtHex c.fld pr upper (rs.getD i c.fld.code.ZERO)
    (k s).run rs ps
  | point o k, rs, ps => do k.run rs (ps ++ [← o.exec c pr ps])
  | mult p i k, rs, ps => do
    let (q, x) ← scalarMult (scalar c pr) (ps.getD p (Repaired.zero (scalar c pr))) (rs.getD i c.fld.code.ZERO)
    k.run (rs.set i x) (ps ++ [q])
  | init i j k, rs, ps => do
    let b ← onCurve c pr (rs.getD i c.fld.code.ZERO) (rs.getD j c.fld.code.ZERO)
    if b then
      let q ← Repaired.init (scalar c pr) (rs.getD i c.fld.code.ZERO) (rs.getD j c.fld.code.ZERO)
      (k true).run rs (ps ++ [q])
    else (k false).run rs ps
  | affine p k, rs, ps => do
    let (x, y) ← Repaired.affine c pr (ps.getD p (Repaired.zero (scalar c pr)))
    k.run (rs ++ [x, y]) ps
  | same p q k, rs, ps => do
    let b ← samePoint c pr (ps.getD p (Repaired.zero (scalar c pr))) (ps.getD q (Repaired.zero (scalar c pr)))
    (k b).run rs ps

/-- The instruction in the group of the curve. -/
noncomputable def PtInstr.ideal (Ps : List c.Point) : PtInstr → c.Point
  | zero => 0
  | add p q => Ps.getD p 0 + Ps.getD q 0
  | double p => 2 • Ps.getD p 0
  | triple p => 3 • Ps.getD p 0

open Classical in
/-- What the client gets when elements are residue classes and points are elements of the group of the curve. -/
noncomputable def CClient.ideal {α : Type} : CClient α → List c.K → List c.Point → α
  | done x, _, _ => x
  | step o k, ds, Ps => k.ideal (ds ++ [o.ideal c.fld ds]) Ps
  | normalize _ k, ds, Ps => k.ideal ds Ps
  | eq i j k, ds, Ps => (k (decide (ds.getD i 0 = ds.getD j 0))).ideal ds Ps
  | bit i idx k, ds, Ps => (k ((ds.getD i 0).val.testBit idx)).ideal ds Ps
  | packed i k, ds, Ps => (k (leBytes c.fld.nbytes (ds.getD i 0).val)).ideal ds Ps
  | hex upper i k, ds, Ps => (k (hexDigits upper c.fld.nbytes (ds.getD i 0).val)).ideal ds Ps
  | point o k, ds, Ps => k.ideal ds (Ps ++ [o.ideal c Ps])
  | mult p i k, ds, Ps => k.ideal ds (Ps ++ [(ds.getD i 0).val • Ps.getD p 0])
  | init i j k, ds, Ps =>
    if h : ds.getD i 0 ^ 2 + ds.getD j 0 ^ 2 = 1 + c.d * ds.getD i 0 ^ 2 * ds.getD j 0 ^ 2 then
      (k true).ideal ds (Ps ++ [⟨ds.getD i 0, ds.getD j 0, h⟩])
    else (k false).ideal ds Ps
  | affine p k, ds, Ps => k.ideal (ds ++ [(Ps.getD p 0).x, (Ps.getD p 0).y]) Ps
  | same p q k, ds, Ps => (k (decide (Ps.getD p 0 = Ps.getD q 0))).ideal ds Ps

/-- The arguments of all instructions the client can come to have the Rust types, byte strings are long enough, and bit
indices are inside the words. -/
def CClient.Valid {α : Type} : CClient α → Prop
  | done _ => True
  | step o k => o.Valid c.fld ∧ k.Valid
  | normalize _ k => k.Valid
  | eq _ _ k => ∀ b, (k b).Valid
  | bit _ idx k => idx < c.fld.L * c.fld.k ∧ ∀ b, (k b).Valid
  | packed _ k => ∀ out, out.length = c.fld.nbytes → IsBytes out → (k out).Valid
  | hex _ _ k => ∀ s, (k s).Valid
  | point _ k => k.Valid
  | mult _ _ k => k.Valid
  | init _ _ k => ∀ b, (k b).Valid
  | affine _ k => k.Valid
  | same _ _ k => ∀ b, (k b).Valid

end

section
variable {c : Crv} (pr : Profile)

private theorem eq_ok {a b : Elem} (ha : c.fld.Tight a) (hb : c.fld.Tight b) :
    ∃ x y r, normalizeEq c.fld pr a b = .ok (x, y, r) ∧ (r = true ↔ c.den a = c.den b) := by
  obtain ⟨x, y, r, h1, -, -, h2⟩ := C58_normalize_eq c.fld pr ha.rep hb.rep
  exact ⟨x, y, r, h1, h2.trans Fld.modEq_iff⟩

theorem onCurve_ok {x y : Elem} (hx : c.fld.Tight x) (hy : c.fld.Tight y) :
    ∃ b, onCurve c pr x y = .ok b ∧
      (b = true ↔ c.den x ^ 2 + c.den y ^ 2 = 1 + c.d * c.den x ^ 2 * c.den y ^ 2) := by
  have L := (lawful c pr).exact
  obtain ⟨xx, a1, a2, a3⟩ := L.squared hx
  obtain ⟨yy, b1, b2, b3⟩ := L.squared hy
  obtain ⟨l, c1, c2, c3⟩ := L.add a2 b2
  obtain ⟨m, d1, d2, d3⟩ := L.mul L.dVal.1 a2 trivial
  obtain ⟨n, e1, e2, e3⟩ := L.mul d2 b2 trivial
  obtain ⟨r, f1, f2, f3⟩ := L.add L.one.1 e2
  obtain ⟨u, v, b, g1, g2⟩ := eq_ok pr c2 f2
  refine ⟨b, ?_, ?_⟩
  · simp only [onCurve, a1, b1, c1, d1, e1, f1, g1, bind, Except.bind, pure, Except.pure]
  · rw [g2, c3, f3, e3, d3, L.dVal.2, L.one.2, a3, b3]

theorem init_ok {x y : Elem} (hx : c.fld.Tight x) (hy : c.fld.Tight y) {P : c.Point} (ex : c.den x = P.x)
    (ey : c.den y = P.y) : ∃ r, init (scalar c pr) x y = .ok r ∧ c.Represents r P := by
  have L := (lawful c pr).exact
  obtain ⟨t, t1, t2, t3⟩ := L.mul hx hy trivial
  obtain ⟨o1, o2⟩ := L.one
  refine ⟨⟨x, y, (scalar c pr).one, t⟩, ?_, ⟨⟨hx, hy, o1, t2⟩, ?_, ?_, ?_⟩, ?_⟩
  · simp only [init, t1, bind, Except.bind, pure, Except.pure]
  · rw [o2]; exact one_ne_zero
  · rw [o2, mul_one, ex]
  · rw [o2, mul_one, ey]
  · rw [o2, mul_one, t3]

theorem affine_ok {p : EdwardsExtended Elem} {P : c.Point} (hp : c.Represents p P) :
    ∃ x y, affine c pr p = .ok (x, y) ∧ Inv c.fld P.x x ∧ Inv c.fld P.y y := by
  have L := (lawful c pr).exact
  obtain ⟨⟨⟨ox, oy, oz, -⟩, hz, hx, hy⟩, -⟩ := hp
  obtain ⟨zi, a1, a2, a3⟩ := inverted_ok c.fld pr oz
  have a3 : c.den zi = (c.den p.z)⁻¹ := a3
  obtain ⟨x, b1, b2, b3⟩ := L.mul ox a2 trivial
  obtain ⟨y, c1, c2, c3⟩ := L.mul oy a2 trivial
  refine ⟨x, y, ?_, ⟨b2, ?_⟩, ⟨c2, ?_⟩⟩
  · simp only [affine, a1, b1, c1, bind, Except.bind, pure, Except.pure]
  · show c.den x = _
    rw [b3, a3, hx, mul_assoc, mul_inv_cancel₀ hz, mul_one]
  · show c.den y = _
    rw [c3, a3, hy, mul_assoc, mul_inv_cancel₀ hz, mul_one]

theorem samePoint_ok {p q : EdwardsExtended Elem} {P Q : c.Point} (hp : c.Represents p P) (hq : c.Represents q Q) :
    ∃ b, samePoint c pr p q = .ok b ∧ (b = true ↔ P = Q) := by
  have L := (lawful c pr).exact
  obtain ⟨⟨⟨px, py, pz, -⟩, hz, hx, hy⟩, -⟩ := hp
  obtain ⟨⟨⟨qx, qy, qz, -⟩, hz', hx', hy'⟩, -⟩ := hq
  obtain ⟨s, a1, a2, a3⟩ := L.mul px qz trivial
  obtain ⟨t, b1, b2, b3⟩ := L.mul qx pz trivial
  obtain ⟨u, c1, c2, c3⟩ := L.mul py qz trivial
  obtain ⟨v, d1, d2, d3⟩ := L.mul qy pz trivial
  obtain ⟨_, _, b, e1, e2⟩ := eq_ok pr a2 b2
  obtain ⟨_, _, b', f1, f2⟩ := eq_ok pr c2 d2
  refine ⟨b && b', ?_, ?_⟩
  · simp only [samePoint, a1, b1, c1, d1, e1, f1, bind, Except.bind, pure, Except.pure]
  · rw [Bool.and_eq_true, e2, f2, a3, b3, c3, d3, hx, hy, hx', hy']
    have hzz := mul_ne_zero hz hz'
    constructor
    · rintro ⟨h1, h2⟩
      ext
      · exact mul_right_cancel₀ hzz (by linear_combination h1)
      · exact mul_right_cancel₀ hzz (by linear_combination h2)
    · rintro rfl
      exact ⟨by ring, by ring⟩

end
end Verif.Repaired

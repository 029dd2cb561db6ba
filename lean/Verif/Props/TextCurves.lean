import Verif.Rust.LadderFns
import Verif.Props.Text
import Verif.Props.ScalarMult

/-!
# C55: the functions on points are the meaning of the program text

As C54, for `edwards.rs` and the files of the five curves.  `crvProg c` is the text of the three files
a curve consists of: that of its field, `edwards.rs` and its own.  The type parameter `C` of the generic
code is the type of the curve (`w.curve = crvId c`).  Coordinates and scalars are arbitrary words; only
their number is that of the type.
-/

namespace Verif

open Rust

variable {P : Program} {c : Crv} (h : HasC P c) {w : World} (hw : w.curve = crvId c) {n : Nat} (hn : 12 ≤ n)
  {p q : EdwardsExtended Elem} (hp : Fits c.fld p) (hq : Fits c.fld q) {k : Elem} (hk : k.length = c.fld.code.limbs)

/-- A point. -/
abbrev pt (c : Crv) (p : EdwardsExtended Elem) : Val := point (tyId c.fld) p

/-- A reference to a point. -/
abbrev ptRef (c : Crv) (p : EdwardsExtended Elem) : Val := .ref (point (tyId c.fld) p)

/-- Call a function of `edwards.rs`. -/
abbrev callPt (P : Program) (w : World) (n : Nat) (m : Id) (args : List Val) : Except Err (Val × List Val) :=
  callFn P w n (id! "EdwardsExtended") m args

include h in
theorem callPt_eq {m : Id} (hm : m ∈ edMethods) (args : List Val) : callPt P w n m args = run P w n (edF m) args := by
  rw [callPt, callFn, ed_eq h hm]

include h hw hn

include hp hq in
/-- C55, operators: `+=` with a reference and a value, `+` of references and of values. -/
theorem C55_operators :
    callOp P w n (id! "AddAssign") (pt c p) (ptRef c q) =
      (lift (p.addAssign (c.scalar w.pr) q) >>= fun r => .ok (.unit, [ptRef c r, ptRef c q])) ∧
    callOp P w n (id! "AddAssign") (pt c p) (pt c q) =
      (lift (p.addAssign (c.scalar w.pr) q) >>= fun r => .ok (.unit, [ptRef c r, pt c q])) ∧
    callOp P w n (id! "Add") (ptRef c p) (ptRef c q) =
      (lift (p.add (c.scalar w.pr) q) >>= fun r => .ok (pt c r, [ptRef c p, ptRef c q])) ∧
    callOp P w n (id! "Add") (pt c p) (pt c q) =
      (lift (p.add (c.scalar w.pr) q) >>= fun r => .ok (pt c r, [pt c p, pt c q])) := by
  refine ⟨?_, ?_, ?_, ?_⟩
  · simp only [callOp, ty_point, ty_ref_point, h.opFn fn_addAssign]
    exact run_point_add h hw (by omega) hp hq
  · simp only [callOp, ty_point, h.opFn fn_addAssignV]
    exact run_point_addV h hw hp hq (by omega)
  · simp only [callOp, ty_ref_point, h.opFn fn_plus]
    exact run_plus h hw hp hq (by omega)
  · simp only [callOp, ty_point, h.opFn fn_plusV]
    exact run_plusV h hw hp hq (by omega)

include hp in
/-- C55, `double`, `doubled`, `triple`, `tripled`. -/
theorem C55_formulas :
    callPt P w n (id! "double") [ptRef c p] =
      (lift (p.double (c.scalar w.pr)) >>= fun r => .ok (.unit, [ptRef c r])) ∧
    callPt P w n (id! "doubled") [ptRef c p] =
      (lift (p.doubled (c.scalar w.pr)) >>= fun r => .ok (pt c r, [ptRef c p])) ∧
    callPt P w n (id! "triple") [ptRef c p] =
      (lift (p.triple (c.scalar w.pr)) >>= fun r => .ok (.unit, [ptRef c r])) ∧
    callPt P w n (id! "tripled") [ptRef c p] =
      (lift (p.tripled (c.scalar w.pr)) >>= fun r => .ok (pt c r, [ptRef c p])) := by
  refine ⟨?_, ?_, ?_, ?_⟩
  · rw [callPt_eq h (by decide)]; exact run_point_double h hw (by omega) hp
  · rw [callPt_eq h (by decide)]; exact run_doubled h hw hp (by omega)
  · rw [callPt_eq h (by decide)]; exact run_point_triple h hw (by omega) hp
  · rw [callPt_eq h (by decide)]; exact run_tripled h hw hp (by omega)

/-- C55, `zero`, `init` and `d_val`. -/
theorem C55_constructors (x y : Elem) :
    callPt P w n (id! "zero") [] = .ok (pt c (EdwardsExtended.zero (c.scalar w.pr)), []) ∧
    callPt P w n (id! "init") [ptRef c p, elem (tyId c.fld) x, elem (tyId c.fld) y] =
      .ok (.unit, [ptRef c (p.init (c.scalar w.pr) x y), elem (tyId c.fld) x, elem (tyId c.fld) y]) ∧
    callFn P w n (crvId c) (id! "d_val") [] = .ok (elem (tyId c.fld) (c.scalar w.pr).dVal, []) := by
  refine ⟨?_, ?_, ?_⟩
  · rw [callPt_eq h (by decide)]; exact run_zero h hw (by omega)
  · rw [callPt_eq h (by decide)]; exact run_init h hw (by omega) x y
  · rw [callFn, h.dval (fn_dval c), Crv.scalar_eq]; exact run_dval h (by omega)

include hp hq hk in
/-- C55, `normalized_bitand` and `normalized_bitor`. -/
theorem C55_bitwise :
    callPt P w n (id! "normalized_bitand") [ptRef c p, rf c.fld k] =
      .ok (.unit, [ptRef c (p.normalizedBitand (c.scalar w.pr) k), rf c.fld k]) ∧
    callPt P w n (id! "normalized_bitor") [ptRef c p, ptRef c q] =
      .ok (.unit, [ptRef c (p.normalizedBitor (c.scalar w.pr) q), ptRef c q]) := by
  refine ⟨?_, ?_⟩
  · rw [callPt_eq h (by decide)]; exact run_bitand h hp (by omega) hk
  · rw [callPt_eq h (by decide)]; exact run_bitor h hp hq (by omega)

include hp in
/-- C55, `scalar_mult_normalized`; the scalar may have any number of words. -/
theorem C55_ladder :
    callPt P w n (id! "scalar_mult_normalized") [ptRef c p, rf c.fld k] =
      (lift (p.scalarMultNormalized (c.scalar w.pr) k) >>= fun r => .ok (.unit, [ptRef c r, rf c.fld k])) := by
  rw [callPt_eq h (by decide)]; exact run_ladder h hw (by omega) hp

include hp hk in
/-- C55, `scalar_mult`. -/
theorem C55_scalar_mult :
    callPt P w n (id! "scalar_mult") [ptRef c p, rf c.fld k] =
      (lift (p.scalarMult (c.scalar w.pr) k) >>= fun r => .ok (.unit, [ptRef c r.1, rf c.fld r.2])) := by
  rw [callPt_eq h (by decide)]; exact run_scalar_mult h hw (by omega) hp hk

omit h hw hn

/-! ### Nothing else -/

/-- The impl is one of those treated above, and its functions are the ones found by name. -/
def coveredPt (i : Impl) : Bool :=
  (i.self == tyV (id! "EdwardsExtended") && i.fns.all fun fn =>
    Source.edwards.method (id! "EdwardsExtended") fn.name == some fn && edMethods.contains fn.name) ||
  match i.fns with
  | [fn] =>
    Source.edwards.opFn i.trait (i.self.ref, i.self.name) (i.arg.ref, i.arg.name) == some fn &&
    [(id! "AddAssign", tyV (id! "EdwardsExtended"), tyR (id! "EdwardsExtended")),
     (id! "AddAssign", tyV (id! "EdwardsExtended"), tyV (id! "EdwardsExtended")),
     (id! "Add", tyR (id! "EdwardsExtended"), tyR (id! "EdwardsExtended")),
     (id! "Add", tyV (id! "EdwardsExtended"), tyV (id! "EdwardsExtended"))].contains (i.trait, i.self, i.arg)
  | _ => false

/-- C55: `edwards.rs` has no other functions and no constants. -/
theorem C55_all_functions : Source.edwards.consts = [] ∧ ∀ i ∈ Source.edwards.impls, coveredPt i = true := by
  decide +kernel

/-- C55: the file of a curve consists of one impl, with the associated type and `d_val`. -/
theorem C55_curve_file (c : Crv) : (crvSrc c).consts = [] ∧ ∃ i, (crvSrc c).impls = [i] ∧
    i.self = tyV (crvId c) ∧ i.types = [(id! "Scalar", tyId c.fld)] ∧ i.fns = [dFn c] := by
  cases c <;> exact ⟨rfl, _, rfl, rfl, rfl, rfl⟩

/-! ### Properties of the text -/

theorem tight_fits {c : Crv} {p : EdwardsExtended Elem} (hp : p.Ok c.fld.Tight) : Fits c.fld p :=
  ⟨rep_length hp.1.rep, rep_length hp.2.1.rep, rep_length hp.2.2.1.rep, rep_length hp.2.2.2.rep⟩

/-- C55, C26 for the text: adding the base point to itself gives coordinates of no point. -/
theorem C55_text_add (c : Crv) (pf : Profile) : c.Represents (c.baseCoords 1) c.base ∧
    ∃ r, callOp (crvProg c) (crvWorld c pf) 12 (id! "Add") (pt c (c.baseCoords 1)) (pt c (c.baseCoords 1)) =
      .ok (pt c r, [pt c (c.baseCoords 1), pt c (c.baseCoords 1)]) ∧
      ∀ Q : c.Point, ¬ r.ReprXYZ c.fld.Tight c.den Q := by
  obtain ⟨h0, r, h1, h2⟩ := C26_counterexample c pf
  have hf := tight_fits h0.1.1
  refine ⟨h0, r, ?_, h2⟩
  rw [(C55_operators (has_crv c) (w := crvWorld c pf) rfl (show 12 ≤ 12 by decide) hf hf).2.2.2,
    show (c.baseCoords 1).add (c.scalar (crvWorld c pf).pr) (c.baseCoords 1) = .ok r from h1]
  rfl

/-- C55, C31 for the text: multiplying the base point by one gives coordinates of no point. -/
theorem C55_text_scalar_mult (c : Crv) (pf : Profile) : c.Represents (c.baseCoords 1) c.base ∧
    c.fld.Canon 1 c.fld.code.ONE ∧
    ∃ r k', callPt (crvProg c) (crvWorld c pf) 12 (id! "scalar_mult") [ptRef c (c.baseCoords 1), rf c.fld c.fld.code.ONE] =
      .ok (.unit, [ptRef c r, rf c.fld k']) ∧ ∀ Q : c.Point, ¬ r.ReprXYZ c.fld.Tight c.den Q := by
  obtain ⟨h0, hk, r, k', h1, h2⟩ := C31_counterexample c pf
  refine ⟨h0, hk, r, k', ?_, h2⟩
  rw [(C55_scalar_mult (has_crv c) (w := crvWorld c pf) rfl (show 12 ≤ 12 by decide) (tight_fits h0.1.1)
    (by cases c <;> rfl)), show (c.baseCoords 1).scalarMult (c.scalar (crvWorld c pf).pr) c.fld.code.ONE = .ok (r, k') from h1]
  rfl

/-- C55, C32 for the text: the ladder never panics, whatever the scalar. -/
theorem C55_text_ladder_total (c : Crv) (pf : Profile) {p : EdwardsExtended Elem} (hp : p.Ok c.fld.Tight) {k : Elem}
    (hk : k.length = c.fld.k) :
    ∃ r, callPt (crvProg c) (crvWorld c pf) 12 (id! "scalar_mult_normalized") [ptRef c p, rf c.fld k] =
      .ok (.unit, [ptRef c r, rf c.fld k]) ∧ r.Ok c.fld.Tight := by
  obtain ⟨r, ev, h1, h2⟩ := C32_total c pf hp hk
  refine ⟨r, ?_, h2⟩
  rw [C55_ladder (has_crv c) (w := crvWorld c pf) rfl (show 12 ≤ 12 by decide) (tight_fits hp), EdwardsExtended.scalarMultNormalized,
    show p.scalarMultNormalizedT (c.scalar (crvWorld c pf).pr) k = .ok (r, ev) from h1]
  rfl

/-! ### Examples -/

/-- `doubled` of `zero()` on Curve1174. -/
example : callPt (crvProg .curve1174) (crvWorld .curve1174 .debug) 12 (id! "doubled")
    [ptRef .curve1174 (EdwardsExtended.zero (Crv.scalar .curve1174 .debug))] =
      .ok (pt .curve1174 ⟨[0, 0, 0, 0, 0], [305, 0, 0, 0, 268435456], [305, 0, 0, 0, 268435456], [0, 0, 0, 0, 0]⟩,
        [ptRef .curve1174 (EdwardsExtended.zero (Crv.scalar .curve1174 .debug))]) := by
  rw [(C55_formulas (c := .curve1174) (has_crv _) (w := crvWorld .curve1174 .debug) rfl (show 12 ≤ 12 by decide)
      (zero_fits .debug)).2.1,
    show (EdwardsExtended.zero (Crv.scalar .curve1174 .debug)).doubled
      (Crv.scalar .curve1174 (crvWorld .curve1174 .debug).pr) = .ok ⟨[0, 0, 0, 0, 0], [305, 0, 0, 0, 268435456],
        [305, 0, 0, 0, 268435456], [0, 0, 0, 0, 0]⟩ by decide +kernel]
  rfl

/-- Words that are too large make the text of `double` overflow in debug builds. -/
example : callPt (crvProg .curve1174) (crvWorld .curve1174 .debug) 12 (id! "double")
    [ptRef .curve1174 ⟨[2 ^ 62, 2, 3, 4, 5], [1, 0, 0, 0, 7], [1, 0, 0, 0, 0], [0, 0, 0, 0, 0]⟩] = .error (.panic .overflow) := by
  rw [(C55_formulas (c := .curve1174) (has_crv _) (w := crvWorld .curve1174 .debug) rfl (show 12 ≤ 12 by decide)
      ⟨rfl, rfl, rfl, rfl⟩).1,
    show EdwardsExtended.double (Crv.scalar .curve1174 (crvWorld .curve1174 .debug).pr)
      ⟨[2 ^ 62, 2, 3, 4, 5], [1, 0, 0, 0, 7], [1, 0, 0, 0, 0], [0, 0, 0, 0, 0]⟩ = .error .overflow by decide +kernel]
  rfl

/-- The scalar of `scalar_mult_normalized` is read as it is: with too few words it panics. -/
example : callPt (crvProg .e222) (crvWorld .e222 .release) 12 (id! "scalar_mult_normalized")
    [ptRef .e222 (EdwardsExtended.zero (Crv.scalar .e222 .release)), rf (Crv.fld .e222) [1]] = .error (.panic .index) := by
  rw [C55_ladder (has_crv .e222) (w := crvWorld .e222 .release) rfl (show 12 ≤ 12 by decide) (zero_fits .release),
    show EdwardsExtended.scalarMultNormalized (Crv.scalar .e222 (crvWorld .e222 .release).pr)
      (EdwardsExtended.zero (Crv.scalar .e222 .release)) [1] = .error .index by decide +kernel]
  rfl

end Verif

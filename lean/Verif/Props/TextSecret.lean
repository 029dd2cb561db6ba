import Verif.Rust.Secret
import Verif.Props.TextCurves

/-!
# C56: what the code does depends on public data only

The interpreter of the program text is run with a record of every function entered, loop iteration,
array index, place written, primitive operation, shift distance and operand of a division
(`Verif/Rust/Trace.lean`).  Arguments may differ in the numbers of type `i64`, `i32`, `i16`, `i8`, `u8`
and in truth values (`Los`): everything an element, a scalar, a point, a byte string or a mask consists
of.  The record is the same.  The number of words or bytes, and `usize` arguments (the index of `bit`),
are public.
-/

namespace Verif

open Rust

/-! ### Recorded calls -/

/-- `callFn`, recording. -/
def callFnT (P : Program) (w : World) (n : Nat) (t m : Id) (args : List Val) : T (Val × List Val) :=
  match P.method t m with
  | some fn => runT P w n fn args
  | none => .quiet (.error .stuck)

/-- `callOp`, recording. -/
def callOpT (P : Program) (w : World) (n : Nat) (trait : Id) (x y : Val) : T (Val × List Val) :=
  match x.ty, y.ty with
  | some l, some r =>
    match P.opFn trait l r with
    | some fn => runT P w n fn [if fn.recv = .mut then .ref x else x, y]
    | none => .quiet (.error .stuck)
  | _, _ => .quiet (.error .stuck)

/-- C56: recording does not change what the code computes. -/
theorem C56_faithful (P : Program) (w : World) (n : Nat) :
    (∀ t m args, (callFnT P w n t m args).res = callFn P w n t m args) ∧
    ∀ trait x y, (callOpT P w n trait x y).res = callOp P w n trait x y := by
  refine ⟨fun t m args => ?_, fun trait x y => ?_⟩
  · unfold callFnT callFn
    rcases P.method t m with _ | fn
    · rfl
    · exact runT_res P w n fn args
  · unfold callOpT callOp
    rcases x.ty with _ | l
    · rfl
    rcases y.ty with _ | r
    · rfl
    dsimp only
    rcases P.opFn trait l r with _ | fn
    · rfl
    · exact runT_res P w n fn _

/-! ### Any function of any program -/

/-- C56: in release builds the record depends on public data only, and so does whether the call
succeeds; the results agree in their public parts.  The answers of the random generator are secret too. -/
theorem C56_release (P : Program) (curve : Id) (rng rng' : Nat → Int → Int) (n : Nat) (fn : Fn)
    {args args' : List Val} (h : Los args args') :
    (runT P ⟨.release, curve, rng⟩ n fn args).trace = (runT P ⟨.release, curve, rng'⟩ n fn args').trace ∧
    Both LoCall (run P ⟨.release, curve, rng⟩ n fn args) (run P ⟨.release, curve, rng'⟩ n fn args') := by
  rw [← runT_res, ← runT_res]
  rcases runT_lo P .release curve rng rng' n fn h with ⟨h1, h2⟩ | ⟨h, -, -⟩ | ⟨h, -, -⟩
  · exact ⟨h1, h2⟩
  · cases h
  · cases h

/-- C56: in debug builds the record can only end early, by an overflow. -/
theorem C56_debug (P : Program) (pr : Profile) (curve : Id) (rng rng' : Nat → Int → Int) (n : Nat) (fn : Fn)
    {args args' : List Val} (h : Los args args') :
    (runT P ⟨pr, curve, rng⟩ n fn args).trace = (runT P ⟨pr, curve, rng'⟩ n fn args').trace ∨
    run P ⟨pr, curve, rng⟩ n fn args = .error (.panic .overflow) ∧
      (runT P ⟨pr, curve, rng⟩ n fn args).trace <+: (runT P ⟨pr, curve, rng'⟩ n fn args').trace ∨
    run P ⟨pr, curve, rng'⟩ n fn args' = .error (.panic .overflow) ∧
      (runT P ⟨pr, curve, rng'⟩ n fn args').trace <+: (runT P ⟨pr, curve, rng⟩ n fn args).trace := by
  rw [← runT_res, ← runT_res]
  rcases runT_lo P pr curve rng rng' n fn h with ⟨h1, h2⟩ | ⟨-, h1, h2⟩ | ⟨-, h1, h2⟩
  · exact .inl h1
  · exact .inr (.inl ⟨h1, h2⟩)
  · exact .inr (.inr ⟨h1, h2⟩)

/-- C56: calls that succeed have the same record, in both kinds of builds. -/
theorem C56_success (P : Program) (pr : Profile) (curve : Id) (rng rng' : Nat → Int → Int) (n : Nat) (t m : Id)
    {args args' : List Val} (h : Los args args') {r r' : Val × List Val}
    (e : callFn P ⟨pr, curve, rng⟩ n t m args = .ok r) (e' : callFn P ⟨pr, curve, rng'⟩ n t m args' = .ok r') :
    (callFnT P ⟨pr, curve, rng⟩ n t m args).trace = (callFnT P ⟨pr, curve, rng'⟩ n t m args').trace ∧
      LoCall r r' := by
  unfold callFn at e e'
  unfold callFnT
  rcases hm : P.method t m with _ | fn
  · rw [hm] at e; cases e
  · rw [hm] at e e'
    have e1 : (runT P ⟨pr, curve, rng⟩ n fn args).res = .ok r := (runT_res ..).trans e
    have e2 : (runT P ⟨pr, curve, rng'⟩ n fn args').res = .ok r' := (runT_res ..).trans e'
    rcases runT_lo P pr curve rng rng' n fn h with ⟨h1, h2⟩ | ⟨-, h1, -⟩ | ⟨-, h1, -⟩
    · rw [e1, e2] at h2
      cases h2 with
      | ok h2 => exact ⟨h1, h2⟩
    · rw [e1] at h1; cases h1
    · rw [e2] at h1; cases h1

/-! ### Elements and points -/

theorem lo_elem (t : Id) {a b : List Int} (h : a.length = b.length) : Lo (elem t a) (elem t b) := by
  refine .struct _ _ (.cons (.arr ?_) .nil)
  induction a generalizing b with
  | nil => rw [List.length_eq_zero_iff.1 h.symm]; exact .nil
  | cons x a ih =>
    cases b with
    | nil => cases h
    | cons y b => exact .cons (.secret _ _ _ (by decide)) (ih (Nat.succ.inj h))

theorem lo_point {f : Fld} (t : Id) {p q : EdwardsExtended Elem} (hp : Fits f p) (hq : Fits f q) :
    Lo (point t p) (point t q) :=
  .struct _ _ (.cons (lo_elem t (hp.x.trans hq.x.symm)) (.cons (lo_elem t (hp.y.trans hq.y.symm))
    (.cons (lo_elem t (hp.z.trans hq.z.symm)) (.cons (lo_elem t (hp.t.trans hq.t.symm)) .nil))))

/-- C56, scalar multiplication: in release builds every function of the curve code of one point and one
scalar (`scalar_mult`, `scalar_mult_normalized`) does the same for all points and all scalars, whatever
their words. -/
theorem C56_point_scalar (c : Crv) (n : Nat) (m : Id) {p p' : EdwardsExtended Elem} (hp : Fits c.fld p)
    (hp' : Fits c.fld p') {k k' : Elem} (hk : k.length = k'.length) :
    (callFnT (crvProg c) (crvWorld c .release) n (id! "EdwardsExtended") m [ptRef c p, rf c.fld k]).trace =
    (callFnT (crvProg c) (crvWorld c .release) n (id! "EdwardsExtended") m [ptRef c p', rf c.fld k']).trace := by
  unfold callFnT
  split
  · exact (C56_release _ _ _ _ _ _ (.cons (.ref (lo_point _ hp hp')) (.cons (.ref (lo_elem _ hk)) .nil))).1
  · rfl

/-- C56, the ladder: in debug builds too, for points whose coordinates come from the API. -/
theorem C56_ladder (c : Crv) (pf : Profile) {p p' : EdwardsExtended Elem} (hp : p.Ok c.fld.Tight)
    (hp' : p'.Ok c.fld.Tight) {k k' : Elem} (hk : k.length = c.fld.k) (hk' : k'.length = c.fld.k) :
    (callFnT (crvProg c) (crvWorld c pf) 12 (id! "EdwardsExtended") (id! "scalar_mult_normalized")
      [ptRef c p, rf c.fld k]).trace =
    (callFnT (crvProg c) (crvWorld c pf) 12 (id! "EdwardsExtended") (id! "scalar_mult_normalized")
      [ptRef c p', rf c.fld k']).trace := by
  obtain ⟨r, e, -⟩ := C55_text_ladder_total c pf hp hk
  obtain ⟨r', e', -⟩ := C55_text_ladder_total c pf hp' hk'
  exact (C56_success _ _ _ _ _ _ _ _ (.cons (.ref (lo_point _ (tight_fits hp) (tight_fits hp')))
    (.cons (.ref (lo_elem _ (hk.trans hk'.symm))) .nil)) e e').1

/-- C56, elements: in release builds every function of a field file does the same for all elements. -/
theorem C56_unary (f : Fld) (w : World) (hw : w.pr = .release) (n : Nat) (m : Id) {a a' : Elem}
    (h : a.length = a'.length) :
    (callFnT (src f) w n (tyId f) m [rf f a]).trace = (callFnT (src f) w n (tyId f) m [rf f a']).trace := by
  obtain ⟨pr, curve, rng⟩ := w
  cases hw
  unfold callFnT
  split
  · exact (C56_release _ _ _ _ _ _ (.cons (.ref (lo_elem _ h)) .nil)).1
  · rfl

/-- C56, operators on two elements. -/
theorem C56_operators (f : Fld) (w : World) (hw : w.pr = .release) (n : Nat) (trait : Id) {a a' b b' : Elem}
    (ha : a.length = a'.length) (hb : b.length = b'.length) :
    (callOpT (src f) w n trait (elem (tyId f) a) (elem (tyId f) b)).trace =
    (callOpT (src f) w n trait (elem (tyId f) a') (elem (tyId f) b')).trace := by
  obtain ⟨pr, curve, rng⟩ := w
  cases hw
  unfold callOpT
  rw [(lo_elem (tyId f) ha).ty, (lo_elem (tyId f) hb).ty]
  split
  · split
    · refine (C56_release _ _ _ _ _ _ (.cons ?_ (.cons (lo_elem _ hb) .nil))).1
      split
      · exact .ref (lo_elem _ ha)
      · exact lo_elem _ ha
    · rfl
  · rfl

/-! ### What is recorded -/

/-- The record of `carry_out` in `Mod_e221_3`: `self.0[3] >> 47`. -/
theorem C56_record_carry_out (w : World) (a0 a1 a2 a3 : Int) :
    ∃ fn, (src .e221_3).method (tyId .e221_3) (id! "carry_out") = some fn ∧
    (callFnT (src .e221_3) w 1 (tyId .e221_3) (id! "carry_out") [rf .e221_3 [a0, a1, a2, a3]]).trace =
      [.call fn, .load (id! "self"), .field (id! "0"), .index 3, .op .shr (some .i64) none,
       .operand 47] := by
  refine ⟨_, rfl, ?_⟩
  rfl

/-- The array positions in a record. -/
def indices (l : List Event) : List Nat :=
  l.filterMap fun | .index i => some i | _ => none

/-- The record shows the word from which a bit is read: indices are public. -/
theorem C56_record_index (w : World) (a0 a1 a2 a3 : Int) :
    indices (callFnT (src .e221_3) w 1 (tyId .e221_3) (id! "bit_normalized")
      [rf .e221_3 [a0, a1, a2, a3], .int (some .usize) 57]).trace = [0] ∧
    indices (callFnT (src .e221_3) w 1 (tyId .e221_3) (id! "bit_normalized")
      [rf .e221_3 [a0, a1, a2, a3], .int (some .usize) 58]).trace = [1] := ⟨rfl, rfl⟩

end Verif

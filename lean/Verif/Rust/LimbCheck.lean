import Verif.Rust.Limb

/-!
# The limb functions of the nine files

For every limb function of every file: its text translates to the program of the model
(`Verif/Model/Fields/*`).
-/

namespace Verif.Rust

open Limb

/-- What the translation knows about a field. -/
def cfg (f : Fld) (arg : Arg) (toArg : Bool) : Cfg :=
  ⟨tyId f, f.code.limbs, f.code.cval, f.code.carryLimb, f.code.carryShift, arg, toArg⟩

/-- The function has the given receiver and parameters and translates to the program. -/
structure LimbFn (g : Cfg) (fn : Fn) (recv : Recv) (muts : List Bool) (p : Prog) : Prop where
  recv : fn.recv = recv
  params : fn.params.map (·.1) = g.restNames
  muts : fn.params.map (·.2.isMut) = muts
  ret : fn.ret = .unit
  body : compB g [] fn.body = some p

def checkLimb (g : Cfg) (fn : Fn) (recv : Recv) (muts : List Bool) (p : Prog) : Bool :=
  decide (fn.recv = recv) && decide (fn.params.map (·.1) = g.restNames) &&
    decide (fn.params.map (·.2.isMut) = muts) && decide (fn.ret = .unit) &&
    decide (compB g [] fn.body = some p)

theorem checkLimb_sound {g : Cfg} {fn : Fn} {recv : Recv} {muts : List Bool} {p : Prog}
    (h : checkLimb g fn recv muts p = true) : LimbFn g fn recv muts p := by
  simp only [checkLimb, Bool.and_eq_true, decide_eq_true_eq] at h
  obtain ⟨⟨⟨⟨h1, h2⟩, h3⟩, h4⟩, h5⟩ := h
  exact ⟨h1, h2, h3, h4, h5⟩

set_option maxRecDepth 100000

theorem limb_add (f : Fld) : LimbFn (cfg f (.elem (id! "rhs")) false)
    (opF f (id! "AddAssign") (false, tyId f) (true, tyId f)) .mut [false] f.code.addP :=
  checkLimb_sound (by cases f <;> decide +kernel)

theorem limb_sub (f : Fld) : LimbFn (cfg f (.elem (id! "rhs")) false)
    (opF f (id! "SubAssign") (false, tyId f) (true, tyId f)) .mut [false] f.code.subP :=
  checkLimb_sound (by cases f <;> decide +kernel)

theorem limb_mul (f : Fld) : LimbFn (cfg f (.elem (id! "rhs")) false)
    (opF f (id! "MulAssign") (false, tyId f) (true, tyId f)) .mut [false] f.code.mulP :=
  checkLimb_sound (by cases f <;> decide +kernel)

theorem limb_square (f : Fld) : LimbFn (cfg f .none false)
    (methF f (id! "square")) .mut [] f.code.squareP :=
  checkLimb_sound (by cases f <;> decide +kernel)

theorem limb_small_add (f : Fld) : LimbFn (cfg f (.int (id! "rhs")) false)
    (methF f (id! "small_add_assign")) .mut [false] f.code.smallAddP :=
  checkLimb_sound (by cases f <;> decide +kernel)

theorem limb_small_sub (f : Fld) : LimbFn (cfg f (.int (id! "rhs")) false)
    (methF f (id! "small_sub_assign")) .mut [false] f.code.smallSubP :=
  checkLimb_sound (by cases f <;> decide +kernel)

theorem limb_small_mul (f : Fld) : LimbFn (cfg f (.int (id! "rhs")) false)
    (methF f (id! "small_mul_assign")) .mut [false] f.code.smallMulP :=
  checkLimb_sound (by cases f <;> decide +kernel)

theorem limb_unpack (f : Fld) : LimbFn (cfg f (.bytes (id! "bytes")) false)
    (methF f (id! "unpack")) .mut [false] f.code.unpackP :=
  checkLimb_sound (by cases f <;> decide +kernel)

theorem limb_pack (f : Fld) : LimbFn (cfg f (.bytes (id! "bytes")) true)
    (methF f (id! "pack_normalized")) .ref [true] f.code.packP :=
  checkLimb_sound (by cases f <;> decide +kernel)

end Verif.Rust

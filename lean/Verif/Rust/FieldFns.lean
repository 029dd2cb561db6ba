import Verif.Rust.LimbCheck

/-!
# The functions of the field files

For every function of a field file: interpreting its text computes the function of the model.
-/

namespace Verif.Rust

open Limb

variable {P : Program} {f : Fld} (h : Has P f) (w : World)

/-! ### Lookups -/

/-- The functions of a field type (other than operators). -/
def fieldMethods : List Id := [id! "carry_out", id! "square", id! "squared",
    id! "small_add_assign", id! "small_sub_assign", id! "small_mul_assign", id! "small_add",
    id! "small_sub", id! "small_mul", id! "unpack", id! "unpacked", id! "pack",
    id! "pack_normalized", id! "packed", id! "nbytes", id! "nbits", id! "normalize",
    id! "normalize_self_eq", id! "normalize_eq", id! "fill", id! "filled", id! "bit_normalized",
    id! "bit", id! "normalize_bitand", id! "normalize_self_bitand", id! "normalized_bitand",
    id! "normalize_bitor", id! "normalize_self_bitor", id! "normalized_bitor", id! "zero",
    id! "one", id! "m_one", id! "modulus", id! "invert", id! "inverted", id! "legendre",
    id! "sqrt", id! "neg", id! "rand"]

theorem has_method (f : Fld) :
    ∀ m ∈ fieldMethods, ((src f).method (tyId f) m).isSome = true := by
  cases f <;> decide +kernel

include h in
theorem method_eq {m : Id} (hm : m ∈ fieldMethods) : P.method (tyId f) m = some (methF f m) :=
  find_method h (has_method f m hm)

/-! ### Constants and `carry_out` -/

/-- Constants of the file. -/
theorem const_src (f : Fld) :
    (src f).const (id! "C_VAL") = some (word f.code.cval) ∧
    (src f).const (id! "ZERO") = some (elem (tyId f) f.code.ZERO) ∧
    (src f).const (id! "ONE") = some (elem (tyId f) f.code.ONE) ∧
    (src f).const (id! "M_ONE") = some (elem (tyId f) f.code.M_ONE) ∧
    (src f).const (id! "MODULUS") = some (elem (tyId f) f.code.MODULUS) := by
  cases f <;> exact ⟨rfl, rfl, rfl, rfl, rfl⟩

theorem carry_fn (f : Fld) : methF f (id! "carry_out") = ⟨tyId f, id! "carry_out", .ref, [],
    ⟨false, false, id! "i64"⟩, .nil, .bin .shr (.index (.field (.var (id! "self")) (id! "0"))
      (.lit none f.code.carryLimb)) (.lit none f.code.carryShift)⟩ := by
  cases f <;> decide +kernel

theorem limbs_le (f : Fld) : f.code.limbs ≤ 16 := by cases f <;> decide
theorem carry_lt (f : Fld) : f.code.carryLimb < f.code.limbs := by cases f <;> decide
theorem shift_lt (f : Fld) : f.code.carryShift < 64 := by cases f <;> decide

theorem carry_out {n : Nat} (hn : 1 ≤ n) {a : List Int} (ha : a.length = f.code.limbs) :
    run P w n (methF f (id! "carry_out")) [.ref (elem (tyId f) a)] =
      .ok (word (shr64 (a.getD f.code.carryLimb 0) f.code.carryShift), [.ref (elem (tyId f) a)]) := by
  obtain ⟨n, rfl⟩ := Nat.exists_eq_add_of_le' hn
  rw [run_succ, carry_fn]
  have hi : f.code.carryLimb < a.length := by rw [ha]; exact carry_lt f
  have hs : (f.code.carryShift : Int) < 64 := by exact_mod_cast shift_lt f
  simp [runBody, exec, eval, Fn.names, Fn.coerce, getField, elem, getIndex, hi, Val.strip, word,
    binop, Val.isPrim, prim, shiftBy, distance, hs, coerce]

include h in
theorem ok_cfg {n : Nat} (hn : 1 ≤ n) {arg : Arg} {toArg : Bool}
    (hg : arg = .none ∨ (arg.name ≠ id! "self" ∧ arg.name ≠ id! "C_VAL")) :
    Ok (cfg f arg toArg) (ctx P w n) where
  limbs := limbs_le f
  carry := carry_lt f
  name := hg
  cval := h.const (const_src f).1
  carryOut := ⟨_, method_eq h (by decide), by rw [carry_fn], by rw [carry_fn],
    fun _ ha => ⟨_, carry_out w hn ha⟩⟩

/-! ### Limb functions -/

include h in
/-- `&mut self` limb functions. -/
theorem run_limb {n : Nat} (hn : 2 ≤ n) {arg : Arg} {fn : Fn} {muts : List Bool} {p : Prog}
    (hl : LimbFn (cfg f arg false) fn .mut muts p)
    (hg : arg = .none ∨ (arg.name ≠ id! "self" ∧ arg.name ≠ id! "C_VAL"))
    {a b : List Int} (ha : a.length = f.code.limbs)
    (h1 : ∀ x, arg = .elem x → b.length = f.code.limbs) (h2 : ∀ x, arg = .int x → b.length = 1) :
    run P w n fn (.ref (elem (tyId f) a) :: (cfg f arg false).rest b) =
      (lift (f.code.runLimb w.pr p a b) >>= fun r =>
        .ok (.unit, .ref (elem (tyId f) r) :: (cfg f arg false).rest b)) := by
  obtain ⟨n, rfl⟩ := Nat.exists_eq_add_of_le' (show 1 ≤ n by omega)
  exact runBody_self (ok_cfg h w (by omega) hg) ⟨by rw [hl.recv]; nofun, hl.params, hl.ret⟩ rfl
    hl.body rfl ha h1 h2


include h in
/-- `add_assign(&mut self, rhs: &Self)`. -/
theorem run_add {n : Nat} (hn : 2 ≤ n) {a b : List Int} (ha : a.length = f.code.limbs)
    (hb : b.length = f.code.limbs) :
    run P w n (opF f (id! "AddAssign") (false, tyId f) (true, tyId f))
        [.ref (elem (tyId f) a), .ref (elem (tyId f) b)] =
      (lift (f.code.addAssign w.pr a b) >>= fun r =>
        .ok (.unit, [.ref (elem (tyId f) r), .ref (elem (tyId f) b)])) :=
  run_limb h w hn (limb_add f) (.inr ⟨by decide, by decide⟩) ha (fun _ _ => hb) nofun

include h in
/-- `sub_assign(&mut self, rhs: &Self)`. -/
theorem run_sub {n : Nat} (hn : 2 ≤ n) {a b : List Int} (ha : a.length = f.code.limbs)
    (hb : b.length = f.code.limbs) :
    run P w n (opF f (id! "SubAssign") (false, tyId f) (true, tyId f))
        [.ref (elem (tyId f) a), .ref (elem (tyId f) b)] =
      (lift (f.code.subAssign w.pr a b) >>= fun r =>
        .ok (.unit, [.ref (elem (tyId f) r), .ref (elem (tyId f) b)])) :=
  run_limb h w hn (limb_sub f) (.inr ⟨by decide, by decide⟩) ha (fun _ _ => hb) nofun

include h in
/-- `mul_assign(&mut self, rhs: &Self)`. -/
theorem run_mul {n : Nat} (hn : 2 ≤ n) {a b : List Int} (ha : a.length = f.code.limbs)
    (hb : b.length = f.code.limbs) :
    run P w n (opF f (id! "MulAssign") (false, tyId f) (true, tyId f))
        [.ref (elem (tyId f) a), .ref (elem (tyId f) b)] =
      (lift (f.code.mulAssign w.pr a b) >>= fun r =>
        .ok (.unit, [.ref (elem (tyId f) r), .ref (elem (tyId f) b)])) :=
  run_limb h w hn (limb_mul f) (.inr ⟨by decide, by decide⟩) ha (fun _ _ => hb) nofun

include h in
/-- `square(&mut self)`. -/
theorem run_square {n : Nat} (hn : 2 ≤ n) {a : List Int} (ha : a.length = f.code.limbs) :
    run P w n (methF f (id! "square")) [.ref (elem (tyId f) a)] =
      (lift (f.code.square w.pr a) >>= fun r => .ok (.unit, [.ref (elem (tyId f) r)])) :=
  run_limb (b := []) h w hn (limb_square f) (.inl rfl) ha nofun nofun

include h in
/-- `small_add_assign(&mut self, rhs: i32)`. -/
theorem run_small_add_assign {n : Nat} (hn : 2 ≤ n) {a : List Int} (ha : a.length = f.code.limbs)
    (k : Int) : run P w n (methF f (id! "small_add_assign"))
        [.ref (elem (tyId f) a), .int (some .i32) k] =
      (lift (f.code.smallAddAssign w.pr a k) >>= fun r =>
        .ok (.unit, [.ref (elem (tyId f) r), .int (some .i32) k])) :=
  run_limb (b := [k]) h w hn (limb_small_add f) (.inr ⟨by decide, by decide⟩) ha nofun
    (fun _ _ => rfl)

include h in
/-- `small_sub_assign(&mut self, rhs: i32)`. -/
theorem run_small_sub_assign {n : Nat} (hn : 2 ≤ n) {a : List Int} (ha : a.length = f.code.limbs)
    (k : Int) : run P w n (methF f (id! "small_sub_assign"))
        [.ref (elem (tyId f) a), .int (some .i32) k] =
      (lift (f.code.smallSubAssign w.pr a k) >>= fun r =>
        .ok (.unit, [.ref (elem (tyId f) r), .int (some .i32) k])) :=
  run_limb (b := [k]) h w hn (limb_small_sub f) (.inr ⟨by decide, by decide⟩) ha nofun
    (fun _ _ => rfl)

include h in
/-- `small_mul_assign(&mut self, rhs: i32)`. -/
theorem run_small_mul_assign {n : Nat} (hn : 2 ≤ n) {a : List Int} (ha : a.length = f.code.limbs)
    (k : Int) : run P w n (methF f (id! "small_mul_assign"))
        [.ref (elem (tyId f) a), .int (some .i32) k] =
      (lift (f.code.smallMulAssign w.pr a k) >>= fun r =>
        .ok (.unit, [.ref (elem (tyId f) r), .int (some .i32) k])) :=
  run_limb (b := [k]) h w hn (limb_small_mul f) (.inr ⟨by decide, by decide⟩) ha nofun
    (fun _ _ => rfl)

include h in
/-- `unpack(&mut self, bytes: &[u8])`. -/
theorem run_unpack {n : Nat} (hn : 2 ≤ n) {a : List Int} (ha : a.length = f.code.limbs)
    (bytes : List Int) : run P w n (methF f (id! "unpack"))
        [.ref (elem (tyId f) a), .ref (.arr (bytes.map byte))] =
      (lift (f.code.unpack w.pr a bytes) >>= fun r =>
        .ok (.unit, [.ref (elem (tyId f) r), .ref (.arr (bytes.map byte))])) :=
  run_limb h w hn (limb_unpack f) (.inr ⟨by decide, by decide⟩) ha nofun nofun

include h in
/-- `pack_normalized(&self, bytes: &mut [u8])`. -/
theorem run_pack_normalized {n : Nat} (hn : 2 ≤ n) {a : List Int} (ha : a.length = f.code.limbs)
    (bytes : List Int) : run P w n (methF f (id! "pack_normalized"))
        [.ref (elem (tyId f) a), .ref (.arr (bytes.map byte))] =
      (lift (f.code.packNormalized w.pr a bytes) >>= fun r =>
        .ok (.unit, [.ref (elem (tyId f) a), .ref (.arr (r.map byte))])) := by
  obtain ⟨n, rfl⟩ := Nat.exists_eq_add_of_le' (show 1 ≤ n by omega)
  have hl := limb_pack f
  exact runBody_bytes (ok_cfg h w (by omega) (.inr ⟨by decide, by decide⟩))
    ⟨by rw [hl.recv]; nofun, hl.params, hl.ret⟩ rfl rfl hl.body ha

end Verif.Rust

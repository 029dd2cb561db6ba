import Verif.Rust.Fmt
import Verif.Props.Canon

/-!
# C54: the functions of the model are the meaning of the program text

`src f` is the text of the file of the field `f` (comments, `use` lines and unit tests removed), read
by a parser of a subset of Rust (`Verif/Rust/Parse.lean`), and `run` an interpreter of the subset
(`Verif/Rust/Eval.lean`).  Neither knows anything about fields.  The theorems say: interpreting any
function of the text gives exactly what the model's function gives: the same result, the same final values
of everything passed by `&mut`, or the same panic.

* `P` is any program containing the file (the file itself: `has_src f`).
* `w` is the build profile and the answers of the random generator.
* `n` bounds the depth of nested calls; 12 is enough for every function.
* The words of elements are arbitrary; only their number is that of the type.
-/

namespace Verif

open Rust

variable {P : Program} {f : Fld} (h : Has P f) (w : World) {n : Nat} (hn : 12 ≤ n)
  {a b : List Int} (ha : a.length = f.code.limbs) (hb : b.length = f.code.limbs)

/-- `&mut self`, `&self` or `&Self`. -/
abbrev rf (f : Fld) (a : List Int) : Val := .ref (elem (tyId f) a)

/-- `&[u8]` or `&mut [u8]`. -/
abbrev slice (bytes : List Int) : Val := .ref (.arr (bytes.map byte))

/-- An `i32`. -/
abbrev i32V (k : Int) : Val := .int (some .i32) k

include h in
theorem callFn_eq {m : Id} (hm : m ∈ fieldMethods) (args : List Val) :
    callFn P w n (tyId f) m args = run P w n (methF f m) args := by
  rw [callFn, method_eq h hm]

include h hn ha

/-- C54, functions changing `self`: `square`, `invert`, `normalize`. -/
theorem C54_in_place :
    callFn P w n (tyId f) (id! "square") [rf f a] =
      (lift (f.code.square w.pr a) >>= fun r => .ok (.unit, [rf f r])) ∧
    callFn P w n (tyId f) (id! "invert") [rf f a] =
      (lift (f.code.invert w.pr a) >>= fun r => .ok (.unit, [rf f r])) ∧
    callFn P w n (tyId f) (id! "normalize") [rf f a] =
      (lift (f.code.normalize w.pr a) >>= fun r => .ok (.unit, [rf f r])) := by
  refine ⟨?_, ?_, ?_⟩
  · rw [callFn_eq h w (by decide)]; exact run_square h w (by omega) ha
  · rw [callFn_eq h w (by decide)]; exact run_invert h w (by omega) ha
  · rw [callFn_eq h w (by decide)]; exact run_normalize h w (by omega) ha

/-- C54, functions of one element: `squared`, `inverted`, `legendre`, `sqrt`, and `neg`, whose argument
is passed by value. -/
theorem C54_unary :
    callFn P w n (tyId f) (id! "squared") [rf f a] =
      (lift (f.code.squared w.pr a) >>= fun r => .ok (elem (tyId f) r, [rf f a])) ∧
    callFn P w n (tyId f) (id! "inverted") [rf f a] =
      (lift (f.code.inverted w.pr a) >>= fun r => .ok (elem (tyId f) r, [rf f a])) ∧
    callFn P w n (tyId f) (id! "legendre") [rf f a] =
      (lift (f.code.legendre w.pr a) >>= fun r => .ok (elem (tyId f) r, [rf f a])) ∧
    callFn P w n (tyId f) (id! "sqrt") [rf f a] =
      (lift (f.code.sqrt w.pr a) >>= fun r => .ok (elem (tyId f) r, [rf f a])) ∧
    callFn P w n (tyId f) (id! "neg") [elem (tyId f) a] =
      (lift (f.code.neg w.pr a) >>= fun r => .ok (elem (tyId f) r, [elem (tyId f) a])) := by
  refine ⟨?_, ?_, ?_, ?_, ?_⟩
  · rw [callFn_eq h w (by decide)]; exact run_squared h w (by omega) ha
  · rw [callFn_eq h w (by decide)]; exact run_inverted h w (by omega) ha
  · rw [callFn_eq h w (by decide)]; exact run_legendre h w (by omega) ha
  · rw [callFn_eq h w (by decide)]; exact run_sqrt h w (by omega) ha
  · rw [callFn_eq h w (by decide)]; exact run_neg h w (by omega) ha

/-- C54, `quartic_legendre`, in the files that have it. -/
theorem C54_quartic_legendre (hq : f.code.quarticC.isSome = true) :
    callFn P w n (tyId f) (id! "quartic_legendre") [rf f a] =
      (lift (f.code.quarticLegendre w.pr a) >>= fun r => .ok (elem (tyId f) r, [rf f a])) := by
  rw [callFn, find_method h (Chn.chain_quartic f hq).1]
  exact run_quartic h w (by omega) hq ha

/-- C54, functions of an element and an `i32`. -/
theorem C54_small (k : Int) :
    callFn P w n (tyId f) (id! "small_add_assign") [rf f a, i32V k] =
      (lift (f.code.smallAddAssign w.pr a k) >>= fun r => .ok (.unit, [rf f r, i32V k])) ∧
    callFn P w n (tyId f) (id! "small_sub_assign") [rf f a, i32V k] =
      (lift (f.code.smallSubAssign w.pr a k) >>= fun r => .ok (.unit, [rf f r, i32V k])) ∧
    callFn P w n (tyId f) (id! "small_mul_assign") [rf f a, i32V k] =
      (lift (f.code.smallMulAssign w.pr a k) >>= fun r => .ok (.unit, [rf f r, i32V k])) ∧
    callFn P w n (tyId f) (id! "small_add") [rf f a, i32V k] =
      (lift (f.code.smallAdd w.pr a k) >>= fun r => .ok (elem (tyId f) r, [rf f a, i32V k])) ∧
    callFn P w n (tyId f) (id! "small_sub") [rf f a, i32V k] =
      (lift (f.code.smallSub w.pr a k) >>= fun r => .ok (elem (tyId f) r, [rf f a, i32V k])) ∧
    callFn P w n (tyId f) (id! "small_mul") [rf f a, i32V k] =
      (lift (f.code.smallMul w.pr a k) >>= fun r => .ok (elem (tyId f) r, [rf f a, i32V k])) := by
  refine ⟨?_, ?_, ?_, ?_, ?_, ?_⟩
  · rw [callFn_eq h w (by decide)]; exact run_small_add_assign h w (by omega) ha k
  · rw [callFn_eq h w (by decide)]; exact run_small_sub_assign h w (by omega) ha k
  · rw [callFn_eq h w (by decide)]; exact run_small_mul_assign h w (by omega) ha k
  · rw [callFn_eq h w (by decide)]; exact run_small_add h w (by omega) ha k
  · rw [callFn_eq h w (by decide)]; exact run_small_sub h w (by omega) ha k
  · rw [callFn_eq h w (by decide)]; exact run_small_mul h w (by omega) ha k

include hb in
/-- C54, comparison. -/
theorem C54_compare :
    callFn P w n (tyId f) (id! "normalize_self_eq") [rf f a, rf f b] =
      (lift (f.code.normalizeSelfEq w.pr a b) >>= fun r => .ok (.bool r.2, [rf f r.1, rf f b])) ∧
    callFn P w n (tyId f) (id! "normalize_eq") [rf f a, rf f b] =
      (lift (f.code.normalizeEq w.pr a b) >>= fun r => .ok (.bool r.2.2, [rf f r.1, rf f r.2.1])) := by
  refine ⟨?_, ?_⟩
  · rw [callFn_eq h w (by decide)]; exact run_normalize_self_eq h w (by omega) ha hb
  · rw [callFn_eq h w (by decide)]; exact run_normalize_eq h w (by omega) ha hb

/-- C54, packing and unpacking, with slices of any length. -/
theorem C54_pack (bytes : List Int) :
    callFn P w n (tyId f) (id! "unpack") [rf f a, slice bytes] =
      (lift (f.code.unpack w.pr a bytes) >>= fun r => .ok (.unit, [rf f r, slice bytes])) ∧
    callFn P w n (tyId f) (id! "unpacked") [slice bytes] =
      (lift (f.code.unpacked w.pr bytes) >>= fun r => .ok (elem (tyId f) r, [slice bytes])) ∧
    callFn P w n (tyId f) (id! "pack_normalized") [rf f a, slice bytes] =
      (lift (f.code.packNormalized w.pr a bytes) >>= fun r => .ok (.unit, [rf f a, slice r])) ∧
    callFn P w n (tyId f) (id! "pack") [rf f a, slice bytes] =
      (lift (f.code.pack w.pr a bytes) >>= fun r => .ok (.unit, [rf f r.1, slice r.2])) ∧
    callFn P w n (tyId f) (id! "packed") [rf f a] =
      (lift (f.code.packed w.pr a) >>= fun r => .ok (.arr (r.2.map byte), [rf f r.1])) ∧
    callFn P w n (tyId f) (id! "nbytes") [] = .ok (i32V f.code.nbytes, []) := by
  refine ⟨?_, ?_, ?_, ?_, ?_, ?_⟩
  · rw [callFn_eq h w (by decide)]; exact run_unpack h w (by omega) ha bytes
  · rw [callFn_eq h w (by decide)]; exact run_unpacked h w (by omega) bytes
  · rw [callFn_eq h w (by decide)]; exact run_pack_normalized h w (by omega) ha bytes
  · rw [callFn_eq h w (by decide)]; exact run_pack h w (by omega) ha bytes
  · rw [callFn_eq h w (by decide)]; exact run_packed h w (by omega) ha
  · rw [callFn_eq h w (by decide)]; exact run_nbytes w (by omega)

/-- C54, bits and the carry, for every index. -/
theorem C54_bits (i : Nat) :
    callFn P w n (tyId f) (id! "bit_normalized") [rf f a, usize i] =
      (lift (f.code.bitNormalized a i) >>= fun r => .ok (.bool r, [rf f a, usize i])) ∧
    callFn P w n (tyId f) (id! "bit") [rf f a, usize i] =
      (lift (f.code.bit w.pr a i) >>= fun r => .ok (.bool r.2, [rf f r.1, usize i])) ∧
    callFn P w n (tyId f) (id! "nbits") [] = .ok (usize f.code.nbits, []) ∧
    callFn P w n (tyId f) (id! "carry_out") [rf f a] =
      (lift (f.code.carryOut a) >>= fun k => .ok (word k, [rf f a])) := by
  refine ⟨?_, ?_, ?_, ?_⟩
  · rw [callFn_eq h w (by decide)]; exact run_bit_normalized w (by omega) a i
  · rw [callFn_eq h w (by decide)]; exact run_bit h w (by omega) ha i
  · rw [callFn_eq h w (by decide)]; exact run_nbits w (by omega)
  · rw [callFn_eq h w (by decide), carryOut_eq (by rw [ha]; exact carry_lt f)]
    exact carry_out w (by omega) ha

include hb in
/-- C54, bitwise operations. -/
theorem C54_bitwise :
    callFn P w n (tyId f) (id! "normalized_bitand") [rf f a, rf f b] =
      .ok (.unit, [rf f (FieldCode.normalizedBitand a b), rf f b]) ∧
    callFn P w n (tyId f) (id! "normalized_bitor") [rf f a, rf f b] =
      .ok (.unit, [rf f (FieldCode.normalizedBitor a b), rf f b]) ∧
    callFn P w n (tyId f) (id! "normalize_self_bitand") [rf f a, rf f b] =
      (lift (f.code.normalizeSelfBitand w.pr a b) >>= fun r => .ok (.unit, [rf f r, rf f b])) ∧
    callFn P w n (tyId f) (id! "normalize_self_bitor") [rf f a, rf f b] =
      (lift (f.code.normalizeSelfBitor w.pr a b) >>= fun r => .ok (.unit, [rf f r, rf f b])) ∧
    callFn P w n (tyId f) (id! "normalize_bitand") [rf f a, rf f b] =
      (lift (f.code.normalizeBitand w.pr a b) >>= fun r => .ok (.unit, [rf f r.1, rf f r.2])) ∧
    callFn P w n (tyId f) (id! "normalize_bitor") [rf f a, rf f b] =
      (lift (f.code.normalizeBitor w.pr a b) >>= fun r => .ok (.unit, [rf f r.1, rf f r.2])) := by
  refine ⟨?_, ?_, ?_, ?_, ?_, ?_⟩
  · rw [callFn_eq h w (by decide)]; exact (run_normalized_bits w (by omega) ha hb).1
  · rw [callFn_eq h w (by decide)]; exact (run_normalized_bits w (by omega) ha hb).2
  · rw [callFn_eq h w (by decide)]; exact (run_normalize_self_bits h w ha hb (by omega)).1
  · rw [callFn_eq h w (by decide)]; exact (run_normalize_self_bits h w ha hb (by omega)).2
  · rw [callFn_eq h w (by decide)]; exact (run_normalize_bits h w ha hb (by omega)).1
  · rw [callFn_eq h w (by decide)]; exact (run_normalize_bits h w ha hb (by omega)).2

/-- C54, masks: `fill` and `filled` of the field type and of the mask type. -/
theorem C54_masks {t : Id} (ht : t ∈ [tyId f, maskId f]) (bit : Bool) :
    callFn P w n t (id! "fill") [.ref (elem t a), .bool bit] =
      .ok (.unit, [.ref (elem t (FieldCode.fill a bit)), .bool bit]) ∧
    callFn P w n t (id! "filled") [.bool bit] = .ok (elem t (f.code.filled bit), [.bool bit]) :=
  ⟨call_fill h w (by omega) ht ha bit, call_filled h w (by omega) ht bit⟩

omit ha in
/-- C54, constants: the functions and the constants they return. -/
theorem C54_constants :
    callFn P w n (tyId f) (id! "zero") [] = .ok (elem (tyId f) f.code.ZERO, []) ∧
    callFn P w n (tyId f) (id! "one") [] = .ok (elem (tyId f) f.code.ONE, []) ∧
    callFn P w n (tyId f) (id! "m_one") [] = .ok (elem (tyId f) f.code.M_ONE, []) ∧
    callFn P w n (tyId f) (id! "modulus") [] = .ok (elem (tyId f) f.code.MODULUS, []) := by
  obtain ⟨-, h1, h2, h3, h4⟩ := const_src f
  refine ⟨?_, ?_, ?_, ?_⟩
  · rw [callFn_eq h w (by decide)]; exact run_const h w (by omega) (by decide) h1
  · rw [callFn_eq h w (by decide)]; exact run_const h w (by omega) (by decide) h2
  · rw [callFn_eq h w (by decide)]; exact run_const h w (by omega) (by decide) h3
  · rw [callFn_eq h w (by decide)]; exact run_const h w (by omega) (by decide) h4

omit ha in
/-- C54, `rand` with a generator that has answered `m` calls before. -/
theorem C54_rand (m : Nat) :
    callFn P w n (tyId f) (id! "rand") [.ref (.rng m)] =
      .ok (elem (tyId f) (f.code.rand fun i hi => w.rng (m + i) hi), [.ref (.rng (m + f.code.limbs))]) := by
  rw [callFn_eq h w (by decide)]; exact run_rand h w (by omega) m

/-- Call the `fmt` function of a formatting trait on an element and a formatter to which `s` has been
written. -/
def callFmt (P : Program) (w : World) (n : Nat) (f : Fld) (trait : Id) (a : List Int) (s : List Char) :
    Except Err (Val × List Val) :=
  match P.opFn trait (false, tyId f) (false, tyId f) with
  | some fn => run P w n fn [rf f a, .ref (.fmt s)]
  | none => .error .stuck

/-- C54, formatting. -/
theorem C54_format (s : List Char) :
    callFmt P w n f (id! "LowerHex") a s =
      (lift (f.code.fmtHex w.pr false a) >>= fun r => .ok (.unit, [rf f a, .ref (.fmt (s ++ r))])) ∧
    callFmt P w n f (id! "UpperHex") a s =
      (lift (f.code.fmtHex w.pr true a) >>= fun r => .ok (.unit, [rf f a, .ref (.fmt (s ++ r))])) ∧
    callFmt P w n f (id! "Debug") a s =
      .ok (.unit, [rf f a, .ref (.fmt (s ++ f.code.fmtDebug a))]) := by
  refine ⟨?_, ?_, ?_⟩
  · rw [callFmt, show id! "LowerHex" = hexTrait false from rfl, h.opFn (fn_hex f false)]; exact run_hex h w (by omega) false ha s
  · rw [callFmt, show id! "UpperHex" = hexTrait true from rfl, h.opFn (fn_hex f true)]; exact run_hex h w (by omega) true ha s
  · rw [callFmt, h.opFn (fn_debug f)]; exact run_debug w (by omega) ha s

omit ha in
/-- C54, operators: every form of every operator. -/
theorem C54_operators {o : OpKind} {assign : Bool} {l r : OpTy} (he : opExists o assign l r = true)
    {x y : OpVal} (hx : x.HasType l) (hy : y.HasType r) (kx : OpVal.Fits f x) (ky : OpVal.Fits f y) :
    callOp P w n (opId o assign) (argV f l x) (argV f r y) =
      (lift (opSpec f.code w.pr o x y) >>= fun z =>
        .ok (if assign then .unit else elem (tyId f) z,
          [if assign then rf f z else argV f l x, argV f r y])) := by
  obtain ⟨h1, h2, -⟩ := find_opG h he
  have e := run_op h w (show 8 ≤ n by omega) he hx hy kx ky
  rw [callOp, argV_ty f hx, argV_ty f hy]
  dsimp only
  rw [h1]
  dsimp only
  cases assign with
  | false => simpa [h2, lhsV] using e
  | true =>
    have hl : l = .val := by cases l <;> cases r <;> first | rfl | cases he
    subst hl
    cases x with
    | int k => exact hx.elim
    | elem a => simpa [h2, lhsV, argV] using e

/-! ### Nothing else -/

omit h hn ha

/-- The functions of the type of the field treated above. -/
def methodNames (f : Fld) : List Id :=
  (if f.code.quarticC.isSome then [id! "quartic_legendre"] else []) ++ fieldMethods

/-- The impl is one of those treated above, and its functions are the ones found by name. -/
def covered (f : Fld) (i : Impl) : Bool :=
  (i.self.ref == false && i.fns.all fun fn =>
    (src f).method i.self.name fn.name == some fn &&
    (i.self.name == tyId f && (methodNames f).contains fn.name ||
      i.self.name == maskId f && [id! "fill", id! "filled"].contains fn.name)) ||
  match i.fns with
  | [fn] =>
    (src f).opFn i.trait (i.self.ref, i.self.name) (i.arg.ref, i.arg.name) == some fn &&
    ([id! "LowerHex", id! "UpperHex", id! "Debug"].contains i.trait &&
        i.self == tyV (tyId f) && i.arg == tyV (tyId f) ||
      opTable.any fun q => i.trait == opId q.op q.assign && i.self == opTy f q.lhs && i.arg == opTy f q.rhs)
  | _ => false

/-- C54: the file has no other functions. -/
theorem C54_all_functions (f : Fld) : ∀ i ∈ (src f).impls, covered f i = true := by
  cases f <;> decide +kernel

/-- The constants of the file of a field other than `C_VAL`, with their values in the model. -/
def fieldConsts : Fld → List (Id × Elem)
  | .e221_3 =>
    [(id! "ZERO", Fields.E221_3.ZERO), (id! "ONE", Fields.E221_3.ONE),
      (id! "M_ONE", Fields.E221_3.M_ONE), (id! "MODULUS", Fields.E221_3.MODULUS),
      (id! "M_HALF", Fields.E221_3.M_HALF), (id! "COEFF", Fields.E221_3.COEFF),
      (id! "M221_BASE_X", Fields.E221_3.M221_BASE_X),
      (id! "M221_BASE_Y", Fields.E221_3.M221_BASE_Y), (id! "M221_ORDER", Fields.E221_3.M221_ORDER)]
  | .e222_117 =>
    [(id! "ZERO", Fields.E222_117.ZERO), (id! "ONE", Fields.E222_117.ONE),
      (id! "M_ONE", Fields.E222_117.M_ONE), (id! "MODULUS", Fields.E222_117.MODULUS),
      (id! "E222_D", Fields.E222_117.E222_D), (id! "E222_BASE_X", Fields.E222_117.E222_BASE_X),
      (id! "E222_BASE_Y", Fields.E222_117.E222_BASE_Y),
      (id! "E222_ORDER", Fields.E222_117.E222_ORDER)]
  | .e251_9 =>
    [(id! "ZERO", Fields.E251_9.ZERO), (id! "ONE", Fields.E251_9.ONE),
      (id! "M_ONE", Fields.E251_9.M_ONE), (id! "MODULUS", Fields.E251_9.MODULUS),
      (id! "CURVE1174_D", Fields.E251_9.CURVE1174_D),
      (id! "CURVE1174_BASE_X", Fields.E251_9.CURVE1174_BASE_X),
      (id! "CURVE1174_BASE_Y", Fields.E251_9.CURVE1174_BASE_Y),
      (id! "CURVE1174_ORDER", Fields.E251_9.CURVE1174_ORDER)]
  | .e255_19 =>
    [(id! "ZERO", Fields.E255_19.ZERO), (id! "ONE", Fields.E255_19.ONE),
      (id! "M_ONE", Fields.E255_19.M_ONE), (id! "MODULUS", Fields.E255_19.MODULUS),
      (id! "M_HALF", Fields.E255_19.M_HALF), (id! "COEFF", Fields.E255_19.COEFF),
      (id! "CURVE25519_BASE_X", Fields.E255_19.CURVE25519_BASE_X),
      (id! "CURVE25519_BASE_Y", Fields.E255_19.CURVE25519_BASE_Y),
      (id! "CURVE25519_ORDER", Fields.E255_19.CURVE25519_ORDER)]
  | .e382_105 =>
    [(id! "ZERO", Fields.E382_105.ZERO), (id! "ONE", Fields.E382_105.ONE),
      (id! "M_ONE", Fields.E382_105.M_ONE), (id! "MODULUS", Fields.E382_105.MODULUS),
      (id! "E382_D", Fields.E382_105.E382_D), (id! "E382_BASE_X", Fields.E382_105.E382_BASE_X),
      (id! "E382_BASE_Y", Fields.E382_105.E382_BASE_Y),
      (id! "E382_ORDER", Fields.E382_105.E382_ORDER)]
  | .e383_187 =>
    [(id! "ZERO", Fields.E383_187.ZERO), (id! "ONE", Fields.E383_187.ONE),
      (id! "M_ONE", Fields.E383_187.M_ONE), (id! "MODULUS", Fields.E383_187.MODULUS),
      (id! "M_HALF", Fields.E383_187.M_HALF), (id! "COEFF", Fields.E383_187.COEFF),
      (id! "M383_BASE_X", Fields.E383_187.M383_BASE_X),
      (id! "M383_BASE_Y", Fields.E383_187.M383_BASE_Y),
      (id! "M383_ORDER", Fields.E383_187.M383_ORDER),
      (id! "CURVE383187_BASE_X", Fields.E383_187.CURVE383187_BASE_X),
      (id! "CURVE383187_BASE_Y", Fields.E383_187.CURVE383187_BASE_Y),
      (id! "CURVE383187_ORDER", Fields.E383_187.CURVE383187_ORDER)]
  | .e414_17 =>
    [(id! "ZERO", Fields.E414_17.ZERO), (id! "ONE", Fields.E414_17.ONE),
      (id! "M_ONE", Fields.E414_17.M_ONE), (id! "MODULUS", Fields.E414_17.MODULUS),
      (id! "CURVE41417_D", Fields.E414_17.CURVE41417_D),
      (id! "CURVE41417_BASE_X", Fields.E414_17.CURVE41417_BASE_X),
      (id! "CURVE41417_BASE_Y", Fields.E414_17.CURVE41417_BASE_Y),
      (id! "CURVE41417_ORDER", Fields.E414_17.CURVE41417_ORDER)]
  | .e511_187 =>
    [(id! "ZERO", Fields.E511_187.ZERO), (id! "ONE", Fields.E511_187.ONE),
      (id! "M_ONE", Fields.E511_187.M_ONE), (id! "MODULUS", Fields.E511_187.MODULUS),
      (id! "M_HALF", Fields.E511_187.M_HALF), (id! "COEFF", Fields.E511_187.COEFF),
      (id! "M511_BASE_X", Fields.E511_187.M511_BASE_X),
      (id! "M511_BASE_Y", Fields.E511_187.M511_BASE_Y),
      (id! "M511_ORDER", Fields.E511_187.M511_ORDER)]
  | .e521_1 =>
    [(id! "ZERO", Fields.E521_1.ZERO), (id! "ONE", Fields.E521_1.ONE),
      (id! "M_ONE", Fields.E521_1.M_ONE), (id! "MODULUS", Fields.E521_1.MODULUS),
      (id! "E521_D", Fields.E521_1.E521_D), (id! "E521_BASE_X", Fields.E521_1.E521_BASE_X),
      (id! "E521_BASE_Y", Fields.E521_1.E521_BASE_Y), (id! "E521_ORDER", Fields.E521_1.E521_ORDER)]

/-- C54, constants of the file: these and `C_VAL`, and no others. -/
theorem C54_all_constants (f : Fld) :
    ((src f).consts.filter (·.1 ≠ id! "C_VAL")).map (fun c => (c.1, (src f).const c.1)) =
      (fieldConsts f).map (fun q => (q.1, some (elem (tyId f) q.2))) ∧
    (src f).const (id! "C_VAL") = some (word f.code.cval) := by
  cases f <;> exact ⟨rfl, rfl⟩

/-! ### Properties of the text

Theorems about the model thereby become theorems about the text; some of them. -/

theorem rep_length {f : Fld} {a : Elem} (ha : f.Rep a) : a.length = f.code.limbs := by
  obtain ⟨ys, t, rfl, h1, -⟩ := ha
  rw [List.length_append, h1]
  cases f <;> rfl

/-- C54, C01 for the text: `&a + &b` denotes the sum. -/
theorem C54_text_add (f : Fld) (w : World) {a b : Elem} (ha : f.Rep a) (hb : f.Rep b) :
    ∃ r, callOp (src f) w 12 (id! "Add") (rf f a) (rf f b) =
      .ok (elem (tyId f) r, [rf f a, rf f b]) ∧ f.Denotes r (f.V a + f.V b) := by
  obtain ⟨r, h1, -, h2⟩ := C01_add f w.pr ha hb
  refine ⟨r, ?_, h2⟩
  have e := C54_operators (has_src f) w (show 12 ≤ 12 by decide) (o := .add) (assign := false)
    (l := .ref) (r := .ref) rfl (x := .elem a) (y := .elem b) trivial trivial (rep_length ha) (rep_length hb)
  rw [show opSpec f.code w.pr .add (.elem a) (.elem b) = .ok r from h1] at e
  exact e

/-- C54, C03 for the text: `-one()` does not denote minus one. -/
theorem C54_text_neg (f : Fld) (w : World) :
    ∃ r, callFn (src f) w 12 (tyId f) (id! "neg") [elem (tyId f) f.code.ONE] =
      .ok (elem (tyId f) r, [elem (tyId f) f.code.ONE]) ∧ ¬ f.Denotes r (-1) := by
  obtain ⟨r, h1, h2⟩ := C03_counterexample f w.pr
  refine ⟨r, ?_, h2⟩
  rw [(C54_unary (has_src f) w (show 12 ≤ 12 by decide) (by cases f <;> rfl)).2.2.2.2, h1]
  rfl

/-- C54, C13 for the text: unpacking a string of the right length and packing the result gives the string of
the residue. -/
theorem C54_text_pack (f : Fld) (w : World) {bytes : List Int} (hb : IsBytes bytes)
    (hl : bytes.length = f.nbytes) (hv : leVal bytes < 2 ^ f.n) :
    ∃ u u' out, callFn (src f) w 12 (tyId f) (id! "unpacked") [slice bytes] =
        .ok (elem (tyId f) u, [slice bytes]) ∧
      callFn (src f) w 12 (tyId f) (id! "packed") [rf f u] = .ok (.arr (out.map byte), [rf f u']) ∧
      IsBytes out ∧ leVal out = leVal bytes % f.p := by
  obtain ⟨u, u', out, h1, h2, -, h3, h4, -⟩ := C13_packed_unpack f w.pr hb hl hv
  refine ⟨u, u', out, ?_, ?_, h3, h4⟩
  · rw [(C54_pack (has_src f) w (show 12 ≤ 12 by decide) (a := f.code.ZERO) (by cases f <;> rfl) bytes).2.1, h1]
    rfl
  · have hu : u.length = f.code.limbs := by
      rw [FieldCode.unpacked, FieldCode.unpack] at h1
      obtain ⟨ρ, -, h1⟩ := Chn.bind_eq_ok h1
      rw [← Except.ok.inj h1, readSlots_length]
    rw [(C54_pack (has_src f) w (show 12 ≤ 12 by decide) hu []).2.2.2.2.1, h2]
    rfl

/-! ### Examples -/

/-- A debug build, with a generator that always answers 7. -/
def debugWorld : World := ⟨.debug, 0, fun _ _ => 7⟩

/-- The text of `square` overflows on large words in debug builds. -/
example : callFn (src .e255_19) debugWorld 12 (tyId .e255_19) (id! "square")
    [rf .e255_19 [2 ^ 62, 2 ^ 62, 2 ^ 62, 2 ^ 62, 2 ^ 62]] = .error (.panic .overflow) := by
  rw [(C54_in_place (f := .e255_19) (has_src _) debugWorld (by decide) rfl).1,
    show Fld.e255_19.code.square debugWorld.pr [2 ^ 62, 2 ^ 62, 2 ^ 62, 2 ^ 62, 2 ^ 62] = .error .overflow by
      decide +kernel]
  rfl

/-- `-3i8 * &x` with an element that has a carry. -/
example : callOp (src .e221_3) debugWorld 12 (id! "Mul") (.int (some .i8) (-3))
    (rf .e221_3 [5, 0, 0, 2 ^ 47 + 1]) =
    .ok (elem (tyId .e221_3) [288230376151711732, 288230376151711743, 288230376151711743, -422212465065988],
      [.int (some .i8) (-3), rf .e221_3 [5, 0, 0, 2 ^ 47 + 1]]) := by
  have e := C54_operators (f := .e221_3) (has_src _) debugWorld (show 12 ≤ 12 by decide) (o := .mul) (assign := false)
    (l := .i8) (r := .ref) rfl (x := .int (-3)) (y := .elem [5, 0, 0, 2 ^ 47 + 1])
    (by simp [OpVal.HasType]) trivial trivial rfl
  rw [show opSpec Fld.e221_3.code debugWorld.pr .mul (.int (-3)) (.elem [5, 0, 0, 2 ^ 47 + 1]) =
    .ok [288230376151711732, 288230376151711743, 288230376151711743, -422212465065988] by decide +kernel] at e
  exact e

/-- Unpacking from a slice that is too short panics. -/
example : callFn (src .e521_1) debugWorld 12 (tyId .e521_1) (id! "unpacked") [slice [1, 2, 3]] =
    .error (.panic .index) := by
  rw [(C54_pack (f := .e521_1) (has_src _) debugWorld (by decide) (a := Fld.e521_1.code.ZERO) rfl _).2.1,
    show Fld.e521_1.code.unpacked debugWorld.pr [1, 2, 3] = .error .index by decide +kernel]
  rfl

/-- `bit` past the last word panics. -/
example : callFn (src .e414_17) debugWorld 12 (tyId .e414_17) (id! "bit_normalized")
    [rf .e414_17 (List.replicate 8 1), usize 1000] = .error (.panic .index) := by
  rw [(C54_bits (f := .e414_17) (has_src _) debugWorld (by decide) rfl 1000).1]
  rfl

end Verif

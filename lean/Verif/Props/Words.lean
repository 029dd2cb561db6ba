import Verif.Rust.Eval
import Mathlib.Tactic.NormNum

/-!
# Property C93: the primitive operations of the text are those of 64-bit words

The interpreter of the Rust text computes with integers (`Rust/Eval.lean`, `Model/Machine.lean`).  Here its operations on the machine types are
compared with the bit vectors of the library of Lean, which know nothing of this model: `+`, `-`, `*`, `&`, `|`, `<<`, `>>`, `==` on `i64`, the
operations on `usize` and `u8`, and the conversions.  The build profiles differ just where the library speaks of an overflow.
-/

namespace Verif
open Rust

namespace Word
end Word
open Word

/-- Words as values of the machine types. -/
def Word.ofI64 (a : BitVec 64) : Val := .int (some .i64) a.toInt
def Word.ofUsize (a : BitVec 64) : Val := .int (some .usize) (a.toNat : Int)
def Word.ofU8 (a : BitVec 8) : Val := .int (some .u8) (a.toNat : Int)
def Word.ofI32 (a : BitVec 32) : Val := .int (some .i32) a.toInt
def Word.ofI16 (a : BitVec 16) : Val := .int (some .i16) a.toInt
def Word.ofI8 (a : BitVec 8) : Val := .int (some .i8) a.toInt

/-- Debug builds panic if there is an overflow. -/
def Word.outcome (pr : Profile) (overflow : Bool) (v : Val) : Except Err Val :=
  if overflow = true ∧ pr = .debug then .error (.panic .overflow) else .ok v

theorem Word.bmod64 (x : Int) : Int.bmod x 18446744073709551616 = (x + 9223372036854775808) % 18446744073709551616 - 9223372036854775808 := by
  rw [Int.bmod_def]
  split <;> omega

theorem Word.wrap64_eq (x : Int) : wrap64 x = (BitVec.ofInt 64 x).toInt := by
  rw [BitVec.toInt_ofInt]
  exact (bmod64 x).symm

theorem Word.toU64_eq (a : BitVec 64) : toU64 a.toInt = a.toNat := by
  have h1 := BitVec.toInt_eq_toNat_cond a
  have h2 := a.isLt
  unfold toU64
  rw [h1]
  split <;> omega

theorem Word.ofU64_eq (a : BitVec 64) : ofU64 a.toNat = a.toInt := by
  rw [ofU64, wrap64_eq, BitVec.ofInt_natCast, BitVec.ofNat_toNat, BitVec.setWidth_eq]

theorem Word.ofInt_sub (x y : Int) : BitVec.ofInt 64 (x - y) = BitVec.ofInt 64 x - BitVec.ofInt 64 y := by
  rw [Int.sub_eq_add_neg, BitVec.ofInt_add, BitVec.ofInt_neg, ← BitVec.sub_eq_add_neg]

theorem Word.arith_i64 (pr : Profile) {x : Int} {a : BitVec 64} {ov : Bool} (hx : a = BitVec.ofInt 64 x)
    (ho : ov = (decide (x ≥ 2 ^ 63) || decide (x < -2 ^ 63))) :
    (arithTy pr .i64 x >>= fun z => .ok (Val.int (some .i64) z)) = outcome pr ov (ofI64 a) := by
  subst hx
  by_cases h : -9223372036854775808 ≤ x ∧ x ≤ 9223372036854775807
  · have h1 : inI64 x = true := by simp [inI64, h]
    have h2 : ov = false := by rw [ho]; simp; omega
    have h3 : (BitVec.ofInt 64 x).toInt = x := by rw [← wrap64_eq, wrap64]; omega
    have h4 : arith pr x = .ok x := if_pos h1
    rw [show arithTy pr .i64 x = lift (arith pr x) from rfl, h4, outcome, if_neg (by simp [h2]), ofI64, h3]
    rfl
  · have h1 : ¬ inI64 x = true := by simp [inI64]; omega
    have h2 : ov = true := by rw [ho]; simp; omega
    have h4 : arith pr x = match pr with | .debug => .error .overflow | .release => .ok (wrap64 x) := if_neg h1
    rw [show arithTy pr .i64 x = lift (arith pr x) from rfl, h4, outcome, ofI64, ← wrap64_eq, h2]
    cases pr <;> rfl

theorem Word.arith_usize (pr : Profile) {x : Int} {a : BitVec 64} {ov : Bool} (hx : a = BitVec.ofInt 64 x)
    (ho : ov = !decide (0 ≤ x ∧ x < 2 ^ 64)) :
    (arithTy pr .usize x >>= fun z => .ok (Val.int (some .usize) z)) = outcome pr ov (ofUsize a) := by
  have h3 : (a.toNat : Int) = x % 2 ^ 64 := by
    rw [hx, BitVec.toNat_ofInt, Int.toNat_of_nonneg (Int.emod_nonneg _ (by decide))]
    rfl
  by_cases h : 0 ≤ x ∧ x < 2 ^ 64
  · have h4 : arithTy pr .usize x = .ok x := if_pos h
    rw [h4, outcome, if_neg (by rw [ho, decide_eq_true h]; simp), ofUsize, h3, Int.emod_eq_of_lt h.1 h.2]
    rfl
  · have h2 : ov = true := by rw [ho]; simp only [h, decide_false, Bool.not_false]
    have h4 : arithTy pr .usize x = match pr with | .debug => .error (.panic .overflow) | .release => .ok (x % 2 ^ 64) := if_neg h
    rw [h4, outcome, ofUsize, h3, h2]
    cases pr <;> rfl

/-- C93: arithmetic on `i64`. -/
theorem C93_i64 (pr : Profile) (a b : BitVec 64) :
    prim pr .add (ofI64 a) (ofI64 b) = outcome pr (a.saddOverflow b) (ofI64 (a + b)) ∧
    prim pr .sub (ofI64 a) (ofI64 b) = outcome pr (a.ssubOverflow b) (ofI64 (a - b)) ∧
    prim pr .mul (ofI64 a) (ofI64 b) = outcome pr (a.smulOverflow b) (ofI64 (a * b)) ∧
    prim pr .and (ofI64 a) (ofI64 b) = .ok (ofI64 (a &&& b)) ∧
    prim pr .or (ofI64 a) (ofI64 b) = .ok (ofI64 (a ||| b)) ∧
    prim pr .eq (ofI64 a) (ofI64 b) = .ok (.bool (a == b)) := by
  refine ⟨arith_i64 pr ?_ rfl, arith_i64 pr ?_ rfl, arith_i64 pr ?_ rfl, ?_, ?_, ?_⟩
  · rw [BitVec.ofInt_add, BitVec.ofInt_toInt, BitVec.ofInt_toInt]
  · rw [ofInt_sub, BitVec.ofInt_toInt, BitVec.ofInt_toInt]
  · rw [BitVec.ofInt_mul, BitVec.ofInt_toInt, BitVec.ofInt_toInt]
  · show Except.ok (Val.int (some .i64) (and64 a.toInt b.toInt)) = _
    rw [and64, toU64_eq, toU64_eq, ← BitVec.toNat_and, ofU64_eq]; rfl
  · show Except.ok (Val.int (some .i64) (or64 a.toInt b.toInt)) = _
    rw [or64, toU64_eq, toU64_eq, ← BitVec.toNat_or, ofU64_eq]; rfl
  · show Except.ok (Val.bool (decide (a.toInt = b.toInt))) = _
    congr 2
    rw [Bool.eq_iff_iff, decide_eq_true_iff, beq_iff_eq, BitVec.toInt_inj]

theorem Word.prim_usize (pr : Profile) (x y : Int) :
    (prim pr .add (.int (some .usize) x) (.int (some .usize) y) = arithTy pr .usize (x + y) >>= fun z => .ok (Val.int (some .usize) z)) ∧
    (prim pr .sub (.int (some .usize) x) (.int (some .usize) y) = arithTy pr .usize (x - y) >>= fun z => .ok (Val.int (some .usize) z)) ∧
    (prim pr .mul (.int (some .usize) x) (.int (some .usize) y) = arithTy pr .usize (x * y) >>= fun z => .ok (Val.int (some .usize) z)) :=
  ⟨rfl, rfl, rfl⟩

/-- C93: arithmetic on `usize`. -/
theorem C93_usize (pr : Profile) (a b : BitVec 64) :
    prim pr .add (ofUsize a) (ofUsize b) = outcome pr (a.uaddOverflow b) (ofUsize (a + b)) ∧
    prim pr .sub (ofUsize a) (ofUsize b) = outcome pr (a.usubOverflow b) (ofUsize (a - b)) ∧
    prim pr .mul (ofUsize a) (ofUsize b) = outcome pr (a.umulOverflow b) (ofUsize (a * b)) ∧
    (b ≠ 0 → prim pr .div (ofUsize a) (ofUsize b) = .ok (ofUsize (a / b)) ∧ prim pr .rem (ofUsize a) (ofUsize b) = .ok (ofUsize (a % b))) ∧
    prim pr .eq (ofUsize a) (ofUsize b) = .ok (.bool (a == b)) := by
  have e : ∀ a : BitVec 64, BitVec.ofInt 64 (a.toNat : Int) = a := fun a => by
    rw [BitVec.ofInt_natCast, BitVec.ofNat_toNat, BitVec.setWidth_eq]
  have ha := a.isLt
  have hb := b.isLt
  refine ⟨(prim_usize pr _ _).1.trans (arith_usize pr ?_ ?_), (prim_usize pr _ _).2.1.trans (arith_usize pr ?_ ?_),
    (prim_usize pr _ _).2.2.trans (arith_usize pr ?_ ?_), fun h0 => ⟨?_, ?_⟩, ?_⟩
  · rw [BitVec.ofInt_add, e, e]
  · rw [BitVec.uaddOverflow, Bool.eq_iff_iff]; simp; omega
  · rw [ofInt_sub, e, e]
  · rw [BitVec.usubOverflow, Bool.eq_iff_iff]; simp; omega
  · rw [BitVec.ofInt_mul, e, e]
  · rw [BitVec.umulOverflow, Bool.eq_iff_iff]
    rw [← Int.natCast_mul]
    generalize a.toNat * b.toNat = m
    simp
  · have h1 : (b.toNat : Int) ≠ 0 := fun h => h0 (BitVec.eq_of_toNat_eq (by simpa using h))
    show (if (b.toNat : Int) = 0 then Except.error Err.stuck else Except.ok (Val.int (some .usize) ((a.toNat : Int) / b.toNat))) = _
    rw [if_neg h1, ofUsize, BitVec.toNat_udiv]; rfl
  · have h1 : (b.toNat : Int) ≠ 0 := fun h => h0 (BitVec.eq_of_toNat_eq (by simpa using h))
    show (if (b.toNat : Int) = 0 then Except.error Err.stuck else Except.ok (Val.int (some .usize) ((a.toNat : Int) % b.toNat))) = _
    rw [if_neg h1, ofUsize, BitVec.toNat_umod]; rfl
  · show Except.ok (Val.bool (decide ((a.toNat : Int) = (b.toNat : Int)))) = _
    congr 2
    rw [Bool.eq_iff_iff, decide_eq_true_iff, beq_iff_eq, Int.ofNat_inj, BitVec.toNat_inj]

theorem Word.distance_eq (pr : Profile) (k : Nat) (f : Nat → Val) : (distance pr (k : Int) >>= fun z => .ok (f z)) = outcome pr (decide (64 ≤ k)) (f (k % 64)) := by
  by_cases h : k < 64
  · have h4 : distance pr (k : Int) = .ok (k : Int).toNat := if_pos (by omega)
    rw [h4, Int.toNat_natCast, outcome, if_neg (by simp; omega), Nat.mod_eq_of_lt h]
    rfl
  · have h4 : distance pr (k : Int) = match pr with | .debug => .error (.panic .overflow) | .release => .ok ((k : Int) % 64).toNat :=
      if_neg (by omega)
    have h5 : ((k : Int) % 64).toNat = k % 64 := by omega
    rw [h4, h5, outcome, decide_eq_true (Nat.le_of_not_lt h)]
    cases pr <;> rfl

theorem Word.shl64_eq (a : BitVec 64) (k : Nat) : shl64 a.toInt k = (a <<< k).toInt := by
  rw [shl64, wrap64_eq]
  congr 1
  rw [BitVec.ofInt_mul, BitVec.ofInt_toInt, BitVec.shiftLeft_eq_mul_twoPow]
  congr 1
  apply BitVec.eq_of_toNat_eq
  have e : (2 : Int) ^ k = ((2 ^ k : Nat) : Int) := by norm_cast
  rw [BitVec.toNat_twoPow, e, BitVec.ofInt_natCast, BitVec.toNat_ofNat]

theorem Word.shr64_eq (a : BitVec 64) (k : Nat) : shr64 a.toInt k = (a.sshiftRight k).toInt := by
  rw [BitVec.toInt_sshiftRight, shr64, Int.shiftRight_eq_div_pow]
  norm_cast

/-- C93: shifts of `i64` by `usize` numbers and by literals; the distance is reduced in release builds. -/
theorem C93_shifts (pr : Profile) (a : BitVec 64) (k : BitVec 64) (m : Nat) :
    prim pr .shl (ofI64 a) (ofUsize k) = outcome pr (decide (64 ≤ k.toNat)) (ofI64 (a <<< (k % 64))) ∧
    prim pr .shr (ofI64 a) (ofUsize k) = outcome pr (decide (64 ≤ k.toNat)) (ofI64 (a.sshiftRight' (k % 64))) ∧
    prim pr .shl (ofI64 a) (.int none m) = outcome pr (decide (64 ≤ m)) (ofI64 (a <<< (m % 64))) ∧
    prim pr .shr (ofI64 a) (.int none m) = outcome pr (decide (64 ≤ m)) (ofI64 (a.sshiftRight (m % 64))) := by
  have hl : ∀ k : Nat, Val.int (some .i64) (shl64 a.toInt k) = ofI64 (a <<< k) := fun k => by rw [shl64_eq]; rfl
  have hr : ∀ k : Nat, Val.int (some .i64) (shr64 a.toInt k) = ofI64 (a.sshiftRight k) := fun k => by rw [shr64_eq]; rfl
  have hk : (k % 64).toNat = k.toNat % 64 := BitVec.toNat_umod
  refine ⟨?_, ?_, ?_, ?_⟩
  · refine (distance_eq pr k.toNat fun z => Val.int (some .i64) (shl64 a.toInt z)).trans ?_
    rw [hl, ← hk]; rfl
  · refine (distance_eq pr k.toNat fun z => Val.int (some .i64) (shr64 a.toInt z)).trans ?_
    rw [hr, ← hk]; rfl
  · refine (distance_eq pr m fun z => Val.int (some .i64) (shl64 a.toInt z)).trans ?_
    rw [hl]
  · refine (distance_eq pr m fun z => Val.int (some .i64) (shr64 a.toInt z)).trans ?_
    rw [hr]

/-- C93: `&` and `|` on `u8`. -/
theorem C93_u8 (pr : Profile) (a b : BitVec 8) :
    prim pr .and (ofU8 a) (ofU8 b) = .ok (ofU8 (a &&& b)) ∧ prim pr .or (ofU8 a) (ofU8 b) = .ok (ofU8 (a ||| b)) := by
  have e : ∀ a : BitVec 8, toU64 (a.toNat : Int) = a.toNat := fun a => by
    have := a.isLt
    unfold toU64; omega
  have e2 : ∀ a : BitVec 8, ofU64 a.toNat = (a.toNat : Int) := fun a => by
    have := a.isLt
    unfold ofU64 wrap64; omega
  constructor
  · show Except.ok (Val.int (some .u8) (and64 a.toNat b.toNat)) = _
    rw [and64, e, e, ← BitVec.toNat_and, e2]; rfl
  · show Except.ok (Val.int (some .u8) (or64 a.toNat b.toNat)) = _
    rw [or64, e, e, ← BitVec.toNat_or, e2]; rfl

/-- C93: conversions keep the low bits, or extend with the sign (signed types) or with zeros. -/
theorem C93_casts (b : Bool) (u : BitVec 8) (s : BitVec 16) (a : BitVec 64) :
    castTo .i64 (.bool b) = .ok (ofI64 ((BitVec.ofBool b).setWidth 64)) ∧
    castTo .i64 (ofU8 u) = .ok (ofI64 (u.setWidth 64)) ∧
    castTo .i32 (ofI64 a) = .ok (ofI32 (a.setWidth 32)) ∧
    castTo .i32 (ofI16 s) = .ok (ofI32 (s.signExtend 32)) ∧
    castTo .i32 (ofI8 u) = .ok (ofI32 (u.signExtend 32)) ∧
    castTo .u8 (ofI64 a) = .ok (ofU8 (a.setWidth 8)) := by
  refine ⟨by cases b <;> rfl, ?_, ?_, ?_, ?_, ?_⟩
  · show Except.ok (Val.int (some .i64) (u.toNat : Int)) = _
    have := u.isLt
    rw [ofI64, BitVec.toInt_eq_toNat_cond, BitVec.toNat_setWidth]
    have h : u.toNat % 2 ^ 64 = u.toNat := Nat.mod_eq_of_lt (by omega)
    rw [h, if_pos (by omega)]
  · show Except.ok (Val.int (some .i32) (asI32 a.toInt)) = _
    have h2 := BitVec.toInt_eq_toNat_cond a
    have key : asI32 a.toInt = (a.setWidth 32).toInt := by
      rw [BitVec.toInt_setWidth, Int.bmod_def, asI32, h2]
      split <;> split <;> omega
    rw [key, ofI32]
  · show Except.ok (Val.int (some .i32) s.toInt) = _
    rw [ofI32, BitVec.toInt_signExtend_of_le (by decide)]
  · show Except.ok (Val.int (some .i32) u.toInt) = _
    rw [ofI32, BitVec.toInt_signExtend_of_le (by decide)]
  · show Except.ok (Val.int (some .u8) (asU8 a.toInt)) = _
    have h2 := BitVec.toInt_eq_toNat_cond a
    have key : asU8 a.toInt = ((a.setWidth 8).toNat : Int) := by
      rw [BitVec.toNat_setWidth, asU8, h2]
      split <;> omega
    rw [key, ofU8]

/-- C93: a literal takes the type of the other operand, and operands of two different types, which `rustc` rejects, are never combined. -/
theorem C93_literals (pr : Profile) (op : BinOp) (hl : op ≠ .shl) (hr : op ≠ .shr) (s t : IntTy) (x y : Int) :
    prim pr op (.int (some s) x) (.int none y) = prim pr op (.int (some s) x) (.int (some s) y) ∧
    prim pr op (.int none x) (.int (some s) y) = prim pr op (.int (some s) x) (.int (some s) y) ∧
    (s ≠ t → prim pr op (.int (some s) x) (.int (some t) y) = .error .stuck) := by
  refine ⟨?_, ?_, fun h => ?_⟩
  · cases op <;> first | exact absurd rfl hl | exact absurd rfl hr | (cases s <;> rfl)
  · cases op <;> first | exact absurd rfl hl | exact absurd rfl hr | (cases s <;> rfl)
  · have e : unify (some s) (some t) = .error .stuck := if_neg h
    cases op <;> first | exact absurd rfl hl | exact absurd rfl hr | (show (unify (some s) (some t) >>= _) = _; rw [e]; rfl)

/-! ### Cases -/

/-- The largest `i64` plus one. -/
example : prim .release .add (ofI64 0x7fffffffffffffff) (ofI64 1) = .ok (.int (some .i64) (-9223372036854775808)) ∧
    prim .debug .add (ofI64 0x7fffffffffffffff) (ofI64 1) = .error (.panic .overflow) :=
  ⟨(C93_i64 .release 0x7fffffffffffffff 1).1, (C93_i64 .debug 0x7fffffffffffffff 1).1⟩

/-- Zero minus one on `usize`. -/
example : prim .release .sub (ofUsize 0) (ofUsize 1) = .ok (.int (some .usize) 18446744073709551615) ∧
    prim .debug .sub (ofUsize 0) (ofUsize 1) = .error (.panic .overflow) :=
  ⟨(C93_usize .release 0 1).2.1, (C93_usize .debug 0 1).2.1⟩

/-- A shift of a negative number. -/
example : prim .debug .shr (ofI64 (-5)) (ofUsize 1) = .ok (.int (some .i64) (-3)) ∧
    prim .release .shr (ofI64 (-5)) (ofUsize 65) = .ok (.int (some .i64) (-3)) :=
  ⟨(C93_shifts .debug (-5) 1 0).2.1, (C93_shifts .release (-5) 65 0).2.1⟩

end Verif

import Verif.Rust.Packing

/-!
# Bits, masks and random elements

The text of `bit_normalized`, `bit`, the `bitand` and `bitor` functions, `fill`, `filled` (of the field
type and of the mask type) and `rand`, and what interpreting it computes.
-/

namespace Verif.Rust

open Limb

variable {P : Program} {f : Fld} (h : Has P f) (w : World)

/-! ### Single bits -/

/-- `bit_normalized` with `L` bits per word. -/
def bitText (L : Nat) : Block × Expr :=
  (.let (id! "byte") (.bin .div (.var (id! "idx")) (.lit none L))
    (.let (id! "bit") (.bin .rem (.var (id! "idx")) (.lit none L)) .nil),
    .bin .eq (.bin .and (.bin .shr (.index (.field (.var (id! "self")) (id! "0")) (.var (id! "byte")))
      (.var (id! "bit"))) (.lit none 1)) (.lit none 1))

theorem fn_bit_normalized (f : Fld) : methF f (id! "bit_normalized") =
    mkFn (tyId f) (id! "bit_normalized") .ref [(id! "idx", tyV (id! "usize"))] (tyV (id! "bool"))
      (bitText f.code.limbBits) := by
  cases f <;> decide +kernel

@[simp] theorem recv_bit_normalized (f : Fld) : (methF f (id! "bit_normalized")).recv = .ref := by
  rw [fn_bit_normalized]
@[simp] theorem muts_bit_normalized (f : Fld) :
    (methF f (id! "bit_normalized")).params.map (·.2.isMut) = [false] := by
  rw [fn_bit_normalized]; rfl

theorem limbBits_range (f : Fld) : 0 < f.code.limbBits ∧ f.code.limbBits < 64 := by
  cases f <;> decide

/-- A `usize`. -/
def usize (n : Nat) : Val := .int (some .usize) n

theorem prim_div {pr : Profile} {x y : Nat} (hy : y ≠ 0) :
    prim pr .div (usize x) (.int none y) = .ok (usize (x / y)) := by
  have : (y : Int) ≠ 0 := by exact_mod_cast hy
  simp only [prim, usize, unify, ok_bind, pure_ok, this, if_false, Int.natCast_ediv]

theorem prim_rem {pr : Profile} {x y : Nat} (hy : y ≠ 0) :
    prim pr .rem (usize x) (.int none y) = .ok (usize (x % y)) := by
  have : (y : Int) ≠ 0 := by exact_mod_cast hy
  simp only [prim, usize, unify, ok_bind, pure_ok, this, if_false, Int.natCast_emod]

theorem shiftBy_ok {pr : Profile} {t : Option IntTy} (ht : t = none ∨ t = some .usize) {k : Nat}
    (hk : k < 64) : shiftBy pr t k = .ok k := by
  have e : distance pr k = .ok k := by
    unfold distance
    rw [if_pos (by omega), Int.toNat_natCast]
  rcases ht with rfl | rfl <;> exact e

theorem prim_shr {pr : Profile} {t : Option IntTy} (ht : t = none ∨ t = some .usize) {k : Nat}
    (hk : k < 64) (x : Int) :
    prim pr .shr (word x) (.int t k) = .ok (word (shr64 x k)) := by
  simp only [prim, word, shiftBy_ok ht hk, ok_bind, pure_ok]

theorem prim_shl {pr : Profile} {t : Option IntTy} (ht : t = none ∨ t = some .usize) {k : Nat}
    (hk : k < 64) (x : Int) :
    prim pr .shl (word x) (.int t k) = .ok (word (shl64 x k)) := by
  simp only [prim, word, shiftBy_ok ht hk, ok_bind, pure_ok]

@[simp] theorem isPrim_word (x : Int) : (word x).isPrim = true := rfl
@[simp] theorem isPrim_usize (x : Nat) : (usize x).isPrim = true := rfl
@[simp] theorem isPrim_int (t : Option IntTy) (x : Int) : (Val.int t x).isPrim = true := rfl

theorem binop_prim {c : Ctx} {op : BinOp} {x y : Val} (hx : x.isPrim = true) (hy : y.isPrim = true)
    (ρ : Env) : binop c op x y ρ = (prim c.pr op x y >>= fun v => .ok (v, ρ)) := by
  rw [binop, hx, hy]; rfl

theorem opAssign_prim {c : Ctx} {op : BinOp} {x y : Val} (hx : x.isPrim = true) (hy : y.isPrim = true)
    (p : Place) (ρ : Env) : opAssign c op p x y ρ = (prim c.pr op x y >>= fun v => setPlace ρ p v) := by
  rw [opAssign, hx, hy]; rfl

include w in
theorem run_bit_normalized {n : Nat} (hn : 1 ≤ n) (a : List Int) (i : Nat) :
    run P w n (methF f (id! "bit_normalized")) [.ref (elem (tyId f) a), usize i] =
      (lift (f.code.bitNormalized a i) >>= fun b => .ok (.bool b, [.ref (elem (tyId f) a), usize i])) := by
  obtain ⟨n, rfl⟩ := Nat.exists_eq_add_of_le' hn
  obtain ⟨l0, l1⟩ := limbBits_range f
  rw [run_succ, fn_bit_normalized, FieldCode.bitNormalized]
  generalize f.code.limbBits = L at l0 l1
  have hL : L ≠ 0 := by omega
  simp only [runBody, mkFn, Fn.names, Fn.coerce, List.map, List.zipWith, List.zip_cons_cons,
    List.zip_nil_left, show coerce (tyV (id! "usize")) (usize i) = usize i from rfl, bitText]
  rw [exec, eval, eval_var (v := usize i) rfl]
  simp only [ok_bind, eval]
  rw [binop_prim (by rfl) (by rfl), prim_div hL]
  simp only [ok_bind, pure_ok]
  rw [exec, eval, eval_var (v := usize i) rfl]
  simp only [ok_bind, eval]
  rw [binop_prim (by rfl) (by rfl), prim_rem hL]
  simp only [ok_bind, pure_ok, exec]
  simp only [show List.lookup (id! "self") [(id! "bit", usize (i % L)), (id! "byte", usize (i / L)),
    (id! "self", Val.ref (elem (tyId f) a)), (id! "idx", usize i)] = some (Val.ref (elem (tyId f) a)) from rfl,
    show List.lookup (id! "byte") [(id! "bit", usize (i % L)), (id! "byte", usize (i / L)),
    (id! "self", Val.ref (elem (tyId f) a)), (id! "idx", usize i)] = some (usize (i / L)) from rfl,
    ok_bind, getField_ref]
  by_cases hi : i / L < a.length
  · have e1 : getIndex (.arr (a.map word)) (usize (i / L)) = .ok (word a[i / L]) := getIndex_word hi rfl
    simp only [e1, List.getElem?_eq_getElem hi, ok_bind, pure_ok, lift_ok, show List.lookup (id! "bit") [(id! "bit", usize (i % L)), (id! "byte", usize (i / L)),
    (id! "self", Val.ref (elem (tyId f) a)), (id! "idx", usize i)] = some (usize (i % L)) from rfl]
    rw [binop_prim (by rfl) (by rfl), usize, prim_shr (.inr rfl) (lt_of_lt_of_le (Nat.mod_lt _ l0) (by omega))]
    rfl
  · have e1 : getIndex (.arr (a.map word)) (usize (i / L)) = .error (.panic .index) :=
      getIndex_none (by omega) rfl
    rw [e1, List.getElem?_eq_none (by omega)]
    rfl

theorem fn_bit (f : Fld) : methF f (id! "bit") =
    mkFn (tyId f) (id! "bit") .mut [(id! "idx", tyV (id! "usize"))] (tyV (id! "bool")) (rust_block% r"
        self.normalize();
        self.bit_normalized(idx)
    ") := by
  cases f <;> decide +kernel

@[simp] theorem recv_bit (f : Fld) : (methF f (id! "bit")).recv = .mut := by rw [fn_bit]
@[simp] theorem muts_bit (f : Fld) : (methF f (id! "bit")).params.map (·.2.isMut) = [false] := by
  rw [fn_bit]; rfl

include h in
theorem run_bit {n : Nat} (hn : 10 ≤ n) {a : List Int} (ha : a.length = f.code.limbs) (i : Nat) :
    run P w n (methF f (id! "bit")) [.ref (elem (tyId f) a), usize i] =
      (lift (f.code.bit w.pr a i) >>= fun r =>
        .ok (.bool r.2, [.ref (elem (tyId f) r.1), usize i])) := by
  obtain ⟨n, rfl⟩ := Nat.exists_eq_add_of_le' (show 1 ≤ n by omega)
  rw [run_succ, fn_bit, FieldCode.bit]
  simp only [runBody, mkFn, Fn.names, Fn.coerce, List.map, List.zipWith, List.zip_cons_cons,
    List.zip_nil_left, show coerce (tyV (id! "usize")) (usize i) = usize i from rfl]
  rw [exec_normalize h w (show 9 ≤ n by omega) rfl (IsElem.ref (tyId f) a) ha]
  cases hr : f.code.normalize w.pr a with
  | error e => rfl
  | ok r =>
    rw [lift_ok, ok_bind, show setPlace [(id! "self", .ref (elem (tyId f) a)), (id! "idx", usize i)]
      (id! "self", []) (elem (tyId f) r) = .ok [(id! "self", .ref (elem (tyId f) r)),
      (id! "idx", usize i)] from rfl, ok_bind, exec, ok_bind, eval, eval_var (v := .ref (elem (tyId f) r)) rfl]
    simp only [ok_bind, eval, show List.lookup (id! "idx") [(id! "self", Val.ref (elem (tyId f) r)),
      (id! "idx", usize i)] = some (usize i) from rfl, pure_ok,
      Out.list, List.head?_cons, Option.getD_some]
    rw [call_ref w (IsElem.ref (tyId f) r) (by decide) (method_eq h (by decide))
      (muts_bit_normalized f) _ _ _ _ (recv_bit_normalized f), run_bit_normalized w (by omega)]
    cases f.code.bitNormalized r i with
    | error e => rfl
    | ok z => rfl

/-! ### Masking -/

/-- `self.0[i] ∘= rhs.0[i];` for `k` words from `i` on. -/
def zipBlock (op : BinOp) : Nat → Nat → Block
  | 0, _ => .nil
  | k + 1, i => .opAssign op (wordE (id! "self") i) (wordE (id! "rhs") i) (zipBlock op k (i + 1))

/-- The result of one word operation in every word from `i` on. -/
theorem zip_step (g : Int → Int → Int) {a b : List Int} {i : Nat} (hi : i < a.length) (hb : i < b.length) :
    (a.set i (g a[i] b[i])).take (i + 1) ++
      List.zipWith g ((a.set i (g a[i] b[i])).drop (i + 1)) (b.drop (i + 1)) =
    a.take i ++ List.zipWith g (a.drop i) (b.drop i) := by
  rw [List.drop_eq_getElem_cons hi, List.drop_eq_getElem_cons hb, List.zipWith_cons_cons,
    List.drop_set_of_lt (by omega), List.take_add_one, List.take_set_of_le (by omega)]
  simp [hi]

theorem exec_zip (c : Ctx) {t : Id} {b : List Int} {v : Val} (hv : IsElem t v b) {op : BinOp}
    {g : Int → Int → Int} (hop : ∀ x y, prim c.pr op (word x) (word y) = .ok (word (g x y))) :
    ∀ (k i : Nat) (a : List Int), i + k = a.length → a.length = b.length →
    exec c [(id! "self", .ref (elem t a)), (id! "rhs", v)] (zipBlock op k i) =
      .ok [(id! "self", .ref (elem t (a.take i ++ List.zipWith g (a.drop i) (b.drop i)))),
        (id! "rhs", v)] := by
  intro k
  induction k with
  | zero =>
    intro i a hi hb
    rw [zipBlock, exec, List.drop_eq_nil_of_le (by omega), List.zipWith_nil_left, List.take_of_length_le (by omega),
      List.append_nil]
  | succ k ih =>
    intro i a hi hb
    have h1 : i < a.length := by omega
    have h2 : i < b.length := by omega
    rw [zipBlock, exec, eval_word (v := v) rfl hv h2, ok_bind, eval_word (v := .ref (elem t a)) rfl (.ref t a) h1,
      ok_bind]
    dsimp only
    rw [opAssign_prim (by rfl) (by rfl), hop, ok_bind]
    simp only [setPlace, if_true]
    rw [write_word_ref t a h1, ok_bind]
    simp only [pure_ok, ok_bind]
    rw [ih (i + 1) _ (by rw [List.length_set]; omega) (by rw [List.length_set]; exact hb), zip_step g h1 h2]

theorem fn_normalized_bits (f : Fld) :
    methF f (id! "normalized_bitand") = mkFn (tyId f) (id! "normalized_bitand") .mut
      [(id! "rhs", tyR (tyId f))] (tyV (id! "()")) (zipBlock .and f.code.limbs 0, .unit) ∧
    methF f (id! "normalized_bitor") = mkFn (tyId f) (id! "normalized_bitor") .mut
      [(id! "rhs", tyR (tyId f))] (tyV (id! "()")) (zipBlock .or f.code.limbs 0, .unit) := by
  cases f <;> decide +kernel

theorem fn_normalize_self_bits (f : Fld) :
    methF f (id! "normalize_self_bitand") = mkFn (tyId f) (id! "normalize_self_bitand") .mut
      [(id! "rhs", tyR (tyId f))] (tyV (id! "()")) (rust_block% r"
        self.normalize();
        self.normalized_bitand(rhs);
    ") ∧
    methF f (id! "normalize_self_bitor") = mkFn (tyId f) (id! "normalize_self_bitor") .mut
      [(id! "rhs", tyR (tyId f))] (tyV (id! "()")) (rust_block% r"
        self.normalize();
        self.normalized_bitor(rhs);
    ") := by
  cases f <;> decide +kernel

theorem fn_normalize_bits (f : Fld) :
    methF f (id! "normalize_bitand") = mkFn (tyId f) (id! "normalize_bitand") .mut
      [(id! "rhs", tyM (tyId f))] (tyV (id! "()")) (rust_block% r"
        rhs.normalize();
        self.normalize_self_bitand(rhs);
    ") ∧
    methF f (id! "normalize_bitor") = mkFn (tyId f) (id! "normalize_bitor") .mut
      [(id! "rhs", tyM (tyId f))] (tyV (id! "()")) (rust_block% r"
        rhs.normalize();
        self.normalize_self_bitor(rhs);
    ") := by
  cases f <;> decide +kernel

@[simp] theorem recv_normalized_bitand (f : Fld) : (methF f (id! "normalized_bitand")).recv = .mut := by
  rw [(fn_normalized_bits f).1]
@[simp] theorem muts_normalized_bitand (f : Fld) :
    (methF f (id! "normalized_bitand")).params.map (·.2.isMut) = [false] := by
  rw [(fn_normalized_bits f).1]; rfl
@[simp] theorem recv_normalized_bitor (f : Fld) : (methF f (id! "normalized_bitor")).recv = .mut := by
  rw [(fn_normalized_bits f).2]
@[simp] theorem muts_normalized_bitor (f : Fld) :
    (methF f (id! "normalized_bitor")).params.map (·.2.isMut) = [false] := by
  rw [(fn_normalized_bits f).2]; rfl
@[simp] theorem recv_normalize_self_bitand (f : Fld) : (methF f (id! "normalize_self_bitand")).recv = .mut := by
  rw [(fn_normalize_self_bits f).1]
@[simp] theorem muts_normalize_self_bitand (f : Fld) :
    (methF f (id! "normalize_self_bitand")).params.map (·.2.isMut) = [false] := by
  rw [(fn_normalize_self_bits f).1]; rfl
@[simp] theorem recv_normalize_self_bitor (f : Fld) : (methF f (id! "normalize_self_bitor")).recv = .mut := by
  rw [(fn_normalize_self_bits f).2]
@[simp] theorem muts_normalize_self_bitor (f : Fld) :
    (methF f (id! "normalize_self_bitor")).params.map (·.2.isMut) = [false] := by
  rw [(fn_normalize_self_bits f).2]; rfl

theorem run_normalized_bits {n : Nat} (hn : 1 ≤ n) {a b : List Int} (ha : a.length = f.code.limbs)
    (hb : b.length = f.code.limbs) :
    run P w n (methF f (id! "normalized_bitand")) [.ref (elem (tyId f) a), .ref (elem (tyId f) b)] =
      .ok (.unit, [.ref (elem (tyId f) (FieldCode.normalizedBitand a b)), .ref (elem (tyId f) b)]) ∧
    run P w n (methF f (id! "normalized_bitor")) [.ref (elem (tyId f) a), .ref (elem (tyId f) b)] =
      .ok (.unit, [.ref (elem (tyId f) (FieldCode.normalizedBitor a b)), .ref (elem (tyId f) b)]) := by
  obtain ⟨n, rfl⟩ := Nat.exists_eq_add_of_le' hn
  rw [run_succ, run_succ, (fn_normalized_bits f).1, (fn_normalized_bits f).2]
  simp only [runBody, mkFn, Fn.names, Fn.coerce, List.map, List.zipWith, List.zip_cons_cons,
    List.zip_nil_left, coerce_ref]
  rw [exec_zip (ctx P w n) (.ref (tyId f) b) (g := and64) (fun _ _ => rfl) f.code.limbs 0 a (by omega) (by omega),
    exec_zip (ctx P w n) (.ref (tyId f) b) (g := or64) (fun _ _ => rfl) f.code.limbs 0 a (by omega) (by omega)]
  exact ⟨rfl, rfl⟩

section
variable {n : Nat} {a b : List Int} (ha : a.length = f.code.limbs) (hb : b.length = f.code.limbs)

include h ha hb

theorem run_normalize_self_bits (hn : 10 ≤ n) :
    run P w n (methF f (id! "normalize_self_bitand")) [.ref (elem (tyId f) a), .ref (elem (tyId f) b)] =
      (lift (f.code.normalizeSelfBitand w.pr a b) >>= fun r =>
        .ok (.unit, [.ref (elem (tyId f) r), .ref (elem (tyId f) b)])) ∧
    run P w n (methF f (id! "normalize_self_bitor")) [.ref (elem (tyId f) a), .ref (elem (tyId f) b)] =
      (lift (f.code.normalizeSelfBitor w.pr a b) >>= fun r =>
        .ok (.unit, [.ref (elem (tyId f) r), .ref (elem (tyId f) b)])) := by
  obtain ⟨n, rfl⟩ := Nat.exists_eq_add_of_le' (show 1 ≤ n by omega)
  rw [run_succ, run_succ, (fn_normalize_self_bits f).1, (fn_normalize_self_bits f).2,
    FieldCode.normalizeSelfBitand, FieldCode.normalizeSelfBitor]
  simp only [runBody, mkFn, Fn.names, Fn.coerce, List.map, List.zipWith, List.zip_cons_cons,
    List.zip_nil_left, coerce_ref]
  rw [exec_normalize h w (show 9 ≤ n by omega) rfl (IsElem.ref (tyId f) a) ha,
    exec_normalize h w (show 9 ≤ n by omega) rfl (IsElem.ref (tyId f) a) ha]
  cases hr : f.code.normalize w.pr a with
  | error e => exact ⟨rfl, rfl⟩
  | ok r =>
    have e := run_normalized_bits (P := P) w (show 1 ≤ n by omega) (normalize_length hr) hb
    simp only [lift_ok, ok_bind, show setPlace [(id! "self", Val.ref (elem (tyId f) a)),
      (id! "rhs", Val.ref (elem (tyId f) b))] (id! "self", []) (elem (tyId f) r) =
      .ok [(id! "self", .ref (elem (tyId f) r)), (id! "rhs", .ref (elem (tyId f) b))] from rfl]
    simp only [ok_bind, exec, eval, show List.lookup (id! "self") [(id! "self", Val.ref (elem (tyId f) r)),
      (id! "rhs", Val.ref (elem (tyId f) b))] = some (Val.ref (elem (tyId f) r)) from rfl, show List.lookup (id! "rhs") [(id! "self", Val.ref (elem (tyId f) r)),
      (id! "rhs", Val.ref (elem (tyId f) b))] = some (Val.ref (elem (tyId f) b)) from rfl, pure_ok,
      Out.list, List.head?_cons, Option.getD_some]
    rw [call_mut w (IsElem.ref (tyId f) r) (by decide) (method_eq h (by decide))
      (muts_normalized_bitand f) _ _ _ _ (recv_normalized_bitand f),
      call_mut w (IsElem.ref (tyId f) r) (by decide) (method_eq h (by decide))
      (muts_normalized_bitor f) _ _ _ _ (recv_normalized_bitor f), e.1, e.2]
    exact ⟨rfl, rfl⟩

theorem run_normalize_bits (hn : 11 ≤ n) :
    run P w n (methF f (id! "normalize_bitand")) [.ref (elem (tyId f) a), .ref (elem (tyId f) b)] =
      (lift (f.code.normalizeBitand w.pr a b) >>= fun r =>
        .ok (.unit, [.ref (elem (tyId f) r.1), .ref (elem (tyId f) r.2)])) ∧
    run P w n (methF f (id! "normalize_bitor")) [.ref (elem (tyId f) a), .ref (elem (tyId f) b)] =
      (lift (f.code.normalizeBitor w.pr a b) >>= fun r =>
        .ok (.unit, [.ref (elem (tyId f) r.1), .ref (elem (tyId f) r.2)])) := by
  obtain ⟨n, rfl⟩ := Nat.exists_eq_add_of_le' (show 1 ≤ n by omega)
  rw [run_succ, run_succ, (fn_normalize_bits f).1, (fn_normalize_bits f).2,
    FieldCode.normalizeBitand, FieldCode.normalizeBitor]
  simp only [runBody, mkFn, Fn.names, Fn.coerce, List.map, List.zipWith, List.zip_cons_cons,
    List.zip_nil_left, coerce_ref]
  rw [exec_normalize h w (show 9 ≤ n by omega) rfl (IsElem.ref (tyId f) b) hb,
    exec_normalize h w (show 9 ≤ n by omega) rfl (IsElem.ref (tyId f) b) hb]
  cases hr : f.code.normalize w.pr b with
  | error e => exact ⟨rfl, rfl⟩
  | ok r =>
    have e := run_normalize_self_bits h w ha (normalize_length hr) (n := n) (by omega)
    simp only [lift_ok, ok_bind, show setPlace [(id! "self", Val.ref (elem (tyId f) a)),
      (id! "rhs", Val.ref (elem (tyId f) b))] (id! "rhs", []) (elem (tyId f) r) =
      .ok [(id! "self", .ref (elem (tyId f) a)), (id! "rhs", .ref (elem (tyId f) r))] from rfl]
    simp only [ok_bind, exec, eval, show List.lookup (id! "self") [(id! "self", Val.ref (elem (tyId f) a)),
      (id! "rhs", Val.ref (elem (tyId f) r))] = some (Val.ref (elem (tyId f) a)) from rfl, show List.lookup (id! "rhs") [(id! "self", Val.ref (elem (tyId f) a)),
      (id! "rhs", Val.ref (elem (tyId f) r))] = some (Val.ref (elem (tyId f) r)) from rfl, pure_ok,
      Out.list, List.head?_cons, Option.getD_some]
    rw [call_mut w (IsElem.ref (tyId f) a) (by decide) (method_eq h (by decide))
      (muts_normalize_self_bitand f) _ _ _ _ (recv_normalize_self_bitand f),
      call_mut w (IsElem.ref (tyId f) a) (by decide) (method_eq h (by decide))
      (muts_normalize_self_bitor f) _ _ _ _ (recv_normalize_self_bitor f), e.1, e.2]
    constructor
    · cases f.code.normalizeSelfBitand w.pr a r with
      | error e => rfl
      | ok z => rfl
    · cases f.code.normalizeSelfBitor w.pr a r with
      | error e => rfl
      | ok z => rfl

end

/-! ### Masks -/

/-- The name of the mask type of a field. -/
def maskId : Fld → Id
  | .e221_3 => id! "Mod_e221_3_Mask"
  | .e222_117 => id! "Mod_e222_117_Mask"
  | .e251_9 => id! "Mod_e251_9_Mask"
  | .e255_19 => id! "Mod_e255_19_Mask"
  | .e382_105 => id! "Mod_e382_105_Mask"
  | .e383_187 => id! "Mod_e383_187_Mask"
  | .e414_17 => id! "Mod_e414_17_Mask"
  | .e511_187 => id! "Mod_e511_187_Mask"
  | .e521_1 => id! "Mod_e521_1_Mask"

@[simp] theorem retarget_word (x : Int) (v : Val) : (word x).retarget v = v := rfl

/-- `mask |= mask << k;` for every `k` of a list. -/
def orShifts : List Nat → Block → Block
  | [], rest => rest
  | k :: ks, rest => .opAssign .or (.var (id! "mask")) (.bin .shl (.var (id! "mask")) (.lit none k))
      (orShifts ks rest)

/-- `let mut mask = bit as i64; mask |= mask << 1; …` -/
def maskBlock (rest : Block) : Block :=
  .let (id! "mask") (.cast (.var (id! "bit")) .i64) (orShifts [1, 2, 4, 8, 16, 32] rest)

/-- `self.0[i] = mask;` for `k` words from `i` on. -/
def setBlock : Nat → Nat → Block
  | 0, _ => .nil
  | k + 1, i => .assign (wordE (id! "self") i) (.var (id! "mask")) (setBlock k (i + 1))

theorem exec_orShifts (c : Ctx) (ρ : Env) (rest : Block) : ∀ (ks : List Nat) (_ : ∀ k ∈ ks, k < 64) (x : Int),
    exec c ((id! "mask", word x) :: ρ) (orShifts ks rest) =
      exec c ((id! "mask", word (ks.foldl (fun x k => or64 x (shl64 x k)) x)) :: ρ) rest := by
  intro ks
  induction ks with
  | nil => intro _ x; rfl
  | cons k ks ih =>
    intro hk x
    have e : List.lookup (id! "mask") ((id! "mask", word x) :: ρ) = some (word x) := by
      simp [List.lookup_cons]
    rw [orShifts, exec, eval, eval_var e]
    simp only [ok_bind, eval]
    rw [binop_prim (by rfl) (by rfl), prim_shl (.inl rfl) (hk k (List.mem_cons_self ..))]
    simp only [ok_bind, pure_ok, e]
    rw [opAssign_prim (by rfl) (by rfl), show prim c.pr .or (word x) (word (shl64 x k)) =
      .ok (word (or64 x (shl64 x k))) from rfl]
    simp only [ok_bind, setPlace, if_true, writePath, pure_ok, retarget_word]
    rw [List.foldl_cons]
    exact ih (fun j hj => hk j (List.mem_cons_of_mem _ hj)) _

theorem maskWord_fold (b : Bool) : FieldCode.maskWord b =
    [1, 2, 4, 8, 16, 32].foldl (fun x k => or64 x (shl64 x k)) (if b then 1 else 0) := by
  cases b <;> decide +kernel

theorem exec_mask (c : Ctx) (ρ : Env) (rest : Block) (b : Bool) (hb : ρ.lookup (id! "bit") = some (.bool b)) :
    exec c ρ (maskBlock rest) = exec c ((id! "mask", word (FieldCode.maskWord b)) :: ρ) rest := by
  rw [maskBlock, exec, eval, eval_var hb]
  simp only [ok_bind, castTo, pure_ok]
  have e := exec_orShifts c ρ rest [1, 2, 4, 8, 16, 32] (by decide) (if b then 1 else 0)
  rw [← maskWord_fold] at e
  exact e

theorem exec_set (c : Ctx) {t : Id} (x : Int) (b : Bool) : ∀ (k i : Nat) (a : List Int), i + k = a.length →
    exec c [(id! "mask", word x), (id! "self", .ref (elem t a)), (id! "bit", .bool b)] (setBlock k i) =
      .ok [(id! "mask", word x), (id! "self", .ref (elem t (a.take i ++ List.replicate k x))),
        (id! "bit", .bool b)] := by
  intro k
  induction k with
  | zero =>
    intro i a hi
    rw [setBlock, exec, List.take_of_length_le (by omega), List.replicate_zero, List.append_nil]
  | succ k ih =>
    intro i a hi
    have h1 : i < a.length := by omega
    rw [setBlock, exec, eval_var (v := word x) rfl]
    simp only [ok_bind]
    rw [eval_word (v := .ref (elem t a)) rfl (.ref t a) h1, ok_bind]
    dsimp only
    have e : id! "mask" ≠ id! "self" := by decide
    simp only [setPlace, e, if_false, if_true, write_word_ref t a h1, ok_bind, pure_ok]
    rw [ih (i + 1) _ (by rw [List.length_set]; omega), List.take_add_one, List.take_set_of_le (by omega),
      List.replicate_succ]
    simp [h1]

/-- The function `m` of the type `t` in the file of the field. -/
def methT (f : Fld) (t m : Id) : Fn := ((src f).method t m).getD ⟨0, 0, .none, [], ⟨false, false, 0⟩, .nil, .unit⟩

theorem fn_fill (f : Fld) : ∀ t ∈ [tyId f, maskId f],
    (src f).method t (id! "fill") = some (mkFn t (id! "fill") .mut [(id! "bit", tyV (id! "bool"))]
      (tyV (id! "()")) (maskBlock (setBlock f.code.limbs 0), .unit)) ∧
    (src f).method t (id! "filled") = some (mkFn t (id! "filled") .none [(id! "bit", tyV (id! "bool"))]
      (tyV t) (maskBlock .nil, .path [t] (.acons (.rep (.var (id! "mask")) f.code.limbs) .anil))) := by
  cases f <;> decide +kernel

include h in
theorem call_fill {n : Nat} (hn : 1 ≤ n) {t : Id} (ht : t ∈ [tyId f, maskId f]) {a : List Int}
    (ha : a.length = f.code.limbs) (b : Bool) :
    callFn P w n t (id! "fill") [.ref (elem t a), .bool b] =
      .ok (.unit, [.ref (elem t (FieldCode.fill a b)), .bool b]) := by
  obtain ⟨n, rfl⟩ := Nat.exists_eq_add_of_le' hn
  rw [callFn, h.method (fn_fill f t ht).1]
  dsimp only
  rw [run_succ]
  simp only [runBody, mkFn, Fn.names, Fn.coerce, List.map, List.zipWith, List.zip_cons_cons,
    List.zip_nil_left, coerce_bool]
  rw [exec_mask _ _ _ b rfl, exec_set _ _ _ f.code.limbs 0 a (by omega)]
  rw [FieldCode.fill, List.map_const', ha]
  generalize FieldCode.maskWord b = m
  rfl

include h in
theorem call_filled {n : Nat} (hn : 1 ≤ n) {t : Id} (ht : t ∈ [tyId f, maskId f]) (b : Bool) :
    callFn P w n t (id! "filled") [.bool b] = .ok (elem t (f.code.filled b), [.bool b]) := by
  obtain ⟨n, rfl⟩ := Nat.exists_eq_add_of_le' hn
  have hok : t ≠ id! "Ok" := by
    simp only [List.mem_cons, List.not_mem_nil, or_false] at ht
    rcases ht with rfl | rfl <;> cases f <;> decide
  rw [callFn, h.method (fn_fill f t ht).2]
  dsimp only
  rw [run_succ]
  simp only [runBody, mkFn, Fn.names, Fn.coerce, List.map, List.zipWith, List.zip_cons_cons,
    List.zip_nil_left, coerce_bool]
  rw [exec_mask _ _ _ b rfl, exec, ok_bind, eval]
  simp only [eval, List.lookup_cons, beq_self_eq_true, ok_bind, pure_ok, Out.list, callPath, hok, if_false,
    tupleStruct]
  rw [FieldCode.filled, elem, List.map_replicate, List.map_replicate]
  generalize FieldCode.maskWord b = m
  rfl

/-! ### Random elements -/

/-- `rand` for the type `t` with `k` words. -/
def randText (t : Id) (k : Nat) : Block × Expr :=
  (.let (id! "out") (.path [t] (.acons (.rep (.lit (some .i64) 0) k) .anil))
    (.for (id! "i") (.lit none 0) (.lit none k)
      (.assign (.index (.field (.var (id! "out")) (id! "0")) (.var (id! "i")))
        (.method (.var (id! "rng")) (id! "gen_range") (.acons (.lit none 0)
          (.acons (.index (.field (.var (id! "MODULUS")) (id! "0")) (.var (id! "i"))) .anil))) .nil) .nil),
    .var (id! "out"))

theorem fn_rand (f : Fld) : methF f (id! "rand") =
    mkFn (tyId f) (id! "rand") .none [(id! "rng", tyM (id! "R"))] (tyV (tyId f))
      (randText (tyId f) f.code.limbs) := by
  cases f <;> decide +kernel

/-- The body of the loop of `rand`. -/
def randBody : Block :=
  .assign (.index (.field (.var (id! "out")) (id! "0")) (.var (id! "i")))
    (.method (.var (id! "rng")) (id! "gen_range") (.acons (.lit none 0)
      (.acons (.index (.field (.var (id! "MODULUS")) (id! "0")) (.var (id! "i"))) .anil))) .nil

theorem gen_range (c : Ctx) (m : Nat) (x : Int) (places : List (Option Place)) (v v' : Val) :
    callMethod c (.ref (.rng m)) (some (id! "rng", [])) (id! "gen_range")
      [.int none ((0 : Nat) : Int), word x] places [(id! "i", v), (id! "out", v'), (id! "rng", .ref (.rng m))] =
    .ok (word (c.rng m x), [(id! "i", v), (id! "out", v'), (id! "rng", .ref (.rng (m + 1)))]) := rfl

theorem exec_randBody (c : Ctx) {t : Id} {M a : List Int} (hM : c.const (id! "MODULUS") = some (elem t M))
    {i : Nat} (hi : i < a.length) (hm : i < M.length) (m : Nat) :
    exec c [(id! "i", usize i), (id! "out", elem t a), (id! "rng", .ref (.rng m))] randBody =
      .ok [(id! "i", usize i), (id! "out", elem t (a.set i (c.rng m M[i]))), (id! "rng", .ref (.rng (m + 1)))] := by
  have e1 : List.lookup (id! "MODULUS") [(id! "i", usize i), (id! "out", elem t a),
    (id! "rng", Val.ref (.rng m))] = none := rfl
  have e2 : List.lookup (id! "i") [(id! "i", usize i), (id! "out", elem t a),
    (id! "rng", Val.ref (.rng m))] = some (usize i) := rfl
  have g : getIndex (.arr (M.map word)) (usize i) = .ok (word M[i]) := getIndex_word hm rfl
  have g' : getIndex (.arr (a.map word)) (usize i) = .ok (word a[i]) := getIndex_word hi rfl
  rw [randBody, exec, eval, eval_var (v := .ref (.rng m)) rfl]
  simp only [ok_bind, eval, e1, hM, getField_elem, e2, g, pure_ok, Out.list, List.head?_cons, Option.getD_some,
    List.cons_append, List.nil_append]
  rw [gen_range]
  simp only [ok_bind, show List.lookup (id! "out") [(id! "i", usize i), (id! "out", elem t a),
    (id! "rng", Val.ref (.rng (m + 1)))] = some (elem t a) from rfl, show List.lookup (id! "i")
    [(id! "i", usize i), (id! "out", elem t a), (id! "rng", Val.ref (.rng (m + 1)))] = some (usize i) from rfl,
    getField_elem, g']
  have e : id! "i" ≠ id! "out" := by decide
  simp only [List.map, Option.map, indexProj, usize, Val.index, Option.getD_some, Int.toNat_natCast, List.nil_append,
    List.cons_append, setPlace, e, if_false, if_true, write_word t a hi, ok_bind, pure_ok]
  rfl

theorem iterate_rand (c : Ctx) {t : Id} {M : List Int} (hM : c.const (id! "MODULUS") = some (elem t M)) :
    ∀ (k i : Nat) (a : List Int) (m : Nat), i + k = a.length → a.length = M.length →
    iterate (fun i ρ => do
        let ρ1 ← exec c ((id! "i", .int (some .usize) i) :: ρ) randBody
        return ρ1.drop (ρ1.length - ρ.length)) k i [(id! "out", elem t a), (id! "rng", .ref (.rng m))] =
      .ok [(id! "out", elem t (a.take i ++ (List.range k).map fun j => c.rng (m + j) (M.getD (i + j) 0))),
        (id! "rng", .ref (.rng (m + k)))] := by
  intro k
  induction k with
  | zero =>
    intro i a m hi _
    rw [iterate, List.take_of_length_le (by omega)]
    simp
  | succ k ih =>
    intro i a m hi hm
    have h1 : i < a.length := by omega
    have h2 : i < M.length := by omega
    rw [iterate, show Val.int (some .usize) (i : Int) = usize i from rfl, exec_randBody c hM h1 h2 m, ok_bind,
      show (pure (List.drop ([(id! "i", usize i), (id! "out", elem t (a.set i (c.rng m M[i]))),
        (id! "rng", Val.ref (.rng (m + 1)))].length - [(id! "out", elem t a), (id! "rng", Val.ref (.rng m))].length)
        [(id! "i", usize i), (id! "out", elem t (a.set i (c.rng m M[i]))), (id! "rng", Val.ref (.rng (m + 1)))]) :
          Except Err Env) = .ok [(id! "out", elem t (a.set i (c.rng m M[i]))), (id! "rng", .ref (.rng (m + 1)))]
        from rfl, ok_bind, ih (i + 1) _ (m + 1) (by rw [List.length_set]; omega)
        (by rw [List.length_set]; exact hm), List.range_succ_eq_map, List.take_add_one,
      List.take_set_of_le (by omega)]
    simp only [List.length_set, h1, List.getElem?_eq_getElem, List.getElem_set_self, Option.toList_some,
      List.append_assoc, List.cons_append, List.nil_append, List.map_cons, List.map_map, Nat.add_zero,
      List.getD_eq_getElem?_getD, h2, Option.getD_some]
    rw [show m + 1 + k = m + (k + 1) by omega]
    congr 6
    refine List.map_congr_left fun j _ => ?_
    rw [Function.comp_apply, Nat.succ_eq_add_one,
      show m + 1 + j = m + (j + 1) by omega, show i + 1 + j = i + (j + 1) by omega]

include h in
theorem run_rand {n : Nat} (hn : 1 ≤ n) (m : Nat) :
    run P w n (methF f (id! "rand")) [.ref (.rng m)] =
      .ok (elem (tyId f) (f.code.rand fun i hi => w.rng (m + i) hi), [.ref (.rng (m + f.code.limbs))]) := by
  obtain ⟨n, rfl⟩ := Nat.exists_eq_add_of_le' hn
  have hok : tyId f ≠ id! "Ok" := by cases f <;> decide
  have e := iterate_rand (ctx P w n) (h.const (const_src f).2.2.2.2) f.code.limbs 0
    (List.replicate f.code.limbs 0) m (by simp) (by rw [(const_length f).2, List.length_replicate])
  rw [run_succ, fn_rand, FieldCode.rand]
  simp only [runBody, mkFn, Fn.names, Fn.coerce, List.map, List.zipWith, List.zip_cons_cons,
    List.zip_nil_left, coerce_ref, randText]
  rw [exec, eval]
  simp only [eval, ok_bind, pure_ok, Out.list, callPath, hok, if_false, tupleStruct]
  rw [exec]
  simp only [eval, ok_bind, bounds, Val.index, Int.toNat_natCast]
  rw [show (Val.struct (tyId f) [id! "0"] [Val.arr (List.map asI64 (List.replicate f.code.limbs
    (Val.int (some IntTy.i64) ((0 : Nat) : Int))))]) = elem (tyId f) (List.replicate f.code.limbs 0) by
    rw [elem, List.map_replicate, List.map_replicate]; rfl]
  simp only [Nat.sub_zero, Nat.cast_zero, Int.toNat_zero]
  rw [show (Block.assign (.index (.field (.var (id! "out")) (id! "0")) (.var (id! "i")))
    (.method (.var (id! "rng")) (id! "gen_range") (.acons (.lit none 0)
      (.acons (.index (.field (.var (id! "MODULUS")) (id! "0")) (.var (id! "i"))) .anil))) .nil) = randBody from rfl,
    e, ok_bind, exec]
  simp only [ok_bind, Nat.zero_add, List.take_zero, List.nil_append]
  rfl

end Verif.Rust

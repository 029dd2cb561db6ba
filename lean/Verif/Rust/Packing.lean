import Verif.Rust.Methods

/-!
# Comparison, packing and constants

The text of `normalize_eq`, `unpacked`, `pack`, `packed`, `nbytes`, `nbits`, `zero`, `one`, `m_one` and
`modulus`, and what interpreting it computes.
-/

namespace Verif.Rust

open Limb

variable {P : Program} {f : Fld} (h : Has P f) (w : World)

theorem normalizeSelfEq_length {F : FieldCode} {pr : Profile} {a b : List Int} {r : Elem × Bool}
    (hr : F.normalizeSelfEq pr a b = .ok r) : r.1.length = F.limbs := by
  rw [FieldCode.normalizeSelfEq] at hr
  obtain ⟨x, hx, hr⟩ := Chn.bind_eq_ok hr
  rw [← Except.ok.inj hr]
  exact normalize_length hx

/-! ### `normalize_eq` -/

theorem fn_normalize_eq (f : Fld) : methF f (id! "normalize_eq") =
    mkFn (tyId f) (id! "normalize_eq") .mut [(id! "other", tyM (tyId f))] (tyV (id! "bool"))
      (rust_block% r"
        other.normalize();
        self.normalize_self_eq(other)
    ") := by
  cases f <;> decide +kernel

include h in
theorem run_normalize_eq {n : Nat} (hn : 11 ≤ n) {a b : List Int} (ha : a.length = f.code.limbs)
    (hb : b.length = f.code.limbs) :
    run P w n (methF f (id! "normalize_eq")) [.ref (elem (tyId f) a), .ref (elem (tyId f) b)] =
      (lift (f.code.normalizeEq w.pr a b) >>= fun r =>
        .ok (.bool r.2.2, [.ref (elem (tyId f) r.1), .ref (elem (tyId f) r.2.1)])) := by
  obtain ⟨n, rfl⟩ := Nat.exists_eq_add_of_le' (show 1 ≤ n by omega)
  rw [run_succ, fn_normalize_eq, FieldCode.normalizeEq]
  simp only [runBody, mkFn, Fn.names, Fn.coerce, List.map, List.zipWith, List.zip_cons_cons,
    List.zip_nil_left, coerce_ref]
  rw [exec_normalize h w (show 9 ≤ n by omega) rfl (IsElem.ref (tyId f) b) hb]
  cases hr : f.code.normalize w.pr b with
  | error e => rfl
  | ok r =>
    have hr' := normalize_length hr
    rw [lift_ok, ok_bind, show setPlace [(id! "self", .ref (elem (tyId f) a)),
      (id! "other", .ref (elem (tyId f) b))] (id! "other", []) (elem (tyId f) r) =
      .ok [(id! "self", .ref (elem (tyId f) a)), (id! "other", .ref (elem (tyId f) r))] from rfl, ok_bind,
      exec, ok_bind, eval, eval_var (v := .ref (elem (tyId f) a)) rfl]
    simp only [ok_bind, eval, show List.lookup (id! "other") [(id! "self", Val.ref (elem (tyId f) a)),
      (id! "other", Val.ref (elem (tyId f) r))] = some (Val.ref (elem (tyId f) r)) from rfl, pure_ok, Out.list,
      List.head?_cons, Option.getD_some]
    rw [call_mut w (IsElem.ref (tyId f) a) (by decide) (method_eq h (by decide))
      (muts_normalize_self_eq f) _ _ _ _ (recv_normalize_self_eq f),
      run_normalize_self_eq h w (show 10 ≤ n by omega) ha hr']
    cases f.code.normalizeSelfEq w.pr a r with
    | error e => rfl
    | ok z => rfl

/-! ### Packing -/

theorem fn_unpacked (f : Fld) : methF f (id! "unpacked") =
    mkFn (tyId f) (id! "unpacked") .none [(id! "bytes", tyR (id! "[]"))] (tyV (tyId f)) (rust_block% r"
        let mut out = ZERO;
        out.unpack(bytes);
        out
    ") := by
  cases f <;> decide +kernel

include h in
theorem run_unpacked {n : Nat} (hn : 3 ≤ n) (bytes : List Int) :
    run P w n (methF f (id! "unpacked")) [.ref (.arr (bytes.map byte))] =
      (lift (f.code.unpacked w.pr bytes) >>= fun r =>
        .ok (elem (tyId f) r, [.ref (.arr (bytes.map byte))])) := by
  obtain ⟨n, rfl⟩ := Nat.exists_eq_add_of_le' (show 1 ≤ n by omega)
  rw [run_succ, fn_unpacked, FieldCode.unpacked]
  have c := h.const (const_src f).2.1
  interp [c, method_eq h (m := id! "unpack") (by decide),
    run_unpack h w (n := n) (by omega) (const_length f).1]

theorem fn_pack (f : Fld) : methF f (id! "pack") =
    mkFn (tyId f) (id! "pack") .mut [(id! "bytes", tyM (id! "[]"))] (tyV (id! "()")) (rust_block% r"
        self.normalize();
        self.pack_normalized(bytes)
    ") := by
  cases f <;> decide +kernel

@[simp] theorem recv_pack (f : Fld) : (methF f (id! "pack")).recv = .mut := by rw [fn_pack]
@[simp] theorem muts_pack (f : Fld) : (methF f (id! "pack")).params.map (·.2.isMut) = [true] := by
  rw [fn_pack]; rfl

include h in
theorem run_pack {n : Nat} (hn : 10 ≤ n) {a : List Int} (ha : a.length = f.code.limbs) (bytes : List Int) :
    run P w n (methF f (id! "pack")) [.ref (elem (tyId f) a), .ref (.arr (bytes.map byte))] =
      (lift (f.code.pack w.pr a bytes) >>= fun r =>
        .ok (.unit, [.ref (elem (tyId f) r.1), .ref (.arr (r.2.map byte))])) := by
  obtain ⟨n, rfl⟩ := Nat.exists_eq_add_of_le' (show 1 ≤ n by omega)
  rw [run_succ, fn_pack, FieldCode.pack]
  simp only [runBody, mkFn, Fn.names, Fn.coerce, List.map, List.zipWith, List.zip_cons_cons,
    List.zip_nil_left, coerce_ref]
  rw [exec_normalize h w (show 9 ≤ n by omega) rfl (IsElem.ref (tyId f) a) ha]
  cases hr : f.code.normalize w.pr a with
  | error e => rfl
  | ok r =>
    have hr' := normalize_length hr
    rw [lift_ok, ok_bind, show setPlace [(id! "self", .ref (elem (tyId f) a)),
      (id! "bytes", .ref (.arr (bytes.map byte)))] (id! "self", []) (elem (tyId f) r) =
      .ok [(id! "self", .ref (elem (tyId f) r)), (id! "bytes", .ref (.arr (bytes.map byte)))] from rfl, ok_bind,
      exec, ok_bind, eval, eval_var (v := .ref (elem (tyId f) r)) rfl]
    simp only [ok_bind, eval, show List.lookup (id! "bytes") [(id! "self", Val.ref (elem (tyId f) r)),
      (id! "bytes", Val.ref (.arr (bytes.map byte)))] = some (Val.ref (.arr (bytes.map byte))) from rfl, pure_ok,
      Out.list, List.head?_cons, Option.getD_some]
    rw [call_ref w (IsElem.ref (tyId f) r) (by decide) (method_eq h (by decide))
      (muts_pack_normalized f) _ _ _ _ (recv_pack_normalized f),
      run_pack_normalized h w (show 2 ≤ n by omega) hr']
    cases f.code.packNormalized w.pr r bytes with
    | error e => rfl
    | ok z => rfl

/-- The body of `packed` for `N` bytes. -/
def packedText (N : Nat) : Block × Expr :=
  (.let (id! "out") (.rep (.lit (some .u8) 0) N)
    (.expr (.method (.var (id! "self")) (id! "pack") (.acons (.ref (.var (id! "out"))) .anil)) .nil),
    .var (id! "out"))

theorem fn_packed (f : Fld) : methF f (id! "packed") =
    mkFn (tyId f) (id! "packed") .mut [] (tyV (id! "[]")) (packedText f.code.nbytes) := by
  cases f <;> decide +kernel

@[simp] theorem recv_packed (f : Fld) : (methF f (id! "packed")).recv = .mut := by rw [fn_packed]
@[simp] theorem muts_packed (f : Fld) : (methF f (id! "packed")).params.map (·.2.isMut) = [] := by
  rw [fn_packed]; rfl

include h in
theorem run_packed {n : Nat} (hn : 11 ≤ n) {a : List Int} (ha : a.length = f.code.limbs) :
    run P w n (methF f (id! "packed")) [.ref (elem (tyId f) a)] =
      (lift (f.code.packed w.pr a) >>= fun r =>
        .ok (.arr (r.2.map byte), [.ref (elem (tyId f) r.1)])) := by
  obtain ⟨n, rfl⟩ := Nat.exists_eq_add_of_le' (show 1 ≤ n by omega)
  rw [run_succ, fn_packed, FieldCode.packed]
  have e : Val.arr (List.replicate f.code.nbytes (.int (some .u8) ((0 : Nat) : Int))) =
      .arr ((List.replicate f.code.nbytes 0).map byte) := by rw [List.map_replicate]; rfl
  simp only [runBody, mkFn, Fn.names, Fn.coerce, List.map, List.zipWith, List.zip_cons_cons,
    List.zip_nil_left, packedText]
  simp only [exec, eval, ok_bind, pure_ok, e]
  rw [show List.lookup (id! "self") [(id! "out", Val.arr ((List.replicate f.code.nbytes 0).map byte)),
    (id! "self", .ref (elem (tyId f) a))] = some (.ref (elem (tyId f) a)) from rfl]
  simp only [ok_bind, List.lookup_cons, beq_self_eq_true, Out.list, List.head?_cons, Option.getD_some,
    List.append_nil]
  rw [call_mut w (IsElem.ref (tyId f) a) (by decide) (method_eq h (by decide)) (muts_pack f) _ _ _ _
    (recv_pack f), run_pack h w (show 10 ≤ n by omega) ha]
  cases f.code.pack w.pr a (List.replicate f.code.nbytes 0) with
  | error e => rfl
  | ok z => rfl

theorem fn_nbytes (f : Fld) : methF f (id! "nbytes") =
    mkFn (tyId f) (id! "nbytes") .none [] (tyV (id! "i32")) (.nil, .lit none f.code.nbytes) := by
  cases f <;> decide +kernel

theorem run_nbytes {n : Nat} (hn : 1 ≤ n) :
    run P w n (methF f (id! "nbytes")) [] = .ok (.int (some .i32) f.code.nbytes, []) := by
  obtain ⟨n, rfl⟩ := Nat.exists_eq_add_of_le' hn
  rw [run_succ, fn_nbytes]
  rfl

theorem fn_nbits (f : Fld) : methF f (id! "nbits") =
    mkFn (tyId f) (id! "nbits") .none [] (tyV (id! "usize")) (.nil, .lit none f.code.nbits) := by
  cases f <;> decide +kernel

@[simp] theorem recv_nbits (f : Fld) : (methF f (id! "nbits")).recv = .none := by rw [fn_nbits]
@[simp] theorem muts_nbits (f : Fld) : (methF f (id! "nbits")).params.map (·.2.isMut) = [] := by
  rw [fn_nbits]; rfl

theorem run_nbits {n : Nat} (hn : 1 ≤ n) :
    run P w n (methF f (id! "nbits")) [] = .ok (.int (some .usize) f.code.nbits, []) := by
  obtain ⟨n, rfl⟩ := Nat.exists_eq_add_of_le' hn
  rw [run_succ, fn_nbits]
  rfl

/-! ### Constants -/

theorem fn_const (f : Fld) : ∀ q ∈ [(id! "zero", id! "ZERO"), (id! "one", id! "ONE"),
    (id! "m_one", id! "M_ONE"), (id! "modulus", id! "MODULUS")],
    methF f q.1 = mkFn (tyId f) q.1 .none [] (tyV (tyId f)) (.nil, .var q.2) := by
  cases f <;> decide +kernel

include h in
theorem run_const {n : Nat} (hn : 1 ≤ n) {m x : Id} {v : List Int}
    (hm : (m, x) ∈ [(id! "zero", id! "ZERO"), (id! "one", id! "ONE"),
      (id! "m_one", id! "M_ONE"), (id! "modulus", id! "MODULUS")])
    (hx : (src f).const x = some (elem (tyId f) v)) :
    run P w n (methF f m) [] = .ok (elem (tyId f) v, []) := by
  obtain ⟨n, rfl⟩ := Nat.exists_eq_add_of_le' hn
  rw [run_succ, fn_const f (m, x) hm]
  simp only [runBody, mkFn, Fn.names, Fn.coerce, List.map, List.zipWith, List.zip_nil_left, exec, ok_bind,
    eval, List.lookup_nil, ctx_const, h.const hx, pure_ok]
  rfl

end Verif.Rust

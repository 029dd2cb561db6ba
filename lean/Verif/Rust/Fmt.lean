import Verif.Rust.Bits

/-!
# Formatting

The text of the `fmt` functions of `LowerHex`, `UpperHex` and `Debug`, and what interpreting it writes.
-/

namespace Verif.Rust

open Limb

variable {P : Program} {f : Fld} (h : Has P f) (w : World)

theorem readSlots_length (ρ : Verif.Env) (n : Nat) : ∀ i, (readSlots ρ i n).length = n := by
  induction n with
  | zero => intro i; rfl
  | succ n ih => intro i; rw [readSlots, List.length_cons, ih]

theorem packNormalized_length {F : FieldCode} {pr : Profile} {a bytes r : List Int}
    (hr : F.packNormalized pr a bytes = .ok r) : r.length = bytes.length := by
  rw [FieldCode.packNormalized] at hr
  obtain ⟨ρ, _, hr⟩ := Chn.bind_eq_ok hr
  rw [← Except.ok.inj hr, List.length_append, readSlots_length, List.length_drop, List.length_take]
  omega

theorem packed_length {F : FieldCode} {pr : Profile} {a : List Int} {r : Elem × List Int}
    (hr : F.packed pr a = .ok r) : r.2.length = F.nbytes := by
  rw [FieldCode.packed, FieldCode.pack] at hr
  obtain ⟨a', _, hr⟩ := Chn.bind_eq_ok hr
  obtain ⟨b, hb, hr⟩ := Chn.bind_eq_ok hr
  rw [← Except.ok.inj hr]
  exact (packNormalized_length hb).trans (by simp)

/-! ### Hexadecimal -/

/-- The body of the loop: `try!(write!(f, "{:02x}", bytes[k - i]));` -/
def hexBody (u : Bool) (k : Nat) : Block :=
  .expr (.try (.write (.var (id! "f")) [.hex02 u]
    (.acons (.index (.var (id! "bytes")) (.bin .sub (.lit none k) (.var (id! "i")))) .anil))) .nil

/-- `fmt` for `N` bytes. -/
def hexText (u : Bool) (N : Nat) : Block × Expr :=
  (.let (id! "cpy") (.method (.var (id! "self")) (id! "clone") .anil)
    (.let (id! "bytes") (.method (.var (id! "cpy")) (id! "packed") .anil)
      (.for (id! "i") (.lit none 0) (.lit none N) (hexBody u (N - 1)) .nil)),
    .path [id! "Ok"] (.acons .unit .anil))

/-- The traits. -/
def hexTrait (u : Bool) : Id := if u then id! "UpperHex" else id! "LowerHex"

theorem fn_hex (f : Fld) (u : Bool) :
    (src f).opFn (hexTrait u) (false, tyId f) (false, tyId f) =
    some (mkFn (tyId f) (id! "fmt") .ref [(id! "f", tyM (id! "Formatter"))] (tyV (id! "Result"))
      (hexText u f.code.nbytes)) := by
  cases f <;> cases u <;> decide +kernel

theorem arithTy_usize {pr : Profile} {x : Int} (h0 : 0 ≤ x) (h1 : x < 18446744073709551616) :
    arithTy pr .usize x = .ok x := by
  simp only [arithTy]
  rw [if_pos]
  omega

theorem prim_sub_usize {pr : Profile} {x y : Nat} (hy : y ≤ x) (hx : x < 2 ^ 64) :
    prim pr .sub (.int none x) (usize y) = .ok (usize (x - y)) := by
  have e : (x : Int) - (y : Int) = ((x - y : Nat) : Int) := (Int.ofNat_sub hy).symm
  have q : arithTy pr .usize ((x - y : Nat) : Int) = .ok ((x - y : Nat) : Int) :=
    arithTy_usize (by omega) (by omega)
  show (arithTy pr .usize ((x : Int) - (y : Int)) >>= fun z => .ok (Val.int (some .usize) z)) = _
  rw [e, q]
  rfl

theorem getIndex_byte {bs : List Int} {i : Nat} (hi : i < bs.length) :
    getIndex (.arr (bs.map byte)) (usize i) = .ok (byte bs[i]) := by
  simp [getIndex, Val.strip, usize, hi]

theorem exec_hexBody (c : Ctx) (u : Bool) (bs : List Int) (v1 v2 : Val) (s : List Char) {i : Nat}
    (hi : i < bs.length) (hN : bs.length < 2 ^ 64) :
    exec c [(id! "i", usize i), (id! "bytes", .arr (bs.map byte)), (id! "cpy", v1), (id! "self", v2),
      (id! "f", .ref (.fmt s))] (hexBody u (bs.length - 1)) =
    .ok [(id! "i", usize i), (id! "bytes", .arr (bs.map byte)), (id! "cpy", v1), (id! "self", v2),
      (id! "f", .ref (.fmt (s ++ FieldCode.hexByte u (bs[bs.length - 1 - i]'(by omega)))))] := by
  have g := getIndex_byte (show bs.length - 1 - i < bs.length by omega)
  have p := prim_sub_usize (pr := c.pr) (show i ≤ bs.length - 1 by omega) (by omega)
  rw [hexBody, exec, eval, eval, eval_var (v := .ref (.fmt s)) rfl]
  simp only [ok_bind, eval, show List.lookup (id! "bytes") [(id! "i", usize i),
    (id! "bytes", Val.arr (bs.map byte)), (id! "cpy", v1), (id! "self", v2), (id! "f", Val.ref (.fmt s))] =
      some (.arr (bs.map byte)) from rfl, show List.lookup (id! "i") [(id! "i", usize i),
    (id! "bytes", Val.arr (bs.map byte)), (id! "cpy", v1), (id! "self", v2), (id! "f", Val.ref (.fmt s))] =
      some (usize i) from rfl]
  rw [binop_prim (by rfl) (by rfl), p]
  simp only [ok_bind, pure_ok, g, Out.list]
  generalize bs[bs.length - 1 - i]'(by omega) = x
  rw [show format [.hex02 u] [byte x] = .ok (FieldCode.hexByte u x ++ []) from rfl, List.append_nil]
  rfl

theorem iterate_hex (c : Ctx) (u : Bool) (bs : List Int) (v1 v2 : Val) (hN : bs.length < 2 ^ 64) :
    ∀ (k i : Nat) (s : List Char), i + k = bs.length →
    iterate (fun i ρ => do
        let ρ1 ← exec c ((id! "i", .int (some .usize) i) :: ρ) (hexBody u (bs.length - 1))
        return ρ1.drop (ρ1.length - ρ.length)) k i
      [(id! "bytes", .arr (bs.map byte)), (id! "cpy", v1), (id! "self", v2), (id! "f", .ref (.fmt s))] =
    .ok [(id! "bytes", .arr (bs.map byte)), (id! "cpy", v1), (id! "self", v2),
      (id! "f", .ref (.fmt (s ++ ((bs.reverse.drop i).map (FieldCode.hexByte u)).flatten)))] := by
  intro k
  induction k with
  | zero =>
    intro i s hi
    rw [iterate, List.drop_eq_nil_of_le (by rw [List.length_reverse]; omega)]
    simp
  | succ k ih =>
    intro i s hi
    have h1 : i < bs.length := by omega
    rw [iterate, show Val.int (some .usize) (i : Int) = usize i from rfl, exec_hexBody c u bs v1 v2 s h1 hN, ok_bind,
      show ∀ v, (pure (List.drop ([(id! "i", usize i), (id! "bytes", Val.arr (bs.map byte)), (id! "cpy", v1),
        (id! "self", v2), (id! "f", v)].length - [(id! "bytes", Val.arr (bs.map byte)), (id! "cpy", v1), (id! "self", v2),
        (id! "f", Val.ref (.fmt s))].length) [(id! "i", usize i), (id! "bytes", Val.arr (bs.map byte)), (id! "cpy", v1),
        (id! "self", v2), (id! "f", v)]) : Except Err Env) =
          .ok [(id! "bytes", Val.arr (bs.map byte)), (id! "cpy", v1), (id! "self", v2), (id! "f", v)]
        from fun _ => rfl, ok_bind, ih (i + 1) _ (by omega),
      List.drop_eq_getElem_cons (show i < bs.reverse.length by rw [List.length_reverse]; exact h1),
      List.map_cons, List.flatten_cons, List.getElem_reverse, List.append_assoc]

theorem nbytes_lt (f : Fld) : f.code.nbytes < 2 ^ 64 := by cases f <;> decide

include h in
theorem run_hex {n : Nat} (hn : 12 ≤ n) (u : Bool) {a : List Int} (ha : a.length = f.code.limbs) (s : List Char) :
    run P w n (mkFn (tyId f) (id! "fmt") .ref [(id! "f", tyM (id! "Formatter"))] (tyV (id! "Result"))
      (hexText u f.code.nbytes)) [.ref (elem (tyId f) a), .ref (.fmt s)] =
      (lift (f.code.fmtHex w.pr u a) >>= fun r =>
        .ok (.unit, [.ref (elem (tyId f) a), .ref (.fmt (s ++ r))])) := by
  obtain ⟨n, rfl⟩ := Nat.exists_eq_add_of_le' (show 1 ≤ n by omega)
  rw [run_succ, FieldCode.fmtHex]
  simp only [runBody, mkFn, Fn.names, Fn.coerce, List.map, List.zipWith, List.zip_cons_cons,
    List.zip_nil_left, coerce_ref, hexText]
  rw [exec, eval, eval_var (v := .ref (elem (tyId f) a)) rfl]
  simp only [ok_bind, eval, Out.list, call_clone (.ref (tyId f) a), pure_ok]
  rw [exec, eval, eval_var (v := elem (tyId f) a) rfl]
  simp only [ok_bind, eval, Out.list, List.head?_cons, Option.getD_some]
  rw [call_mut w (IsElem.val (tyId f) a) (by decide) (method_eq h (by decide)) (muts_packed f) _ _ _ _
    (recv_packed f), run_packed h w (show 11 ≤ n by omega) ha]
  cases hr : f.code.packed w.pr a with
  | error e => rfl
  | ok r =>
    have hl := packed_length hr
    simp only [lift_ok, ok_bind]
    rw [show writeBack [true] [some (id! "cpy", [])] [.ref (elem (tyId f) r.1)] [(id! "cpy", elem (tyId f) a),
      (id! "self", .ref (elem (tyId f) a)), (id! "f", .ref (.fmt s))] = .ok [(id! "cpy", elem (tyId f) r.1),
      (id! "self", .ref (elem (tyId f) a)), (id! "f", .ref (.fmt s))] from rfl]
    simp only [ok_bind, pure_ok]
    rw [exec]
    simp only [eval, ok_bind, bounds, Val.index, Int.toNat_natCast, Nat.cast_zero, Int.toNat_zero, Nat.sub_zero]
    have e := iterate_hex (ctx P w n) u r.2 (elem (tyId f) r.1) (.ref (elem (tyId f) a))
      (by rw [hl]; exact nbytes_lt f) f.code.nbytes 0 s (by omega)
    rw [hl] at e
    rw [e, ok_bind, exec]
    rfl

/-! ### `Debug` -/

/-- Character codes. -/
def codes (s : String) : List Nat := s.toList.map Char.toNat

theorem codes_chars (s : String) : (codes s).map Char.ofNat = s.toList := by
  rw [codes, List.map_map]
  conv_rhs => rw [← List.map_id s.toList]
  exact List.map_congr_left fun c _ => Char.ofNat_toNat c

/-- The body of the loop: `try!(write!(f, ", {:x}", &self.0[i]));` -/
def debugBody : Block :=
  .expr (.try (.write (.var (id! "f")) [.text (codes ", "), .hex]
    (.acons (.ref (.index (.field (.var (id! "self")) (id! "0")) (.var (id! "i")))) .anil))) .nil

/-- `fmt` for `k` words. -/
def debugText (name : String) (k : Nat) : Block × Expr :=
  (.expr (.try (.write (.var (id! "f")) [.text (codes (name ++ ": [ ")), .hex]
      (.acons (.ref (wordE (id! "self") 0)) .anil)))
    (.for (id! "i") (.lit none 1) (.lit none k) debugBody .nil),
    .write (.var (id! "f")) [.text (codes " ]")] .anil)

theorem fn_debug (f : Fld) :
    (src f).opFn (id! "Debug") (false, tyId f) (false, tyId f) =
    some (mkFn (tyId f) (id! "fmt") .ref [(id! "f", tyM (id! "Formatter"))] (tyV (id! "Result"))
      (debugText f.code.typeName f.code.limbs)) := by
  cases f <;> decide +kernel

theorem exec_debugBody (c : Ctx) {t : Id} {a : List Int} (s : List Char) {i : Nat} (hi : i < a.length) :
    exec c [(id! "i", usize i), (id! "self", .ref (elem t a)), (id! "f", .ref (.fmt s))] debugBody =
    .ok [(id! "i", usize i), (id! "self", .ref (elem t a)),
      (id! "f", .ref (.fmt (s ++ (", ".toList ++ FieldCode.hexI64 a[i]))))] := by
  have g : getIndex (.arr (a.map word)) (usize i) = .ok (word a[i]) := getIndex_word hi rfl
  rw [debugBody, exec, eval, eval, eval_var (v := .ref (.fmt s)) rfl]
  simp only [ok_bind, eval, show List.lookup (id! "self") [(id! "i", usize i), (id! "self", Val.ref (elem t a)),
    (id! "f", Val.ref (.fmt s))] = some (.ref (elem t a)) from rfl, show List.lookup (id! "i") [(id! "i", usize i),
    (id! "self", Val.ref (elem t a)), (id! "f", Val.ref (.fmt s))] = some (usize i) from rfl, getField_ref, g, pure_ok,
    Out.list]
  generalize a[i] = x
  rw [show format [.text (codes ", "), .hex] [.ref (word x)] =
    .ok ((codes ", ").map Char.ofNat ++ (FieldCode.hexI64 x ++ [])) from rfl, List.append_nil, codes_chars]
  rfl

theorem iterate_debug (c : Ctx) {t : Id} {a : List Int} : ∀ (k i : Nat) (s : List Char), i + k = a.length →
    iterate (fun i ρ => do
        let ρ1 ← exec c ((id! "i", .int (some .usize) i) :: ρ) debugBody
        return ρ1.drop (ρ1.length - ρ.length)) k i [(id! "self", .ref (elem t a)), (id! "f", .ref (.fmt s))] =
    .ok [(id! "self", .ref (elem t a)), (id! "f", .ref (.fmt (s ++
      ((a.drop i).map fun x => ", ".toList ++ FieldCode.hexI64 x).flatten)))] := by
  intro k
  induction k with
  | zero =>
    intro i s hi
    rw [iterate, List.drop_eq_nil_of_le (by omega)]
    simp
  | succ k ih =>
    intro i s hi
    have h1 : i < a.length := by omega
    rw [iterate, show Val.int (some .usize) (i : Int) = usize i from rfl, exec_debugBody c s h1, ok_bind,
      show ∀ v, (pure (List.drop ([(id! "i", usize i), (id! "self", Val.ref (elem t a)), (id! "f", v)].length -
        [(id! "self", Val.ref (elem t a)), (id! "f", Val.ref (.fmt s))].length) [(id! "i", usize i),
        (id! "self", Val.ref (elem t a)), (id! "f", v)]) : Except Err Env) =
          .ok [(id! "self", .ref (elem t a)), (id! "f", v)] from fun _ => rfl, ok_bind, ih (i + 1) _ (by omega),
      List.drop_eq_getElem_cons h1, List.map_cons, List.flatten_cons, List.append_assoc]

theorem limbs_pos (f : Fld) : 0 < f.code.limbs := by cases f <;> decide

theorem run_debug {n : Nat} (hn : 1 ≤ n) {a : List Int} (ha : a.length = f.code.limbs) (s : List Char) :
    run P w n (mkFn (tyId f) (id! "fmt") .ref [(id! "f", tyM (id! "Formatter"))] (tyV (id! "Result"))
      (debugText f.code.typeName f.code.limbs)) [.ref (elem (tyId f) a), .ref (.fmt s)] =
      .ok (.unit, [.ref (elem (tyId f) a), .ref (.fmt (s ++ f.code.fmtDebug a))]) := by
  obtain ⟨n, rfl⟩ := Nat.exists_eq_add_of_le' hn
  have h0 : 0 < a.length := by rw [ha]; exact limbs_pos f
  rw [run_succ]
  simp only [runBody, mkFn, Fn.names, Fn.coerce, List.map, List.zipWith, List.zip_cons_cons,
    List.zip_nil_left, coerce_ref, debugText]
  rw [exec, eval, eval, eval_var (v := .ref (.fmt s)) rfl]
  simp only [ok_bind]
  rw [eval, eval, eval_word (v := .ref (elem (tyId f) a)) rfl (.ref (tyId f) a) h0]
  simp only [ok_bind, eval, pure_ok, Out.list]
  obtain ⟨x, ws, rfl⟩ : ∃ x ws, a = x :: ws := by
    cases a with
    | nil => cases h0
    | cons x ws => exact ⟨x, ws, rfl⟩
  rw [List.getElem_cons_zero, show format [.text (codes (f.code.typeName ++ ": [ ")), .hex] [.ref (word x)] =
    .ok ((codes (f.code.typeName ++ ": [ ")).map Char.ofNat ++ (FieldCode.hexI64 x ++ [])) from rfl,
    List.append_nil, codes_chars]
  simp only [ok_bind, strip_ref]
  rw [show setPlace [(id! "self", .ref (elem (tyId f) (x :: ws))), (id! "f", .ref (.fmt s))] (id! "f", [])
    (.fmt (s ++ ((f.code.typeName ++ ": [ ").toList ++ FieldCode.hexI64 x))) =
    .ok [(id! "self", .ref (elem (tyId f) (x :: ws))), (id! "f", .ref (.fmt (s ++
      ((f.code.typeName ++ ": [ ").toList ++ FieldCode.hexI64 x))))] from rfl]
  simp only [ok_bind, exec, eval, bounds, Val.index, Int.toNat_natCast]
  rw [iterate_debug (ctx P w n) (f.code.limbs - 1) 1 _ (by have := limbs_pos f; omega), ok_bind]
  rw [FieldCode.fmtDebug]
  rw [show (x :: ws).drop 1 = ws from rfl]
  generalize (ws.map fun x => ", ".toList ++ FieldCode.hexI64 x).flatten = mid
  simp only [show List.lookup (id! "f") [(id! "self", Val.ref (elem (tyId f) (x :: ws))), (id! "f", Val.ref (.fmt
    (s ++ ((f.code.typeName ++ ": [ ").toList ++ FieldCode.hexI64 x) ++ mid)))] = some (Val.ref (.fmt
    (s ++ ((f.code.typeName ++ ": [ ").toList ++ FieldCode.hexI64 x) ++ mid))) from rfl, ok_bind,
    show format [.text (codes " ]")] [] = .ok ((codes " ]").map Char.ofNat ++ []) from rfl, List.append_nil,
    codes_chars, strip_ref]
  have e : s ++ ((f.code.typeName ++ ": [ ").toList ++ FieldCode.hexI64 x) ++ mid ++ " ]".toList =
    s ++ ((f.code.typeName ++ ": [ ").toList ++ FieldCode.hexI64 x ++ mid ++ " ]".toList) := by
    simp only [List.append_assoc]
  rw [e]
  rfl

end Verif.Rust

import Verif.Rust.Calls

/-!
# The other functions of the field files

Negation, normalization, comparison, packing, bits, masks and the constants: the text (the same in all
nine files up to the name of the type and the numbers of words and bytes) and what interpreting it
computes.
-/

namespace Verif.Rust

open Limb

variable {P : Program} {f : Fld} (h : Has P f) (w : World)

/-! ### Lengths -/

theorem subAssign_length {F : FieldCode} {pr : Profile} {a b r : List Int}
    (hr : F.subAssign pr a b = .ok r) : r.length = F.limbs := runLimb_length hr
theorem smallAdd_length {F : FieldCode} {pr : Profile} {a r : List Int} {k : Int}
    (hr : F.smallAdd pr a k = .ok r) : r.length = F.limbs := runLimb_length hr
theorem smallMul_length {F : FieldCode} {pr : Profile} {a r : List Int} {k : Int}
    (hr : F.smallMul pr a k = .ok r) : r.length = F.limbs := runLimb_length hr

theorem normalize_length {F : FieldCode} {pr : Profile} {a r : List Int}
    (hr : F.normalize pr a = .ok r) : r.length = F.limbs := by
  rw [FieldCode.normalize] at hr
  obtain ⟨_, _, hr⟩ := Chn.bind_eq_ok hr
  obtain ⟨_, _, hr⟩ := Chn.bind_eq_ok hr
  obtain ⟨_, _, hr⟩ := Chn.bind_eq_ok hr
  exact subAssign_length hr

theorem const_length (f : Fld) : f.code.ZERO.length = f.code.limbs ∧
    f.code.MODULUS.length = f.code.limbs := by
  cases f <;> exact ⟨rfl, rfl⟩

/-! ### Negation -/

include h in
theorem run_neg {n : Nat} (hn : 3 ≤ n) {a : List Int} (ha : a.length = f.code.limbs) :
    run P w n (methF f (id! "neg")) [elem (tyId f) a] =
      (lift (f.code.neg w.pr a) >>= fun r => .ok (elem (tyId f) r, [elem (tyId f) a])) := by
  obtain ⟨n, rfl⟩ := Nat.exists_eq_add_of_le' (show 1 ≤ n by omega)
  have h1 := (assignRef_add h w).find h
  have h2 := (assignRef_add h w).sig.1
  have h3 := (assignRef_add h w).sig.2
  have h4 := (assignRef_add h w).call (n := n) (by omega) ha (const_length f).2
  have h5 := h.const (const_src f).2.2.2.2
  simp only [opG, opId, opT_val, opT_ref] at h1 h2 h3 h4
  rw [run_succ, fn_neg, FieldCode.neg]
  interp [h1, h2, h3, h4, h5]

/-! ### Normalization -/

/-- The body of `normalize`, where the first variable is called `x`. -/
def normText (x : Id) : Block × Expr :=
  (.let x (.bin .add (.ref (.deref (.var (id! "self")))) (.cast (.var (id! "C_VAL")) .i32))
    (.let (id! "offset") (.bin .mul (.ref (.var (id! "MODULUS")))
        (.cast (.method (.var x) (id! "carry_out") .anil) .i32))
      (.opAssign .sub (.deref (.var (id! "self"))) (.ref (.var (id! "offset"))) .nil)), .unit)

theorem fn_normalize (f : Fld) : ∃ x ∈ [id! "plusc", id! "plusone"], methF f (id! "normalize") =
    mkFn (tyId f) (id! "normalize") .mut [] (tyV (id! "()")) (normText x) := by
  cases f <;> decide +kernel

theorem castTo_word (n : Int) : castTo .i32 (word n) = .ok (.int (some .i32) (asI32 n)) := rfl

theorem carryOut_eq {F : FieldCode} {a : List Int} (h : F.carryLimb < a.length) :
    F.carryOut a = .ok (shr64 (a.getD F.carryLimb 0) F.carryShift) := by
  simp only [FieldCode.carryOut, List.getElem?_eq_getElem h, List.getD_eq_getElem?_getD, Option.getD_some]

theorem asI32_range (n : Int) : IsI32 (asI32 n) := by
  simp only [asI32, IsI32]
  omega

section
variable {n : Nat} (hn : 8 ≤ n) {a : List Int} (ha : a.length = f.code.limbs)

include h hn ha

theorem eval_norm1 (k : Int) (hk : P.const (id! "C_VAL") = some (word k)) :
    eval (ctx P w n) [(id! "self", .ref (elem (tyId f) a))]
      (.bin .add (.ref (.deref (.var (id! "self")))) (.cast (.var (id! "C_VAL")) .i32)) =
    (lift (f.code.smallAdd w.pr a (asI32 k)) >>= fun r =>
      .ok ⟨elem (tyId f) r, [none], [(id! "self", .ref (elem (tyId f) a))]⟩) := by
  have e := binop_add_i32 h w hn ha [(id! "self", .ref (elem (tyId f) a))] (asI32_range k)
  simp only [eval, List.lookup_cons, beq_self_eq_true, ok_bind, pure_ok]
  simp [ctx_const, hk, castTo_word, e, bind_bind]

theorem eval_norm2 {ρ : Env} {y : Id} (hy : y ≠ id! "MODULUS") (h1 : ρ.lookup y = some (elem (tyId f) a))
    (h2 : ρ.lookup (id! "MODULUS") = none) :
    eval (ctx P w n) ρ (.bin .mul (.ref (.var (id! "MODULUS")))
      (.cast (.method (.var y) (id! "carry_out") .anil) .i32)) =
    (lift (f.code.carryOut a >>= fun k => f.code.smallMul w.pr f.code.MODULUS (asI32 k)) >>= fun o =>
      .ok ⟨elem (tyId f) o, [none], ρ⟩) := by
  have c2 := h.const (const_src f).2.2.2.2
  rw [carryOut_eq (by rw [ha]; exact carry_lt f)]
  have k1 := call_ref w (n := n) (IsElem.val (tyId f) a) (by decide) (method_eq h (m := id! "carry_out") (by decide))
    (muts_carry_out f) (some (y, [])) [] [] ρ (recv_carry_out f)
  rw [carry_out w (by omega) ha] at k1
  have e := binop_mul_i32 h w hn (const_length f).2 ρ
    (asI32_range (shr64 (a.getD f.code.carryLimb 0) f.code.carryShift))
  simp only [eval, h1, h2, ctx_const, c2, ok_bind, pure_ok, Out.list, List.head?_cons, Option.getD_some, k1,
    writeBack, castTo_word, e, bind_bind]

theorem exec_norm3 {b : List Int} (hb : b.length = f.code.limbs) {y : Id} (hy : y ≠ id! "self") (v : Val) :
    exec (ctx P w n) [(id! "offset", elem (tyId f) b), (y, v), (id! "self", .ref (elem (tyId f) a))]
      (.opAssign .sub (.deref (.var (id! "self"))) (.ref (.var (id! "offset"))) .nil) =
    (lift (f.code.subAssign w.pr a b) >>= fun z => .ok [(id! "offset", elem (tyId f) b), (y, v),
      (id! "self", .ref (elem (tyId f) z))]) := by
  have b1 : (id! "self" == y) = false := beq_eq_false_iff_ne.2 (Ne.symm hy)
  simp only [exec, eval, List.lookup_cons, beq_self_eq_true, b1, ok_bind, pure_ok]
  have b2 : (id! "self" == id! "offset") = false := by decide
  simp only [b2, ok_bind, opAssign_sub h w hn ha hb, setPlace, hy, if_false, if_true, writePath,
    retarget_ref, pure_ok, bind_bind]
  rfl

end

include h in
theorem run_normalize {n : Nat} (hn : 9 ≤ n) {a : List Int} (ha : a.length = f.code.limbs) :
    run P w n (methF f (id! "normalize")) [.ref (elem (tyId f) a)] =
      (lift (f.code.normalize w.pr a) >>= fun r => .ok (.unit, [.ref (elem (tyId f) r)])) := by
  obtain ⟨n, rfl⟩ := Nat.exists_eq_add_of_le' (show 1 ≤ n by omega)
  obtain ⟨x, hx, e⟩ := fn_normalize f
  obtain ⟨x1, x2⟩ : x ≠ id! "self" ∧ x ≠ id! "MODULUS" := by
    simp only [List.mem_cons, List.not_mem_nil, or_false] at hx
    rcases hx with rfl | rfl <;> exact ⟨by decide, by decide⟩
  rw [run_succ, e, FieldCode.normalize]
  simp only [runBody, mkFn, Fn.names, Fn.coerce, normText]
  rw [exec]
  have e1 := eval_norm1 h w (show 8 ≤ n by omega) ha _ (h.const (const_src f).1)
  simp only [List.map_nil, List.zipWith_nil_left, List.zip_cons_cons, List.zip_nil_left] 
  rw [e1]
  cases hr : f.code.smallAdd w.pr a (asI32 f.code.cval) with
  | error e => rfl
  | ok r =>
    have b3 : (id! "MODULUS" == x) = false := beq_eq_false_iff_ne.2 (Ne.symm x2)
    simp only [lift_ok, ok_bind]
    rw [exec, eval_norm2 h w (show 8 ≤ n by omega) (smallAdd_length hr) x2 (by simp [List.lookup_cons])
      (by simp [List.lookup_cons, b3])]
    cases hk : f.code.carryOut r with
    | error e => rfl
    | ok k =>
      simp only [ok_bind]
      cases ho : f.code.smallMul w.pr f.code.MODULUS (asI32 k) with
      | error e => rfl
      | ok o =>
        simp only [lift_ok, ok_bind]
        rw [exec_norm3 h w (show 8 ≤ n by omega) ha (smallMul_length ho) x1]
        cases f.code.subAssign w.pr a o with
        | error e => rfl
        | ok z => rfl

@[simp] theorem recv_normalize (f : Fld) : (methF f (id! "normalize")).recv = .mut := by
  obtain ⟨x, -, e⟩ := fn_normalize f; rw [e]
@[simp] theorem muts_normalize (f : Fld) : (methF f (id! "normalize")).params.map (·.2.isMut) = [] := by
  obtain ⟨x, -, e⟩ := fn_normalize f; rw [e]; rfl

include h in
theorem call_normalize {n : Nat} (hn : 9 ≤ n) {v : Val} {a : List Int} (hv : IsElem (tyId f) v a)
    (ha : a.length = f.code.limbs) (p : Place) (ρ : Env) :
    callMethod (ctx P w n) v (some p) (id! "normalize") [] [] ρ =
      (lift (f.code.normalize w.pr a) >>= fun r => setPlace ρ p (elem (tyId f) r) >>= fun ρ' =>
        .ok (.unit, ρ')) := by
  rw [call_mut w hv (by decide) (method_eq h (by decide)) (muts_normalize f) _ _ _ _ (recv_normalize f),
    run_normalize h w hn ha]
  cases f.code.normalize w.pr a with
  | error e => rfl
  | ok r =>
    simp only [lift_ok, ok_bind, writeBack, strip_ref, bind_bind]

theorem eval_var {c : Ctx} {ρ : Env} {x : Id} {v : Val} (hx : ρ.lookup x = some v) :
    eval c ρ (.var x) = .ok ⟨v, [some (x, [])], ρ⟩ := by
  rw [eval, hx]

include h in
theorem exec_normalize {n : Nat} (hn : 9 ≤ n) {ρ : Env} {x : Id} {v : Val} {a : List Int}
    (hx : ρ.lookup x = some v) (hv : IsElem (tyId f) v a) (ha : a.length = f.code.limbs) (rest : Block) :
    exec (ctx P w n) ρ (.expr (.method (.var x) (id! "normalize") .anil) rest) =
      (lift (f.code.normalize w.pr a) >>= fun r => setPlace ρ (x, []) (elem (tyId f) r) >>= fun ρ' =>
        exec (ctx P w n) ρ' rest) := by
  rw [exec, eval, eval_var hx]
  simp only [ok_bind, pure_ok, eval, Out.list, List.head?_cons, Option.getD_some,
    call_normalize h w hn hv ha, bind_bind]

/-! ### Words -/

/-- `x.0[i]` -/
def wordE (x : Id) (i : Nat) : Expr := .index (.field (.var x) (id! "0")) (.lit none i)

theorem getField_elem (t : Id) (a : List Int) : getField (id! "0") (elem t a) = .ok (.arr (a.map word)) := rfl
theorem getField_ref (t : Id) (a : List Int) :
    getField (id! "0") (.ref (elem t a)) = .ok (.arr (a.map word)) := rfl

theorem getField_isElem {t : Id} {v : Val} {a : List Int} (hv : IsElem t v a) :
    getField (id! "0") v = .ok (.arr (a.map word)) := by
  rcases hv with rfl | rfl <;> rfl

theorem getIndex_word {a : List Int} {i : Nat} (hi : i < a.length) {v : Val} (hv : v.index = some i) :
    getIndex (.arr (a.map word)) v = .ok (word a[i]) := by
  simp [getIndex, hv, Val.strip, -Val.index, hi]

theorem getIndex_none {a : List Int} {i : Nat} (hi : a.length ≤ i) {v : Val} (hv : v.index = some i) :
    getIndex (.arr (a.map word)) v = .error (.panic .index) := by
  simp [getIndex, hv, Val.strip, -Val.index, hi]

theorem eval_word {c : Ctx} {ρ : Env} {x t : Id} {v : Val} {a : List Int} (hx : ρ.lookup x = some v)
    (hv : IsElem t v a) {i : Nat} (hi : i < a.length) : eval c ρ (wordE x i) =
      .ok ⟨word a[i], [some (x, [.field (id! "0"), .index i])], ρ⟩ := by
  simp only [wordE, eval, hx, ok_bind, pure_ok, getField_isElem hv,
    getIndex_word hi (v := .int none i) rfl]
  rfl

theorem write_word (t : Id) (a : List Int) {i : Nat} (hi : i < a.length) (x : Int) :
    writePath (elem t a) [.field (id! "0"), .index i] (word x) = .ok (elem t (a.set i x)) := by
  have e : (a.map word)[i]? = some (word a[i]) := by simp [hi]
  have h1 : (([Val.arr (a.map word)])[[id! "0"].idxOf (id! "0")]?) = some (.arr (a.map word)) := rfl
  simp only [writePath, elem, Val.strip, h1, e, ok_bind, pure_ok, List.map_set]
  rfl

theorem write_word_ref (t : Id) (a : List Int) {i : Nat} (hi : i < a.length) (x : Int) :
    writePath (.ref (elem t a)) [.field (id! "0"), .index i] (word x) = .ok (.ref (elem t (a.set i x))) := by
  have e : (a.map word)[i]? = some (word a[i]) := by simp [hi]
  have h1 : (([Val.arr (a.map word)])[[id! "0"].idxOf (id! "0")]?) = some (.arr (a.map word)) := rfl
  simp only [writePath, elem, Val.strip, h1, e, ok_bind, pure_ok, List.map_set]
  rfl

/-- `are_equal &= self.0[i] == other.0[i];` for `k` words from `i` on. -/
def eqBlock : Nat → Nat → Block
  | 0, _ => .nil
  | k + 1, i => .opAssign .and (.var (id! "are_equal")) (.bin .eq (wordE (id! "self") i) (wordE (id! "other") i))
      (eqBlock k (i + 1))

theorem exec_eq (c : Ctx) {t : Id} {a b : List Int} {v : Val} (hv : IsElem t v b) : ∀ (k i : Nat) (r : Bool), i + k = a.length →
    a.length = b.length →
    exec c [(id! "are_equal", .bool r), (id! "self", .ref (elem t a)), (id! "other", v)]
      (eqBlock k i) = .ok [(id! "are_equal", .bool (r && (List.zipWith (fun x y => decide (x = y)) (a.drop i) (b.drop i)).all id)),
        (id! "self", .ref (elem t a)), (id! "other", v)] := by
  intro k
  induction k with
  | zero =>
    intro i r hi hb
    rw [eqBlock, exec, List.drop_eq_nil_of_le (by omega), List.zipWith_nil_left]
    simp
  | succ k ih =>
    intro i r hi hb
    have hi1 : i < a.length := by omega
    have hi2 : i < b.length := by omega
    have e1 := eval_word (c := c) (ρ := [(id! "are_equal", .bool r), (id! "self", .ref (elem t a)), (id! "other", v)])
      (x := id! "self") rfl (IsElem.ref t a) hi1
    have e2 := eval_word (c := c) (ρ := [(id! "are_equal", .bool r), (id! "self", .ref (elem t a)), (id! "other", v)])
      (x := id! "other") rfl hv hi2
    rw [eqBlock, exec, eval, e1]
    simp only [ok_bind, e2]
    have e3 : binop c .eq (word a[i]) (word b[i])
        [(id! "are_equal", .bool r), (id! "self", .ref (elem t a)), (id! "other", v)] =
        .ok (.bool (decide (a[i] = b[i])), [(id! "are_equal", .bool r), (id! "self", .ref (elem t a)), (id! "other", v)]) := rfl
    simp only [e3, ok_bind, pure_ok, eval, List.lookup_cons, beq_self_eq_true]
    have e4 : opAssign c .and (id! "are_equal", []) (.bool r) (.bool (decide (a[i] = b[i])))
        [(id! "are_equal", .bool r), (id! "self", .ref (elem t a)), (id! "other", v)] =
        .ok [(id! "are_equal", .bool (r && decide (a[i] = b[i]))), (id! "self", .ref (elem t a)), (id! "other", v)] := rfl
    rw [e4]
    simp only [ok_bind]
    rw [ih (i + 1) _ (by omega) hb, List.drop_eq_getElem_cons hi1, List.drop_eq_getElem_cons hi2,
      List.zipWith_cons_cons, List.all_cons, Bool.and_assoc]
    rfl

theorem fn_normalize_self_eq (f : Fld) : methF f (id! "normalize_self_eq") =
    mkFn (tyId f) (id! "normalize_self_eq") .mut [(id! "other", tyR (tyId f))] (tyV (id! "bool"))
      (.let (id! "are_equal") (.bool true) (.expr (.method (.var (id! "self")) (id! "normalize") .anil)
        (eqBlock f.code.limbs 0)), .var (id! "are_equal")) := by
  cases f <;> decide +kernel

@[simp] theorem recv_normalize_self_eq (f : Fld) : (methF f (id! "normalize_self_eq")).recv = .mut := by
  rw [fn_normalize_self_eq]
@[simp] theorem muts_normalize_self_eq (f : Fld) :
    (methF f (id! "normalize_self_eq")).params.map (·.2.isMut) = [false] := by
  rw [fn_normalize_self_eq]; rfl

include h in
theorem run_normalize_self_eq {n : Nat} (hn : 10 ≤ n) {a b : List Int} (ha : a.length = f.code.limbs)
    (hb : b.length = f.code.limbs) :
    run P w n (methF f (id! "normalize_self_eq")) [.ref (elem (tyId f) a), .ref (elem (tyId f) b)] =
      (lift (f.code.normalizeSelfEq w.pr a b) >>= fun r =>
        .ok (.bool r.2, [.ref (elem (tyId f) r.1), .ref (elem (tyId f) b)])) := by
  obtain ⟨n, rfl⟩ := Nat.exists_eq_add_of_le' (show 1 ≤ n by omega)
  rw [run_succ, fn_normalize_self_eq, FieldCode.normalizeSelfEq]
  simp only [runBody, mkFn, Fn.names, Fn.coerce, List.map, List.zipWith, List.zip_cons_cons,
    List.zip_nil_left, coerce_ref]
  rw [exec, eval, ok_bind, exec_normalize h w (show 9 ≤ n by omega) rfl (IsElem.ref (tyId f) a) ha]
  cases hr : f.code.normalize w.pr a with
  | error e => rfl
  | ok r =>
    have hr' := normalize_length hr
    rw [lift_ok, ok_bind, show setPlace [(id! "are_equal", Val.bool true), (id! "self", .ref (elem (tyId f) a)),
      (id! "other", .ref (elem (tyId f) b))] (id! "self", []) (elem (tyId f) r) =
      .ok [(id! "are_equal", .bool true), (id! "self", .ref (elem (tyId f) r)),
      (id! "other", .ref (elem (tyId f) b))] from rfl, ok_bind,
      exec_eq (ctx P w n) (IsElem.ref (tyId f) b) f.code.limbs 0 true
      (by omega) (show r.length = b.length by omega)]
    rfl

end Verif.Rust

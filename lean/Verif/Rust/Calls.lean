import Verif.Rust.Chains

/-!
# Operators and methods inside function bodies

What an operator or a method call in the body of a function does, for the functions already
described.
-/

namespace Verif.Rust

open Limb

variable {P : Program} {f : Fld} (h : Has P f) (w : World)

theorem exists_impl {o : OpKind} {assign : Bool} {l r : OpTy} (he : opExists o assign l r = true) :
    ∃ i ∈ opTable, i.op = o ∧ i.assign = assign ∧ i.lhs = l ∧ i.rhs = r :=
  (C23_no_other_forms o assign l r).2 he

include h in
theorem find_opG {o : OpKind} {assign : Bool} {l r : OpTy} (he : opExists o assign l r = true) :
    P.opFn (opId o assign) (opT f l) (opT f r) = some (opG f o assign l r) ∧
    (opG f o assign l r).recv = (if assign then Recv.mut else .val) ∧
    (opG f o assign l r).params.map (·.2.isMut) = [false] := by
  obtain ⟨i, hi, rfl, rfl, rfl, rfl⟩ := exists_impl he
  exact ⟨opFn_eq h hi, op_sig f i hi⟩

theorem argV_ty (f : Fld) {t : OpTy} {x : OpVal} (hx : x.HasType t) : (argV f t x).ty = some (opT f t) := by
  cases t <;> cases x <;> first | rfl | exact hx.elim

include h in
/-- An operator without assignment. -/
theorem binop_op {n : Nat} (hn : 8 ≤ n) {o : OpKind} {l r : OpTy} (he : opExists o false l r = true)
    {x y : OpVal} (hx : x.HasType l) (hy : y.HasType r) (kx : OpVal.Fits f x) (ky : OpVal.Fits f y)
    (ρ : Env) : binop (ctx P w n) (opBin o) (argV f l x) (argV f r y) ρ =
      (lift (opSpec f.code w.pr o x y) >>= fun z => .ok (elem (tyId f) z, ρ)) := by
  obtain ⟨h1, h2, h3⟩ := find_opG h he
  have h4 := run_op h w hn he hx hy kx ky
  have h5 : ((argV f l x).isPrim && (argV f r y).isPrim) = false := by
    cases l <;> cases r <;> first
      | (cases he; done)
      | (cases x <;> cases y <;> first | rfl | exact hx.elim | exact hy.elim)
      | (cases o <;> cases he; done)
  simp only [binop, h5, Bool.false_eq_true, if_false, argV_ty f hx, argV_ty f hy, trait_opBin, ctx_prog, h1,
    invoke, h2, h3, ctx_call]
  have h6 : lhsV f false l x = argV f l x := rfl
  rw [h6] at h4
  rw [h4]
  cases opSpec f.code w.pr o x y with
  | error e => rfl
  | ok z => rfl

include h in
/-- An assigning operator. -/
theorem opAssign_op {n : Nat} (hn : 8 ≤ n) {o : OpKind} {r : OpTy} (he : opExists o true .val r = true)
    {a : List Int} {y : OpVal} (hy : y.HasType r) (ha : a.length = f.code.limbs) (ky : OpVal.Fits f y)
    (p : Place) (ρ : Env) : opAssign (ctx P w n) (opBin o) p (elem (tyId f) a) (argV f r y) ρ =
      (lift (opSpec f.code w.pr o (.elem a) y) >>= fun z => setPlace ρ p (elem (tyId f) z)) := by
  obtain ⟨h1, h2, h3⟩ := find_opG h he
  have h4 := run_op h w hn he (x := .elem a) (y := y) trivial hy ha ky
  have h2' : (opG f o true .val r).recv = .mut := h2
  simp only [opAssign, isPrim_elem, Bool.false_and, Bool.false_eq_true, if_false, ty_elem, argV_ty f hy,
    assignTrait_opBin, ctx_prog, invoke, ctx_call]
  have h6 : lhsV f true .val (.elem a) = .ref (elem (tyId f) a) := rfl
  have h7 : P.opFn (opId o true) (false, tyId f) (opT f r) = some (opG f o true .val r) := h1
  rw [h6] at h4
  simp only [h7, h2', h3, strip_elem, h4]
  cases opSpec f.code w.pr o (.elem a) y with
  | error e => rfl
  | ok z =>
    simp only [lift_ok, ok_bind, writeBack]
    have h8 : (lhsV f true .val (if True then .elem z else .elem a)).strip = elem (tyId f) z := by
      rw [if_pos trivial]; rfl
    rw [h8]
    cases setPlace ρ p (elem (tyId f) z) with
    | error e => rfl
    | ok ρ' => rfl

section
variable {n : Nat} (hn : 8 ≤ n) {a b : List Int} (ha : a.length = f.code.limbs)
  (hb : b.length = f.code.limbs) (ρ : Env) (p : Place) {k : Int} (hk : IsI32 k)

include h hn ha hb

theorem binop_add : binop (ctx P w n) .add (.ref (elem (tyId f) a)) (.ref (elem (tyId f) b)) ρ =
    (lift (f.code.add w.pr a b) >>= fun z => .ok (elem (tyId f) z, ρ)) :=
  binop_op h w hn (o := .add) (l := .ref) (r := .ref) (x := .elem a) (y := .elem b) rfl trivial trivial
    ha hb ρ
theorem binop_sub : binop (ctx P w n) .sub (.ref (elem (tyId f) a)) (.ref (elem (tyId f) b)) ρ =
    (lift (f.code.sub w.pr a b) >>= fun z => .ok (elem (tyId f) z, ρ)) :=
  binop_op h w hn (o := .sub) (l := .ref) (r := .ref) (x := .elem a) (y := .elem b) rfl trivial trivial
    ha hb ρ
theorem binop_mul : binop (ctx P w n) .mul (.ref (elem (tyId f) a)) (.ref (elem (tyId f) b)) ρ =
    (lift (f.code.mul w.pr a b) >>= fun z => .ok (elem (tyId f) z, ρ)) :=
  binop_op h w hn (o := .mul) (l := .ref) (r := .ref) (x := .elem a) (y := .elem b) rfl trivial trivial
    ha hb ρ
theorem opAssign_add : opAssign (ctx P w n) .add p (elem (tyId f) a) (.ref (elem (tyId f) b)) ρ =
    (lift (f.code.addAssign w.pr a b) >>= fun z => setPlace ρ p (elem (tyId f) z)) :=
  opAssign_op h w hn (o := .add) (r := .ref) (y := .elem b) rfl trivial ha hb p ρ
theorem opAssign_sub : opAssign (ctx P w n) .sub p (elem (tyId f) a) (.ref (elem (tyId f) b)) ρ =
    (lift (f.code.subAssign w.pr a b) >>= fun z => setPlace ρ p (elem (tyId f) z)) :=
  opAssign_op h w hn (o := .sub) (r := .ref) (y := .elem b) rfl trivial ha hb p ρ
theorem opAssign_mul : opAssign (ctx P w n) .mul p (elem (tyId f) a) (.ref (elem (tyId f) b)) ρ =
    (lift (f.code.mulAssign w.pr a b) >>= fun z => setPlace ρ p (elem (tyId f) z)) :=
  opAssign_op h w hn (o := .mul) (r := .ref) (y := .elem b) rfl trivial ha hb p ρ

omit hb
include hk

theorem binop_add_i32 : binop (ctx P w n) .add (.ref (elem (tyId f) a)) (.int (some .i32) k) ρ =
    (lift (f.code.smallAdd w.pr a k) >>= fun z => .ok (elem (tyId f) z, ρ)) :=
  binop_op h w hn (o := .add) (l := .ref) (r := .i32) (x := .elem a) (y := .int k) rfl trivial hk
    ha trivial ρ
theorem binop_mul_i32 : binop (ctx P w n) .mul (.ref (elem (tyId f) a)) (.int (some .i32) k) ρ =
    (lift (f.code.smallMul w.pr a k) >>= fun z => .ok (elem (tyId f) z, ρ)) :=
  binop_op h w hn (o := .mul) (l := .ref) (r := .i32) (x := .elem a) (y := .int k) rfl trivial hk
    ha trivial ρ

end

/-! ### Methods -/

/-- An element or a reference to one. -/
def IsElem (t : Id) (v : Val) (a : List Int) : Prop := v = elem t a ∨ v = .ref (elem t a)

theorem IsElem.val (t : Id) (a : List Int) : IsElem t (elem t a) a := .inl rfl
theorem IsElem.ref (t : Id) (a : List Int) : IsElem t (.ref (elem t a)) a := .inr rfl

section
variable {t : Id} {n : Nat} {v : Val} {a : List Int} (hv : IsElem t v a) {m : Id}
  (hm : m ≠ id! "clone") {fn : Fn} (hf : P.method t m = some fn) {ms : List Bool}
  (hms : fn.params.map (·.2.isMut) = ms)
  (p : Option Place) (args : List Val) (places : List (Option Place)) (ρ : Env)

include hv hm hf hms

theorem call_ref (hr : fn.recv = .ref) : callMethod (ctx P w n) v p m args places ρ =
    (run P w n fn (.ref (elem t a) :: args) >>= fun r =>
      writeBack ms places r.2.tail ρ >>= fun ρ' => .ok (r.1, ρ')) := by
  rcases hv with rfl | rfl
  · rw [callMethod_elem, if_neg hm]
    simp only [ctx_prog, hf, invoke, hr, hms]
    rfl
  · rw [callMethod_ref, if_neg hm]
    simp only [ctx_prog, hf, invoke, hr, hms]
    rfl

theorem call_mut (hr : fn.recv = .mut) : callMethod (ctx P w n) v p m args places ρ =
    (run P w n fn (.ref (elem t a) :: args) >>= fun r =>
      writeBack (true :: ms) (p :: places) r.2 ρ >>= fun ρ' => .ok (r.1, ρ')) := by
  rcases hv with rfl | rfl
  · rw [callMethod_elem, if_neg hm]
    simp only [ctx_prog, hf, invoke, hr, hms]
    rfl
  · rw [callMethod_ref, if_neg hm]
    simp only [ctx_prog, hf, invoke, hr, hms]
    rfl

end

theorem call_clone {c : Ctx} {t : Id} {v : Val} {a : List Int} (hv : IsElem t v a) (p : Option Place)
    (args : List Val) (places : List (Option Place)) (ρ : Env) :
    callMethod c v p (id! "clone") args places ρ = .ok (elem t a, ρ) := by
  rcases hv with rfl | rfl <;> rfl

end Verif.Rust

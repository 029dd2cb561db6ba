import Verif.Rust.FieldFns

/-!
# The wrapper functions of the field files

Everything except the operators and the exponentiation chains: the text of each function (the same
in all nine files up to the name of the type and the numbers of words and bytes) and what
interpreting it computes.
-/

namespace Verif.Rust

open Limb

/-- A function from its parts. -/
abbrev mkFn (t name : Id) (recv : Recv) (params : List (Id × Ty)) (out : Ty) (b : Block × Expr) : Fn :=
  ⟨t, name, recv, params, out, b.1, b.2⟩

/-- `t` -/
abbrev tyV (t : Id) : Ty := ⟨false, false, t⟩
/-- `&t` -/
abbrev tyR (t : Id) : Ty := ⟨true, false, t⟩
/-- `&mut t` -/
abbrev tyM (t : Id) : Ty := ⟨true, true, t⟩

/-! ### Symbolic evaluation -/

section
variable (c : Ctx) (t : Id) (a : List Int)

theorem callMethod_ref (p : Option Place) (m : Id) (args : List Val) (places : List (Option Place))
    (ρ : Env) : callMethod c (.ref (elem t a)) p m args places ρ =
      if m = id! "clone" then .ok (elem t a, ρ)
      else match c.prog.method t m with
        | some fn => invoke c fn (some (.ref (elem t a), p)) args places ρ
        | none => .error .stuck := by
  simp only [callMethod, strip_ref, elem, Val.ty]
  rfl

theorem callMethod_elem (p : Option Place) (m : Id) (args : List Val) (places : List (Option Place))
    (ρ : Env) : callMethod c (elem t a) p m args places ρ =
      if m = id! "clone" then .ok (elem t a, ρ)
      else match c.prog.method t m with
        | some fn => invoke c fn (some (elem t a, p)) args places ρ
        | none => .error .stuck := by
  simp only [callMethod, elem, Val.ty, Val.strip]
  rfl

@[simp] theorem ctx_prog (P : Program) (w : World) (n : Nat) : (ctx P w n).prog = P := rfl
@[simp] theorem ctx_pr (P : Program) (w : World) (n : Nat) : (ctx P w n).pr = w.pr := rfl
@[simp] theorem ctx_const (P : Program) (w : World) (n : Nat) : (ctx P w n).const = P.const := rfl
@[simp] theorem ctx_call (P : Program) (w : World) (n : Nat) : (ctx P w n).call = run P w n := rfl
@[simp] theorem ctx_curve (P : Program) (w : World) (n : Nat) : (ctx P w n).curve = w.curve := rfl
@[simp] theorem ctx_rng (P : Program) (w : World) (n : Nat) : (ctx P w n).rng = w.rng := rfl

end

@[simp] theorem traitOf_add : traitOf .add = id! "Add" := rfl
@[simp] theorem assignTraitOf_add : assignTraitOf .add = id! "AddAssign" := rfl
@[simp] theorem traitOf_sub : traitOf .sub = id! "Sub" := rfl
@[simp] theorem assignTraitOf_sub : assignTraitOf .sub = id! "SubAssign" := rfl
@[simp] theorem traitOf_mul : traitOf .mul = id! "Mul" := rfl
@[simp] theorem assignTraitOf_mul : assignTraitOf .mul = id! "MulAssign" := rfl
@[simp] theorem traitOf_div : traitOf .div = id! "Div" := rfl
@[simp] theorem assignTraitOf_div : assignTraitOf .div = id! "DivAssign" := rfl

/-- Evaluate the interpreter symbolically. -/
macro "interp" "[" ls:Lean.Parser.Tactic.simpLemma,* "]" : tactic =>
  `(tactic| simp [mkFn, runBody, exec, eval, Fn.names, Fn.coerce, List.lookup_cons, callMethod_ref,
    callMethod_elem, invoke, Out.list, writeBack, setPlace, writePath, bind_bind, lift_bind, binop,
    opAssign, callPath, $ls,*])

variable {P : Program} {f : Fld} (h : Has P f) (w : World)

theorem fn_squared (f : Fld) : methF f (id! "squared") =
    mkFn (tyId f) (id! "squared") .ref [] (tyV (tyId f)) (rust_block% r"
        let mut out = self.clone();

        out.square();

        out
    ") := by
  cases f <;> decide +kernel

@[simp] theorem recv_squared (f : Fld) : (methF f (id! "squared")).recv = .ref := by rw [fn_squared]
@[simp] theorem muts_squared (f : Fld) :
    (methF f (id! "squared")).params.map (·.2.isMut) = [] := by rw [fn_squared]; rfl

theorem fn_small_add (f : Fld) : methF f (id! "small_add") =
    mkFn (tyId f) (id! "small_add") .ref [(id! "rhs", (tyV (id! "i32")))] (tyV (tyId f)) (rust_block% r"
        let mut out = self.clone();

        out.small_add_assign(rhs);

        out
    ") := by
  cases f <;> decide +kernel

@[simp] theorem recv_small_add (f : Fld) : (methF f (id! "small_add")).recv = .ref := by rw [fn_small_add]
@[simp] theorem muts_small_add (f : Fld) :
    (methF f (id! "small_add")).params.map (·.2.isMut) = [false] := by rw [fn_small_add]; rfl

theorem fn_small_sub (f : Fld) : methF f (id! "small_sub") =
    mkFn (tyId f) (id! "small_sub") .ref [(id! "rhs", (tyV (id! "i32")))] (tyV (tyId f)) (rust_block% r"
        let mut out = self.clone();

        out.small_sub_assign(rhs);

        out
    ") := by
  cases f <;> decide +kernel

@[simp] theorem recv_small_sub (f : Fld) : (methF f (id! "small_sub")).recv = .ref := by rw [fn_small_sub]
@[simp] theorem muts_small_sub (f : Fld) :
    (methF f (id! "small_sub")).params.map (·.2.isMut) = [false] := by rw [fn_small_sub]; rfl

theorem fn_small_mul (f : Fld) : methF f (id! "small_mul") =
    mkFn (tyId f) (id! "small_mul") .ref [(id! "b", (tyV (id! "i32")))] (tyV (tyId f)) (rust_block% r"
        let mut out = self.clone();

        out.small_mul_assign(b);

        out
    ") := by
  cases f <;> decide +kernel

@[simp] theorem recv_small_mul (f : Fld) : (methF f (id! "small_mul")).recv = .ref := by rw [fn_small_mul]
@[simp] theorem muts_small_mul (f : Fld) :
    (methF f (id! "small_mul")).params.map (·.2.isMut) = [false] := by rw [fn_small_mul]; rfl

theorem fn_neg (f : Fld) : methF f (id! "neg") =
    mkFn (tyId f) (id! "neg") .val [] (tyV (tyId f)) (rust_block% r"
        let mut out = self;

        out += &MODULUS;
        out
    ") := by
  cases f <;> decide +kernel

@[simp] theorem recv_neg (f : Fld) : (methF f (id! "neg")).recv = .val := by rw [fn_neg]
@[simp] theorem muts_neg (f : Fld) :
    (methF f (id! "neg")).params.map (·.2.isMut) = [] := by rw [fn_neg]; rfl

@[simp] theorem recv_square (f : Fld) : (methF f (id! "square")).recv = .mut := (limb_square f).recv
@[simp] theorem muts_square (f : Fld) :
    (methF f (id! "square")).params.map (·.2.isMut) = [] := (limb_square f).muts
@[simp] theorem recv_unpack (f : Fld) : (methF f (id! "unpack")).recv = .mut := (limb_unpack f).recv
@[simp] theorem muts_unpack (f : Fld) :
    (methF f (id! "unpack")).params.map (·.2.isMut) = [false] := (limb_unpack f).muts
@[simp] theorem recv_pack_normalized (f : Fld) : (methF f (id! "pack_normalized")).recv = .ref :=
  (limb_pack f).recv
@[simp] theorem muts_pack_normalized (f : Fld) :
    (methF f (id! "pack_normalized")).params.map (·.2.isMut) = [true] := (limb_pack f).muts
@[simp] theorem recv_carry_out (f : Fld) : (methF f (id! "carry_out")).recv = .ref := by rw [carry_fn]
@[simp] theorem muts_carry_out (f : Fld) :
    (methF f (id! "carry_out")).params.map (·.2.isMut) = [] := by rw [carry_fn]; rfl

theorem readSlots_len (σ : Verif.Env) : ∀ n k, (readSlots σ k n).length = n
  | 0, _ => rfl
  | n + 1, k => by rw [readSlots, List.length_cons, readSlots_len σ n]

theorem runLimb_length {F : FieldCode} {pr : Profile} {p : Prog} {a arg r : List Int}
    (hr : F.runLimb pr p a arg = .ok r) : r.length = F.limbs := by
  rw [FieldCode.runLimb] at hr
  cases hx : runProg pr p (initEnv a arg) with
  | error e => rw [hx] at hr; cases hr
  | ok ρ =>
    rw [hx] at hr
    rw [← Except.ok.inj hr, readSlots_len]

@[simp] theorem recv_small_add_assign (f : Fld) : (methF f (id! "small_add_assign")).recv = .mut :=
  (limb_small_add f).recv
@[simp] theorem muts_small_add_assign (f : Fld) :
    (methF f (id! "small_add_assign")).params.map (·.2.isMut) = [false] := (limb_small_add f).muts
@[simp] theorem recv_add (f : Fld) :
    (opF f (id! "AddAssign") (false, tyId f) (true, tyId f)).recv = .mut := (limb_add f).recv
@[simp] theorem muts_add (f : Fld) : (opF f (id! "AddAssign") (false, tyId f)
    (true, tyId f)).params.map (·.2.isMut) = [false] := (limb_add f).muts

@[simp] theorem recv_small_sub_assign (f : Fld) : (methF f (id! "small_sub_assign")).recv = .mut :=
  (limb_small_sub f).recv
@[simp] theorem muts_small_sub_assign (f : Fld) :
    (methF f (id! "small_sub_assign")).params.map (·.2.isMut) = [false] := (limb_small_sub f).muts
@[simp] theorem recv_sub (f : Fld) :
    (opF f (id! "SubAssign") (false, tyId f) (true, tyId f)).recv = .mut := (limb_sub f).recv
@[simp] theorem muts_sub (f : Fld) : (opF f (id! "SubAssign") (false, tyId f)
    (true, tyId f)).params.map (·.2.isMut) = [false] := (limb_sub f).muts

@[simp] theorem recv_small_mul_assign (f : Fld) : (methF f (id! "small_mul_assign")).recv = .mut :=
  (limb_small_mul f).recv
@[simp] theorem muts_small_mul_assign (f : Fld) :
    (methF f (id! "small_mul_assign")).params.map (·.2.isMut) = [false] := (limb_small_mul f).muts
@[simp] theorem recv_mul (f : Fld) :
    (opF f (id! "MulAssign") (false, tyId f) (true, tyId f)).recv = .mut := (limb_mul f).recv
@[simp] theorem muts_mul (f : Fld) : (opF f (id! "MulAssign") (false, tyId f)
    (true, tyId f)).params.map (·.2.isMut) = [false] := (limb_mul f).muts

include h in
theorem run_squared {n : Nat} (hn : 3 ≤ n) {a : List Int} (ha : a.length = f.code.limbs) :
    run P w n (methF f (id! "squared")) [.ref (elem (tyId f) a)] =
      (lift (f.code.squared w.pr a) >>= fun r => .ok (elem (tyId f) r, [.ref (elem (tyId f) a)])) := by
  obtain ⟨n, rfl⟩ := Nat.exists_eq_add_of_le' (show 1 ≤ n by omega)
  rw [run_succ, fn_squared, FieldCode.squared]
  interp [method_eq h (m := id! "square") (by decide), run_square h w (n := n) (by omega) ha]

include h in
theorem run_small_add {n : Nat} (hn : 3 ≤ n) {a : List Int} (ha : a.length = f.code.limbs) (k : Int) :
    run P w n (methF f (id! "small_add")) [.ref (elem (tyId f) a), .int (some .i32) k] =
      (lift (f.code.smallAdd w.pr a k) >>= fun r =>
        .ok (elem (tyId f) r, [.ref (elem (tyId f) a), .int (some .i32) k])) := by
  obtain ⟨n, rfl⟩ := Nat.exists_eq_add_of_le' (show 1 ≤ n by omega)
  rw [run_succ, fn_small_add, FieldCode.smallAdd]
  interp [method_eq h (m := id! "small_add_assign") (by decide),
    run_small_add_assign h w (n := n) (by omega) ha]

include h in
theorem run_small_sub {n : Nat} (hn : 3 ≤ n) {a : List Int} (ha : a.length = f.code.limbs) (k : Int) :
    run P w n (methF f (id! "small_sub")) [.ref (elem (tyId f) a), .int (some .i32) k] =
      (lift (f.code.smallSub w.pr a k) >>= fun r =>
        .ok (elem (tyId f) r, [.ref (elem (tyId f) a), .int (some .i32) k])) := by
  obtain ⟨n, rfl⟩ := Nat.exists_eq_add_of_le' (show 1 ≤ n by omega)
  rw [run_succ, fn_small_sub, FieldCode.smallSub]
  interp [method_eq h (m := id! "small_sub_assign") (by decide),
    run_small_sub_assign h w (n := n) (by omega) ha]

include h in
theorem run_small_mul {n : Nat} (hn : 3 ≤ n) {a : List Int} (ha : a.length = f.code.limbs) (k : Int) :
    run P w n (methF f (id! "small_mul")) [.ref (elem (tyId f) a), .int (some .i32) k] =
      (lift (f.code.smallMul w.pr a k) >>= fun r =>
        .ok (elem (tyId f) r, [.ref (elem (tyId f) a), .int (some .i32) k])) := by
  obtain ⟨n, rfl⟩ := Nat.exists_eq_add_of_le' (show 1 ≤ n by omega)
  rw [run_succ, fn_small_mul, FieldCode.smallMul]
  interp [method_eq h (m := id! "small_mul_assign") (by decide),
    run_small_mul_assign h w (n := n) (by omega) ha]


end Verif.Rust

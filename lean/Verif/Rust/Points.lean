import Verif.Rust.Formulas

/-!
# The other functions of `edwards.rs`

Operators, `normalized_bitand`, `normalized_bitor`, `zero`, `init`, `doubled`, `tripled`.
-/

namespace Verif.Rust

@[simp] theorem strip_point (t : Id) (p : EdwardsExtended Elem) : (point t p).strip = point t p := rfl
@[simp] theorem ty_point (t : Id) (p : EdwardsExtended Elem) : (point t p).ty = some (false, id! "EdwardsExtended") := rfl
@[simp] theorem ty_ref_point (t : Id) (p : EdwardsExtended Elem) :
    (Val.ref (point t p)).ty = some (true, id! "EdwardsExtended") := rfl
@[simp] theorem isPrim_point (t : Id) (p : EdwardsExtended Elem) : (point t p).isPrim = false := rfl
@[simp] theorem retarget_point (t : Id) (p : EdwardsExtended Elem) (v : Val) : (point t p).retarget v = v := rfl
@[simp] theorem coerce_point (t : Id) (p : EdwardsExtended Elem) (u : Ty) : coerce u (point t p) = point t p := rfl

/-- A point or a reference to one. -/
def IsPoint (t : Id) (v : Val) (p : EdwardsExtended Elem) : Prop := v = point t p ∨ v = .ref (point t p)

theorem IsPoint.val (t : Id) (p : EdwardsExtended Elem) : IsPoint t (point t p) p := .inl rfl
theorem IsPoint.ref (t : Id) (p : EdwardsExtended Elem) : IsPoint t (.ref (point t p)) p := .inr rfl

theorem callMethod_point (c : Ctx) (t : Id) (a : EdwardsExtended Elem) (p : Option Place) (m : Id) (args : List Val)
    (places : List (Option Place)) (ρ : Env) : callMethod c (point t a) p m args places ρ =
      if m = id! "clone" then .ok (point t a, ρ)
      else match c.prog.method (id! "EdwardsExtended") m with
        | some fn => invoke c fn (some (point t a, p)) args places ρ
        | none => .error .stuck := by
  simp only [callMethod, point, Val.ty, Val.strip]
  rfl

theorem callMethod_pointRef (c : Ctx) (t : Id) (a : EdwardsExtended Elem) (p : Option Place) (m : Id) (args : List Val)
    (places : List (Option Place)) (ρ : Env) : callMethod c (.ref (point t a)) p m args places ρ =
      if m = id! "clone" then .ok (point t a, ρ)
      else match c.prog.method (id! "EdwardsExtended") m with
        | some fn => invoke c fn (some (.ref (point t a), p)) args places ρ
        | none => .error .stuck := by
  simp only [callMethod, point, Val.ty, strip_ref]
  rfl

section
variable {P : Program} {w : World} {t : Id} {n : Nat} {v : Val} {a : EdwardsExtended Elem} (hv : IsPoint t v a) {m : Id}
  (hm : m ≠ id! "clone") {fn : Fn} (hf : P.method (id! "EdwardsExtended") m = some fn) {ms : List Bool}
  (hms : fn.params.map (·.2.isMut) = ms)
  (p : Option Place) (args : List Val) (places : List (Option Place)) (ρ : Env)

include hv hm hf hms

theorem callP_mut (hr : fn.recv = .mut) : callMethod (ctx P w n) v p m args places ρ =
    (run P w n fn (.ref (point t a) :: args) >>= fun r =>
      writeBack (true :: ms) (p :: places) r.2 ρ >>= fun ρ' => .ok (r.1, ρ')) := by
  rcases hv with rfl | rfl
  · rw [callMethod_point, if_neg hm]
    simp only [ctx_prog, hf, invoke, hr, hms]
    rfl
  · rw [callMethod_pointRef, if_neg hm]
    simp only [ctx_prog, hf, invoke, hr, hms]
    rfl

end

theorem callP_clone {c : Ctx} {t : Id} {v : Val} {a : EdwardsExtended Elem} (hv : IsPoint t v a) (p : Option Place)
    (args : List Val) (places : List (Option Place)) (ρ : Env) :
    callMethod c v p (id! "clone") args places ρ = .ok (point t a, ρ) := by
  rcases hv with rfl | rfl <;> rfl

section
variable {P : Program} {c : Crv} (h : HasC P c) {w : World} (hc : w.curve = crvId c) {n : Nat}
  {p q : EdwardsExtended Elem} (hp : Fits c.fld p) (hq : Fits c.fld q)

/-! ### Addition -/

include h hc hp hq in
theorem opAssign_point (hn : 9 ≤ n) (pl : Place) (ρ : Env) :
    opAssign (ctx P w n) .add pl (point (tyId c.fld) p) (.ref (point (tyId c.fld) q)) ρ =
      (lift (p.addAssign (c.scalar w.pr) q) >>= fun r => setPlace ρ pl (point (tyId c.fld) r)) := by
  simp only [opAssign, isPrim_point, Bool.false_and, Bool.false_eq_true, if_false, ty_point, ty_ref_point,
    assignTraitOf_add, ctx_prog, h.opFn fn_addAssign, invoke, ctx_call, strip_point]
  have := run_point_add h hc hn hp hq
  rw [addFn] at this
  rw [this]
  cases p.addAssign (c.scalar w.pr) q with
  | error e => rfl
  | ok z =>
    simp only [lift_ok, ok_bind, List.map, writeBack, strip_ref]
    cases setPlace ρ pl (point (tyId c.fld) z) with
    | error e => rfl
    | ok ρ' => rfl

theorem fn_addAssignV : Source.edwards.opFn (id! "AddAssign") (false, id! "EdwardsExtended") (false, id! "EdwardsExtended") =
    some (mkFn (id! "EdwardsExtended") (id! "add_assign") .mut [(id! "rhs", tyV (id! "EdwardsExtended"))]
      (tyV (id! "()")) (rust_block% r"
        *self += &rhs;
    ")) := by
  decide +kernel

/-- `AddAssign<Self>` -/
def addFnV : Fn := mkFn (id! "EdwardsExtended") (id! "add_assign") .mut [(id! "rhs", tyV (id! "EdwardsExtended"))]
  (tyV (id! "()")) (rust_block% r"
        *self += &rhs;
    ")

include h hc hp hq in
theorem run_point_addV (hn : 10 ≤ n) : run P w n addFnV [.ref (point (tyId c.fld) p), point (tyId c.fld) q] =
    (lift (p.addAssign (c.scalar w.pr) q) >>= fun r =>
      .ok (.unit, [.ref (point (tyId c.fld) r), point (tyId c.fld) q])) := by
  obtain ⟨n, rfl⟩ := Nat.exists_eq_add_of_le' (show 1 ≤ n by omega)
  rw [run_succ, addFnV]
  have e := opAssign_point h hc hp hq (show 9 ≤ n by omega) (id! "self", [])
    [(id! "self", .ref (point (tyId c.fld) p)), (id! "rhs", point (tyId c.fld) q)]
  simp only [runBody, mkFn, Fn.names, Fn.coerce, List.map, List.zipWith, List.zip_cons_cons,
    List.zip_nil_left, coerce_point, exec, eval, show List.lookup (id! "rhs")
      [(id! "self", Val.ref (point (tyId c.fld) p)), (id! "rhs", point (tyId c.fld) q)] = some (point (tyId c.fld) q) from rfl,
    show List.lookup (id! "self")
      [(id! "self", Val.ref (point (tyId c.fld) p)), (id! "rhs", point (tyId c.fld) q)] = some (.ref (point (tyId c.fld) p)) from rfl,
    ok_bind, pure_ok, e]
  cases p.addAssign (c.scalar w.pr) q with
  | error e => rfl
  | ok z => rfl

include h hc hp hq in
theorem opAssign_pointV (hn : 10 ≤ n) (pl : Place) (ρ : Env) :
    opAssign (ctx P w n) .add pl (point (tyId c.fld) p) (point (tyId c.fld) q) ρ =
      (lift (p.addAssign (c.scalar w.pr) q) >>= fun r => setPlace ρ pl (point (tyId c.fld) r)) := by
  simp only [opAssign, isPrim_point, Bool.false_and, Bool.false_eq_true, if_false, ty_point,
    assignTraitOf_add, ctx_prog, h.opFn fn_addAssignV, invoke, ctx_call, strip_point]
  have := run_point_addV h hc hp hq hn
  rw [addFnV] at this
  rw [this]
  cases p.addAssign (c.scalar w.pr) q with
  | error e => rfl
  | ok z =>
    simp only [lift_ok, ok_bind, List.map, writeBack, strip_ref]
    cases setPlace ρ pl (point (tyId c.fld) z) with
    | error e => rfl
    | ok ρ' => rfl

/-- `Add<&Self> for &Self` -/
def plusFn : Fn := mkFn (id! "EdwardsExtended") (id! "add") .val [(id! "rhs", tyR (id! "EdwardsExtended"))]
  (tyV (id! "EdwardsExtended")) (rust_block% r"
        let mut out = self.clone();
        out += rhs;
        out
    ")

theorem fn_plus : Source.edwards.opFn (id! "Add") (true, id! "EdwardsExtended") (true, id! "EdwardsExtended") =
    some plusFn := by
  decide +kernel

include h hc hp hq in
theorem run_plus (hn : 10 ≤ n) : run P w n plusFn [.ref (point (tyId c.fld) p), .ref (point (tyId c.fld) q)] =
    (lift (p.add (c.scalar w.pr) q) >>= fun r =>
      .ok (point (tyId c.fld) r, [.ref (point (tyId c.fld) p), .ref (point (tyId c.fld) q)])) := by
  obtain ⟨n, rfl⟩ := Nat.exists_eq_add_of_le' (show 1 ≤ n by omega)
  rw [run_succ, plusFn, EdwardsExtended.add]
  have e := opAssign_point h hc hp hq (show 9 ≤ n by omega) (id! "out", [])
    [(id! "out", point (tyId c.fld) p), (id! "self", .ref (point (tyId c.fld) p)), (id! "rhs", .ref (point (tyId c.fld) q))]
  simp only [runBody, mkFn, Fn.names, Fn.coerce, List.map, List.zipWith, List.zip_cons_cons,
    List.zip_nil_left, coerce_ref]
  rw [exec, eval, eval_var (v := .ref (point (tyId c.fld) p)) rfl]
  simp only [ok_bind, eval, Out.list, callP_clone (IsPoint.ref (tyId c.fld) p), pure_ok]
  rw [exec, eval_var (v := .ref (point (tyId c.fld) q)) rfl, ok_bind, eval_var (v := point (tyId c.fld) p) rfl]
  simp only [ok_bind, e]
  cases p.addAssign (c.scalar w.pr) q with
  | error e => rfl
  | ok z => rfl

/-- `Add<Self> for Self` -/
def plusFnV : Fn := mkFn (id! "EdwardsExtended") (id! "add") .val [(id! "rhs", tyV (id! "EdwardsExtended"))]
  (tyV (id! "EdwardsExtended")) (rust_block% r"
        &self + &rhs
    ")

theorem fn_plusV : Source.edwards.opFn (id! "Add") (false, id! "EdwardsExtended") (false, id! "EdwardsExtended") =
    some plusFnV := by
  decide +kernel

include h hc hp hq in
theorem run_plusV (hn : 11 ≤ n) : run P w n plusFnV [point (tyId c.fld) p, point (tyId c.fld) q] =
    (lift (p.add (c.scalar w.pr) q) >>= fun r =>
      .ok (point (tyId c.fld) r, [point (tyId c.fld) p, point (tyId c.fld) q])) := by
  obtain ⟨n, rfl⟩ := Nat.exists_eq_add_of_le' (show 1 ≤ n by omega)
  have e := run_plus h hc hp hq (show 10 ≤ n by omega)
  rw [run_succ, plusFnV]
  simp only [runBody, mkFn, Fn.names, Fn.coerce, List.map, List.zipWith, List.zip_cons_cons,
    List.zip_nil_left, coerce_point, exec, ok_bind, eval, show List.lookup (id! "rhs")
      [(id! "self", point (tyId c.fld) p), (id! "rhs", point (tyId c.fld) q)] = some (point (tyId c.fld) q) from rfl,
    show List.lookup (id! "self")
      [(id! "self", point (tyId c.fld) p), (id! "rhs", point (tyId c.fld) q)] = some (point (tyId c.fld) p) from rfl,
    pure_ok, binop, isPrim_ref, Bool.false_and, Bool.false_eq_true, if_false, ty_ref_point, traitOf_add, ctx_prog,
    h.opFn fn_plus, invoke, ctx_call]
  simp only [show plusFn.recv = .val from rfl, ctx_call, e]
  cases p.add (c.scalar w.pr) q with
  | error e => rfl
  | ok z => rfl

/-! ### `doubled` and `tripled` -/

theorem fn_doubled : edF (id! "doubled") = mkFn (id! "EdwardsExtended") (id! "doubled") .ref []
    (tyV (id! "EdwardsExtended")) (rust_block% r"
        let mut out = self.clone();
        out.double();
        out
    ") := by
  decide +kernel

theorem fn_tripled : edF (id! "tripled") = mkFn (id! "EdwardsExtended") (id! "tripled") .ref []
    (tyV (id! "EdwardsExtended")) (rust_block% r"
        let mut out = self.clone();
        out.triple();
        out
    ") := by
  decide +kernel

include h hc hp in
theorem run_doubled (hn : 10 ≤ n) : run P w n (edF (id! "doubled")) [.ref (point (tyId c.fld) p)] =
    (lift (p.doubled (c.scalar w.pr)) >>= fun r => .ok (point (tyId c.fld) r, [.ref (point (tyId c.fld) p)])) := by
  obtain ⟨n, rfl⟩ := Nat.exists_eq_add_of_le' (show 1 ≤ n by omega)
  have e := run_point_double h hc (show 9 ≤ n by omega) hp
  rw [run_succ, fn_doubled, EdwardsExtended.doubled]
  simp only [runBody, mkFn, Fn.names, Fn.coerce, List.map, List.zipWith, List.zip_cons_cons, List.zip_nil_left]
  rw [exec, eval, eval_var (v := .ref (point (tyId c.fld) p)) rfl]
  simp only [ok_bind, eval, Out.list, callP_clone (IsPoint.ref (tyId c.fld) p), pure_ok]
  rw [exec, eval, eval_var (v := point (tyId c.fld) p) rfl]
  simp only [ok_bind, eval, Out.list]
  rw [callP_mut (IsPoint.val (tyId c.fld) p) (by decide) (ed_eq h (by decide)) (ms := []) (by rw [fn_double]; rfl) _ _ _ _
    (by rw [fn_double]), e]
  cases p.double (c.scalar w.pr) with
  | error e => rfl
  | ok z => rfl

include h hc hp in
theorem run_tripled (hn : 10 ≤ n) : run P w n (edF (id! "tripled")) [.ref (point (tyId c.fld) p)] =
    (lift (p.tripled (c.scalar w.pr)) >>= fun r => .ok (point (tyId c.fld) r, [.ref (point (tyId c.fld) p)])) := by
  obtain ⟨n, rfl⟩ := Nat.exists_eq_add_of_le' (show 1 ≤ n by omega)
  have e := run_point_triple h hc (show 9 ≤ n by omega) hp
  rw [run_succ, fn_tripled, EdwardsExtended.tripled]
  simp only [runBody, mkFn, Fn.names, Fn.coerce, List.map, List.zipWith, List.zip_cons_cons, List.zip_nil_left]
  rw [exec, eval, eval_var (v := .ref (point (tyId c.fld) p)) rfl]
  simp only [ok_bind, eval, Out.list, callP_clone (IsPoint.ref (tyId c.fld) p), pure_ok]
  rw [exec, eval, eval_var (v := point (tyId c.fld) p) rfl]
  simp only [ok_bind, eval, Out.list]
  rw [callP_mut (IsPoint.val (tyId c.fld) p) (by decide) (ed_eq h (by decide)) (ms := []) (by rw [fn_triple]; rfl) _ _ _ _
    (by rw [fn_triple]), e]
  cases p.triple (c.scalar w.pr) with
  | error e => rfl
  | ok z => rfl

/-! ### `zero` and `init` -/

include h hc in
/-- `C::Scalar::m(…)` -/
theorem callPath_scalar {m : Id} {fn : Fn} (hm : P.method (tyId c.fld) m = some fn) (args : List Val)
    (places : List (Option Place)) (ρ : Env) :
    callPath (ctx P w n) [id! "C", id! "Scalar", m] args places ρ = invoke (ctx P w n) fn none args places ρ := by
  simp only [callPath, if_true, ctx_prog, ctx_curve, hc, h.assoc, hm]

include h hc in
theorem eval_const {m x : Id} {v : Elem} (hn : 1 ≤ n) (hm : (m, x) ∈ [(id! "zero", id! "ZERO"), (id! "one", id! "ONE"),
      (id! "m_one", id! "M_ONE"), (id! "modulus", id! "MODULUS")])
    (hx : (src c.fld).const x = some (elem (tyId c.fld) v)) (ρ : Env) :
    eval (ctx P w n) ρ (.path [id! "C", id! "Scalar", m] .anil) = .ok ⟨elem (tyId c.fld) v, [none], ρ⟩ := by
  have hm' : m ∈ fieldMethods := by
    simp only [List.mem_cons, Prod.mk.injEq, List.not_mem_nil, or_false] at hm
    rcases hm with ⟨rfl, -⟩ | ⟨rfl, -⟩ | ⟨rfl, -⟩ | ⟨rfl, -⟩ <;> decide
  have e := run_const h.fld w hn hm hx
  rw [fn_const c.fld (m, x) hm] at e
  simp only [eval, ok_bind, Out.list, callPath_scalar h hc (method_eq h.fld hm')]
  rw [fn_const c.fld (m, x) hm]
  simp only [invoke, mkFn, ctx_call, e, ok_bind, List.map, writeBack, pure_ok]

theorem fn_zero : edF (id! "zero") = mkFn (id! "EdwardsExtended") (id! "zero") .none []
    (tyV (id! "EdwardsExtended")) (rust_block% r"
        EdwardsExtended {
            x: C::Scalar::zero(),
            y: C::Scalar::one(),
            z: C::Scalar::one(),
            t: C::Scalar::one()
        }
    ") := by
  decide +kernel

include h hc in
theorem run_zero (hn : 2 ≤ n) : run P w n (edF (id! "zero")) [] =
    .ok (point (tyId c.fld) (EdwardsExtended.zero (c.scalar w.pr)), []) := by
  obtain ⟨n, rfl⟩ := Nat.exists_eq_add_of_le' (show 1 ≤ n by omega)
  rw [run_succ, fn_zero, Crv.scalar_eq]
  obtain ⟨-, c0, c1, -⟩ := const_src c.fld
  simp only [runBody, mkFn, Fn.names, Fn.coerce, List.map, List.zipWith, List.zip_nil_left, exec, ok_bind]
  rw [eval, eval, eval_const h hc (show 1 ≤ n by omega) (by decide) c0, ok_bind]
  dsimp only
  rw [eval, eval_const h hc (show 1 ≤ n by omega) (by decide) c1, ok_bind]
  dsimp only
  rw [eval, eval_const h hc (show 1 ≤ n by omega) (by decide) c1, ok_bind]
  dsimp only
  rw [eval, eval_const h hc (show 1 ≤ n by omega) (by decide) c1, ok_bind]
  rfl

theorem fn_init : edF (id! "init") = mkFn (id! "EdwardsExtended") (id! "init") .mut
    [(id! "x", tyV (id! "Scalar")), (id! "y", tyV (id! "Scalar"))] (tyV (id! "()")) (rust_block% r"
        self.x = x;
        self.y = y;
        self.z = C::Scalar::one();
        self.t = C::Scalar::one();
    ") := by
  decide +kernel

/-- A coordinate. -/
def getC (p : EdwardsExtended Elem) : Nat → Elem
  | 0 => p.x
  | 1 => p.y
  | 2 => p.z
  | _ => p.t

/-- Replace a coordinate. -/
def setC (p : EdwardsExtended Elem) (v : Elem) : Nat → EdwardsExtended Elem
  | 0 => { p with x := v }
  | 1 => { p with y := v }
  | 2 => { p with z := v }
  | _ => { p with t := v }

theorem eval_coord {c : Ctx} {ρ : Env} {x : Id} {t : Id} {v : Val} {p : EdwardsExtended Elem} (hx : ρ.lookup x = some v)
    (hv : IsPoint t v p) {r : Nat} (hr : r < 4) :
    eval c ρ (.field (.var x) (coordId r)) = .ok ⟨elem t (getC p r), [some (x, [.field (coordId r)])], ρ⟩ := by
  have : r = 0 ∨ r = 1 ∨ r = 2 ∨ r = 3 := by omega
  rw [eval, eval_var hx]
  rcases hv with rfl | rfl <;> rcases this with rfl | rfl | rfl | rfl <;> rfl

theorem set_coord {t : Id} {p : EdwardsExtended Elem} {r : Nat} (hr : r < 4) (v : Elem) (ρ : Env) :
    setPlace ((id! "self", .ref (point t p)) :: ρ) (id! "self", [.field (coordId r)]) (elem t v) =
      .ok ((id! "self", .ref (point t (setC p v r))) :: ρ) := by
  have : r = 0 ∨ r = 1 ∨ r = 2 ∨ r = 3 := by omega
  rcases this with rfl | rfl | rfl | rfl <;> rfl

/-- `self.x = e;` -/
theorem exec_setC {c : Ctx} {t : Id} {ρ : Env} {r : Nat} (hr : r < 4) {p : EdwardsExtended Elem} {v : Elem} {e : Expr}
    {pl : List (Option Place)} (he : eval c ((id! "self", .ref (point t p)) :: ρ) e =
      .ok ⟨elem t v, pl, (id! "self", .ref (point t p)) :: ρ⟩) (rest : Block) :
    exec c ((id! "self", .ref (point t p)) :: ρ) (.assign (.field (.var (id! "self")) (coordId r)) e rest) =
      exec c ((id! "self", .ref (point t (setC p v r))) :: ρ) rest := by
  rw [exec, he, ok_bind]
  dsimp only
  rw [eval_coord (v := .ref (point t p)) rfl (IsPoint.ref t p) hr, ok_bind]
  dsimp only
  rw [set_coord hr, ok_bind]

theorem Fits.set {f : Fld} {p : EdwardsExtended Elem} (hp : Fits f p) {v : Elem} (hv : v.length = f.code.limbs) {r : Nat} :
    Fits f (setC p v r) := by
  obtain ⟨h0, h1, h2, h3⟩ := hp
  unfold setC
  split
  · exact ⟨hv, h1, h2, h3⟩
  · exact ⟨h0, hv, h2, h3⟩
  · exact ⟨h0, h1, hv, h3⟩
  · exact ⟨h0, h1, h2, hv⟩

theorem bits_length {a b : Elem} {l : Nat} (ha : a.length = l) (hb : b.length = l) :
    (FieldCode.normalizedBitand a b).length = l ∧ (FieldCode.normalizedBitor a b).length = l := by
  simp [FieldCode.normalizedBitand, FieldCode.normalizedBitor, ha, hb]

theorem Fits.get {f : Fld} {p : EdwardsExtended Elem} (hp : Fits f p) (r : Nat) : (getC p r).length = f.code.limbs := by
  unfold getC
  split
  · exact hp.x
  · exact hp.y
  · exact hp.z
  · exact hp.t

theorem self_coords : Expr.field (.var (id! "self")) (id! "x") = .field (.var (id! "self")) (coordId 0) ∧
    Expr.field (.var (id! "self")) (id! "y") = .field (.var (id! "self")) (coordId 1) ∧
    Expr.field (.var (id! "self")) (id! "z") = .field (.var (id! "self")) (coordId 2) ∧
    Expr.field (.var (id! "self")) (id! "t") = .field (.var (id! "self")) (coordId 3) := ⟨rfl, rfl, rfl, rfl⟩

include h hc in
theorem run_init (hn : 2 ≤ n) (x y : Elem) : run P w n (edF (id! "init"))
      [.ref (point (tyId c.fld) p), elem (tyId c.fld) x, elem (tyId c.fld) y] =
    .ok (.unit, [.ref (point (tyId c.fld) (p.init (c.scalar w.pr) x y)), elem (tyId c.fld) x, elem (tyId c.fld) y]) := by
  obtain ⟨n, rfl⟩ := Nat.exists_eq_add_of_le' (show 1 ≤ n by omega)
  rw [run_succ, fn_init, Crv.scalar_eq]
  obtain ⟨-, c0, c1, -⟩ := const_src c.fld
  obtain ⟨k0, k1, k2, k3⟩ := self_coords
  simp only [runBody, mkFn, Fn.names, Fn.coerce, List.map, List.zipWith, List.zip_cons_cons, List.zip_nil_left, coerce_elem]
  rw [k0, exec_setC (r := 0) (v := x) (by decide) (eval_var rfl),
    k1, exec_setC (r := 1) (v := y) (by decide) (eval_var rfl),
    k2, exec_setC (r := 2) (by decide) (eval_const h hc (show 1 ≤ n by omega) (by decide) c1 _),
    k3, exec_setC (r := 3) (by decide) (eval_const h hc (show 1 ≤ n by omega) (by decide) c1 _)]
  rfl

/-! ### `normalized_bitand` and `normalized_bitor` -/

include h in
/-- `self.x.normalized_bitand(e);` -/
theorem exec_bits (hn : 1 ≤ n) {ρ : Env} {r : Nat} (hr : r < 4) {p : EdwardsExtended Elem} (hp : Fits c.fld p)
    {b : Elem} (hb : b.length = c.fld.code.limbs) {e : Expr} {pl : List (Option Place)} (hpl : pl.length = 1)
    (he : eval (ctx P w n) ((id! "self", .ref (point (tyId c.fld) p)) :: ρ) e =
      .ok ⟨.ref (elem (tyId c.fld) b), pl, (id! "self", .ref (point (tyId c.fld) p)) :: ρ⟩) (rest : Block) :
    exec (ctx P w n) ((id! "self", .ref (point (tyId c.fld) p)) :: ρ)
      (.expr (.method (.field (.var (id! "self")) (coordId r)) (id! "normalized_bitand") (.acons e .anil)) rest) =
    exec (ctx P w n) ((id! "self", .ref (point (tyId c.fld) (setC p (FieldCode.normalizedBitand (getC p r) b) r))) :: ρ) rest ∧
    exec (ctx P w n) ((id! "self", .ref (point (tyId c.fld) p)) :: ρ)
      (.expr (.method (.field (.var (id! "self")) (coordId r)) (id! "normalized_bitor") (.acons e .anil)) rest) =
    exec (ctx P w n) ((id! "self", .ref (point (tyId c.fld) (setC p (FieldCode.normalizedBitor (getC p r) b) r))) :: ρ) rest := by
  obtain ⟨x, rfl⟩ := List.length_eq_one_iff.1 hpl
  obtain ⟨e1, e2⟩ := run_normalized_bits (P := P) (f := c.fld) w hn (hp.get r) hb
  have ev : eval (ctx P w n) ((id! "self", .ref (point (tyId c.fld) p)) :: ρ) (.field (.var (id! "self")) (coordId r)) =
      .ok ⟨elem (tyId c.fld) (getC p r), [some (id! "self", [.field (coordId r)])], (id! "self", .ref (point (tyId c.fld) p)) :: ρ⟩ :=
    eval_coord (by simp [List.lookup_cons]) (IsPoint.ref (tyId c.fld) p) hr
  have c1 := call_mut w (n := n) (IsElem.val (tyId c.fld) (getC p r)) (by decide) (method_eq h.fld (m := id! "normalized_bitand") (by decide))
    (ms := [false]) (by rw [(fn_normalized_bits c.fld).1]; rfl) (some (id! "self", [.field (coordId r)]))
    [.ref (elem (tyId c.fld) b)] [x] ((id! "self", .ref (point (tyId c.fld) p)) :: ρ) (by rw [(fn_normalized_bits c.fld).1])
  have c2 := call_mut w (n := n) (IsElem.val (tyId c.fld) (getC p r)) (by decide) (method_eq h.fld (m := id! "normalized_bitor") (by decide))
    (ms := [false]) (by rw [(fn_normalized_bits c.fld).2]; rfl) (some (id! "self", [.field (coordId r)]))
    [.ref (elem (tyId c.fld) b)] [x] ((id! "self", .ref (point (tyId c.fld) p)) :: ρ) (by rw [(fn_normalized_bits c.fld).2])
  rw [e1] at c1
  rw [e2] at c2
  simp only [ok_bind, writeBack, strip_ref, set_coord hr] at c1 c2
  constructor
  · rw [exec, eval, ev]
    simp only [ok_bind]
    rw [eval, he]
    simp only [ok_bind, eval, Out.list, pure_ok, List.head?_cons, Option.getD_some, List.append_nil, c1]
  · rw [exec, eval, ev]
    simp only [ok_bind]
    rw [eval, he]
    simp only [ok_bind, eval, Out.list, pure_ok, List.head?_cons, Option.getD_some, List.append_nil, c2]

theorem fn_bitand : edF (id! "normalized_bitand") = mkFn (id! "EdwardsExtended") (id! "normalized_bitand") .mut
    [(id! "mask", tyR (id! "Scalar"))] (tyV (id! "()")) (rust_block% r"
        self.x.normalized_bitand(mask);
        self.y.normalized_bitand(mask);
        self.z.normalized_bitand(mask);
        self.t.normalized_bitand(mask);
    ") := by
  decide +kernel

theorem fn_bitor : edF (id! "normalized_bitor") = mkFn (id! "EdwardsExtended") (id! "normalized_bitor") .mut
    [(id! "rhs", tyR (id! "EdwardsExtended"))] (tyV (id! "()")) (rust_block% r"
        self.x.normalized_bitor(&rhs.x);
        self.y.normalized_bitor(&rhs.y);
        self.z.normalized_bitor(&rhs.z);
        self.t.normalized_bitor(&rhs.t);
    ") := by
  decide +kernel

include h hp in
theorem run_bitand (hn : 2 ≤ n) {m : Elem} (hm : m.length = c.fld.code.limbs) :
    run P w n (edF (id! "normalized_bitand")) [.ref (point (tyId c.fld) p), .ref (elem (tyId c.fld) m)] =
      .ok (.unit, [.ref (point (tyId c.fld) (p.normalizedBitand (c.scalar w.pr) m)), .ref (elem (tyId c.fld) m)]) := by
  obtain ⟨n, rfl⟩ := Nat.exists_eq_add_of_le' (show 1 ≤ n by omega)
  rw [run_succ, fn_bitand, Crv.scalar_eq]
  simp only [runBody, mkFn, Fn.names, Fn.coerce, List.map, List.zipWith, List.zip_cons_cons, List.zip_nil_left, coerce_ref]
  have ev : ∀ q : EdwardsExtended Elem, eval (ctx P w n) [(id! "self", .ref (point (tyId c.fld) q)), (id! "mask", .ref (elem (tyId c.fld) m))]
      (.var (id! "mask")) = .ok ⟨.ref (elem (tyId c.fld) m), [some (id! "mask", [])],
        [(id! "self", .ref (point (tyId c.fld) q)), (id! "mask", .ref (elem (tyId c.fld) m))]⟩ := fun q => rfl
  obtain ⟨k0, k1, k2, k3⟩ := self_coords
  have f1 := hp.set (r := 0) (bits_length (hp.get 0) hm).1
  have f2 := f1.set (r := 1) (bits_length (f1.get 1) hm).1
  have f3 := f2.set (r := 2) (bits_length (f2.get 2) hm).1
  rw [k0, (exec_bits h (r := 0) (show 1 ≤ n by omega) (by decide) hp hm rfl (ev _) _).1,
    k1, (exec_bits h (r := 1) (show 1 ≤ n by omega) (by decide) f1 hm rfl (ev _) _).1,
    k2, (exec_bits h (r := 2) (show 1 ≤ n by omega) (by decide) f2 hm rfl (ev _) _).1,
    k3, (exec_bits h (r := 3) (show 1 ≤ n by omega) (by decide) f3 hm rfl (ev _) _).1]
  rfl

include h hp hq in
theorem run_bitor (hn : 2 ≤ n) :
    run P w n (edF (id! "normalized_bitor")) [.ref (point (tyId c.fld) p), .ref (point (tyId c.fld) q)] =
      .ok (.unit, [.ref (point (tyId c.fld) (p.normalizedBitor (c.scalar w.pr) q)), .ref (point (tyId c.fld) q)]) := by
  obtain ⟨n, rfl⟩ := Nat.exists_eq_add_of_le' (show 1 ≤ n by omega)
  rw [run_succ, fn_bitor, Crv.scalar_eq]
  simp only [runBody, mkFn, Fn.names, Fn.coerce, List.map, List.zipWith, List.zip_cons_cons, List.zip_nil_left, coerce_ref]
  have ev : ∀ (q' : EdwardsExtended Elem) (r : Nat), r < 4 →
      eval (ctx P w n) [(id! "self", .ref (point (tyId c.fld) q')), (id! "rhs", .ref (point (tyId c.fld) q))]
      (.ref (.field (.var (id! "rhs")) (coordId r))) = .ok ⟨.ref (elem (tyId c.fld) (getC q r)), [some (id! "rhs", [.field (coordId r)])],
        [(id! "self", .ref (point (tyId c.fld) q')), (id! "rhs", .ref (point (tyId c.fld) q))]⟩ := by
    intro q' r hr
    rw [eval, eval_coord (v := .ref (point (tyId c.fld) q)) rfl (IsPoint.ref (tyId c.fld) q) hr]
    rfl
  obtain ⟨k0, k1, k2, k3⟩ := self_coords
  have r0 : Expr.field (.var (id! "rhs")) (id! "x") = .field (.var (id! "rhs")) (coordId 0) := rfl
  have r1 : Expr.field (.var (id! "rhs")) (id! "y") = .field (.var (id! "rhs")) (coordId 1) := rfl
  have r2 : Expr.field (.var (id! "rhs")) (id! "z") = .field (.var (id! "rhs")) (coordId 2) := rfl
  have r3 : Expr.field (.var (id! "rhs")) (id! "t") = .field (.var (id! "rhs")) (coordId 3) := rfl
  have f1 := hp.set (r := 0) (bits_length (hp.get 0) (hq.get 0)).2
  have f2 := f1.set (r := 1) (bits_length (f1.get 1) (hq.get 1)).2
  have f3 := f2.set (r := 2) (bits_length (f2.get 2) (hq.get 2)).2
  rw [k0, r0, (exec_bits h (r := 0) (show 1 ≤ n by omega) (by decide) hp (hq.get 0) rfl (ev _ 0 (by decide)) _).2,
    k1, r1, (exec_bits h (r := 1) (show 1 ≤ n by omega) (by decide) f1 (hq.get 1) rfl (ev _ 1 (by decide)) _).2,
    k2, r2, (exec_bits h (r := 2) (show 1 ≤ n by omega) (by decide) f2 (hq.get 2) rfl (ev _ 2 (by decide)) _).2,
    k3, r3, (exec_bits h (r := 3) (show 1 ≤ n by omega) (by decide) f3 (hq.get 3) rfl (ev _ 3 (by decide)) _).2]
  rfl

end

end Verif.Rust

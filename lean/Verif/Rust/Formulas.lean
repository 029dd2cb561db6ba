import Verif.Rust.Bits
import Verif.Rust.Source.Curves
import Verif.Curve.Curves

/-!
# The point formulas of `edwards.rs`

The program of a curve (its field file, `edwards.rs` and the file of the curve), how points appear in
the interpreter, and the three straight-line functions `add_assign`, `double` and `triple`.
-/

namespace Verif.Rust

/-! ### Programs of curves -/

/-- The text of the file of a curve. -/
def crvSrc : Crv → Program
  | .e222 => Source.e222
  | .curve1174 => Source.curve1174
  | .e382 => Source.e382
  | .curve41417 => Source.curve41417
  | .e521 => Source.e521

/-- The name of the type of a curve. -/
def crvId : Crv → Id
  | .e222 => id! "E222"
  | .curve1174 => id! "Curve1174"
  | .e382 => id! "E382"
  | .curve41417 => id! "Curve41417"
  | .e521 => id! "E521"

/-- Two files together. -/
def Program.join (p q : Program) : Program := ⟨p.consts ++ q.consts, p.impls ++ q.impls⟩

/-- The three files a curve consists of. -/
def crvProg (c : Crv) : Program := ((src c.fld).join Source.edwards).join (crvSrc c)

/-- The program contains the three files. -/
structure HasC (P : Program) (c : Crv) : Prop where
  fld : Has P c.fld
  method : ∀ {m fn}, Source.edwards.method (id! "EdwardsExtended") m = some fn →
    P.method (id! "EdwardsExtended") m = some fn
  opFn : ∀ {tr l r fn}, Source.edwards.opFn tr l r = some fn → P.opFn tr l r = some fn
  assoc : P.assoc (crvId c) (id! "Scalar") = some (tyId c.fld)
  dval : ∀ {fn}, (crvSrc c).method (crvId c) (id! "d_val") = some fn →
    P.method (crvId c) (id! "d_val") = some fn

theorem method_join (p q : Program) (t m : Id) :
    (p.join q).method t m = (p.method t m).or (q.method t m) := by
  simp only [Program.method, Program.join, List.findSome?_append]

theorem opFn_join (p q : Program) (tr : Id) (l r : Bool × Id) :
    (p.join q).opFn tr l r = (p.opFn tr l r).or (q.opFn tr l r) := by
  simp only [Program.opFn, Program.join, List.findSome?_append]

theorem assoc_join (p q : Program) (t x : Id) :
    (p.join q).assoc t x = (p.assoc t x).or (q.assoc t x) := by
  simp only [Program.assoc, Program.join, List.findSome?_append]

theorem lookup_append {α : Type} (l l' : List (Id × α)) (x : Id) :
    (l ++ l').lookup x = (l.lookup x).or (l'.lookup x) := by
  induction l with
  | nil => rfl
  | cons p l ih =>
    obtain ⟨y, v⟩ := p
    rw [List.cons_append, List.lookup_cons, List.lookup_cons]
    cases x == y with
    | true => rfl
    | false => exact ih

theorem const_join {p q : Program} {x : Id} {v : Val} (h : p.const x = some v) :
    (p.join q).const x = some v := by
  rw [Program.const] at h ⊢
  rw [Program.join, lookup_append]
  cases hx : p.consts.lookup x with
  | none => rw [hx] at h; cases h
  | some e => rw [hx] at h; exact h

/-- No function of a type no impl is for. -/
theorem method_none {p : Program} {t : Id} (h : p.impls.all (fun i => i.self.name ≠ t) = true) (m : Id) :
    p.method t m = none := by
  rw [Program.method, List.findSome?_eq_none_iff]
  intro i hi
  have := List.all_eq_true.1 h i hi
  rw [if_neg]
  rintro ⟨-, e⟩
  simp [e] at this

theorem opFn_none {p : Program} {t : Id} (h : p.impls.all (fun i => i.self.name ≠ t) = true) (tr : Id)
    (b : Bool) (r : Bool × Id) : p.opFn tr (b, t) r = none := by
  rw [Program.opFn, List.findSome?_eq_none_iff]
  intro i hi
  have := List.all_eq_true.1 h i hi
  rw [if_neg]
  rintro ⟨-, -, e, -⟩
  simp [e] at this

theorem self_src (f : Fld) : (src f).impls.all (fun i => i.self.name ≠ id! "EdwardsExtended") = true := by
  cases f <;> decide +kernel

theorem self_edwards : Source.edwards.impls.all (fun i => i.self.name = id! "EdwardsExtended") = true := by
  decide +kernel

theorem has_crv (c : Crv) : HasC (crvProg c) c where
  fld := by
    refine ⟨fun h => ?_, fun h => ?_, fun h => const_join (const_join h)⟩
    · rw [crvProg, method_join, method_join, h]; rfl
    · rw [crvProg, opFn_join, opFn_join, h]; rfl
  method h := by
    rw [crvProg, method_join, method_join, method_none (self_src c.fld), h]; rfl
  opFn {tr l r fn} h := by
    have e : l.2 = id! "EdwardsExtended" := by
      rw [Program.opFn] at h
      obtain ⟨i, hi, h⟩ := List.exists_of_findSome?_eq_some h
      have := List.all_eq_true.1 self_edwards i hi
      split at h
      · rename_i hh
        rw [← hh.2.2.1]
        simpa using this
      · cases h
    obtain ⟨b, t⟩ := l
    subst e
    rw [crvProg, opFn_join, opFn_join, opFn_none (self_src c.fld), h]; rfl
  assoc := by cases c <;> decide +kernel
  dval {fn} h := by
    rw [crvProg, method_join, method_join, h,
      method_none (p := src c.fld) (t := crvId c) (by cases c <;> decide +kernel),
      method_none (p := Source.edwards) (t := crvId c) (by cases c <;> decide +kernel)]
    rfl

/-! ### Points -/

/-- A point: a struct with four elements. -/
def point (t : Id) (p : EdwardsExtended Elem) : Val :=
  .struct (id! "EdwardsExtended") [id! "x", id! "y", id! "z", id! "t"]
    [elem t p.x, elem t p.y, elem t p.z, elem t p.t]

/-- The coordinates have the right number of words. -/
structure Fits (f : Fld) (p : EdwardsExtended Elem) : Prop where
  x : p.x.length = f.code.limbs
  y : p.y.length = f.code.limbs
  z : p.z.length = f.code.limbs
  t : p.t.length = f.code.limbs

/-- The functions of `edwards.rs`. -/
def edF (m : Id) : Fn := (Source.edwards.method (id! "EdwardsExtended") m).getD ⟨0, 0, .none, [], ⟨false, false, 0⟩, .nil, .unit⟩

def edMethods : List Id := [id! "normalized_bitand", id! "normalized_bitor", id! "zero", id! "init",
  id! "scalar_mult", id! "scalar_mult_normalized", id! "double", id! "doubled", id! "triple", id! "tripled"]

theorem has_ed : ∀ m ∈ edMethods, (Source.edwards.method (id! "EdwardsExtended") m).isSome = true := by
  decide +kernel

theorem ed_eq {P : Program} {c : Crv} (h : HasC P c) {m : Id} (hm : m ∈ edMethods) :
    P.method (id! "EdwardsExtended") m = some (edF m) := by
  refine h.method ?_
  rw [edF]
  cases hx : Source.edwards.method (id! "EdwardsExtended") m with
  | none => have := has_ed m hm; rw [hx] at this; cases this
  | some fn => rfl

/-! ### Expressions -/

/-- The expression of a register; `loc` are the names of the local variables. -/
def nameE (loc : List Id) : Nat → Expr
  | 0 => .field (.var (id! "self")) (id! "x")
  | 1 => .field (.var (id! "self")) (id! "y")
  | 2 => .field (.var (id! "self")) (id! "z")
  | 3 => .field (.var (id! "self")) (id! "t")
  | 4 => .field (.var (id! "rhs")) (id! "x")
  | 5 => .field (.var (id! "rhs")) (id! "y")
  | 6 => .field (.var (id! "rhs")) (id! "z")
  | 7 => .field (.var (id! "rhs")) (id! "t")
  | r + 8 => .var (loc.getD r 0)

/-- The Rust expression of an expression of the model. -/
def toExpr (loc : List Id) : PExpr → Expr
  | .get r => nameE loc r
  | .dval => .path [id! "C", id! "d_val"] .anil
  | .add a b => .bin .add (toExpr loc a) (toExpr loc b)
  | .sub a b => .bin .sub (toExpr loc a) (toExpr loc b)
  | .mul a b => .bin .mul (toExpr loc a) (toExpr loc b)
  | .squared a => .method (toExpr loc a) (id! "squared") .anil
  | .smallMul a n => .method (toExpr loc a) (id! "small_mul") (.acons (.lit none n) .anil)

/-- The Rust statements of a program of the model. -/
def toBlock (loc : List Id) : PProg → Block
  | [] => .nil
  | .set r e :: rest =>
    if r < 4 then .assign (nameE loc r) (toExpr loc e) (toBlock loc rest)
    else .let (loc.getD (r - 8) 0) (toExpr loc e) (toBlock loc rest)

def addNames : List Id := [id! "a", id! "b", id! "c", id! "d", id! "e", id! "f", id! "g", id! "h",
  id! "x3", id! "y3", id! "z3", id! "t3"]
def doubleNames : List Id := [id! "a", id! "b", id! "c", id! "d", id! "e", id! "g", id! "f", id! "h",
  id! "x3", id! "y3", id! "z3", id! "t3"]
def tripleNames : List Id := [id! "yy", id! "xx", id! "ap", id! "b", id! "xb", id! "yb", id! "aa", id! "f",
  id! "g", id! "xe", id! "yh", id! "zf", id! "zg", id! "x3", id! "y3", id! "z3", id! "t3"]

/-- The text of the point addition. -/
theorem fn_addAssign : Source.edwards.opFn (id! "AddAssign") (false, id! "EdwardsExtended") (true, id! "EdwardsExtended") =
    some (mkFn (id! "EdwardsExtended") (id! "add_assign") .mut [(id! "rhs", tyR (id! "EdwardsExtended"))]
      (tyV (id! "()")) (toBlock addNames EdwardsExtended.addP, .unit)) := by
  decide +kernel

theorem fn_double : edF (id! "double") =
    mkFn (id! "EdwardsExtended") (id! "double") .mut [] (tyV (id! "()"))
      (toBlock doubleNames EdwardsExtended.doubleP, .unit) := by
  decide +kernel

theorem fn_triple : edF (id! "triple") =
    mkFn (id! "EdwardsExtended") (id! "triple") .mut [] (tyV (id! "()"))
      (toBlock tripleNames EdwardsExtended.tripleP, .unit) := by
  decide +kernel

/-! ### `C::d_val()` -/

/-- The constant a curve uses. -/
def dName : Crv → Id
  | .e222 => id! "E222_D"
  | .curve1174 => id! "CURVE1174_D"
  | .e382 => id! "E382_D"
  | .curve41417 => id! "CURVE41417_D"
  | .e521 => id! "E521_D"

/-- The function `d_val` of a curve. -/
def dFn (c : Crv) : Fn := mkFn (crvId c) (id! "d_val") .none [] (tyV (id! "Scalar")) (.nil, .var (dName c))

theorem fn_dval (c : Crv) : (crvSrc c).method (crvId c) (id! "d_val") = some (dFn c) := by
  cases c <;> decide +kernel

theorem const_d (c : Crv) : (src c.fld).const (dName c) = some (elem (tyId c.fld) c.dElem) := by
  cases c <;> rfl

section
variable {P : Program} {c : Crv} (h : HasC P c) {w : World} (hc : w.curve = crvId c) {n : Nat}

include h in
theorem run_dval (hn : 1 ≤ n) : run P w n (dFn c) [] = .ok (elem (tyId c.fld) c.dElem, []) := by
  obtain ⟨n, rfl⟩ := Nat.exists_eq_add_of_le' hn
  rw [run_succ]
  simp only [dFn, runBody, mkFn, Fn.names, Fn.coerce, List.map, List.zipWith, List.zip_nil_left, exec, ok_bind,
    eval, List.lookup_nil, ctx_const, h.fld.const (const_d c), pure_ok]
  rfl

include h hc in
theorem eval_dval (hn : 1 ≤ n) (ρ : Env) : eval (ctx P w n) ρ (.path [id! "C", id! "d_val"] .anil) =
    .ok ⟨elem (tyId c.fld) c.dElem, [none], ρ⟩ := by
  have e : callPath (ctx P w n) [id! "C", id! "d_val"] [] [] ρ = .ok (elem (tyId c.fld) c.dElem, ρ) := by
    rw [callPath, if_neg (by decide), if_pos rfl, ctx_prog, ctx_curve, hc, h.dval (fn_dval c)]
    simp only [invoke, dFn, ctx_call]
    have := run_dval h (w := w) (n := n) hn
    rw [dFn] at this
    rw [this]
    · rfl
    · nofun
  simp only [eval, ok_bind, Out.list, e, pure_ok]

end

/-! ### State -/

open Chn (rv rv_set rv_set_ne lookup_if)

/-- The local variables, the last one first. -/
def locEnv (t : Id) (loc : List Id) (T : Tree Elem) : Nat → Env
  | 0 => []
  | k + 1 => (loc.getD k 0, elem t (rv T (8 + k))) :: locEnv t loc T k

/-- The point in four registers. -/
def pointAt (T : Tree Elem) (r : Nat) : EdwardsExtended Elem :=
  ⟨rv T r, rv T (r + 1), rv T (r + 2), rv T (r + 3)⟩

/-- The parameters. -/
def parEnv (t : Id) (rhs : Bool) (T : Tree Elem) : Env :=
  (id! "self", .ref (point t (pointAt T 0))) :: (if rhs then [(id! "rhs", .ref (point t (pointAt T 4)))] else [])

/-- All variables. -/
def envP (t : Id) (loc : List Id) (rhs : Bool) (k : Nat) (T : Tree Elem) : Env :=
  locEnv t loc T k ++ parEnv t rhs T

/-- Defined registers. -/
def okReg (rhs : Bool) (k r : Nat) : Bool := r < 4 || (rhs && r < 8) || (8 ≤ r && r < 8 + k)

/-- Only defined registers are read. -/
def okExpr (rhs : Bool) (k : Nat) : PExpr → Bool
  | .get r => okReg rhs k r
  | .dval => true
  | .add a b => okExpr rhs k a && okExpr rhs k b
  | .sub a b => okExpr rhs k a && okExpr rhs k b
  | .mul a b => okExpr rhs k a && okExpr rhs k b
  | .squared a => okExpr rhs k a
  | .smallMul a _ => okExpr rhs k a

/-- Only defined registers are read, and local variables are numbered in order. -/
def okProg (rhs : Bool) : Nat → PProg → Bool
  | _, [] => true
  | k, .set r e :: rest => okExpr rhs k e && (if r < 4 then okProg rhs k rest else r == 8 + k && okProg rhs (k + 1) rest)

/-- Names of local variables. -/
structure Names (loc : List Id) : Prop where
  nodup : loc.Nodup
  self : id! "self" ∉ loc
  rhs : id! "rhs" ∉ loc

/-- Defined registers hold elements. -/
def InvP (f : Fld) (rhs : Bool) (k : Nat) (T : Tree Elem) : Prop :=
  ∀ r, okReg rhs k r = true → ∃ v, T.get r = some v ∧ v.length = f.code.limbs

theorem InvP.rv {f : Fld} {rhs : Bool} {k : Nat} {T : Tree Elem} (hi : InvP f rhs k T) {r : Nat}
    (hr : okReg rhs k r = true) : T.get r = some (rv T r) ∧ (Chn.rv T r).length = f.code.limbs := by
  obtain ⟨v, h1, h2⟩ := hi r hr
  rw [Chn.rv, h1]
  exact ⟨rfl, h2⟩

section
variable {t : Id} {loc : List Id} (hl : Names loc) {rhs : Bool} {k : Nat} {T : Tree Elem}

theorem getD_mem {j : Nat} (hj : j < loc.length) : loc.getD j 0 ∈ loc := by
  rw [List.getD_eq_getElem?_getD, List.getElem?_eq_getElem hj]
  exact List.getElem_mem hj

theorem getD_inj (hn : loc.Nodup) {i j : Nat} (hi : i < loc.length) (hj : j < loc.length)
    (e : loc.getD i 0 = loc.getD j 0) : i = j := by
  rw [List.getD_eq_getElem?_getD, List.getElem?_eq_getElem hi, List.getD_eq_getElem?_getD,
    List.getElem?_eq_getElem hj] at e
  exact (List.Nodup.getElem_inj_iff hn).1 e

include hl in
theorem locEnv_lookup (hk : k ≤ loc.length) {j : Nat} (hj : j < k) :
    (locEnv t loc T k).lookup (loc.getD j 0) = some (elem t (rv T (8 + j))) := by
  induction k with
  | zero => omega
  | succ k ih =>
    rw [locEnv, lookup_if]
    by_cases e : j = k
    · subst e; rw [if_pos rfl]
    · rw [if_neg fun e' => e (getD_inj hl.nodup (by omega) (by omega) e'), ih (by omega) (by omega)]

theorem locEnv_other (hk : k ≤ loc.length) {x : Id} (hx : x ∉ loc) :
    (locEnv t loc T k).lookup x = none := by
  induction k with
  | zero => rfl
  | succ k ih =>
    rw [locEnv, lookup_if, if_neg, ih (by omega)]
    rintro rfl
    exact hx (getD_mem (by omega))

theorem locEnv_set (hk : k ≤ loc.length) {x : Id} (hx : x ∉ loc) {ρ ρ' : Env} {ps : List Proj} {v : Val}
    (hs : setPlace ρ (x, ps) v = .ok ρ') :
    setPlace (locEnv t loc T k ++ ρ) (x, ps) v = .ok (locEnv t loc T k ++ ρ') := by
  induction k with
  | zero => exact hs
  | succ k ih =>
    rw [locEnv, List.cons_append, setPlace, if_neg, ih (by omega)]
    · rfl
    · rintro rfl
      exact hx (getD_mem (by omega))

theorem locEnv_congr {T' : Tree Elem} (h : ∀ j < k, rv T' (8 + j) = rv T (8 + j)) :
    locEnv t loc T' k = locEnv t loc T k := by
  induction k with
  | zero => rfl
  | succ k ih => rw [locEnv, locEnv, h k (by omega), ih fun j hj => h j (by omega)]

theorem parEnv_congr {T' : Tree Elem} (h : ∀ r < 8, rv T' r = rv T r) : parEnv t rhs T' = parEnv t rhs T := by
  have e0 : pointAt T' 0 = pointAt T 0 := by
    simp only [pointAt, h 0 (by omega), h (0 + 1) (by omega), h (0 + 2) (by omega), h (0 + 3) (by omega)]
  have e4 : pointAt T' 4 = pointAt T 4 := by
    simp only [pointAt, h 4 (by omega), h (4 + 1) (by omega), h (4 + 2) (by omega), h (4 + 3) (by omega)]
  rw [parEnv, parEnv, e0, e4]

/-- `let x = e;` -/
theorem envP_let (v : Elem) :
    (loc.getD k 0, elem t v) :: envP t loc rhs k T = envP t loc rhs (k + 1) (T.set (8 + k) v) := by
  rw [envP, envP, locEnv, rv_set, locEnv_congr (T' := T.set (8 + k) v) (T := T) fun j hj => rv_set_ne _ _ (by omega),
    parEnv_congr (T' := T.set (8 + k) v) (T := T) fun r hr => rv_set_ne _ _ (by omega), List.cons_append]

/-- The coordinates. -/
def coordId : Nat → Id
  | 0 => id! "x"
  | 1 => id! "y"
  | 2 => id! "z"
  | _ => id! "t"

/-- The place of a register. -/
def placeP (loc : List Id) (r : Nat) : Place :=
  if r < 4 then (id! "self", [.field (coordId r)])
  else if r < 8 then (id! "rhs", [.field (coordId (r - 4))])
  else (loc.getD (r - 8) 0, [])

include hl in
/-- `self.x = e;` -/
theorem envP_assign (hk : k ≤ loc.length) {r : Nat} (hr : r < 4) (v : Elem) :
    setPlace (envP t loc rhs k T) (id! "self", [.field (coordId r)]) (elem t v) =
      .ok (envP t loc rhs k (T.set r v)) := by
  rw [envP, envP, locEnv_congr (T' := T.set r v) (T := T) fun j hj => rv_set_ne _ _ (by omega)]
  refine locEnv_set hk hl.self ?_
  have e4 : pointAt (T.set r v) 4 = pointAt T 4 := by
    simp only [pointAt, rv_set_ne T (r := r) v (s := 4) (by omega), rv_set_ne T (r := r) v (s := 4 + 1) (by omega),
      rv_set_ne T (r := r) v (s := 4 + 2) (by omega), rv_set_ne T (r := r) v (s := 4 + 3) (by omega)]
  rw [parEnv, parEnv, e4]
  have : r = 0 ∨ r = 1 ∨ r = 2 ∨ r = 3 := by omega
  rcases this with rfl | rfl | rfl | rfl
  · have : pointAt (T.set 0 v) 0 = { pointAt T 0 with x := v } := by
      simp [pointAt, rv_set, rv_set_ne]
    rw [this]; rfl
  · have : pointAt (T.set 1 v) 0 = { pointAt T 0 with y := v } := by
      simp [pointAt, rv_set, rv_set_ne]
    rw [this]; rfl
  · have : pointAt (T.set 2 v) 0 = { pointAt T 0 with z := v } := by
      simp [pointAt, rv_set, rv_set_ne]
    rw [this]; rfl
  · have : pointAt (T.set 3 v) 0 = { pointAt T 0 with t := v } := by
      simp [pointAt, rv_set, rv_set_ne]
    rw [this]; rfl

include hl in
theorem eval_reg {c : Ctx} (hk : k ≤ loc.length) {r : Nat} (hr : okReg rhs k r = true) :
    eval c (envP t loc rhs k T) (nameE loc r) =
      .ok ⟨elem t (rv T r), [some (placeP loc r)], envP t loc rhs k T⟩ := by
  have hs : (envP t loc rhs k T).lookup (id! "self") = some (.ref (point t (pointAt T 0))) := by
    rw [envP, lookup_append, locEnv_other hk hl.self]
    rfl
  by_cases h4 : r < 4
  · have : r = 0 ∨ r = 1 ∨ r = 2 ∨ r = 3 := by omega
    rcases this with rfl | rfl | rfl | rfl <;>
      (rw [nameE, eval, eval_var hs]; rfl)
  · by_cases h8 : r < 8
    · have hrhs : rhs = true := by
        simp only [okReg, Bool.or_eq_true, Bool.and_eq_true, decide_eq_true_eq] at hr
        rcases hr with (hr | hr) | hr
        · omega
        · exact hr.1
        · omega
      subst hrhs
      have hs' : (envP t loc true k T).lookup (id! "rhs") = some (.ref (point t (pointAt T 4))) := by
        rw [envP, lookup_append, locEnv_other hk hl.rhs]
        rfl
      have : r = 4 ∨ r = 5 ∨ r = 6 ∨ r = 7 := by omega
      rcases this with rfl | rfl | rfl | rfl <;>
        (rw [nameE, eval, eval_var hs']; rfl)
    · obtain ⟨j, rfl⟩ := Nat.exists_eq_add_of_le' (show 8 ≤ r by omega)
      have hj : j < k := by
        simp only [okReg, Bool.or_eq_true, Bool.and_eq_true, decide_eq_true_eq] at hr
        omega
      rw [nameE, eval_var (v := elem t (rv T (j + 8)))]
      · simp [placeP]
      · rw [envP, lookup_append, locEnv_lookup hl hk hj, Nat.add_comm j 8]
        rfl

end

/-! ### Running -/

section
variable {P : Program} {c : Crv} (h : HasC P c) {w : World} (hc : w.curve = crvId c) {n : Nat} (hn : 8 ≤ n)
  {loc : List Id} (hl : Names loc) {rhs : Bool}

/-- The places of an expression. -/
def placesP (loc : List Id) : PExpr → List (Option Place)
  | .get r => [some (placeP loc r)]
  | _ => [none]

theorem scalar_length {f : Fld} {pr : Profile} {a b r : List Int} :
    (f.code.add pr a b = .ok r → r.length = f.code.limbs) ∧ (f.code.sub pr a b = .ok r → r.length = f.code.limbs) ∧
    (f.code.mul pr a b = .ok r → r.length = f.code.limbs) ∧ (f.code.squared pr a = .ok r → r.length = f.code.limbs) :=
  ⟨fun e => runLimb_length e, fun e => runLimb_length e, fun e => runLimb_length e, fun e => runLimb_length e⟩

theorem dElem_length (c : Crv) : c.dElem.length = c.fld.code.limbs := by cases c <;> rfl

theorem eval_length {k : Nat} {T : Tree Elem} (hi : InvP c.fld rhs k T) {pr : Profile} : ∀ {e : PExpr} {v : Elem},
    okExpr rhs k e = true → e.eval (c.scalar pr) T = .ok v → v.length = c.fld.code.limbs := by
  rw [Crv.scalar_eq]
  intro e
  cases e with
  | get r =>
    intro v ho he
    obtain ⟨h1, h2⟩ := hi.rv ho
    rw [PExpr.eval, h1] at he
    rw [← Except.ok.inj he]; exact h2
  | dval => intro v _ he; rw [← Except.ok.inj he]; exact dElem_length c
  | add a b =>
    intro v _ he
    obtain ⟨_, _, he⟩ := Chn.bind_eq_ok he
    obtain ⟨_, _, he⟩ := Chn.bind_eq_ok he
    exact scalar_length.1 he
  | sub a b =>
    intro v _ he
    obtain ⟨_, _, he⟩ := Chn.bind_eq_ok he
    obtain ⟨_, _, he⟩ := Chn.bind_eq_ok he
    exact scalar_length.2.1 he
  | mul a b =>
    intro v _ he
    obtain ⟨_, _, he⟩ := Chn.bind_eq_ok he
    obtain ⟨_, _, he⟩ := Chn.bind_eq_ok he
    exact scalar_length.2.2.1 he
  | squared a =>
    intro v _ he
    obtain ⟨_, _, he⟩ := Chn.bind_eq_ok he
    exact (scalar_length (b := [])).2.2.2 he
  | smallMul a n =>
    intro v _ he
    obtain ⟨_, _, he⟩ := Chn.bind_eq_ok he
    exact smallMul_length he

include h hc hn hl in
theorem eval_expr {k : Nat} (hk : k ≤ loc.length) {T : Tree Elem} (hi : InvP c.fld rhs k T) : ∀ (e : PExpr),
    okExpr rhs k e = true → eval (ctx P w n) (envP (tyId c.fld) loc rhs k T) (toExpr loc e) =
      (lift (e.eval (c.scalar w.pr) T) >>= fun v =>
        .ok ⟨elem (tyId c.fld) v, placesP loc e, envP (tyId c.fld) loc rhs k T⟩) := by
  have bin : ∀ (o : OpKind), opExists o false .val .val = true → ∀ {a b : PExpr},
      okExpr rhs k a = true → okExpr rhs k b = true →
      (eval (ctx P w n) (envP (tyId c.fld) loc rhs k T) (toExpr loc a) =
      (lift (a.eval (c.scalar w.pr) T) >>= fun v =>
        .ok ⟨elem (tyId c.fld) v, placesP loc a, envP (tyId c.fld) loc rhs k T⟩)) →
      (eval (ctx P w n) (envP (tyId c.fld) loc rhs k T) (toExpr loc b) =
      (lift (b.eval (c.scalar w.pr) T) >>= fun v =>
        .ok ⟨elem (tyId c.fld) v, placesP loc b, envP (tyId c.fld) loc rhs k T⟩)) →
      eval (ctx P w n) (envP (tyId c.fld) loc rhs k T) (.bin (opBin o) (toExpr loc a) (toExpr loc b)) =
      (lift (a.eval (c.scalar w.pr) T >>= fun u => b.eval (c.scalar w.pr) T >>= fun v =>
          opSpec c.fld.code w.pr o (.elem u) (.elem v)) >>= fun v =>
        .ok ⟨elem (tyId c.fld) v, [none], envP (tyId c.fld) loc rhs k T⟩) := by
    intro o ho a b oa ob ea eb
    rw [eval, ea]
    cases ha : a.eval (c.scalar w.pr) T with
    | error e => rfl
    | ok u =>
      simp only [lift_ok, ok_bind]
      rw [eb]
      cases hb : b.eval (c.scalar w.pr) T with
      | error e => rfl
      | ok v =>
        simp only [lift_ok, ok_bind]
        have := binop_op h.fld w hn ho (x := .elem u) (y := .elem v) trivial trivial
          (eval_length hi oa ha) (eval_length hi ob hb) (envP (tyId c.fld) loc rhs k T)
        rw [show argV c.fld .val (.elem u) = elem (tyId c.fld) u from rfl,
          show argV c.fld .val (.elem v) = elem (tyId c.fld) v from rfl] at this
        rw [this]
        cases opSpec c.fld.code w.pr o (.elem u) (.elem v) with
        | error e => rfl
        | ok z => rfl
  intro e
  induction e with
  | get r =>
    intro ho
    obtain ⟨h1, h2⟩ := hi.rv ho
    rw [toExpr, eval_reg hl hk ho, PExpr.eval, h1]
    rfl
  | dval =>
    intro ho
    rw [toExpr, eval_dval h hc (by omega), Crv.scalar_eq]
    rfl
  | add a b iha ihb =>
    intro ho
    rw [okExpr, Bool.and_eq_true] at ho
    have := bin .add rfl ho.1 ho.2 (iha ho.1) (ihb ho.2)
    rw [toExpr]
    simp only [PExpr.eval, placesP]
    rw [show (c.scalar w.pr).add = c.fld.code.add w.pr by rw [Crv.scalar_eq]; rfl]
    exact this
  | sub a b iha ihb =>
    intro ho
    rw [okExpr, Bool.and_eq_true] at ho
    have := bin .sub rfl ho.1 ho.2 (iha ho.1) (ihb ho.2)
    rw [toExpr]
    simp only [PExpr.eval, placesP]
    rw [show (c.scalar w.pr).sub = c.fld.code.sub w.pr by rw [Crv.scalar_eq]; rfl]
    exact this
  | mul a b iha ihb =>
    intro ho
    rw [okExpr, Bool.and_eq_true] at ho
    have := bin .mul rfl ho.1 ho.2 (iha ho.1) (ihb ho.2)
    rw [toExpr]
    simp only [PExpr.eval, placesP]
    rw [show (c.scalar w.pr).mul = c.fld.code.mul w.pr by rw [Crv.scalar_eq]; rfl]
    exact this
  | squared a ih =>
    intro ho
    have ho' : okExpr rhs k a = true := ho
    rw [toExpr, eval, ih ho', PExpr.eval, show (c.scalar w.pr).squared = c.fld.code.squared w.pr by
      rw [Crv.scalar_eq]; rfl]
    cases ha : a.eval (c.scalar w.pr) T with
    | error e => rfl
    | ok u =>
      simp only [lift_ok, ok_bind, eval, Out.list]
      rw [call_ref w (IsElem.val (tyId c.fld) u) (by decide) (method_eq h.fld (by decide))
        (muts_squared c.fld) _ _ _ _ (recv_squared c.fld), run_squared h.fld w (by omega) (eval_length hi ho' ha)]
      cases c.fld.code.squared w.pr u with
      | error e => rfl
      | ok z => rfl
  | smallMul a j ih =>
    intro ho
    have ho' : okExpr rhs k a = true := ho
    rw [toExpr, eval, ih ho', PExpr.eval, show (c.scalar w.pr).smallMul = fun a (n : Nat) => c.fld.code.smallMul w.pr a n by
      rw [Crv.scalar_eq]; rfl]
    cases ha : a.eval (c.scalar w.pr) T with
    | error e => rfl
    | ok u =>
      simp only [lift_ok, ok_bind, eval, Out.list, pure_ok]
      have e2 : run P w n (methF c.fld (id! "small_mul")) [.ref (elem (tyId c.fld) u), .int none j] =
          run P w n (methF c.fld (id! "small_mul")) [.ref (elem (tyId c.fld) u), .int (some .i32) j] := by
        obtain ⟨n, rfl⟩ := Nat.exists_eq_add_of_le' (show 1 ≤ n by omega)
        rw [fn_small_mul]
        rfl
      rw [call_ref w (IsElem.val (tyId c.fld) u) (by decide) (method_eq h.fld (by decide))
        (muts_small_mul c.fld) _ _ _ _ (recv_small_mul c.fld), e2,
        run_small_mul h.fld w (by omega) (eval_length hi ho' ha)]
      cases c.fld.code.smallMul w.pr u j with
      | error e => rfl
      | ok z => rfl

/-- The number of local variables at the end. -/
def countP : Nat → PProg → Nat
  | k, [] => k
  | k, .set r _ :: rest => if r < 4 then countP k rest else countP (k + 1) rest

theorem nameE_low {r : Nat} (hr : r < 4) (loc : List Id) :
    nameE loc r = .field (.var (id! "self")) (coordId r) := by
  have : r = 0 ∨ r = 1 ∨ r = 2 ∨ r = 3 := by omega
  rcases this with rfl | rfl | rfl | rfl <;> rfl

theorem countP_le (p : PProg) : ∀ k, k ≤ countP k p := by
  induction p with
  | nil => intro k; rfl
  | cons s p ih =>
    intro k
    obtain ⟨r, e⟩ := s
    rw [countP]
    split
    · exact ih k
    · exact Nat.le_of_succ_le (ih (k + 1))

include h hc hn hl in
theorem exec_prog : ∀ (p : PProg) (k : Nat), okProg rhs k p = true → countP k p ≤ loc.length →
    ∀ {T : Tree Elem}, InvP c.fld rhs k T →
    exec (ctx P w n) (envP (tyId c.fld) loc rhs k T) (toBlock loc p) =
      (lift (runPoint (c.scalar w.pr) p T) >>= fun T' =>
        .ok (envP (tyId c.fld) loc rhs (countP k p) T')) ∧
    ∀ T', runPoint (c.scalar w.pr) p T = .ok T' → InvP c.fld rhs (countP k p) T' := by
  intro p
  induction p with
  | nil => intro k _ _ T hi; exact ⟨rfl, fun T' e => by rw [← Except.ok.inj e]; exact hi⟩
  | cons s p ih =>
    obtain ⟨r, e⟩ := s
    intro k ho hk T hi
    have hk' : k ≤ loc.length := Nat.le_trans (countP_le _ k) hk
    rw [okProg, Bool.and_eq_true] at ho
    have ev := eval_expr h hc hn hl hk' hi e ho.1
    rw [toBlock, runPoint, countP]
    rw [countP] at hk
    by_cases hr : r < 4
    · rw [if_pos hr, if_pos hr]
      rw [if_pos hr] at hk ho
      rw [exec, ev]
      cases he : e.eval (c.scalar w.pr) T with
      | error x => exact ⟨rfl, nofun⟩
      | ok v =>
        have hv := eval_length hi ho.1 he
        have hi' : InvP c.fld rhs k (T.set r v) := by
          intro s hs
          rw [Tree.get_set]
          split
          · exact ⟨v, rfl, hv⟩
          · exact hi s hs
        obtain ⟨i1, i2⟩ := ih k ho.2 hk hi'
        refine ⟨?_, i2⟩
        simp only [lift_ok, ok_bind]
        rw [eval_reg hl hk' (by simp [okReg, hr]), ok_bind]
        simp only [placeP, hr, if_true]
        rw [envP_assign hl hk' hr, ok_bind, i1]
    · rw [if_neg hr, if_neg hr]
      rw [if_neg hr, Bool.and_eq_true, beq_iff_eq] at ho
      rw [if_neg hr] at hk
      obtain ⟨ho, rfl, ho'⟩ := ho
      rw [exec, ev]
      cases he : e.eval (c.scalar w.pr) T with
      | error x => exact ⟨rfl, nofun⟩
      | ok v =>
        have hv := eval_length hi ho he
        have hi' : InvP c.fld rhs (k + 1) (T.set (8 + k) v) := by
          intro s hs
          rw [Tree.get_set]
          split
          · exact ⟨v, rfl, hv⟩
          · refine hi s ?_
            rename_i hne
            simp only [okReg, Bool.or_eq_true, Bool.and_eq_true, decide_eq_true_eq] at hs ⊢
            rcases hs with hs | hs
            · exact .inl hs
            · exact .inr ⟨hs.1, by omega⟩
        obtain ⟨i1, i2⟩ := ih (k + 1) ho' hk hi'
        refine ⟨?_, i2⟩
        simp only [lift_ok, ok_bind]
        rw [Nat.add_sub_cancel_left, envP_let, i1]

end

/-! ### The three functions -/

theorem get_regs (p q : EdwardsExtended Elem) (r : Nat) :
    (EdwardsExtended.regs p q).get r = [p.x, p.y, p.z, p.t, q.x, q.y, q.z, q.t][r]? := by
  rw [EdwardsExtended.regs, Tree.get_setList, Tree.get_leaf]
  by_cases hr : r < 8
  · rw [if_pos ⟨Nat.zero_le _, by simpa using hr⟩]; rfl
  · rw [if_neg (by simpa using hr), List.getElem?_eq_none (by simpa using hr)]

theorem locEnv_length (t : Id) (loc : List Id) (T : Tree Elem) (k : Nat) : (locEnv t loc T k).length = k := by
  induction k with
  | zero => rfl
  | succ k ih => rw [locEnv, List.length_cons, ih]

section
variable {P : Program} {c : Crv} (h : HasC P c) {w : World} (hc : w.curve = crvId c) {n : Nat} (hn : 9 ≤ n)
  {p q : EdwardsExtended Elem} (hp : Fits c.fld p) (hq : Fits c.fld q)

theorem pointAt_regs (p q : EdwardsExtended Elem) : pointAt (EdwardsExtended.regs p q) 0 = p ∧
    pointAt (EdwardsExtended.regs p q) 4 = q := by
  simp only [pointAt, Chn.rv, get_regs]
  exact ⟨rfl, rfl⟩

include hp hq in
theorem inv_regs (rhs : Bool) : InvP c.fld rhs 0 (EdwardsExtended.regs p q) := by
  intro r hr
  have h8 : r < 8 := by
    simp only [okReg, Bool.or_eq_true, Bool.and_eq_true, decide_eq_true_eq] at hr
    omega
  rw [get_regs]
  have : r = 0 ∨ r = 1 ∨ r = 2 ∨ r = 3 ∨ r = 4 ∨ r = 5 ∨ r = 6 ∨ r = 7 := by omega
  rcases this with rfl | rfl | rfl | rfl | rfl | rfl | rfl | rfl
  exacts [⟨_, rfl, hp.x⟩, ⟨_, rfl, hp.y⟩, ⟨_, rfl, hp.z⟩, ⟨_, rfl, hp.t⟩, ⟨_, rfl, hq.x⟩, ⟨_, rfl, hq.y⟩,
    ⟨_, rfl, hq.z⟩, ⟨_, rfl, hq.t⟩]

theorem ofRegs_inv {rhs : Bool} {k : Nat} {T : Tree Elem} {f : Fld} (hi : InvP f rhs k T) :
    EdwardsExtended.ofRegs T = .ok (pointAt T 0) ∧ Fits f (pointAt T 0) := by
  obtain ⟨h0, l0⟩ := hi.rv (r := 0) rfl
  obtain ⟨h1, l1⟩ := hi.rv (r := 1) rfl
  obtain ⟨h2, l2⟩ := hi.rv (r := 2) rfl
  obtain ⟨h3, l3⟩ := hi.rv (r := 3) rfl
  rw [EdwardsExtended.ofRegs, h0, h1, h2, h3]
  exact ⟨rfl, ⟨l0, l1, l2, l3⟩⟩

theorem parEnv_eq (t : Id) (rhs : Bool) (T : Tree Elem) (loc : List Id) (k : Nat) :
    (envP t loc rhs k T).drop ((envP t loc rhs k T).length - (parEnv t rhs T).length) = parEnv t rhs T := by
  rw [envP, List.length_append, Nat.add_sub_cancel, List.drop_left]

include h hc hn hp hq in
/-- A function with one more point as parameter. -/
theorem run_formula2 {fn : Fn} {loc : List Id} {b : PProg} {m : Id}
    (hf : fn = mkFn (id! "EdwardsExtended") m .mut [(id! "rhs", tyR (id! "EdwardsExtended"))]
      (tyV (id! "()")) (toBlock loc b, .unit)) (hl : Names loc) (ho : okProg true 0 b = true)
    (hk : countP 0 b ≤ loc.length)
    (hr : ∀ T T', runPoint (c.scalar w.pr) b T = .ok T' → ∀ r, 4 ≤ r → r < 8 → rv T' r = rv T r) :
    run P w n fn [.ref (point (tyId c.fld) p), .ref (point (tyId c.fld) q)] =
      (lift (EdwardsExtended.call (c.scalar w.pr) b p q) >>= fun r =>
        .ok (.unit, [.ref (point (tyId c.fld) r), .ref (point (tyId c.fld) q)])) := by
  obtain ⟨n, rfl⟩ := Nat.exists_eq_add_of_le' (show 1 ≤ n by omega)
  obtain ⟨p0, p4⟩ := pointAt_regs p q
  obtain ⟨e1, e2⟩ := exec_prog h hc (show 8 ≤ n by omega) hl b 0 ho hk (inv_regs hp hq true)
  have e0 : envP (tyId c.fld) loc true 0 (EdwardsExtended.regs p q) =
      [(id! "self", .ref (point (tyId c.fld) p)), (id! "rhs", .ref (point (tyId c.fld) q))] := by
    rw [envP, parEnv, p0, p4]; rfl
  rw [run_succ, hf, EdwardsExtended.call]
  simp only [runBody, mkFn, Fn.names, Fn.coerce, List.map, List.zipWith, List.zip_cons_cons,
    List.zip_nil_left, coerce_ref]
  rw [← e0, e1]
  cases hx : runPoint (c.scalar w.pr) b (EdwardsExtended.regs p q) with
  | error e => rfl
  | ok T =>
    obtain ⟨o1, -⟩ := ofRegs_inv (e2 T hx)
    simp only [lift_ok, ok_bind, o1, eval, pure_ok]
    have := parEnv_eq (tyId c.fld) true T loc (countP 0 b)
    have hq' : pointAt T 4 = q := by
      rw [← p4, pointAt, pointAt, hr _ _ hx 4 (by omega) (by omega), hr _ _ hx (4 + 1) (by omega) (by omega),
        hr _ _ hx (4 + 2) (by omega) (by omega), hr _ _ hx (4 + 3) (by omega) (by omega)]
    rw [show (parEnv (tyId c.fld) true T).length = 2 from rfl] at this
    rw [show [id! "self", id! "rhs"].length = 2 from rfl, this, parEnv, hq']
    rfl

include h hc hn hp in
/-- A function without further parameters. -/
theorem run_formula1 {fn : Fn} {loc : List Id} {b : PProg} {m : Id}
    (hf : fn = mkFn (id! "EdwardsExtended") m .mut [] (tyV (id! "()")) (toBlock loc b, .unit)) (hl : Names loc)
    (ho : okProg false 0 b = true) (hk : countP 0 b ≤ loc.length) :
    run P w n fn [.ref (point (tyId c.fld) p)] =
      (lift (EdwardsExtended.call (c.scalar w.pr) b p p) >>= fun r =>
        .ok (.unit, [.ref (point (tyId c.fld) r)])) := by
  obtain ⟨n, rfl⟩ := Nat.exists_eq_add_of_le' (show 1 ≤ n by omega)
  obtain ⟨p0, -⟩ := pointAt_regs p p
  obtain ⟨e1, e2⟩ := exec_prog h hc (show 8 ≤ n by omega) hl b 0 ho hk (inv_regs hp hp false)
  have e0 : envP (tyId c.fld) loc false 0 (EdwardsExtended.regs p p) =
      [(id! "self", .ref (point (tyId c.fld) p))] := by
    rw [envP, parEnv, p0]; rfl
  rw [run_succ, hf, EdwardsExtended.call]
  simp only [runBody, mkFn, Fn.names, Fn.coerce, List.map, List.zipWith, List.zip_cons_cons,
    List.zip_nil_left]
  rw [← e0, e1]
  cases hx : runPoint (c.scalar w.pr) b (EdwardsExtended.regs p p) with
  | error e => rfl
  | ok T =>
    obtain ⟨o1, -⟩ := ofRegs_inv (e2 T hx)
    simp only [lift_ok, ok_bind, o1, eval, pure_ok]
    have := parEnv_eq (tyId c.fld) false T loc (countP 0 b)
    rw [show (parEnv (tyId c.fld) false T).length = 1 from rfl] at this
    rw [show [id! "self"].length = 1 from rfl, this, parEnv]
    rfl

/-- Registers of `rhs` are not assigned. -/
theorem keeps_rhs {S : Type} {C : Scalar S} : ∀ {b : PProg}, (b.all fun | .set r _ => r < 4 || 8 ≤ r) = true →
    ∀ T T', runPoint C b T = .ok T' → ∀ r, 4 ≤ r → r < 8 → T'.get r = T.get r := by
  intro b
  induction b with
  | nil => intro _ T T' e r _ _; rw [← Except.ok.inj e]
  | cons s b ih =>
    obtain ⟨x, e⟩ := s
    intro hb T T' he r h4 h8
    rw [List.all_cons, Bool.and_eq_true] at hb
    rw [runPoint] at he
    obtain ⟨v, -, he⟩ := Chn.bind_eq_ok he
    rw [ih hb.2 _ _ he r h4 h8, Tree.get_set_ne]
    have := hb.1
    simp only [Bool.or_eq_true, decide_eq_true_eq] at this
    omega

/-- The function of the point addition. -/
def addFn : Fn := mkFn (id! "EdwardsExtended") (id! "add_assign") .mut [(id! "rhs", tyR (id! "EdwardsExtended"))]
  (tyV (id! "()")) (toBlock addNames EdwardsExtended.addP, .unit)

include h hc hn hp hq in
theorem run_point_add : run P w n addFn [.ref (point (tyId c.fld) p), .ref (point (tyId c.fld) q)] =
    (lift (p.addAssign (c.scalar w.pr) q) >>= fun r =>
      .ok (.unit, [.ref (point (tyId c.fld) r), .ref (point (tyId c.fld) q)])) :=
  run_formula2 h hc hn hp hq rfl ⟨by decide, by decide, by decide⟩ (by decide) (by decide)
    fun T T' e r h4 h8 => by rw [Chn.rv, keeps_rhs (by decide) T T' e r h4 h8]; rfl

include h hc hn hp in
theorem run_point_double : run P w n (edF (id! "double")) [.ref (point (tyId c.fld) p)] =
    (lift (p.double (c.scalar w.pr)) >>= fun r => .ok (.unit, [.ref (point (tyId c.fld) r)])) :=
  run_formula1 h hc hn hp fn_double ⟨by decide, by decide, by decide⟩ (by decide) (by decide)

include h hc hn hp in
theorem run_point_triple : run P w n (edF (id! "triple")) [.ref (point (tyId c.fld) p)] =
    (lift (p.triple (c.scalar w.pr)) >>= fun r => .ok (.unit, [.ref (point (tyId c.fld) r)])) :=
  run_formula1 h hc hn hp fn_triple ⟨by decide, by decide, by decide⟩ (by decide) (by decide)

/-- What a formula returns. -/
theorem call_fits {P : Program} (h : HasC P c) {w : World} (hc : w.curve = crvId c) {p q r : EdwardsExtended Elem}
    (hp : Fits c.fld p) (hq : Fits c.fld q) {b : PProg} {loc : List Id} (hl : Names loc)
    (ho : okProg true 0 b = true) (hk : countP 0 b ≤ loc.length)
    (e : EdwardsExtended.call (c.scalar w.pr) b p q = .ok r) : Fits c.fld r := by
  obtain ⟨-, e2⟩ := exec_prog h hc (show 8 ≤ 8 by omega) hl b 0 ho hk (inv_regs hp hq true)
  rw [EdwardsExtended.call] at e
  obtain ⟨T, hT, e⟩ := Chn.bind_eq_ok e
  obtain ⟨o1, o2⟩ := ofRegs_inv (e2 T hT)
  rw [o1] at e
  rw [← Except.ok.inj e]
  exact o2

/-- A world of the curve. -/
def crvWorld (c : Crv) (pr : Profile) : World := ⟨pr, crvId c, fun _ _ => 0⟩

theorem add_fits {pr : Profile} {p q r : EdwardsExtended Elem} (hp : Fits c.fld p) (hq : Fits c.fld q)
    (e : p.addAssign (c.scalar pr) q = .ok r) : Fits c.fld r :=
  call_fits (has_crv c) (w := crvWorld c pr) rfl hp hq (loc := addNames) ⟨by decide, by decide, by decide⟩
    (by decide) (by decide) e

theorem double_fits {pr : Profile} {p r : EdwardsExtended Elem} (hp : Fits c.fld p)
    (e : p.double (c.scalar pr) = .ok r) : Fits c.fld r :=
  call_fits (has_crv c) (w := crvWorld c pr) rfl hp hp (loc := doubleNames) ⟨by decide, by decide, by decide⟩
    (by decide) (by decide) e

theorem triple_fits {pr : Profile} {p r : EdwardsExtended Elem} (hp : Fits c.fld p)
    (e : p.triple (c.scalar pr) = .ok r) : Fits c.fld r :=
  call_fits (has_crv c) (w := crvWorld c pr) rfl hp hp (loc := tripleNames) ⟨by decide, by decide, by decide⟩
    (by decide) (by decide) e

end

end Verif.Rust

import Verif.Rust.Basic

/-!
# Limb functions

A translation of the bodies of limb functions from the Rust syntax to the straight-line programs of
`Verif/Model/Ast.lean`, and the proof that running the translation is interpreting the body.
-/

namespace Verif.Rust.Limb

/-- The parameter of a limb function besides `self`. -/
inductive Arg where
  | none
  /-- `x: &Self` -/
  | elem (x : Id)
  /-- `x: &[u8]` or `&mut [u8]` -/
  | bytes (x : Id)
  /-- `x: i32` -/
  | int (x : Id)
  deriving DecidableEq

/-- What the translation knows about the function and the field. -/
structure Cfg where
  ty : Id
  limbs : Nat
  cval : Nat
  carryLimb : Nat
  carryShift : Nat
  arg : Arg
  /-- the function stores to the slice (`pack_normalized`), not to `self` -/
  toArg : Bool

/-- The name of the parameter (`self` if there is none). -/
def Arg.name : Arg → Id
  | .none => id! "self"
  | .elem x => x
  | .bytes x => x
  | .int x => x

/-- Names that are no local variables. -/
def Cfg.reserved (g : Cfg) (x : Id) : Bool :=
  x == id! "self" || x == g.arg.name || x == id! "C_VAL"

/-- First slot of the words of a variable. -/
def Cfg.base (g : Cfg) (x : Id) : Option Nat :=
  if x = id! "self" then some 0
  else match g.arg with
    | .elem y => if x = y then some 16 else none
    | _ => none

/-- Is the variable the slice? -/
def Cfg.isBytes (g : Cfg) (x : Id) : Bool :=
  match g.arg with
  | .bytes y => x = y
  | _ => false

/-- Is the variable the integer? -/
def Cfg.isInt (g : Cfg) (x : Id) : Bool :=
  match g.arg with
  | .int y => x = y
  | _ => false

/-- The type of the operands of an operator. -/
def join : Option IntTy → Option IntTy → Option IntTy
  | some s, some t => if s = t then some s else none
  | some s, none => some s
  | none, some t => some t
  | none, none => none

/-- Translate an expression; also gives its type. -/
def compE (g : Cfg) (names : List (Id × Nat)) : Expr → Option (Verif.Expr × Option IntTy)
  | .lit none n => some (.lit n, none)
  | .var x =>
    match names.lookup x with
    | some s => some (.get s, some .i64)
    | none => if x = id! "C_VAL" then some (.lit g.cval, some .i64) else none
  | .index (.field (.var x) y) (.lit none i) =>
    match g.base x with
    | some b => if y = id! "0" ∧ i < g.limbs then some (.get (b + i), some .i64) else none
    | none => none
  | .index (.var x) (.lit none i) =>
    if g.isBytes x = true ∧ i < 112 then some (.get (16 + i), some .u8) else none
  | .bin .shl a (.lit none k) =>
    match compE g names a with
    | some (a', some .i64) => if k < 64 then some (.shl a' k, some .i64) else none
    | _ => none
  | .bin .shr a (.lit none k) =>
    match compE g names a with
    | some (a', some .i64) => if k < 64 then some (.shr a' k, some .i64) else none
    | _ => none
  | .bin op a b =>
    match compE g names a, compE g names b with
    | some (a', s), some (b', t) =>
      match op, join s t with
      | .add, some .i64 => some (.add a' b', some .i64)
      | .sub, some .i64 => some (.sub a' b', some .i64)
      | .mul, some .i64 => some (.mul a' b', some .i64)
      | .and, some .i64 => some (.and a' b', some .i64)
      | .or, some .i64 => some (.or a' b', some .i64)
      | .or, some .u8 => some (.or a' b', some .u8)
      | _, _ => none
    | _, _ => none
  | .cast e .u8 =>
    match compE g names e with
    | some (e', some .i64) => some (.u8 e', some .u8)
    | _ => none
  | .cast e .i64 =>
    match compE g names e with
    | some (e', some .u8) => some (e', some .i64)
    | _ => none
  | .method (.var x) m .anil =>
    match g.base x with
    | some b =>
      if m = id! "carry_out" then some (.shr (.get (b + g.carryLimb)) g.carryShift, some .i64)
      else none
    | none => none
  | .path [t, m] (.acons (.var x) .anil) =>
    if t = id! "i64" ∧ m = id! "from" ∧ g.isInt x = true then some (.get 16, some .i64) else none
  | _ => none

/-- The slot a statement stores to. -/
def compP (g : Cfg) : Expr → Option Nat
  | .index (.field (.var x) y) (.lit none i) =>
    if g.toArg = false ∧ x = id! "self" ∧ y = id! "0" ∧ i < g.limbs then some i else none
  | .index (.var x) (.lit none i) =>
    if g.toArg = true ∧ g.isBytes x = true ∧ i < 112 then some (16 + i) else none
  | _ => none

/-- Translate a body. -/
def compB (g : Cfg) (names : List (Id × Nat)) : Block → Option Prog
  | .nil => some []
  | .let x e rest =>
    if g.reserved x = true then none
    else match compE g names e with
      | some (e', some .i64) =>
        match compB g ((x, 128 + names.length) :: names) rest with
        | some p => some (.bind (128 + names.length) e' :: p)
        | none => none
      | _ => none
  | .assign p e rest =>
    match compP g p, compE g names e with
    | some s, some (e', some t) =>
      if t = (if g.toArg then .u8 else .i64) then
        match compB g names rest with
        | some p => some (.store s e' :: p)
        | none => none
      else none
    | _, _ => none
  | _ => none

/-! ### States -/

/-- The value of the parameter. -/
def Cfg.argVal (g : Cfg) (aw : List Int) : Val :=
  match g.arg with
  | .none => .unit
  | .elem _ => .ref (elem g.ty aw)
  | .bytes _ => .ref (.arr (aw.map byte))
  | .int _ => .int (some .i32) (aw.getD 0 0)

/-- `self` and the parameter. -/
def Cfg.params (g : Cfg) (sw aw : List Int) : Env :=
  (id! "self", .ref (elem g.ty sw)) ::
    match g.arg with
    | .none => []
    | _ => [(g.arg.name, g.argVal aw)]

/-- The interpreter's variables and the slots agree. -/
structure Rel (g : Cfg) (names : List (Id × Nat)) (ρ : Env) (σ : Verif.Env) (sw aw : List Int) :
    Prop where
  locals : ∃ l : Env, ρ = l ++ g.params sw aw ∧ (∀ x, g.reserved x = true → l.lookup x = none) ∧
    ∀ x, match names.lookup x with
      | some s => 128 ≤ s ∧ s < 128 + names.length ∧
          ∃ n, l.lookup x = some (word n) ∧ σ.get s = some n
      | none => l.lookup x = none
  self_len : sw.length = g.limbs
  arg_len : ∀ x, g.arg = .elem x → aw.length = g.limbs
  arg_int : ∀ x, g.arg = .int x → aw.length = 1
  self_get : ∀ i < 16, σ.get i = sw[i]?
  arg_get : ∀ i < 112, σ.get (16 + i) = aw[i]?

/-- What the translation supposes about the surroundings. -/
structure Ok (g : Cfg) (c : Ctx) : Prop where
  limbs : g.limbs ≤ 16
  carry : g.carryLimb < g.limbs
  name : g.arg = .none ∨ (g.arg.name ≠ id! "self" ∧ g.arg.name ≠ id! "C_VAL")
  cval : c.const (id! "C_VAL") = some (word g.cval)
  carryOut : ∃ fn, c.prog.method g.ty (id! "carry_out") = some fn ∧ fn.recv = .ref ∧ fn.params = [] ∧
    ∀ a : List Int, a.length = g.limbs → ∃ outs, c.call fn [.ref (elem g.ty a)] =
      .ok (word (shr64 (a.getD g.carryLimb 0) g.carryShift), outs)

theorem lookup_append (l m : Env) (x : Id) :
    (l ++ m).lookup x = match l.lookup x with
      | some v => some v
      | none => m.lookup x := by
  induction l with
  | nil => rfl
  | cons p l ih =>
    obtain ⟨y, v⟩ := p
    simp only [List.cons_append, List.lookup_cons, ih]
    cases x == y <;> rfl

variable {g : Cfg} {c : Ctx} {names : List (Id × Nat)} {ρ : Env} {σ : Verif.Env} {sw aw : List Int}

theorem Rel.lookup_reserved (h : Rel g names ρ σ sw aw) {x : Id} (hx : g.reserved x = true) :
    ρ.lookup x = (g.params sw aw).lookup x := by
  obtain ⟨l, rfl, hl, -⟩ := h.locals
  rw [lookup_append, hl x hx]

theorem Rel.lookup_self (h : Rel g names ρ σ sw aw) :
    ρ.lookup (id! "self") = some (.ref (elem g.ty sw)) := by
  rw [h.lookup_reserved (by simp [Cfg.reserved])]
  rfl

theorem Rel.lookup_arg (hc : Ok g c) (h : Rel g names ρ σ sw aw) (ha : g.arg ≠ .none) :
    ρ.lookup g.arg.name = some (g.argVal aw) := by
  rw [h.lookup_reserved (by simp [Cfg.reserved])]
  have hn := hc.name.resolve_left ha
  simp only [Cfg.params, List.lookup_cons]
  rw [show (g.arg.name == id! "self") = false from by simpa using hn.1]
  cases hg : g.arg with
  | none => exact absurd hg ha
  | _ => simp [Arg.name]

theorem Rel.lookup_cval (hc : Ok g c) (h : Rel g names ρ σ sw aw) :
    ρ.lookup (id! "C_VAL") = none := by
  rw [h.lookup_reserved (by simp [Cfg.reserved])]
  rcases hc.name with ha | hn
  · simp [Cfg.params, ha]
  · have : (id! "C_VAL" == g.arg.name) = false := by
      simpa using fun h => hn.2 h.symm
    simp only [Cfg.params, List.lookup_cons]
    cases hg : g.arg <;> simp_all

theorem elem_get (t : Id) (a : List Int) (i : Nat) (hi : i < a.length) :
    (do let v ← getField (id! "0") (.ref (elem t a)); getIndex v (.int none i)) =
      .ok (word (a.getD i 0)) := by
  simp [getField, elem, Val.strip, getIndex, hi, List.getD]

/-- The words of a variable. -/
theorem Rel.base (hc : Ok g c) (h : Rel g names ρ σ sw aw) {x : Id} {b : Nat}
    (hb : g.base x = some b) : ∃ w : List Int, ρ.lookup x = some (.ref (elem g.ty w)) ∧
      w.length = g.limbs ∧ ∀ i < g.limbs, σ.get (b + i) = some (w.getD i 0) := by
  have hl := hc.limbs
  by_cases hx : x = id! "self"
  · subst hx
    simp only [Cfg.base, if_true, Option.some.injEq] at hb
    subst hb
    refine ⟨sw, h.lookup_self, h.self_len, fun i hi => ?_⟩
    rw [Nat.zero_add, h.self_get i (by omega)]
    have : i < sw.length := by rw [h.self_len]; exact hi
    simp [List.getD, this]
  · cases hg : g.arg with
    | elem y =>
      simp only [Cfg.base, hx, if_false, hg] at hb
      split at hb
      · rename_i hxy
        subst hxy
        cases hb
        refine ⟨aw, ?_, h.arg_len _ hg, fun i hi => ?_⟩
        · have := h.lookup_arg hc (by rw [hg]; nofun)
          simpa [hg, Arg.name, Cfg.argVal] using this
        · rw [h.arg_get i (by omega)]
          have : i < aw.length := by rw [h.arg_len _ hg]; exact hi
          simp [List.getD, this]
      · cases hb
    | _ => simp [Cfg.base, hx, hg] at hb

theorem join_unify {s t : Option IntTy} {u : IntTy} (h : join s t = some u) :
    unify s t = .ok u := by
  cases s <;> cases t <;> simp_all [join, unify]

theorem eval_bin {op : BinOp} {a b : Expr} {s t : Option IntTy} {A B : Res Int}
    (ha : ∃ pl, eval c ρ a = (lift A >>= fun n => .ok ⟨.int s n, pl, ρ⟩))
    (hb : ∃ pl, eval c ρ b = (lift B >>= fun n => .ok ⟨.int t n, pl, ρ⟩)) :
    eval c ρ (.bin op a b) = (lift A >>= fun x => lift B >>= fun y =>
      prim c.pr op (.int s x) (.int t y) >>= fun v => .ok ⟨v, [none], ρ⟩) := by
  obtain ⟨p, ha⟩ := ha
  obtain ⟨q, hb⟩ := hb
  cases A <;> cases B <;> simp [eval, ha, hb, binop, Val.isPrim]

theorem prim_arith {pr : Profile} {s t : Option IntTy} (h : join s t = some .i64) (x y : Int) :
    prim pr .add (.int s x) (.int t y) = (lift (arith pr (x + y)) >>= fun n => .ok (word n)) ∧
    prim pr .sub (.int s x) (.int t y) = (lift (arith pr (x - y)) >>= fun n => .ok (word n)) ∧
    prim pr .mul (.int s x) (.int t y) = (lift (arith pr (x * y)) >>= fun n => .ok (word n)) ∧
    prim pr .and (.int s x) (.int t y) = .ok (word (and64 x y)) ∧
    prim pr .or (.int s x) (.int t y) = .ok (word (or64 x y)) := by
  have := join_unify h
  simp [prim, this, arithTy, word]

theorem prim_or8 {pr : Profile} {s t : Option IntTy} (h : join s t = some .u8) (x y : Int) :
    prim pr .or (.int s x) (.int t y) = .ok (byte (or64 x y)) := by
  simp [prim, join_unify h, byte]

theorem prim_shift {pr : Profile} (x : Int) {k : Nat} (hk : k < 64) :
    prim pr .shl (.int (some .i64) x) (.int none k) = .ok (word (shl64 x k)) ∧
    prim pr .shr (.int (some .i64) x) (.int none k) = .ok (word (shr64 x k)) := by
  have hk' : (k : Int) < 64 := by exact_mod_cast hk
  simp [prim, shiftBy, distance, word, hk']

theorem lit_sound (k : Nat) : ∃ pl, eval c ρ (.lit none k) =
    (lift (.ok (k : Int)) >>= fun n => .ok ⟨.int none n, pl, ρ⟩) := ⟨[none], rfl⟩

/-- The translation of an expression has its value. -/
theorem compE_sound (hc : Ok g c) (h : Rel g names ρ σ sw aw) (e : Expr) :
    ∀ {e' t}, compE g names e = some (e', t) → ∃ pl,
      eval c ρ e = (lift (e'.eval c.pr σ) >>= fun n => .ok ⟨.int t n, pl, ρ⟩) := by
  fun_induction compE g names e with
  | case1 =>
    intro e' t he
    cases he
    exact ⟨[none], by simp [eval, Verif.Expr.eval]⟩
  | case2 x s hx =>
    intro e' t he
    cases he
    obtain ⟨l, rfl, -, hl⟩ := h.locals
    have := hl x
    rw [hx] at this
    obtain ⟨-, -, n, h1, h2⟩ := this
    exact ⟨[some (x, [])], by simp [eval, lookup_append, h1, h2, Verif.Expr.eval, word]⟩
  | case3 =>
    intro e' t he
    cases he
    exact ⟨[none], by simp [eval, h.lookup_cval hc, hc.cval, word, Verif.Expr.eval]⟩
  | case5 x y i b hb hi =>
    intro e' t he
    cases he
    obtain ⟨w, h1, h2, h3⟩ := h.base hc hb
    obtain ⟨rfl, hi⟩ := hi
    have := elem_get g.ty w i (by omega)
    refine ⟨[some (x, [.field (id! "0"), .index i])], ?_⟩
    have hi' : i < w.length := by omega
    simp [eval, h1, h3 i hi, Verif.Expr.eval, getField, elem, Val.strip, getIndex, hi', word,
      indexProj]
  | case8 x i hi =>
    intro e' t he
    cases he
    obtain ⟨hx, hi⟩ := hi
    cases hg : g.arg with
    | bytes y =>
      simp only [Cfg.isBytes, hg, decide_eq_true_eq] at hx
      subst hx
      have h1 := h.lookup_arg hc (by rw [hg]; nofun)
      simp only [hg, Arg.name, Cfg.argVal] at h1
      refine ⟨[some (x, [.index i])], ?_⟩
      have h2 := h.arg_get i hi
      by_cases hl : i < aw.length
      · simp [eval, h1, h2, hl, Verif.Expr.eval, Val.strip, getIndex, byte, indexProj]
      · simp [eval, h1, h2, hl, Verif.Expr.eval, Val.strip, getIndex, indexProj]
    | _ => simp [Cfg.isBytes, hg] at hx
  | case10 a k a' ha hk ih =>
    intro e' t he
    cases he
    refine ⟨[none], ?_⟩
    rw [eval_bin (ih ha) (lit_sound k)]
    cases hA : a'.eval c.pr σ <;> simp [Verif.Expr.eval, hA, (prim_shift _ hk).1, word]
  | case13 a k a' ha hk ih =>
    intro e' t he
    cases he
    refine ⟨[none], ?_⟩
    rw [eval_bin (ih ha) (lit_sound k)]
    cases hA : a'.eval c.pr σ <;> simp [Verif.Expr.eval, hA, (prim_shift _ hk).2, word]
  | case16 a b a' s b' u hb ha hj _ _ iha ihb =>
    intro e' t he
    cases he
    refine ⟨[none], ?_⟩
    rw [eval_bin (iha ha) (ihb hb)]
    cases hA : a'.eval c.pr σ <;> cases hB : b'.eval c.pr σ <;>
      simp [Verif.Expr.eval, hA, hB, (prim_arith hj _ _).1, word]
  | case17 a b a' s b' u hb ha hj _ _ iha ihb =>
    intro e' t he
    cases he
    refine ⟨[none], ?_⟩
    rw [eval_bin (iha ha) (ihb hb)]
    cases hA : a'.eval c.pr σ <;> cases hB : b'.eval c.pr σ <;>
      simp [Verif.Expr.eval, hA, hB, (prim_arith hj _ _).2.1, word]
  | case18 a b a' s b' u hb ha hj _ _ iha ihb =>
    intro e' t he
    cases he
    refine ⟨[none], ?_⟩
    rw [eval_bin (iha ha) (ihb hb)]
    cases hA : a'.eval c.pr σ <;> cases hB : b'.eval c.pr σ <;>
      simp [Verif.Expr.eval, hA, hB, (prim_arith hj _ _).2.2.1, word]
  | case19 a b a' s b' u hb ha hj _ _ iha ihb =>
    intro e' t he
    cases he
    refine ⟨[none], ?_⟩
    rw [eval_bin (iha ha) (ihb hb)]
    cases hA : a'.eval c.pr σ <;> cases hB : b'.eval c.pr σ <;>
      simp [Verif.Expr.eval, hA, hB, (prim_arith hj _ _).2.2.2.1, word]
  | case20 a b a' s b' u hb ha hj _ _ iha ihb =>
    intro e' t he
    cases he
    refine ⟨[none], ?_⟩
    rw [eval_bin (iha ha) (ihb hb)]
    cases hA : a'.eval c.pr σ <;> cases hB : b'.eval c.pr σ <;>
      simp [Verif.Expr.eval, hA, hB, (prim_arith hj _ _).2.2.2.2, word]
  | case21 a b a' s b' u hb ha hj _ _ iha ihb =>
    intro e' t he
    cases he
    refine ⟨[none], ?_⟩
    rw [eval_bin (iha ha) (ihb hb)]
    cases hA : a'.eval c.pr σ <;> cases hB : b'.eval c.pr σ <;>
      simp [Verif.Expr.eval, hA, hB, prim_or8 hj, byte]
  | case24 a a' ha ih =>
    intro e' t he
    cases he
    obtain ⟨pl, ih⟩ := ih ha
    refine ⟨[none], ?_⟩
    cases hA : a'.eval c.pr σ <;> simp [eval, ih, Verif.Expr.eval, hA, castTo]
  | case26 a a' ha ih =>
    intro e' t he
    cases he
    obtain ⟨pl, ih⟩ := ih ha
    refine ⟨[none], ?_⟩
    cases hA : a'.eval c.pr σ <;> simp [eval, ih, hA, castTo]
  | case28 x b hb =>
    intro e' t he
    cases he
    obtain ⟨w, h1, h2, h3⟩ := h.base hc hb
    obtain ⟨fn, k1, k2, k3, k4⟩ := hc.carryOut
    obtain ⟨outs, k5⟩ := k4 w h2
    refine ⟨[none], ?_⟩
    rw [elem] at k5
    simp [eval, h1, Verif.Expr.eval, h3 _ hc.carry, callMethod, Val.strip, Val.ty, elem, k1, invoke,
      k2, Out.list, k5, word, writeBack]
  | case31 t m x hx =>
    intro e' t he
    cases he
    obtain ⟨rfl, rfl, hx⟩ := hx
    cases hg : g.arg with
    | int y =>
      simp only [Cfg.isInt, hg, decide_eq_true_eq] at hx
      subst hx
      have h1 := h.lookup_arg hc (by rw [hg]; nofun)
      simp only [hg, Arg.name, Cfg.argVal] at h1
      have h2 := h.arg_get 0 (by omega)
      have h3 := h.arg_int _ hg
      refine ⟨[none], ?_⟩
      have h4 : 0 < aw.length := by omega
      simp [eval, h1, h2, h4, Verif.Expr.eval, Out.list, callPath]
    | _ => simp [Cfg.isInt, hg] at hx
  | _ => intro e' t he; cases he

/-! ### Statements -/

theorem setPlace_append {l m : Env} {x : Id} (h : l.lookup x = none) (ps : List Proj) (v : Val) :
    setPlace (l ++ m) (x, ps) v = (setPlace m (x, ps) v >>= fun m' => .ok (l ++ m')) := by
  induction l with
  | nil => simp [bind_ok_right]
  | cons p l ih =>
    obtain ⟨y, w⟩ := p
    rw [List.lookup_cons] at h
    have hxy : ¬ y = x := by
      rintro rfl
      simp at h
    rw [show (x == y) = false from by simpa using fun h => hxy h.symm] at h
    simp only [List.cons_append, setPlace, if_neg hxy, ih h]
    cases setPlace m (x, ps) v <;> rfl

theorem set_self {t : Id} {a : List Int} {i : Nat} (hi : i < a.length) (m : Env) (n : Int) :
    setPlace ((id! "self", .ref (elem t a)) :: m) (id! "self", [.field (id! "0"), .index i]) (word n) =
      .ok ((id! "self", .ref (elem t (a.set i n))) :: m) := by
  simp [setPlace, writePath, elem, Val.strip, hi, Val.retarget, word, List.map_set]

/-- What a run may change: the words of `self`, or (`pack_normalized`) the slice. -/
structure Frame (g : Cfg) (sw aw sw' aw' : List Int) : Prop where
  self : g.toArg = true → sw' = sw
  arg : g.toArg = false → aw' = aw
  len : aw'.length = aw.length
  tail : aw'.drop 112 = aw.drop 112

theorem Frame.refl : Frame g sw aw sw aw := ⟨fun _ => rfl, fun _ => rfl, rfl, rfl⟩

theorem Frame.trans {sw' aw' sw'' aw'' : List Int} (h : Frame g sw aw sw' aw')
    (k : Frame g sw' aw' sw'' aw'') : Frame g sw aw sw'' aw'' :=
  ⟨fun t => (k.self t).trans (h.self t), fun t => (k.arg t).trans (h.arg t),
    k.len.trans h.len, k.tail.trans h.tail⟩

/-- A store. -/
theorem Rel.store (hc : Ok g c) (h : Rel g names ρ σ sw aw) {p : Expr} {s : Nat}
    (hp : compP g p = some s) (n : Int) :
    (σ.get s = none ∧ eval c ρ p = .error (.panic .index)) ∨
    (∃ v, σ.get s = some v) ∧ ∃ q w ρ' sw' aw', eval c ρ p = .ok ⟨w, [some q], ρ⟩ ∧
      setPlace ρ q (.int (some (if g.toArg then .u8 else .i64)) n) = .ok ρ' ∧
      Rel g names ρ' (σ.set s n) sw' aw' ∧ Frame g sw aw sw' aw' := by
  have hlimbs := hc.limbs
  obtain ⟨l, rfl, hres, hl⟩ := h.locals
  have hself := h.lookup_self
  have hls : l.lookup (id! "self") = none := hres _ (by simp [Cfg.reserved])
  unfold compP at hp
  split at hp
  · rename_i x y i
    split at hp
    · rename_i hi
      obtain ⟨ht, rfl, rfl, hi⟩ := hi
      have hs : i = s := Option.some.inj hp
      subst hs
      have hi' : i < sw.length := by rw [h.self_len]; exact hi
      right
      refine ⟨⟨sw[i], by rw [h.self_get i (by omega)]; simp [hi']⟩,
        (id! "self", [.field (id! "0"), .index i]), word sw[i], l ++ g.params (sw.set i n) aw,
        sw.set i n, aw, ?_, ?_, ⟨⟨l, rfl, hres, fun x => ?_⟩, ?_, h.arg_len, h.arg_int, ?_, ?_⟩, ?_⟩
      · simp [eval, hself, getField, elem, Val.strip, getIndex, hi', word, indexProj]
      · simp only [ht]
        rw [setPlace_append hls]
        have := set_self (t := g.ty) hi' ((g.params sw aw).tail) n
        simp only [Cfg.params, List.tail_cons] at this ⊢
        simp only [word] at this
        simp [this]
      · have := hl x
        cases hx : names.lookup x with
        | none => rw [hx] at this; exact this
        | some s =>
          rw [hx] at this
          obtain ⟨h1, h2, m, h3, h4⟩ := this
          exact ⟨h1, h2, m, h3, by rw [Tree.get_set_ne _ _ (by omega)]; exact h4⟩
      · rw [List.length_set, h.self_len]
      · intro j hj
        rw [Tree.get_set, List.getElem?_set]
        by_cases hji : j = i
        · subst hji; simp [hi']
        · rw [if_neg hji, if_neg (fun h => hji h.symm), h.self_get j hj]
      · intro j hj
        rw [Tree.get_set_ne _ _ (by omega)]
        exact h.arg_get j hj
      · exact ⟨by simp [ht], fun _ => rfl, rfl, rfl⟩
    · cases hp
  · rename_i x i
    split at hp
    · rename_i hi
      obtain ⟨ht, hx, hi⟩ := hi
      have hs : 16 + i = s := Option.some.inj hp
      subst hs
      cases hg : g.arg with
      | bytes y =>
        simp only [Cfg.isBytes, hg, decide_eq_true_eq] at hx
        subst hx
        have harg := h.lookup_arg hc (by rw [hg]; nofun)
        simp only [hg, Arg.name, Cfg.argVal] at harg
        have hxs : ¬ (id! "self" : Id) = x := by
          have := (hc.name.resolve_left (by rw [hg]; nofun)).1
          simp only [hg, Arg.name] at this
          exact fun h => this h.symm
        have hlx : l.lookup x = none := hres _ (by simp [Cfg.reserved, hg, Arg.name])
        by_cases hi' : i < aw.length
        · right
          refine ⟨⟨aw[i], by rw [h.arg_get i hi]; simp [hi']⟩,
            (x, [.index i]), byte aw[i], l ++ g.params sw (aw.set i n),
            sw, aw.set i n, ?_, ?_, ⟨⟨l, rfl, hres, fun x => ?_⟩, h.self_len, ?_, ?_, ?_, ?_⟩, ?_⟩
          · simp [eval, harg, Val.strip, getIndex, hi', byte, indexProj]
          · simp only [ht]
            rw [setPlace_append hlx]
            simp [Cfg.params, hg, setPlace, hxs, Arg.name, Cfg.argVal, writePath, Val.strip, hi',
              Val.retarget, byte, List.map_set]
          · have := hl x
            cases hx : names.lookup x with
            | none => rw [hx] at this; exact this
            | some s =>
              rw [hx] at this
              obtain ⟨h1, h2, m, h3, h4⟩ := this
              exact ⟨h1, h2, m, h3, by rw [Tree.get_set_ne _ _ (by omega)]; exact h4⟩
          · intro z hz; rw [hg] at hz; cases hz
          · intro z hz; rw [hg] at hz; cases hz
          · intro j hj
            rw [Tree.get_set_ne _ _ (by omega)]
            exact h.self_get j hj
          · intro j hj
            rw [Tree.get_set, List.getElem?_set]
            by_cases hji : j = i
            · subst hji; simp [hi']
            · rw [if_neg (by omega), if_neg (fun h => hji h.symm), h.arg_get j hj]
          · exact ⟨fun _ => rfl, by simp [ht], by simp, by
              rw [List.drop_set_of_lt hi]⟩
        · left
          refine ⟨by rw [h.arg_get i hi]; simpa using hi', ?_⟩
          simp [eval, harg, Val.strip, getIndex, hi']
      | _ => simp [Cfg.isBytes, hg] at hx
    · cases hp
  · cases hp

/-- The translation of a body does what the body does. -/
theorem compB_sound (hc : Ok g c) (b : Block) : ∀ {names ρ σ sw aw prog},
    Rel g names ρ σ sw aw → compB g names b = some prog →
    (∀ p, runProg c.pr prog σ = .error p → exec c ρ b = .error (.panic p)) ∧
    ∀ σ', runProg c.pr prog σ = .ok σ' → ∃ names' ρ' sw' aw', exec c ρ b = .ok ρ' ∧
      Rel g names' ρ' σ' sw' aw' ∧ Frame g sw aw sw' aw' := by
  induction b with
  | nil =>
    intro names ρ σ sw aw prog h hp
    cases hp
    refine ⟨nofun, fun σ' hσ => ?_⟩
    cases hσ
    exact ⟨names, ρ, sw, aw, rfl, h, Frame.refl⟩
  | «let» x e rest ih =>
    intro names ρ σ sw aw prog h hp
    simp only [compB] at hp
    split at hp
    · cases hp
    rename_i hx
    split at hp
    · rename_i e' he
      split at hp
      · rename_i p hrest
        cases hp
        obtain ⟨pl, hev⟩ := compE_sound hc h e he
        cases hE : e'.eval c.pr σ with
        | error er =>
          simp only [hE, lift_error, error_bind] at hev
          constructor
          · intro p hp
            simp only [runProg, Stmt.exec, hE, error_bind] at hp
            cases hp
            simp [exec, hev]
          · intro σ' hσ
            simp only [runProg, Stmt.exec, hE, error_bind] at hσ
            cases hσ
        | ok n =>
          simp only [hE, lift_ok, ok_bind] at hev
          have hrel : Rel g ((x, 128 + names.length) :: names) ((x, word n) :: ρ)
              (σ.set (128 + names.length) n) sw aw := by
            obtain ⟨l, rfl, hres, hl⟩ := h.locals
            refine ⟨⟨(x, word n) :: l, rfl, ?_, ?_⟩, h.self_len, h.arg_len, h.arg_int, ?_, ?_⟩
            · intro y hy
              rw [List.lookup_cons]
              have : ¬ y = x := by rintro rfl; exact hx hy
              rw [show (y == x) = false from by simpa using this]
              exact hres y hy
            · intro y
              rw [List.lookup_cons, List.lookup_cons]
              by_cases hyx : y = x
              · subst hyx
                simp only [beq_self_eq_true]
                exact ⟨by omega, by simp, n, rfl, Tree.get_set_self _ _ _⟩
              · rw [show (y == x) = false from by simpa using hyx]
                have := hl y
                cases hy : names.lookup y with
                | none => rw [hy] at this; exact this
                | some s =>
                  rw [hy] at this
                  obtain ⟨h1, h2, m, h3, h4⟩ := this
                  refine ⟨h1, by simp only [List.length_cons]; omega, m, h3, ?_⟩
                  rw [Tree.get_set_ne _ _ (by omega)]
                  exact h4
            · intro i hi
              rw [Tree.get_set_ne _ _ (by omega)]
              exact h.self_get i hi
            · intro i hi
              rw [Tree.get_set_ne _ _ (by omega)]
              exact h.arg_get i hi
          have := ih hrel hrest
          have hex : exec c ρ (.let x e rest) = exec c ((x, word n) :: ρ) rest := by
            simp [exec, hev, word]
          have hrun : runProg c.pr (.bind (128 + names.length) e' :: p) σ =
              runProg c.pr p (σ.set (128 + names.length) n) := by
            simp [runProg, Stmt.exec, hE]
          rw [hex, hrun]
          exact this
      · cases hp
    · cases hp
  | assign q e rest ih =>
    intro names ρ σ sw aw prog h hp
    simp only [compB] at hp
    split at hp
    · rename_i s e' t hs he
      by_cases ht : t = (if g.toArg then .u8 else .i64)
      · rw [if_pos ht] at hp
        split at hp
        · rename_i p hrest
          cases hp
          obtain ⟨pl, hev⟩ := compE_sound hc h e he
          cases hE : e'.eval c.pr σ with
          | error er =>
            simp only [hE, lift_error, error_bind] at hev
            constructor
            · intro p hp
              simp only [runProg, Stmt.exec, hE, error_bind] at hp
              cases hp
              simp [exec, hev]
            · intro σ' hσ
              simp only [runProg, Stmt.exec, hE, error_bind] at hσ
              cases hσ
          | ok n =>
            simp only [hE, lift_ok, ok_bind] at hev
            rcases h.store hc hs n with ⟨h1, h2⟩ | ⟨⟨v, h1⟩, q', w, ρ', sw', aw', h2, h3, h4, h5⟩
            · constructor
              · intro p hp
                simp only [runProg, Stmt.exec, hE, h1, ok_bind, error_bind] at hp
                cases hp
                simp [exec, hev, h2]
              · intro σ' hσ
                simp only [runProg, Stmt.exec, hE, h1, ok_bind, error_bind] at hσ
                cases hσ
            · have := ih h4 hrest
              have hex : exec c ρ (.assign q e rest) = exec c ρ' rest := by
                rw [← ht] at h3
                simp [exec, hev, h2, h3]
              have hrun : runProg c.pr (.store s e' :: p) σ = runProg c.pr p (σ.set s n) := by
                simp [runProg, Stmt.exec, hE, h1]
              rw [hex, hrun]
              refine ⟨this.1, fun σ' hσ => ?_⟩
              obtain ⟨n', r', s', a', k1, k2, k3⟩ := this.2 σ' hσ
              exact ⟨n', r', s', a', k1, k2, h5.trans k3⟩
        · cases hp
      · rw [if_neg ht] at hp; cases hp
    · cases hp
  | _ => intro names ρ σ sw aw prog h hp; cases hp

/-! ### Functions -/

/-- The arguments besides `self`. -/
def Cfg.rest (g : Cfg) (aw : List Int) : List Val :=
  match g.arg with
  | .none => []
  | _ => [g.argVal aw]

/-- The names of the parameters besides `self`. -/
def Cfg.restNames (g : Cfg) : List Id :=
  match g.arg with
  | .none => []
  | _ => [g.arg.name]

theorem params_eq (sw aw : List Int) : g.params sw aw =
    (id! "self" :: g.restNames).zip (.ref (elem g.ty sw) :: g.rest aw) := by
  cases hg : g.arg <;> simp [Cfg.params, Cfg.restNames, Cfg.rest, hg]

theorem eq_readSlots {σ : Verif.Env} (l : List Int) : ∀ k,
    (∀ i < l.length, σ.get (k + i) = l[i]?) → readSlots σ k l.length = l := by
  induction l with
  | nil => intro k _; rfl
  | cons x l ih =>
    intro k h
    have h0 := h 0 (by simp)
    simp only [Nat.add_zero, List.getElem?_cons_zero] at h0
    simp only [List.length_cons, readSlots, h0, Option.getD_some]
    rw [ih (k + 1)]
    intro i hi
    have := h (i + 1) (by simpa using hi)
    rw [List.getElem?_cons_succ] at this
    rw [← this]
    congr 1
    omega

theorem init_self {a arg : List Int} (i : Nat) (hi : i < 16) :
    (initEnv a arg).get i = a[i]? := by
  rw [initEnv, Tree.get_setList, Tree.get_setList, if_neg (by omega)]
  by_cases hl : i < a.length
  · rw [if_pos (by omega), Nat.sub_zero]
  · rw [if_neg (by omega), Tree.get_leaf, List.getElem?_eq_none (by omega)]

theorem init_arg {a arg : List Int} (h : a.length ≤ 16) (i : Nat) (hi : i < 112) :
    (initEnv a arg).get (16 + i) = arg[i]? := by
  rw [initEnv, Tree.get_setList, Tree.get_setList, List.length_take]
  by_cases hl : i < arg.length
  · rw [if_pos (by omega), Nat.add_sub_cancel_left, List.getElem?_take, if_pos hi]
  · rw [if_neg (by omega), if_neg (by omega), Tree.get_leaf, List.getElem?_eq_none (by omega)]

/-- The relation holds when a function is entered. -/
theorem rel_init (hc : Ok g c) (a arg : List Int) (ha : a.length = g.limbs)
    (h1 : ∀ x, g.arg = .elem x → arg.length = g.limbs) (h2 : ∀ x, g.arg = .int x → arg.length = 1) :
    Rel g [] (g.params a arg) (initEnv a arg) a arg where
  locals := ⟨[], rfl, fun _ _ => rfl, fun _ => rfl⟩
  self_len := ha
  arg_len := h1
  arg_int := h2
  self_get := fun i hi => init_self i hi
  arg_get := fun i hi => init_arg (by rw [ha]; exact hc.limbs) i hi

/-- The function has the parameters the translation supposes, and no result. -/
structure Shape (g : Cfg) (fn : Fn) : Prop where
  recv : fn.recv ≠ .none
  params : fn.params.map (·.1) = g.restNames
  ret : fn.ret = .unit

theorem coerce_rest (fn : Fn) (hs : Shape g fn) (aw : List Int) (v : Val) :
    fn.coerce (v :: g.rest aw) = v :: g.rest aw := by
  have hp := hs.params
  have : List.zipWith (fun p v => Rust.coerce p.2 v) fn.params (g.rest aw) = g.rest aw := by
    cases hg : g.arg with
    | none =>
      simp only [Cfg.restNames, hg, List.map_eq_nil_iff] at hp
      simp [Cfg.rest, hg, hp]
    | _ =>
      simp only [Cfg.restNames, hg] at hp
      obtain ⟨p, hp, -⟩ := List.map_eq_singleton_iff.1 hp
      simp [Cfg.rest, hg, hp, Cfg.argVal, coerce]
  unfold Fn.coerce
  split
  · exact absurd ‹_› hs.recv
  · rename_i h _; cases h; rw [this]
  · rename_i h _; cases h

theorem names_eq (fn : Fn) (hs : Shape g fn) : fn.names = id! "self" :: g.restNames := by
  unfold Fn.names
  split
  · exact absurd ‹_› hs.recv
  · rw [hs.params]

/-- Calling a function whose body has been translated. -/
theorem runBody_comp (hc : Ok g c) {fn : Fn} (hs : Shape g fn) {prog : Prog}
    (hp : compB g [] fn.body = some prog) {a arg : List Int} (ha : a.length = g.limbs)
    (h1 : ∀ x, g.arg = .elem x → arg.length = g.limbs) (h2 : ∀ x, g.arg = .int x → arg.length = 1) :
    (∀ p, runProg c.pr prog (initEnv a arg) = .error p →
      runBody c fn (.ref (elem g.ty a) :: g.rest arg) = .error (.panic p)) ∧
    ∀ σ', runProg c.pr prog (initEnv a arg) = .ok σ' → ∃ names' ρ' sw' aw',
      runBody c fn (.ref (elem g.ty a) :: g.rest arg) =
        .ok (.unit, .ref (elem g.ty sw') :: g.rest aw') ∧
      Rel g names' ρ' σ' sw' aw' ∧ Frame g a arg sw' aw' := by
  have h := compB_sound hc fn.body (rel_init hc a arg ha h1 h2) hp
  have hin : fn.names.zip (fn.coerce (.ref (elem g.ty a) :: g.rest arg)) = g.params a arg := by
    rw [coerce_rest fn hs, names_eq fn hs, params_eq]
  constructor
  · intro p hp
    simp [runBody, hin, h.1 p hp]
  · intro σ' hσ
    obtain ⟨names', ρ', sw', aw', k1, k2, k3⟩ := h.2 σ' hσ
    refine ⟨names', ρ', sw', aw', ?_, k2, k3⟩
    obtain ⟨l, rfl, -, -⟩ := k2.locals
    have hlen : (g.params sw' aw').length = fn.names.length := by
      rw [names_eq fn hs]
      cases hg : g.arg <;> simp [Cfg.params, Cfg.restNames, hg]
    have hd : (l ++ g.params sw' aw').drop ((l ++ g.params sw' aw').length - fn.names.length) =
        g.params sw' aw' := by
      rw [List.length_append, hlen, Nat.add_sub_cancel, List.drop_left']
      rfl
    have hm : (g.params sw' aw').map (·.2) = .ref (elem g.ty sw') :: g.rest aw' := by
      cases hg : g.arg <;> simp [Cfg.params, Cfg.rest, hg]
    simp only [runBody, hin, k1, ok_bind, hs.ret, eval, hd, hm, pure_ok, coerce]

/-- Functions that change `self`. -/
theorem runBody_self (hc : Ok g c) {fn : Fn} (hs : Shape g fn) (ht : g.toArg = false) {prog : Prog}
    (hp : compB g [] fn.body = some prog) {F : FieldCode} (hF : F.limbs = g.limbs)
    {a arg : List Int} (ha : a.length = g.limbs)
    (h1 : ∀ x, g.arg = .elem x → arg.length = g.limbs) (h2 : ∀ x, g.arg = .int x → arg.length = 1) :
    runBody c fn (.ref (elem g.ty a) :: g.rest arg) =
      (lift (F.runLimb c.pr prog a arg) >>= fun r =>
        .ok (.unit, .ref (elem g.ty r) :: g.rest arg)) := by
  have h := runBody_comp hc hs hp ha h1 h2
  cases hr : runProg c.pr prog (initEnv a arg) with
  | error p => simp [h.1 p hr, FieldCode.runLimb, hr]
  | ok σ' =>
    obtain ⟨names', ρ', sw', aw', k1, k2, k3⟩ := h.2 σ' hr
    have hsw : readSlots σ' 0 F.limbs = sw' := by
      rw [hF, ← k2.self_len]
      refine eq_readSlots sw' 0 fun i hi => ?_
      rw [Nat.zero_add]
      exact k2.self_get i (by have := hc.limbs; have := k2.self_len; omega)
    simp [k1, FieldCode.runLimb, hr, hsw, k3.arg ht]

/-- `pack_normalized`. -/
theorem runBody_bytes (hc : Ok g c) {fn : Fn} (hs : Shape g fn) (ht : g.toArg = true) {x : Id}
    (hx : g.arg = .bytes x) {F : FieldCode} (hp : compB g [] fn.body = some F.packP)
    {a bytes : List Int} (ha : a.length = g.limbs) :
    runBody c fn [.ref (elem g.ty a), .ref (.arr (bytes.map byte))] =
      (lift (F.packNormalized c.pr a bytes) >>= fun r =>
        .ok (.unit, [.ref (elem g.ty a), .ref (.arr (r.map byte))])) := by
  have h := runBody_comp (arg := bytes) hc hs hp ha (by simp [hx]) (by simp [hx])
  have hrest : ∀ aw, g.rest aw = [.ref (.arr (aw.map byte))] := by
    intro aw; simp [Cfg.rest, hx, Cfg.argVal]
  simp only [hrest] at h
  cases hr : runProg c.pr F.packP (initEnv a bytes) with
  | error p => simp [h.1 p hr, FieldCode.packNormalized, hr]
  | ok σ' =>
    obtain ⟨names', ρ', sw', aw', k1, k2, k3⟩ := h.2 σ' hr
    have hl : (bytes.take 112).length = (aw'.take 112).length := by simp [k3.len]
    have haw : readSlots σ' 16 (bytes.take 112).length ++ bytes.drop 112 = aw' := by
      rw [hl, eq_readSlots (aw'.take 112) 16, ← k3.tail, List.take_append_drop]
      intro i hi
      rw [List.length_take] at hi
      rw [k2.arg_get i (by omega), List.getElem?_take, if_pos (by omega)]
    simp only [k1, FieldCode.packNormalized, hr, ok_bind, pure_ok, lift_ok, haw, k3.self ht]

end Verif.Rust.Limb

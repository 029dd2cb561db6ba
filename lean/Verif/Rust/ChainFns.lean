import Verif.Rust.Ops

/-!
# The exponentiation chains of the field files

`invert`, `legendre`, `sqrt` and `quartic_legendre`: a translation of the text to the chains of the
model (`Verif/Model/Chain.lean`), proved correct with respect to the interpreter, and its results.
-/

namespace Verif.Rust

open Limb

namespace Chn

/-- Names a local variable must not have. -/
def reserved : List Id := [id! "self", id! "_", id! "ONE", id! "M_HALF", id! "COEFF"]

/-- The register of the right-hand side of `x ∘= &y`; `ks` are the constants of the module. -/
def operand (ks σ : List (Id × Nat)) : Expr → Option Nat
  | .var y => if y ∈ reserved then ks.lookup y else σ.lookup y
  | _ => none

/-- The register of the left-hand side. -/
def target (σ : List (Id × Nat)) : Expr → Option Nat
  | .var x => σ.lookup x
  | .deref (.var x) => if x = id! "self" then some 0 else none
  | _ => none

/-- The register of a receiver. -/
def recvReg (σ : List (Id × Nat)) : Expr → Option Nat
  | .var x => if x = id! "self" then some 0 else σ.lookup x
  | _ => none

/-- `x.square()` -/
def squareStep (σ : List (Id × Nat)) (e : Expr) (m : Id) : Option CStep :=
  if m = id! "square" then (recvReg σ e).map .square else none

/-- `x ∘= &y` -/
def assignStep (ks σ : List (Id × Nat)) (op : BinOp) (p e : Expr) : Option CStep :=
  match target σ p, operand ks σ e with
  | some x, some y =>
    match op with
    | .mul => some (.mulAssign x y)
    | .sub => some (.subAssign x y)
    | .add => some (.addAssign x y)
    | _ => none
  | _, _ => none

/-- `self`, a constant or a local variable. -/
def source (ks σ : List (Id × Nat)) : Expr → Option Nat
  | .var x => if x = id! "self" then some 0 else if x ∈ reserved then ks.lookup x else σ.lookup x
  | _ => none

/-- `let x = y.m();` -/
def letStep (ks σ : List (Id × Nat)) (e : Expr) (m : Id) : Option CStep :=
  match source ks σ e with
  | some y =>
    if m = id! "clone" then some (.clone (4 + σ.length) y)
    else if m = id! "squared" then some (.squared (4 + σ.length) y)
    else if m = id! "quartic_legendre" then some (.quartic (4 + σ.length) y)
    else none
  | none => none

/-- Steps without new variables. -/
def compS (ks σ : List (Id × Nat)) : Block → Option (List CStep)
  | .nil => some []
  | .expr (.method e m .anil) rest =>
    match squareStep σ e m, compS ks σ rest with
    | some s, some l => some (s :: l)
    | _, _ => none
  | .opAssign op p (.ref e) rest =>
    match assignStep ks σ op p e, compS ks σ rest with
    | some s, some l => some (s :: l)
    | _, _ => none
  | _ => none

/-- Statements; also the variables at the end. -/
def compC (ks σ : List (Id × Nat)) : Block → Option (Chain × List (Id × Nat))
  | .nil => some ([], σ)
  | .let x (.method e m .anil) rest =>
    if x ∈ reserved ∨ x ∈ σ.map (·.1) then none
    else match letStep ks σ e m, compC ks ((x, 4 + σ.length) :: σ) rest with
      | some s, some (l, σ') => some (.step s :: l, σ')
      | _, _ => none
  | .expr (.method e m .anil) rest =>
    match squareStep σ e m, compC ks σ rest with
    | some s, some (l, σ') => some (.step s :: l, σ')
    | _, _ => none
  | .opAssign op p (.ref e) rest =>
    match assignStep ks σ op p e, compC ks σ rest with
    | some s, some (l, σ') => some (.step s :: l, σ')
    | _, _ => none
  | .for x (.lit none a) (.lit none b) body rest =>
    if x = id! "_" then
      match compS ks σ body, compC ks σ rest with
      | some s, some (l, σ') => some (.loop a b s :: l, σ')
      | _, _ => none
    else none
  | _ => none

/-- The final expression. -/
def compRet (ks σ : List (Id × Nat)) : Expr → Option Chain
  | .var x => (σ.lookup x).map fun r => [.step (.ret r)]
  | .bin .mul (.ref a) (.ref b) =>
    match operand ks σ a, operand ks σ b with
    | some x, some y => some [.step (.retMul x y)]
    | _, _ => none
  | _ => none

/-- The chain of a function `fn m(&self) -> Self`. -/
def compFn (ks : List (Id × Nat)) (fn : Fn) : Option Chain :=
  match compC ks [] fn.body with
  | some (l, σ) => (compRet ks σ fn.ret).map (l ++ ·)
  | none => none

/-- The constants of the module of a field. -/
def consts (f : Fld) : List (Id × Nat) :=
  (id! "ONE", 1) :: (if f.code.M_HALF.isSome ∧ f.code.COEFF.isSome then
    [(id! "M_HALF", 2), (id! "COEFF", 3)] else [])

theorem chain_invert (f : Fld) : (methF f (id! "invert")).recv = .mut ∧
    (methF f (id! "invert")).params = [] ∧ (methF f (id! "invert")).ret = .unit ∧
    ((compC (consts f) [] (methF f (id! "invert")).body).map (·.1)) = some f.code.invertC := by
  cases f <;> decide +kernel

theorem chain_legendre (f : Fld) : (methF f (id! "legendre")).recv = .ref ∧
    (methF f (id! "legendre")).params = [] ∧
    compFn (consts f) (methF f (id! "legendre")) = some f.code.legendreC := by
  cases f <;> decide +kernel

theorem chain_sqrt (f : Fld) : (methF f (id! "sqrt")).recv = .ref ∧
    (methF f (id! "sqrt")).params = [] ∧
    compFn (consts f) (methF f (id! "sqrt")) = some f.code.sqrtC := by
  cases f <;> decide +kernel

theorem chain_quartic (f : Fld) : f.code.quarticC.isSome = true →
    ((src f).method (tyId f) (id! "quartic_legendre")).isSome = true ∧
    (methF f (id! "quartic_legendre")).recv = .ref ∧
    (methF f (id! "quartic_legendre")).params = [] ∧
    compFn (consts f) (methF f (id! "quartic_legendre")) = f.code.quarticC := by
  cases f <;> decide +kernel

/-! ### Correctness of the translation -/

theorem lookup_if {α : Type} (x y : Id) (v : α) (l : List (Id × α)) :
    ((y, v) :: l).lookup x = if x = y then some v else l.lookup x := by
  rw [List.lookup_cons]
  by_cases e : x = y
  · simp [e]
  · rw [if_neg e]
    cases hb : x == y with
    | true => exact absurd (eq_of_beq hb) e
    | false => rfl

/-- The value of a register. -/
def rv (regs : FieldCode.Regs) (r : Nat) : List Int := (regs.get r).getD []

/-- The local variables of the interpreter. -/
def envOf (t : Id) (σ : List (Id × Nat)) (regs : FieldCode.Regs) : Env :=
  σ.map (fun p => (p.1, elem t (rv regs p.2))) ++ [(id! "self", .ref (elem t (rv regs 0)))]

/-- Names and registers are distinct. -/
structure WF (σ : List (Id × Nat)) : Prop where
  names : (σ.map (·.1)).Nodup
  free : ∀ p ∈ σ, p.1 ∉ reserved
  regs : (σ.map (·.2)).Nodup
  low : ∀ p ∈ σ, 4 ≤ p.2 ∧ p.2 < 4 + σ.length

/-- All registers in use hold elements, those of constants the constants. -/
structure Inv (P : Program) (f : Fld) (σ : List (Id × Nat)) (regs : FieldCode.Regs) : Prop where
  self : ∃ v, regs.get 0 = some v ∧ v.length = f.code.limbs
  vars : ∀ p ∈ σ, ∃ v, regs.get p.2 = some v ∧ v.length = f.code.limbs
  consts : ∀ y r, (consts f).lookup y = some r → 0 < r ∧ r < 4 ∧
    ∃ v, regs.get r = some v ∧ v.length = f.code.limbs ∧ P.const y = some (elem (tyId f) v)

theorem mem_of_lookup {σ : List (Id × Nat)} {x : Id} {r : Nat} (h : σ.lookup x = some r) :
    (x, r) ∈ σ := by
  induction σ with
  | nil => cases h
  | cons p σ ih =>
    obtain ⟨y, s⟩ := p
    rw [lookup_if] at h
    by_cases e : x = y
    · subst e
      simp at h
      simp [h]
    · rw [if_neg e] at h
      exact List.mem_cons_of_mem _ (ih h)

theorem pre_lookup {pre : Env} (hp : ∀ p ∈ pre, p.1 = id! "_") {x : Id} (hx : x ≠ id! "_") (ρ : Env) :
    (pre ++ ρ).lookup x = ρ.lookup x := by
  induction pre with
  | nil => rfl
  | cons p pre ih =>
    obtain ⟨y, v⟩ := p
    have : y = id! "_" := hp _ (List.mem_cons_self ..)
    rw [List.cons_append, lookup_if, if_neg (by rw [this]; exact hx),
      ih fun p h => hp p (List.mem_cons_of_mem _ h)]

theorem lookup_local {t : Id} {σ : List (Id × Nat)} {regs : FieldCode.Regs} {x : Id} {r : Nat}
    (h : σ.lookup x = some r) : (envOf t σ regs).lookup x = some (elem t (rv regs r)) := by
  rw [envOf]
  induction σ with
  | nil => cases h
  | cons p σ ih =>
    obtain ⟨y, s⟩ := p
    rw [lookup_if] at h
    rw [List.map_cons, List.cons_append, lookup_if]
    by_cases e : x = y
    · subst e
      simp at h
      simp [h]
    · rw [if_neg e] at h
      rw [if_neg e, ih h]

theorem lookup_other {t : Id} {σ : List (Id × Nat)} {regs : FieldCode.Regs} {x : Id}
    (h : ∀ p ∈ σ, p.1 ≠ x) : (envOf t σ regs).lookup x =
      if x = id! "self" then some (.ref (elem t (rv regs 0))) else none := by
  rw [envOf]
  induction σ with
  | nil => exact lookup_if ..
  | cons p σ ih =>
    obtain ⟨y, s⟩ := p
    rw [List.map_cons, List.cons_append, lookup_if,
      if_neg (h _ (List.mem_cons_self ..)).symm,
      ih fun p hp => h p (List.mem_cons_of_mem _ hp)]

theorem pre_set {pre : Env} (hp : ∀ p ∈ pre, p.1 = id! "_") {x : Id} (hx : x ≠ id! "_") {ρ ρ' : Env}
    {v : Val} (h : setPlace ρ (x, []) v = .ok ρ') : setPlace (pre ++ ρ) (x, []) v = .ok (pre ++ ρ') := by
  induction pre with
  | nil => exact h
  | cons p pre ih =>
    obtain ⟨y, u⟩ := p
    have : y = id! "_" := hp _ (List.mem_cons_self ..)
    rw [List.cons_append, setPlace, if_neg (by rw [this]; exact hx.symm),
      ih fun p h => hp p (List.mem_cons_of_mem _ h)]
    rfl

theorem rv_set (regs : FieldCode.Regs) (r : Nat) (v : List Int) : rv (regs.set r v) r = v := by
  rw [rv, Tree.get_set_self]; rfl

theorem rv_set_ne (regs : FieldCode.Regs) {r s : Nat} (v : List Int) (h : s ≠ r) :
    rv (regs.set r v) s = rv regs s := by
  rw [rv, Tree.get_set_ne _ _ h]; rfl

theorem set_local {t : Id} {σ : List (Id × Nat)} (hw : WF σ) {regs : FieldCode.Regs} {x : Id} {r : Nat}
    (h : σ.lookup x = some r) (v : List Int) :
    setPlace (envOf t σ regs) (x, []) (elem t v) = .ok (envOf t σ (regs.set r v)) := by
  have h0 : rv (regs.set r v) 0 = rv regs 0 :=
    rv_set_ne _ _ (by have := (hw.low _ (mem_of_lookup h)).1; omega)
  rw [envOf, envOf, h0]
  have hn := hw.regs
  clear hw h0
  induction σ with
  | nil => cases h
  | cons p σ ih =>
    obtain ⟨y, s⟩ := p
    rw [lookup_if] at h
    rw [List.map_cons, List.cons_append, List.map_cons, List.cons_append, setPlace]
    rw [List.map_cons, List.nodup_cons] at hn
    by_cases e : x = y
    · subst e
      simp at h
      subst h
      rw [if_pos rfl, rv_set]
      have : σ.map (fun p => (p.1, elem t (rv (regs.set s v) p.2))) =
          σ.map (fun p => (p.1, elem t (rv regs p.2))) := by
        refine List.map_congr_left fun p hp => ?_
        rw [rv_set_ne]
        rintro rfl
        exact hn.1 (List.mem_map.2 ⟨p, hp, rfl⟩)
      rw [this]
      rfl
    · rw [if_neg e] at h
      rw [if_neg (fun h => e h.symm), ih h hn.2]
      have : s ≠ r := by
        rintro rfl
        exact hn.1 (List.mem_map.2 ⟨_, mem_of_lookup h, rfl⟩)
      rw [rv_set_ne _ _ this]
      rfl

theorem set_self {t : Id} {σ : List (Id × Nat)} (hw : WF σ) {regs : FieldCode.Regs} (v : List Int) :
    setPlace (envOf t σ regs) (id! "self", []) (elem t v) = .ok (envOf t σ (regs.set 0 v)) := by
  have hf := hw.free
  have hl : ∀ p ∈ σ, p.2 ≠ 0 := fun p hp => by have := (hw.low p hp).1; omega
  clear hw
  rw [envOf, envOf, rv_set]
  induction σ with
  | nil => rfl
  | cons p σ ih =>
    obtain ⟨y, s⟩ := p
    have : y ≠ id! "self" := by
      rintro rfl
      exact hf _ (List.mem_cons_self ..) (List.mem_cons_self ..)
    rw [List.map_cons, List.cons_append, List.map_cons, List.cons_append, setPlace, if_neg this,
      ih (fun p hp => hf p (List.mem_cons_of_mem _ hp)) (fun p hp => hl p (List.mem_cons_of_mem _ hp)),
      rv_set_ne _ _ (hl _ (List.mem_cons_self ..))]
    rfl

/-- A register of the state. -/
def Good (σ : List (Id × Nat)) (r : Nat) : Prop :=
  r = 0 ∨ (∃ p ∈ σ, p.2 = r)

theorem Inv.reg {P : Program} {f : Fld} {σ : List (Id × Nat)} {regs : FieldCode.Regs}
    (hi : Inv P f σ regs) {r : Nat} (hr : Good σ r) :
    FieldCode.reg regs r = .ok (rv regs r) ∧ (rv regs r).length = f.code.limbs := by
  obtain ⟨v, h1, h2⟩ : ∃ v, regs.get r = some v ∧ v.length = f.code.limbs := by
    rcases hr with rfl | ⟨p, hp, rfl⟩
    · exact hi.self
    · exact hi.vars p hp
  rw [FieldCode.reg, rv, h1]
  exact ⟨rfl, h2⟩

theorem Inv.const {P : Program} {f : Fld} {σ : List (Id × Nat)} {regs : FieldCode.Regs}
    (hi : Inv P f σ regs) {y : Id} {r : Nat} (hr : (Chn.consts f).lookup y = some r) :
    FieldCode.reg regs r = .ok (rv regs r) ∧ (rv regs r).length = f.code.limbs ∧
      P.const y = some (elem (tyId f) (rv regs r)) := by
  obtain ⟨_, _, v, h1, h2, h3⟩ := hi.consts y r hr
  rw [FieldCode.reg, rv, h1]
  exact ⟨rfl, h2, h3⟩

theorem Inv.set {P : Program} {f : Fld} {σ : List (Id × Nat)} {regs : FieldCode.Regs}
    (hw : WF σ) (hi : Inv P f σ regs) {r : Nat} (hr : Good σ r) {v : List Int}
    (hv : v.length = f.code.limbs) : Inv P f σ (regs.set r v) := by
  have hg : ∀ s, (∃ u, regs.get s = some u ∧ u.length = f.code.limbs) →
      ∃ u, (regs.set r v).get s = some u ∧ u.length = f.code.limbs := by
    intro s hs
    rw [Tree.get_set]
    split
    · exact ⟨v, rfl, hv⟩
    · exact hs
  refine ⟨hg 0 hi.self, fun p hp => hg _ (hi.vars p hp), fun y s hs => ?_⟩
  obtain ⟨h1, h2, h3⟩ := hi.consts y s hs
  refine ⟨h1, h2, ?_⟩
  rw [Tree.get_set_ne]
  · exact h3
  · rcases hr with rfl | ⟨p, hp, rfl⟩
    · omega
    · have := (hw.low p hp).1
      omega

theorem Inv.new {P : Program} {f : Fld} {σ : List (Id × Nat)} {regs : FieldCode.Regs}
    (hw : WF σ) (hi : Inv P f σ regs) (x : Id) {v : List Int}
    (hv : v.length = f.code.limbs) : Inv P f ((x, 4 + σ.length) :: σ) (regs.set (4 + σ.length) v) := by
  refine ⟨?_, fun p hp => ?_, fun y s hs => ?_⟩
  · rw [Tree.get_set_ne _ _ (by omega)]; exact hi.self
  · rcases List.mem_cons.1 hp with rfl | hp
    · exact ⟨v, Tree.get_set_self .., hv⟩
    · rw [Tree.get_set_ne _ _ (by have := (hw.low p hp).2; omega)]
      exact hi.vars p hp
  · obtain ⟨h1, h2, h3⟩ := hi.consts y s hs
    rw [Tree.get_set_ne _ _ (by omega)]
    exact ⟨h1, h2, h3⟩

theorem WF.new {σ : List (Id × Nat)} (hw : WF σ) {x : Id} (h1 : x ∉ reserved)
    (h2 : x ∉ σ.map (·.1)) : WF ((x, 4 + σ.length) :: σ) := by
  refine ⟨List.nodup_cons.2 ⟨h2, hw.names⟩, fun p hp => ?_, List.nodup_cons.2 ⟨?_, hw.regs⟩,
    fun p hp => ?_⟩
  · rcases List.mem_cons.1 hp with rfl | hp
    · exact h1
    · exact hw.free p hp
  · intro hm
    obtain ⟨p, hp, e⟩ := List.mem_map.1 hm
    have := (hw.low p hp).2
    simp only at e
    omega
  · rcases List.mem_cons.1 hp with rfl | hp
    · simp
    · have := hw.low p hp
      simp only [List.length_cons]
      omega

theorem envOf_new {t : Id} {σ : List (Id × Nat)} (hw : WF σ) {regs : FieldCode.Regs} (x : Id)
    (v : List Int) : (x, elem t v) :: envOf t σ regs =
      envOf t ((x, 4 + σ.length) :: σ) (regs.set (4 + σ.length) v) := by
  rw [envOf, envOf, List.map_cons, rv_set, rv_set_ne _ _ (by omega), List.cons_append]
  congr 2
  refine List.map_congr_left fun p hp => ?_
  rw [rv_set_ne]
  have := (hw.low p hp).2
  omega

section
variable {P : Program} {f : Fld} (h : Has P f) {w : World} {n : Nat}
  {ks σ : List (Id × Nat)} {regs : FieldCode.Regs} {pre : Env}

theorem ne_blank {σ : List (Id × Nat)} (hw : WF σ) {x : Id} {r : Nat} (hx : σ.lookup x = some r) :
    x ∉ reserved := hw.free _ (mem_of_lookup hx)

theorem not_blank {x : Id} (hx : x ∉ reserved) : x ≠ id! "_" := by
  rintro rfl
  exact hx (by decide)

/-- A variable that can be changed. -/
structure Changes (f : Fld) (pre : Env) (σ : List (Id × Nat)) (regs : FieldCode.Regs) (r : Nat)
    (x : Id) : Prop where
  good : Good σ r
  set : ∀ u, setPlace (pre ++ envOf (tyId f) σ regs) (x, []) (elem (tyId f) u) =
    .ok (pre ++ envOf (tyId f) σ (regs.set r u))

theorem changes_local (hw : WF σ) (hp : ∀ p ∈ pre, p.1 = id! "_") {x : Id} {r : Nat}
    (hx : σ.lookup x = some r) : Changes f pre σ regs r x :=
  ⟨.inr ⟨_, mem_of_lookup hx, rfl⟩, fun u => pre_set hp (not_blank (ne_blank hw hx)) (set_local hw hx u)⟩

theorem changes_self (hw : WF σ) (hp : ∀ p ∈ pre, p.1 = id! "_") :
    Changes f pre σ regs 0 (id! "self") :=
  ⟨.inl rfl, fun u => pre_set hp (by decide) (set_self hw u)⟩

theorem eval_self (c : Ctx) (hw : WF σ) (hp : ∀ p ∈ pre, p.1 = id! "_") :
    eval c (pre ++ envOf (tyId f) σ regs) (.var (id! "self")) =
      .ok ⟨.ref (elem (tyId f) (rv regs 0)), [some (id! "self", [])], pre ++ envOf (tyId f) σ regs⟩ := by
  have h2 : ∀ p ∈ σ, p.1 ≠ id! "self" := fun p hp h => hw.free p hp (by rw [h]; decide)
  rw [eval, pre_lookup hp (by decide), lookup_other h2, if_pos rfl]

theorem eval_local (c : Ctx) (hw : WF σ) (hp : ∀ p ∈ pre, p.1 = id! "_") {x : Id} {r : Nat}
    (hx : σ.lookup x = some r) :
    eval c (pre ++ envOf (tyId f) σ regs) (.var x) =
      .ok ⟨elem (tyId f) (rv regs r), [some (x, [])], pre ++ envOf (tyId f) σ regs⟩ := by
  rw [eval, pre_lookup hp (not_blank (ne_blank hw hx)), lookup_local hx]

theorem eval_const (hw : WF σ) (hp : ∀ p ∈ pre, p.1 = id! "_") (hi : Inv P f σ regs) {x : Id} {r : Nat}
    (hx : x ∈ reserved) (h0 : x ≠ id! "self") (h1 : x ≠ id! "_") (hc : (consts f).lookup x = some r) :
    eval (ctx P w n) (pre ++ envOf (tyId f) σ regs) (.var x) =
      .ok ⟨elem (tyId f) (rv regs r), [none], pre ++ envOf (tyId f) σ regs⟩ := by
  have h2 : ∀ p ∈ σ, p.1 ≠ x := fun p hp h => hw.free p hp (by rw [h]; exact hx)
  rw [eval, pre_lookup hp h1, lookup_other h2, if_neg h0]
  simp only [ctx_const, (hi.const hc).2.2]

theorem const_name {f : Fld} {x : Id} {r : Nat} (hc : (consts f).lookup x = some r) :
    x ≠ id! "self" ∧ x ≠ id! "_" := by
  have h1 : (consts f).lookup (id! "self") = none := by cases f <;> decide
  have h2 : (consts f).lookup (id! "_") = none := by cases f <;> decide
  constructor
  · rintro rfl
    rw [h1] at hc; cases hc
  · rintro rfl
    rw [h2] at hc; cases hc

/-- Register and value of a receiver. -/
theorem recv_sound (hw : WF σ) (hp : ∀ p ∈ pre, p.1 = id! "_") {e : Expr} {r : Nat}
    (he : recvReg σ e = some r) : ∃ x v, eval (ctx P w n) (pre ++ envOf (tyId f) σ regs) e =
      .ok ⟨v, [some (x, [])], pre ++ envOf (tyId f) σ regs⟩ ∧
    (v = elem (tyId f) (rv regs r) ∨ v = .ref (elem (tyId f) (rv regs r))) ∧
    Changes f pre σ regs r x := by
  unfold recvReg at he
  split at he
  · rename_i x
    by_cases hx : x = id! "self"
    · rw [if_pos hx] at he
      subst hx
      obtain rfl := Option.some.inj he
      exact ⟨_, _, eval_self _ hw hp, .inr rfl, changes_self hw hp⟩
    · rw [if_neg hx] at he
      exact ⟨_, _, eval_local _ hw hp he, .inl rfl, changes_local hw hp he⟩
  · cases he

/-- Left-hand side of an assignment. -/
theorem target_sound (hw : WF σ) (hp : ∀ p ∈ pre, p.1 = id! "_") {e : Expr} {r : Nat}
    (he : target σ e = some r) : ∃ x, eval (ctx P w n) (pre ++ envOf (tyId f) σ regs) e =
      .ok ⟨elem (tyId f) (rv regs r), [some (x, [])], pre ++ envOf (tyId f) σ regs⟩ ∧
    Changes f pre σ regs r x := by
  unfold target at he
  split at he
  · exact ⟨_, eval_local _ hw hp he, changes_local hw hp he⟩
  · rename_i x
    by_cases hx : x = id! "self"
    · rw [if_pos hx] at he
      subst hx
      obtain rfl := Option.some.inj he
      refine ⟨_, ?_, changes_self hw hp⟩
      rw [eval, eval_self _ hw hp]
      rfl
    · rw [if_neg hx] at he
      cases he
  · cases he

/-- Value of a right-hand side (without `&`). -/
theorem operand_sound (hw : WF σ) (hp : ∀ p ∈ pre, p.1 = id! "_") (hi : Inv P f σ regs) {e : Expr}
    {r : Nat} (he : operand (consts f) σ e = some r) :
    (∃ p, eval (ctx P w n) (pre ++ envOf (tyId f) σ regs) e =
      .ok ⟨elem (tyId f) (rv regs r), [p], pre ++ envOf (tyId f) σ regs⟩) ∧
    FieldCode.reg regs r = .ok (rv regs r) ∧ (rv regs r).length = f.code.limbs := by
  unfold operand at he
  split at he
  · rename_i x
    by_cases hx : x ∈ reserved
    · rw [if_pos hx] at he
      obtain ⟨h0, h1⟩ := const_name he
      exact ⟨⟨_, eval_const hw hp hi hx h0 h1 he⟩, (hi.const he).1, (hi.const he).2.1⟩
    · rw [if_neg hx] at he
      exact ⟨⟨_, eval_local _ hw hp he⟩, hi.reg (.inr ⟨_, mem_of_lookup he, rfl⟩)⟩
  · cases he

theorem source_sound (hw : WF σ) (hp : ∀ p ∈ pre, p.1 = id! "_") (hi : Inv P f σ regs) {e : Expr}
    {r : Nat} (he : source (consts f) σ e = some r) :
    (∃ p v, eval (ctx P w n) (pre ++ envOf (tyId f) σ regs) e =
      .ok ⟨v, [p], pre ++ envOf (tyId f) σ regs⟩ ∧
      (v = elem (tyId f) (rv regs r) ∨ v = .ref (elem (tyId f) (rv regs r)))) ∧
    FieldCode.reg regs r = .ok (rv regs r) ∧ (rv regs r).length = f.code.limbs := by
  unfold source at he
  split at he
  · rename_i x
    by_cases hx : x = id! "self"
    · rw [if_pos hx] at he
      subst hx
      obtain rfl := Option.some.inj he
      exact ⟨⟨_, _, eval_self _ hw hp, .inr rfl⟩, hi.reg (.inl rfl)⟩
    · rw [if_neg hx] at he
      obtain ⟨⟨p, h1⟩, h2⟩ := operand_sound (w := w) (n := n) hw hp hi (e := .var x) (r := r) he
      exact ⟨⟨p, _, h1, .inl rfl⟩, h2⟩
  · cases he

include h in
theorem square_sound (hn : 2 ≤ n) (hw : WF σ) (hp : ∀ p ∈ pre, p.1 = id! "_") (hi : Inv P f σ regs)
    {e : Expr} {m : Id} {s : CStep} (hs : squareStep σ e m = some s) (q : Elem → Res Elem) :
    (eval (ctx P w n) (pre ++ envOf (tyId f) σ regs) (.method e m .anil) =
      (lift (f.code.execStep w.pr q regs s) >>= fun regs' =>
        .ok ⟨.unit, [none], pre ++ envOf (tyId f) σ regs'⟩)) ∧
    ∀ regs', f.code.execStep w.pr q regs s = .ok regs' → Inv P f σ regs' := by
  unfold squareStep at hs
  by_cases hm : m = id! "square"
  · rw [if_pos hm] at hs
    subst hm
    obtain ⟨r, hr, rfl⟩ := Option.map_eq_some_iff.1 hs
    obtain ⟨x, v, h1, h2, h3⟩ := recv_sound (P := P) (f := f) (w := w) (n := n) (regs := regs) hw hp hr
    obtain ⟨h4, h5⟩ := hi.reg h3.good
    have h6 := run_square h w (n := n) hn h5
    have h7 := method_eq h (m := id! "square") (by decide)
    rw [FieldCode.execStep, h4]
    constructor
    · rcases h2 with rfl | rfl
      · interp [h1, h7, h6, h3.set]
      · interp [h1, h7, h6, h3.set]
    · intro regs' he
      simp only [ok_bind] at he
      cases hx : f.code.square w.pr (rv regs r) with
      | error e => rw [hx] at he; cases he
      | ok u =>
        rw [hx] at he
        rw [← Except.ok.inj he]
        exact hi.set hw h3.good (runLimb_length hx)
  · rw [if_neg hm] at hs
    cases hs

include h in
theorem assign_sound (hn : 2 ≤ n) (hw : WF σ) (hp : ∀ p ∈ pre, p.1 = id! "_") (hi : Inv P f σ regs)
    {op : BinOp} {p e : Expr} {s : CStep} (hs : assignStep (consts f) σ op p e = some s)
    (q : Elem → Res Elem) (rest : Block) :
    (exec (ctx P w n) (pre ++ envOf (tyId f) σ regs) (.opAssign op p (.ref e) rest) =
      (lift (f.code.execStep w.pr q regs s) >>= fun regs' =>
        exec (ctx P w n) (pre ++ envOf (tyId f) σ regs') rest)) ∧
    ∀ regs', f.code.execStep w.pr q regs s = .ok regs' → Inv P f σ regs' := by
  unfold assignStep at hs
  split at hs
  · rename_i x y hx hy
    obtain ⟨z, h1, h3⟩ := target_sound (P := P) (f := f) (w := w) (n := n) (regs := regs) hw hp hx
    obtain ⟨⟨p', h2⟩, h8, h9⟩ := operand_sound (w := w) (n := n) hw hp hi hy
    obtain ⟨h4, h5⟩ := hi.reg h3.good
    have key : ∀ (o : OpKind) (g : List Int → List Int → Res (List Int)), opBin o = op →
        AssignRef P f w o 2 g → (∀ a b r, g a b = .ok r → r.length = f.code.limbs) →
        (∀ e', f.code.execStep w.pr q regs s = e' →
          e' = (g (rv regs x) (rv regs y) >>= fun u => .ok (regs.set x u)) →
        (exec (ctx P w n) (pre ++ envOf (tyId f) σ regs) (.opAssign op p (.ref e) rest) =
          (lift (f.code.execStep w.pr q regs s) >>= fun regs' =>
            exec (ctx P w n) (pre ++ envOf (tyId f) σ regs') rest)) ∧
        ∀ regs', f.code.execStep w.pr q regs s = .ok regs' → Inv P f σ regs') := by
      rintro o g rfl H hg e' he rfl
      rw [he]
      have k1 := H.find h
      have k2 := H.sig.1
      have k3 := H.sig.2
      have k4 := H.call (n := n) hn h5 h9
      simp only [opG, opT_val, opT_ref] at k1 k2 k3 k4
      constructor
      · interp [h1, h2, k1, k2, k3, k4, h3.set]
      · intro regs' he
        cases hx : g (rv regs x) (rv regs y) with
        | error e => rw [hx] at he; cases he
        | ok u =>
          rw [hx] at he
          rw [← Except.ok.inj he]
          exact hi.set hw h3.good (hg _ _ _ hx)
    split at hs
    · obtain rfl := Option.some.inj hs
      refine key .mul _ rfl (assignRef_mul h w) (fun _ _ _ => runLimb_length) _ rfl ?_
      rw [FieldCode.execStep, h4, h8]
      rfl
    · obtain rfl := Option.some.inj hs
      refine key .sub _ rfl (assignRef_sub h w) (fun _ _ _ => runLimb_length) _ rfl ?_
      rw [FieldCode.execStep, h4, h8]
      rfl
    · obtain rfl := Option.some.inj hs
      refine key .add _ rfl (assignRef_add h w) (fun _ _ _ => runLimb_length) _ rfl ?_
      rw [FieldCode.execStep, h4, h8]
      rfl
    · cases hs
  · cases hs

/-- What `quartic_legendre` is taken to be. -/
structure Quartic (P : Program) (f : Fld) (w : World) (n : Nat) (q : Elem → Res Elem) : Prop where
  call : ∃ fn, P.method (tyId f) (id! "quartic_legendre") = some fn ∧ fn.recv = .ref ∧ fn.params = [] ∧
    ∀ a : List Int, a.length = f.code.limbs → run P w n fn [.ref (elem (tyId f) a)] =
      (lift (q a) >>= fun r => .ok (elem (tyId f) r, [.ref (elem (tyId f) a)]))
  len : ∀ a r, a.length = f.code.limbs → q a = .ok r → r.length = f.code.limbs

include h in
theorem let_sound (hn : 3 ≤ n) (hw : WF σ) (hi : Inv P f σ regs) {q : Elem → Res Elem}
    {e : Expr} {m : Id} {s : CStep} (hs : letStep (consts f) σ e m = some s)
    (hq : m = id! "quartic_legendre" → Quartic P f w n q) {x : Id} (rest : Block) :
    (exec (ctx P w n) (envOf (tyId f) σ regs) (.let x (.method e m .anil) rest) =
      (lift (f.code.execStep w.pr q regs s) >>= fun regs' =>
        exec (ctx P w n) (envOf (tyId f) ((x, 4 + σ.length) :: σ) regs') rest)) ∧
    ∀ regs', f.code.execStep w.pr q regs s = .ok regs' → Inv P f ((x, 4 + σ.length) :: σ) regs' := by
  unfold letStep at hs
  split at hs
  · rename_i y hy
    obtain ⟨⟨p, v, h1, h2⟩, h3, h4⟩ :=
      source_sound (pre := []) (w := w) (n := n) hw nofun hi hy
    rw [List.nil_append] at h1
    by_cases hm : m = id! "clone"
    · rw [if_pos hm] at hs
      obtain rfl := Option.some.inj hs
      subst hm
      rw [FieldCode.execStep, h3]
      constructor
      · rcases h2 with rfl | rfl <;> interp [h1, envOf_new hw]
      · intro regs' he
        rw [← Except.ok.inj he]
        exact hi.new hw x h4
    rw [if_neg hm] at hs
    by_cases hm' : m = id! "squared"
    · rw [if_pos hm'] at hs
      obtain rfl := Option.some.inj hs
      subst hm'
      rw [FieldCode.execStep, h3]
      have h6 := run_squared h w (n := n) hn h4
      have h7 := method_eq h (m := id! "squared") (by decide)
      constructor
      · rcases h2 with rfl | rfl <;> interp [h1, h6, h7, envOf_new hw]
      · intro regs' he
        simp only [ok_bind] at he
        cases hx : f.code.squared w.pr (rv regs y) with
        | error e => rw [hx] at he; cases he
        | ok u =>
          rw [hx] at he
          rw [← Except.ok.inj he]
          exact hi.new hw x (runLimb_length hx)
    rw [if_neg hm'] at hs
    by_cases hq' : m = id! "quartic_legendre"
    · rw [if_pos hq'] at hs
      obtain rfl := Option.some.inj hs
      obtain ⟨⟨fn, k1, k2, k3, k4⟩, k5⟩ := hq hq'
      subst hq'
      rw [FieldCode.execStep, h3]
      have h6 := k4 _ h4
      constructor
      · rcases h2 with rfl | rfl <;> interp [h1, h6, k1, k2, k3, envOf_new hw]
      · intro regs' he
        simp only [ok_bind] at he
        cases hx : q (rv regs y) with
        | error e => rw [hx] at he; cases he
        | ok u =>
          rw [hx] at he
          rw [← Except.ok.inj he]
          exact hi.new hw x (k5 _ _ h4 hx)
    · rw [if_neg hq'] at hs
      cases hs
  · cases hs

theorem seq_steps {q : Elem → Res Elem} {s : CStep} {l : List CStep} {b rest : Block}
    (h1 : exec (ctx P w n) (pre ++ envOf (tyId f) σ regs) b =
      (lift (f.code.execStep w.pr q regs s) >>= fun regs' =>
        exec (ctx P w n) (pre ++ envOf (tyId f) σ regs') rest))
    (h2 : ∀ regs', f.code.execStep w.pr q regs s = .ok regs' →
      (exec (ctx P w n) (pre ++ envOf (tyId f) σ regs') rest =
        (lift (f.code.execSteps w.pr q l regs') >>= fun regs'' =>
          .ok (pre ++ envOf (tyId f) σ regs''))) ∧
      ∀ regs'', f.code.execSteps w.pr q l regs' = .ok regs'' → Inv P f σ regs'') :
    (exec (ctx P w n) (pre ++ envOf (tyId f) σ regs) b =
      (lift (f.code.execSteps w.pr q (s :: l) regs) >>= fun regs' =>
        .ok (pre ++ envOf (tyId f) σ regs'))) ∧
    ∀ regs', f.code.execSteps w.pr q (s :: l) regs = .ok regs' → Inv P f σ regs' := by
  rw [h1, FieldCode.execSteps]
  cases hx : f.code.execStep w.pr q regs s with
  | error e => exact ⟨rfl, nofun⟩
  | ok r => exact h2 r hx

include h in
theorem compS_sound (hn : 2 ≤ n) (hw : WF σ) (hp : ∀ p ∈ pre, p.1 = id! "_") (q : Elem → Res Elem)
    {b : Block} {cs : List CStep} (hc : compS (consts f) σ b = some cs) (hi : Inv P f σ regs) :
    (exec (ctx P w n) (pre ++ envOf (tyId f) σ regs) b =
      (lift (f.code.execSteps w.pr q cs regs) >>= fun regs' =>
        .ok (pre ++ envOf (tyId f) σ regs'))) ∧
    ∀ regs', f.code.execSteps w.pr q cs regs = .ok regs' → Inv P f σ regs' := by
  induction b generalizing regs cs with
  | nil =>
    obtain rfl := Option.some.inj hc
    exact ⟨rfl, fun r hr => by rw [← Except.ok.inj hr]; exact hi⟩
  | expr e rest ih =>
    unfold compS at hc
    split at hc
    · cases ‹Block.expr e rest = _›
    · rename_i h'
      cases h'
      split at hc
      · rename_i s l h1 h2
        obtain rfl := Option.some.inj hc
        obtain ⟨k1, k2⟩ := square_sound h hn hw hp hi h1 q (w := w)
        refine seq_steps ?_ fun r hr => ih h2 (k2 r hr)
        rw [exec, k1, bind_bind]
        rfl
      · cases hc
    · cases ‹Block.expr e rest = _›
    · cases hc
  | opAssign op p e rest ih =>
    unfold compS at hc
    split at hc
    · cases ‹Block.opAssign op p e rest = _›
    · cases ‹Block.opAssign op p e rest = _›
    · rename_i h'
      cases h'
      split at hc
      · rename_i s l h1 h2
        obtain rfl := Option.some.inj hc
        obtain ⟨k1, k2⟩ := assign_sound h hn hw hp hi h1 q rest (w := w)
        exact seq_steps k1 fun r hr => ih h2 (k2 r hr)
      · cases hc
    · cases hc
  | _ => cases hc

include h in
theorem loop_sound (hn : 2 ≤ n) (hw : WF σ) (q : Elem → Res Elem) {body : Block} {cs : List CStep}
    (hc : compS (consts f) σ body = some cs) (k : Nat) : ∀ (i : Nat) {regs : FieldCode.Regs},
    Inv P f σ regs →
    (iterate (fun i ρ => do
        let ρ1 ← exec (ctx P w n) ((id! "_", .int (some .usize) i) :: ρ) body
        return ρ1.drop (ρ1.length - ρ.length)) k i (envOf (tyId f) σ regs) =
      (lift (f.code.execLoop w.pr q cs k regs) >>= fun regs' => .ok (envOf (tyId f) σ regs'))) ∧
    ∀ regs', f.code.execLoop w.pr q cs k regs = .ok regs' → Inv P f σ regs' := by
  induction k with
  | zero => exact fun i regs hi => ⟨rfl, fun r hr => by rw [← Except.ok.inj hr]; exact hi⟩
  | succ k ih =>
    intro i regs hi
    obtain ⟨k1, k2⟩ := compS_sound (w := w) (pre := [(id! "_", .int (some .usize) i)]) h hn hw
      (fun p hp => by rw [List.mem_singleton.1 hp]) q hc hi
    rw [List.singleton_append] at k1
    rw [iterate, k1, FieldCode.execLoop]
    cases hx : f.code.execSteps w.pr q cs regs with
    | error e => exact ⟨rfl, nofun⟩
    | ok r =>
      have hl : (envOf (tyId f) σ r).length = (envOf (tyId f) σ regs).length := by simp [envOf]
      simp only [lift_ok, ok_bind, List.singleton_append, List.length_cons, hl, pure_ok]
      rw [Nat.add_sub_cancel_left, List.drop_one, List.tail_cons]
      exact ih (i + 1) (k2 r hx)

/-- The chain does not call `quartic_legendre`. -/
def noQ : Chain → Bool
  | [] => true
  | .step (.quartic _ _) :: _ => false
  | _ :: l => noQ l

theorem seq_chain {q : Elem → Res Elem} {s : CStmt} {l : Chain} {ρ : Env} {b rest : Block}
    {σ' σ'' : List (Id × Nat)} {X : Res FieldCode.Regs}
    (hX : ∀ k, f.code.execChain w.pr q (s :: l) regs = k → k = (X >>= f.code.execChain w.pr q l))
    (h1 : exec (ctx P w n) ρ b = (lift X >>= fun regs' =>
        exec (ctx P w n) (envOf (tyId f) σ' regs') rest))
    (h2 : ∀ regs', X = .ok regs' →
      (exec (ctx P w n) (envOf (tyId f) σ' regs') rest =
        (lift (f.code.execChain w.pr q l regs') >>= fun regs'' =>
          .ok (envOf (tyId f) σ'' regs''))) ∧
      ∀ regs'', f.code.execChain w.pr q l regs' = .ok regs'' → Inv P f σ'' regs'') :
    (exec (ctx P w n) ρ b =
      (lift (f.code.execChain w.pr q (s :: l) regs) >>= fun regs' =>
        .ok (envOf (tyId f) σ'' regs'))) ∧
    ∀ regs', f.code.execChain w.pr q (s :: l) regs = .ok regs' → Inv P f σ'' regs' := by
  rw [h1, hX _ rfl]
  cases hx : X with
  | error e => exact ⟨rfl, nofun⟩
  | ok r => exact h2 r hx

theorem noQ_cons {s : CStmt} {l : Chain} (hq : noQ (s :: l) = true) : noQ l = true := by
  unfold noQ at hq
  split at hq
  · cases ‹s :: l = _›
  · cases hq
  · cases ‹s :: l = _›
    exact hq

theorem letStep_quartic {e : Expr} {s : CStep} (hs : letStep ks σ e (id! "quartic_legendre") = some s) :
    ∃ x y, s = .quartic x y := by
  unfold letStep at hs
  split at hs
  · exact ⟨_, _, (Option.some.inj hs).symm⟩
  · cases hs

include h in
theorem compC_sound (hn : 3 ≤ n) (q : Elem → Res Elem) {b : Block} {l : Chain} {σ' : List (Id × Nat)}
    (hw : WF σ) (hc : compC (consts f) σ b = some (l, σ')) (hq : noQ l = true ∨ Quartic P f w n q)
    (hi : Inv P f σ regs) :
    WF σ' ∧
    (exec (ctx P w n) (envOf (tyId f) σ regs) b =
      (lift (f.code.execChain w.pr q l regs) >>= fun regs' => .ok (envOf (tyId f) σ' regs'))) ∧
    ∀ regs', f.code.execChain w.pr q l regs = .ok regs' → Inv P f σ' regs' := by
  have wf : WF σ' := by
    clear hi hq
    induction b generalizing σ l with
    | nil => cases Option.some.inj hc; exact hw
    | «let» x e rest ih =>
      unfold compC at hc
      split at hc <;> try contradiction
      rename_i h'
      cases h'
      by_cases hx : x ∈ reserved ∨ x ∈ σ.map (·.1)
      · rw [if_pos hx] at hc; cases hc
      rw [if_neg hx, ] at hc
      rw [not_or] at hx
      split at hc
      · cases Option.some.inj hc
        exact ih (hw.new hx.1 hx.2) ‹_›
      · cases hc
    | expr e rest ih =>
      unfold compC at hc
      split at hc <;> try contradiction
      rename_i h'
      cases h'
      split at hc
      · cases Option.some.inj hc
        exact ih hw ‹_›
      · cases hc
    | opAssign op p e rest ih =>
      unfold compC at hc
      split at hc <;> try contradiction
      rename_i h'
      cases h'
      split at hc
      · cases Option.some.inj hc
        exact ih hw ‹_›
      · cases hc
    | «for» x a b body rest ih1 ih =>
      unfold compC at hc
      split at hc <;> try contradiction
      rename_i h'
      cases h'
      by_cases hx : x = id! "_"
      · rw [if_pos hx] at hc
        split at hc
        · cases Option.some.inj hc
          exact ih hw ‹_›
        · cases hc
      · rw [if_neg hx] at hc; cases hc
    | _ => cases hc
  refine ⟨wf, ?_⟩
  clear wf
  induction b generalizing σ l regs with
  | nil =>
    cases Option.some.inj hc
    exact ⟨rfl, fun r hr => by rw [← Except.ok.inj hr]; exact hi⟩
  | «let» x e rest ih =>
    unfold compC at hc
    split at hc <;> try contradiction
    rename_i e m _ h'
    cases h'
    by_cases hx : x ∈ reserved ∨ x ∈ σ.map (·.1)
    · rw [if_pos hx] at hc; cases hc
    rw [if_neg hx] at hc
    rw [not_or] at hx
    split at hc
    · rename_i s l' σ'' hs hl
      cases Option.some.inj hc
      obtain ⟨k1, k2⟩ := let_sound h hn hw hi (w := w) (q := q) hs (x := x) (rest := rest) (by
        rintro rfl
        rcases hq with hq | hq
        · obtain ⟨_, _, rfl⟩ := letStep_quartic hs
          cases hq
        · exact hq)
      exact seq_chain (by rintro _ rfl; rfl) k1 fun r hr =>
        ih (hw.new hx.1 hx.2) hl (hq.imp_left noQ_cons) (k2 r hr)
    · cases hc
  | expr e rest ih =>
    unfold compC at hc
    split at hc <;> try contradiction
    rename_i e m _ h'
    cases h'
    split at hc
    · rename_i s l' σ'' hs hl
      cases Option.some.inj hc
      obtain ⟨k1, k2⟩ := square_sound (pre := []) h (by omega) hw nofun hi hs q (w := w) (n := n)
      refine seq_chain (X := f.code.execStep w.pr q regs s) (σ' := σ) (rest := rest)
        (by rintro _ rfl; rfl) ?_ fun r hr =>
        ih hw hl (hq.imp_left noQ_cons) (k2 r hr)
      rw [List.nil_append] at k1
      rw [exec, k1, bind_bind]
      rfl
    · cases hc
  | opAssign op p e rest ih =>
    unfold compC at hc
    split at hc <;> try contradiction
    rename_i h'
    cases h'
    split at hc
    · rename_i s l' σ'' hs hl
      cases Option.some.inj hc
      obtain ⟨k1, k2⟩ := assign_sound (pre := []) h (by omega) hw nofun hi hs q rest (w := w) (n := n)
      exact seq_chain (X := f.code.execStep w.pr q regs s) (σ' := σ) (rest := rest)
        (by rintro _ rfl; rfl) k1 fun r hr =>
        ih hw hl (hq.imp_left noQ_cons) (k2 r hr)
    · cases hc
  | «for» x a b body rest ih1 ih =>
    unfold compC at hc
    split at hc <;> try contradiction
    rename_i a b _ _ h'
    cases h'
    by_cases hx : x = id! "_"
    · rw [if_pos hx] at hc
      subst hx
      split at hc
      · rename_i s l' σ'' hs hl
        cases Option.some.inj hc
        obtain ⟨k1, k2⟩ := loop_sound h (by omega) hw q hs (b - a) a hi (w := w) (n := n)
        refine seq_chain (X := f.code.execLoop w.pr q s (b - a) regs) (σ' := σ) (rest := rest)
          (by rintro _ rfl; rfl) ?_ fun r hr =>
          ih hw hl (hq.imp_left noQ_cons) (k2 r hr)
        simp only [exec, eval, bounds, Val.index, Int.toNat_natCast, ok_bind, k1, bind_bind]
      · cases hc
    · rw [if_neg hx] at hc; cases hc
  | _ => cases hc

theorem execChain_append (F : FieldCode) (pr : Profile) (q : Elem → Res Elem) (l l' : Chain) :
    ∀ regs, F.execChain pr q (l ++ l') regs = (F.execChain pr q l regs >>= F.execChain pr q l') := by
  induction l with
  | nil => exact fun _ => rfl
  | cons s l ih =>
    intro regs
    cases s with
    | step s =>
      rw [List.cons_append, FieldCode.execChain, FieldCode.execChain]
      cases F.execStep pr q regs s with
      | error e => rfl
      | ok r => exact ih r
    | loop a b body =>
      rw [List.cons_append, FieldCode.execChain, FieldCode.execChain]
      cases F.execLoop pr q body (b - a) regs with
      | error e => rfl
      | ok r => exact ih r

/-- Constants used by chains. -/
theorem const_half (f : Fld) : f.code.ONE.length = f.code.limbs ∧
    (∀ v, f.code.M_HALF = some v → v.length = f.code.limbs ∧
      (src f).const (id! "M_HALF") = some (elem (tyId f) v)) ∧
    (∀ v, f.code.COEFF = some v → v.length = f.code.limbs ∧
      (src f).const (id! "COEFF") = some (elem (tyId f) v)) := by
  cases f <;> refine ⟨rfl, ?_, ?_⟩ <;> intro v hv <;>
    first
    | (obtain rfl := Option.some.inj hv; exact ⟨rfl, rfl⟩)
    | cases hv

include h in
theorem inv_init {a : List Int} (ha : a.length = f.code.limbs) : Inv P f [] (f.code.initRegs a) := by
  obtain ⟨h1, h2, h3⟩ := const_half f
  have e0 : (f.code.initRegs a).get 0 = some a := by
    rw [FieldCode.initRegs]
    cases f.code.M_HALF <;> cases f.code.COEFF <;> simp [Tree.get_set]
  have e1 : (f.code.initRegs a).get 1 = some f.code.ONE := by
    rw [FieldCode.initRegs]
    cases f.code.M_HALF <;> cases f.code.COEFF <;> simp [Tree.get_set]
  refine ⟨⟨a, e0, ha⟩, nofun, fun y r hy => ?_⟩
  rw [Chn.consts, lookup_if] at hy
  by_cases hy1 : y = id! "ONE"
  · rw [if_pos hy1] at hy
    obtain rfl := Option.some.inj hy
    subst hy1
    exact ⟨by omega, by omega, _, e1, h1, h.const (const_src f).2.2.1⟩
  rw [if_neg hy1] at hy
  by_cases hc : f.code.M_HALF.isSome ∧ f.code.COEFF.isSome
  · rw [if_pos hc] at hy
    obtain ⟨u, hu⟩ := Option.isSome_iff_exists.1 hc.1
    obtain ⟨v, hv⟩ := Option.isSome_iff_exists.1 hc.2
    rw [lookup_if, lookup_if] at hy
    by_cases hy2 : y = id! "M_HALF"
    · rw [if_pos hy2] at hy
      obtain rfl := Option.some.inj hy
      subst hy2
      refine ⟨by omega, by omega, u, ?_, (h2 u hu).1, h.const (h2 u hu).2⟩
      rw [FieldCode.initRegs, hu, hv]
      simp [Tree.get_set]
    rw [if_neg hy2] at hy
    by_cases hy3 : y = id! "COEFF"
    · rw [if_pos hy3] at hy
      obtain rfl := Option.some.inj hy
      subst hy3
      refine ⟨by omega, by omega, v, ?_, (h3 v hv).1, h.const (h3 v hv).2⟩
      rw [FieldCode.initRegs, hu, hv]
      simp [Tree.get_set]
    rw [if_neg hy3] at hy
    cases hy
  · rw [if_neg hc] at hy
    cases hy

theorem rv_init (a : List Int) : rv (f.code.initRegs a) 0 = a := by
  rw [rv, FieldCode.initRegs]
  cases f.code.M_HALF <;> cases f.code.COEFF <;> simp [Tree.get_set]

theorem envOf_length (t : Id) (σ : List (Id × Nat)) (regs : FieldCode.Regs) :
    (envOf t σ regs).length = σ.length + 1 := by simp [envOf]

/-- What remains of the local variables at the end. -/
theorem envOf_last (t : Id) (σ : List (Id × Nat)) (regs : FieldCode.Regs) :
    ((envOf t σ regs).drop ((envOf t σ regs).length - 1)).map (·.2) = [.ref (elem t (rv regs 0))] := by
  rw [envOf_length, envOf, List.drop_left' (by simp)]
  rfl

theorem wf_nil : WF [] := ⟨List.nodup_nil, nofun, List.nodup_nil, nofun⟩

/-- The register a step assigns. -/
def target0 : CStep → Nat
  | .clone x _ | .squared x _ | .quartic x _ | .square x | .mulAssign x _ | .subAssign x _
  | .addAssign x _ => x
  | .ret _ | .retMul _ _ => 0

/-- The chain does not assign `self`. -/
def keeps (l : Chain) : Bool :=
  l.all fun
    | .step s => target0 s != 0
    | .loop _ _ body => body.all fun s => target0 s != 0

theorem bind_eq_ok {α β : Type} {x : Res α} {g : α → Res β} {r : β} (h : (x >>= g) = .ok r) :
    ∃ v, x = .ok v ∧ g v = .ok r := by
  cases x with
  | error e => cases h
  | ok v => exact ⟨v, rfl, h⟩

theorem keeps_step {F : FieldCode} {pr : Profile} {q : Elem → Res Elem} {regs r : FieldCode.Regs}
    {s : CStep} (hs : (target0 s != 0) = true) (he : F.execStep pr q regs s = .ok r) :
    rv r 0 = rv regs 0 := by
  rw [bne_iff_ne] at hs
  cases s <;> rw [FieldCode.execStep] at he <;> simp only [target0] at hs <;>
    (repeat' first
      | (obtain ⟨_, _, he⟩ := bind_eq_ok he)) <;>
    first
    | (rw [← Except.ok.inj he]; exact rv_set_ne _ _ (Ne.symm hs))
    | exact absurd rfl hs

theorem keeps_steps {F : FieldCode} {pr : Profile} {q : Elem → Res Elem} {l : List CStep} :
    ∀ {regs r : FieldCode.Regs}, (l.all fun s => target0 s != 0) = true →
      F.execSteps pr q l regs = .ok r → rv r 0 = rv regs 0 := by
  induction l with
  | nil => intro regs r _ he; rw [← Except.ok.inj he]
  | cons s l ih =>
    intro regs r hs he
    rw [List.all_cons, Bool.and_eq_true] at hs
    rw [FieldCode.execSteps] at he
    obtain ⟨r1, h1, h2⟩ := bind_eq_ok he
    rw [ih hs.2 h2, keeps_step hs.1 h1]

theorem keeps_loop {F : FieldCode} {pr : Profile} {q : Elem → Res Elem} {l : List CStep}
    (hl : (l.all fun s => target0 s != 0) = true) (k : Nat) :
    ∀ {regs r : FieldCode.Regs}, F.execLoop pr q l k regs = .ok r → rv r 0 = rv regs 0 := by
  induction k with
  | zero => intro regs r he; rw [← Except.ok.inj he]
  | succ k ih =>
    intro regs r he
    rw [FieldCode.execLoop] at he
    obtain ⟨r1, h1, h2⟩ := bind_eq_ok he
    rw [ih h2, keeps_steps hl h1]

theorem keeps_chain {F : FieldCode} {pr : Profile} {q : Elem → Res Elem} {l : Chain} :
    ∀ {regs r : FieldCode.Regs}, keeps l = true →
      F.execChain pr q l regs = .ok r → rv r 0 = rv regs 0 := by
  induction l with
  | nil => intro regs r _ he; rw [← Except.ok.inj he]
  | cons s l ih =>
    intro regs r hs he
    rw [keeps, List.all_cons, Bool.and_eq_true] at hs
    cases s with
    | step s =>
      rw [FieldCode.execChain] at he
      obtain ⟨r1, h1, h2⟩ := bind_eq_ok he
      rw [ih hs.2 h2, keeps_step hs.1 h1]
    | loop a b body =>
      rw [FieldCode.execChain] at he
      obtain ⟨r1, h1, h2⟩ := bind_eq_ok he
      rw [ih hs.2 h2, keeps_loop hs.1 _ h1]

theorem noQ_append (l l' : Chain) (h : noQ (l ++ l') = true) : noQ l = true := by
  induction l with
  | nil => rfl
  | cons s l ih =>
    cases s with
    | step s => cases s <;> simp only [noQ, List.cons_append] at h ⊢ <;> first | exact ih h | cases h
    | loop a b body => exact ih h

include h in
/-- The final expression of a chain. -/
theorem ret_sound (hn : 3 ≤ n) (hw : WF σ) (hi : Inv P f σ regs) {e : Expr} {l : Chain}
    (he : compRet (consts f) σ e = some l) (q : Elem → Res Elem) : ∃ s, l = [.step s] ∧
    ((eval (ctx P w n) (envOf (tyId f) σ regs) e >>= fun o => .ok (o.val, o.env)) =
      (lift (f.code.execStep w.pr q regs s) >>= fun regs' =>
        .ok (elem (tyId f) (rv regs' 0), envOf (tyId f) σ regs))) ∧
    ∀ regs', f.code.execStep w.pr q regs s = .ok regs' → ∃ v, regs'.get 0 = some v ∧
      v.length = f.code.limbs := by
  unfold compRet at he
  split at he
  · rename_i x
    obtain ⟨r, hr, rfl⟩ := Option.map_eq_some_iff.1 he
    obtain ⟨h1, h2⟩ := hi.reg (.inr ⟨_, mem_of_lookup hr, rfl⟩)
    refine ⟨_, rfl, ?_⟩
    have h3 := eval_local (f := f) (regs := regs) (pre := []) (ctx P w n) hw nofun hr
    rw [List.nil_append] at h3
    rw [h3, FieldCode.execStep, h1]
    constructor
    · simp only [ok_bind, pure_ok, lift_ok, rv, Tree.get_set_self]
      rfl
    · intro r' hr'
      rw [← Except.ok.inj hr']
      exact ⟨_, Tree.get_set_self _ _ _, h2⟩
  · rename_i a b
    split at he
    · rename_i x y hx hy
      obtain rfl := Option.some.inj he
      refine ⟨_, rfl, ?_⟩
      obtain ⟨⟨p1, h1⟩, h2, h3⟩ := operand_sound (pre := []) (w := w) (n := n) hw nofun hi hx
      obtain ⟨⟨p2, h4⟩, h5, h6⟩ := operand_sound (pre := []) (w := w) (n := n) hw nofun hi hy
      rw [List.nil_append] at h1 h4
      have hj : (⟨.mul, false, .ref, .ref, .cloneAssign .mul⟩ : OpImpl) ∈ opTable := by decide
      have k1 := opFn_eq h hj
      obtain ⟨k2, k3⟩ := op_sig f _ hj
      have k4 := (assignRef_mul h w).run_cloneAssign h w hj rfl hn h3 h6
      simp only [opG, opId, opT_ref] at k1 k2 k3 k4
      rw [FieldCode.execStep, h2, h5]
      constructor
      · interp [h1, h4, k1, k2, k3, k4]
        simp only [rv, Tree.get_set_self]
        rfl
      · intro r' hr'
        simp only [ok_bind] at hr'
        obtain ⟨u, hu, hr'⟩ := bind_eq_ok hr'
        rw [← Except.ok.inj hr']
        exact ⟨_, Tree.get_set_self _ _ _, runLimb_length hu⟩
    · cases he
  · cases he

include h in
/-- Functions `&mut self` that are chains. -/
theorem run_chain_mut (hn : 4 ≤ n) {fn : Fn} {l : Chain} (hr : fn.recv = .mut) (hp : fn.params = [])
    (hu : fn.ret = .unit) (hl : (compC (consts f) [] fn.body).map (·.1) = some l) (hq : noQ l = true)
    (q : Elem → Res Elem) {a : List Int} (ha : a.length = f.code.limbs) :
    (run P w n fn [.ref (elem (tyId f) a)] = (lift (f.code.runChain w.pr q l a) >>= fun r =>
      .ok (.unit, [.ref (elem (tyId f) r)]))) ∧
    ∀ r, f.code.runChain w.pr q l a = .ok r → r.length = f.code.limbs := by
  obtain ⟨n, rfl⟩ := Nat.exists_eq_add_of_le' (show 1 ≤ n by omega)
  obtain ⟨⟨l', σ'⟩, hc, rfl⟩ := Option.map_eq_some_iff.1 hl
  obtain ⟨hw, k1, k2⟩ := compC_sound h (show 3 ≤ n by omega) q (w := w)
    wf_nil hc (.inl hq) (inv_init h ha)
  have e0 : fn.names.zip (fn.coerce [.ref (elem (tyId f) a)]) = envOf (tyId f) [] (f.code.initRegs a) := by
    simp only [Fn.names, Fn.coerce, hr, hp, envOf, rv_init]
    rfl
  have e1 : fn.names.length = 1 := by simp only [Fn.names, hr, hp]; rfl
  rw [run_succ, runBody, e0, k1, FieldCode.runChain, hu, e1]
  cases hx : f.code.execChain w.pr q l' (f.code.initRegs a) with
  | error e => exact ⟨rfl, nofun⟩
  | ok r =>
    obtain ⟨h1, h2⟩ := (k2 r hx).reg (.inl rfl)
    simp only [ok_bind, lift_ok, h1, eval, pure_ok, coerce_unit, envOf_last]
    exact ⟨trivial, fun r' hr' => by rw [← Except.ok.inj hr']; exact h2⟩

theorem ok_or_error {ε α : Type} (x : Except ε α) : (∃ o, x = .ok o) ∨ ∃ e, x = .error e := by
  cases x with
  | error e => exact .inr ⟨e, rfl⟩
  | ok o => exact .inl ⟨o, rfl⟩

include h in
/-- Functions `&self` that are chains. -/
theorem run_chain_ref (hn : 4 ≤ n) {fn : Fn} {l : Chain} (hr : fn.recv = .ref) (hp : fn.params = [])
    (hl : compFn (consts f) fn = some l) (hk : keeps l.dropLast = true) {q : Elem → Res Elem}
    (hq : noQ l = true ∨ Quartic P f w (n - 1) q) {a : List Int}
    (ha : a.length = f.code.limbs) :
    (run P w n fn [.ref (elem (tyId f) a)] = (lift (f.code.runChain w.pr q l a) >>= fun r =>
      .ok (elem (tyId f) r, [.ref (elem (tyId f) a)]))) ∧
    ∀ r, f.code.runChain w.pr q l a = .ok r → r.length = f.code.limbs := by
  obtain ⟨n, rfl⟩ := Nat.exists_eq_add_of_le' (show 1 ≤ n by omega)
  rw [compFn] at hl
  split at hl
  · rename_i l' σ' hc
    obtain ⟨l2, hl2, rfl⟩ := Option.map_eq_some_iff.1 hl
    have hs : ∃ s, l2 = [CStmt.step s] := by
      unfold compRet at hl2
      split at hl2
      · obtain ⟨r, -, rfl⟩ := Option.map_eq_some_iff.1 hl2; exact ⟨_, rfl⟩
      · split at hl2
        · obtain rfl := Option.some.inj hl2; exact ⟨_, rfl⟩
        · cases hl2
      · cases hl2
    obtain ⟨s, rfl⟩ := hs
    rw [List.dropLast_concat] at hk
    obtain ⟨hw, k1, k2⟩ := compC_sound h (show 3 ≤ n by omega) q (w := w)
      wf_nil hc (hq.imp (noQ_append _ _) id) (inv_init h ha)
    have e0 : fn.names.zip (fn.coerce [.ref (elem (tyId f) a)]) =
        envOf (tyId f) [] (f.code.initRegs a) := by
      simp only [Fn.names, Fn.coerce, hr, hp, envOf, rv_init]
      rfl
    have e1 : fn.names.length = 1 := by simp only [Fn.names, hr, hp]; rfl
    rw [run_succ, runBody, e0, k1, FieldCode.runChain, execChain_append, e1]
    cases hx : f.code.execChain w.pr q l' (f.code.initRegs a) with
    | error e => exact ⟨rfl, nofun⟩
    | ok r =>
      obtain ⟨s', hs', m1, m2⟩ := ret_sound (w := w) h (show 3 ≤ n by omega) hw (k2 r hx) hl2 q
      obtain rfl : s = s' := by injection hs' with h1; injection h1
      have m3 : rv r 0 = a := (keeps_chain hk hx).trans (rv_init a)
      simp only [ok_bind, lift_ok, FieldCode.execChain]
      cases hy : f.code.execStep w.pr q r s with
      | error e =>
        rw [hy] at m1
        obtain ⟨o, ho⟩ | ⟨e', he⟩ := ok_or_error (eval (ctx P w n) (envOf (tyId f) σ' r) fn.ret)
        · rw [ho] at m1; cases m1
        · rw [he] at m1 ⊢; exact ⟨by injection m1 with m1; rw [m1]; rfl, nofun⟩
      | ok r' =>
        obtain ⟨v, hv, hv'⟩ := m2 r' hy
        rw [hy] at m1
        obtain ⟨o, ho⟩ | ⟨e', he⟩ := ok_or_error (eval (ctx P w n) (envOf (tyId f) σ' r) fn.ret)
        · rw [ho] at m1 ⊢
          simp only [ok_bind, lift_ok] at m1 ⊢
          injection m1 with m1
          injection m1 with m4 m5
          rw [m4, m5, envOf_last, FieldCode.reg, rv, hv, m3]
          exact ⟨rfl, fun r hr => by rw [← Except.ok.inj hr]; exact hv'⟩
        · rw [he] at m1; cases m1
  · cases hl

end

end Chn

end Verif.Rust

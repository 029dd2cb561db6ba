import Mathlib.Data.List.Forall2
import Verif.Rust.Trace

/-!
# Runs that differ in secrets only

Two values agree up to secrets (`Lo`) if they have the same shape, types and lengths, and the same
`usize` numbers (indices, bounds of loops) and literals; numbers of the other types, truth values and
written text may differ.  Runs on such values do the same: `runT_lo`.
-/

namespace Verif.Rust

open T (quiet tell)

/-- Equal up to secrets. -/
inductive Lo : Val → Val → Prop where
  | same (t : Option IntTy) (n : Int) : Lo (.int t n) (.int t n)
  | secret (t : IntTy) (m n : Int) : t ≠ .usize → Lo (.int (some t) m) (.int (some t) n)
  | bool (a b : Bool) : Lo (.bool a) (.bool b)
  | unit : Lo .unit .unit
  | arr {vs ws : List Val} : List.Forall₂ Lo vs ws → Lo (.arr vs) (.arr ws)
  | struct (t : Id) (ns : List Id) {vs ws : List Val} :
    List.Forall₂ Lo vs ws → Lo (.struct t ns vs) (.struct t ns ws)
  | ref {v w : Val} : Lo v w → Lo (.ref v) (.ref w)
  | fmt (r s : List Char) : Lo (.fmt r) (.fmt s)
  | rng (n : Nat) : Lo (.rng n) (.rng n)

mutual
theorem Lo.refl : (v : Val) → Lo v v
  | .int t n => .same t n
  | .bool b => .bool b b
  | .unit => .unit
  | .arr vs => .arr (Lo.refls vs)
  | .struct t ns vs => .struct t ns (Lo.refls vs)
  | .ref v => .ref (Lo.refl v)
  | .fmt s => .fmt s s
  | .rng n => .rng n
theorem Lo.refls : (vs : List Val) → List.Forall₂ Lo vs vs
  | [] => .nil
  | v :: vs => .cons (Lo.refl v) (Lo.refls vs)
end

/-- Lists of values. -/
abbrev Los := List.Forall₂ Lo

/-- Local variables. -/
abbrev LoEnv : Env → Env → Prop := List.Forall₂ fun a b => a.1 = b.1 ∧ Lo a.2 b.2

/-- Results of expressions: the places are equal. -/
structure LoOut (o o' : Out) : Prop where
  val : Lo o.val o'.val
  places : o.places = o'.places
  env : LoEnv o.env o'.env

/-- Results without record: both fail in the same way or both succeed. -/
inductive Both {α : Type} (R : α → α → Prop) : Except Err α → Except Err α → Prop where
  | ok {a b : α} : R a b → Both R (.ok a) (.ok b)
  | error (e : Err) : Both R (.error e) (.error e)

/-- Runs: the same record, and both fail in the same way or both succeed; in debug builds one of them
may stop early with an overflow. -/
inductive Same (pr : Profile) {α : Type} (R : α → α → Prop) (s t : T α) : Prop where
  | both : s.trace = t.trace → Both R s.res t.res → Same pr R s t
  | left : pr = .debug → s.res = .error (.panic .overflow) → s.trace <+: t.trace → Same pr R s t
  | right : pr = .debug → t.res = .error (.panic .overflow) → t.trace <+: s.trace → Same pr R s t

variable {pr : Profile} {α β : Type} {R : α → α → Prop} {S : β → β → Prop}

theorem bind_ok {s : T α} {x : α} (h : s.res = .ok x) (f : α → T β) :
    s >>= f = ⟨s.trace ++ (f x).trace, (f x).res⟩ := by
  show T.bind s f = _
  rw [T.bind, h]

theorem bind_error {s : T α} {e : Err} (h : s.res = .error e) (f : α → T β) :
    s >>= f = ⟨s.trace, .error e⟩ := by
  show T.bind s f = _
  rw [T.bind, h]

theorem trace_prefix (s : T α) (f : α → T β) : s.trace <+: (s >>= f).trace := by
  cases h : s.res with
  | ok x => rw [bind_ok h]; exact List.prefix_append _ _
  | error e => rw [bind_error h]; exact List.prefix_rfl

theorem Same.bind {s t : T α} {f g : α → T β} (h : Same pr R s t)
    (hfg : ∀ a b, R a b → Same pr S (f a) (g b)) : Same pr S (s >>= f) (t >>= g) := by
  rcases h with ⟨htr, hres⟩ | ⟨hp, hs, htr⟩ | ⟨hp, ht, htr⟩
  · generalize hs : s.res = u at hres
    generalize ht : t.res = v at hres
    cases hres with
    | error e =>
      rw [bind_error hs, bind_error ht]
      exact .both htr (.error e)
    | ok hab =>
      rw [bind_ok hs, bind_ok ht, htr]
      rcases hfg _ _ hab with ⟨h1, h2⟩ | ⟨hp, h1, h2⟩ | ⟨hp, h1, h2⟩
      · exact .both (by rw [h1]) h2
      · exact .left hp h1 ((List.prefix_append_right_inj _).2 h2)
      · exact .right hp h1 ((List.prefix_append_right_inj _).2 h2)
  · rw [bind_error hs]
    exact .left hp rfl (htr.trans (trace_prefix t g))
  · rw [bind_error ht]
    exact .right hp rfl (htr.trans (trace_prefix s f))

theorem Same.pure {a b : α} (h : R a b) : Same pr R (pure a : T α) (pure b) := .both rfl (.ok h)

theorem Same.stuck : Same pr R (quiet (.error .stuck)) (quiet (.error .stuck)) :=
  .both rfl (.error _)

theorem Same.quiet {r s : Except Err α} (h : Both R r s) : Same pr R (quiet r) (quiet s) :=
  .both rfl h

theorem Same.tell (e : Event) : Same pr (fun _ _ => True) (tell e) (tell e) :=
  .both rfl (.ok trivial)

/-! ### Primitive operations -/

theorem Lo.strip {v w : Val} (h : Lo v w) : Lo v.strip w.strip := by
  cases h with
  | ref h => exact h
  | same t n => exact .same t n
  | secret t m n ht => exact .secret t m n ht
  | bool a b => exact .bool a b
  | unit => exact .unit
  | arr h => exact .arr h
  | struct t ns h => exact .struct t ns h
  | fmt r s => exact .fmt r s
  | rng n => exact .rng n

theorem Lo.ty {v w : Val} (h : Lo v w) : v.ty = w.ty := by
  cases h with
  | ref h => cases h <;> rfl
  | _ => rfl

theorem Lo.isPrim {v w : Val} (h : Lo v w) : v.isPrim = w.isPrim := by
  cases h <;> rfl

theorem Lo.intTy {v w : Val} (h : Lo v w) : v.intTy = w.intTy := by
  cases h <;> rfl

theorem Lo.index {v w : Val} (h : Lo v w) : v.index = w.index := by
  cases h with
  | secret t m n ht => cases t <;> first | rfl | exact absurd rfl ht
  | _ => rfl

/-- Integers of a type other than `usize`. -/
theorem Lo.int (t : IntTy) (ht : t ≠ .usize) (m n : Int) : Lo (.int (some t) m) (.int (some t) n) :=
  .secret t m n ht

theorem Lo.asI64 {v w : Val} (h : Lo v w) : Lo (asI64 v) (asI64 w) := by
  cases h with
  | same t n => cases t <;> exact .same _ _
  | secret t m n ht => exact .secret t m n ht
  | bool a b => exact .bool a b
  | unit => exact .unit
  | arr h => exact .arr h
  | struct t ns h => exact .struct t ns h
  | ref h => exact .ref h
  | fmt r s => exact .fmt r s
  | rng n => exact .rng n

theorem Lo.coerce (t : Ty) {v w : Val} (h : Lo v w) : Lo (coerce t v) (coerce t w) := by
  cases h with
  | same s n => exact Lo.refl _
  | secret t m n ht => exact .secret t m n ht
  | bool a b => exact .bool a b
  | unit => exact .unit
  | arr h => exact .arr h
  | struct t ns h => exact .struct t ns h
  | ref h => exact .ref h
  | fmt r s => exact .fmt r s
  | rng n => exact .rng n

theorem Los.get {vs ws : List Val} (h : Los vs ws) (i : Nat) :
    (∃ v w, vs[i]? = some v ∧ ws[i]? = some w ∧ Lo v w) ∨ vs[i]? = none ∧ ws[i]? = none := by
  induction h generalizing i with
  | nil => exact .inr ⟨rfl, rfl⟩
  | cons h _ ih =>
    cases i with
    | zero => exact .inl ⟨_, _, rfl, rfl, h⟩
    | succ i => exact ih i

theorem Los.set {vs ws : List Val} (h : Los vs ws) (i : Nat) {v w : Val} (hvw : Lo v w) :
    Los (vs.set i v) (ws.set i w) := by
  induction h generalizing i with
  | nil => exact .nil
  | cons h ht ih =>
    cases i with
    | zero => exact .cons hvw ht
    | succ i => exact .cons h (ih i)

theorem lo_notV {v w : Val} (h : Lo v w) : Both Lo (notV v) (notV w) := by
  cases h with
  | bool a b => exact .ok (.bool _ _)
  | _ => exact .error _

theorem lo_castTo (t : IntTy) {v w : Val} (h : Lo v w) : Both Lo (castTo t v) (castTo t w) := by
  have same : ∀ r : Except Err Val, Both Lo r r := fun r => by
    cases r with
    | ok v => exact .ok (Lo.refl v)
    | error e => exact .error e
  cases h with
  | same s n => exact same _
  | secret s m n hs =>
    cases t <;> cases s <;>
      first | exact .error _ | exact .ok (.secret _ _ _ (by decide))
  | bool a b => cases t <;> first | exact .error _ | exact .ok (.secret _ _ _ (by decide))
  | _ => cases t <;> exact .error _

theorem lo_tupleStruct (t : Id) {vs ws : List Val} (h : Los vs ws) :
    Both Lo (tupleStruct t vs) (tupleStruct t ws) := by
  cases h with
  | nil => exact .error _
  | cons h ht =>
    cases ht with
    | nil =>
      cases h with
      | arr h =>
        refine .ok (.struct _ _ (.cons (.arr ?_) .nil))
        rw [List.forall₂_map_left_iff, List.forall₂_map_right_iff]
        exact h.imp fun _ _ => Lo.asI64
      | _ => exact .error _
    | cons h' ht => cases h <;> cases h' <;> exact .error _

theorem lo_getField (x : Id) {v w : Val} (h : Lo v w) : Both Lo (getField x v) (getField x w) := by
  have h' := h.strip
  unfold getField
  generalize v.strip = a at h'
  generalize w.strip = b at h'
  cases h' with
  | struct t ns h =>
    dsimp only
    rcases Los.get h (ns.idxOf x) with ⟨v, w, e1, e2, hvw⟩ | ⟨e1, e2⟩
    · rw [e1, e2]; exact .ok hvw
    · rw [e1, e2]; exact .error _
  | _ => exact .error _

theorem lo_getIndex {v w i j : Val} (h : Lo v w) (hi : Lo i j) :
    Both Lo (getIndex v i) (getIndex w j) := by
  have h' := h.strip
  unfold getIndex
  rw [hi.index]
  generalize v.strip = a at h'
  generalize w.strip = b at h'
  generalize j.index = k
  cases h' with
  | arr h =>
    cases k with
    | none => exact .error _
    | some k =>
      dsimp only
      rcases Los.get h k with ⟨v, w, e1, e2, hvw⟩ | ⟨e1, e2⟩
      · rw [e1, e2]; exact .ok hvw
      · rw [e1, e2]; exact .error _
  | _ => exact .error _

theorem Lo.indexProj {i j : Val} (h : Lo i j) : indexProj i = indexProj j := by
  rw [Rust.indexProj, Rust.indexProj, h.index]

theorem Lo.retarget {old old' v w : Val} (h : Lo old old') (hv : Lo v w) :
    Lo (old.retarget v) (old'.retarget w) := by
  cases h with
  | ref => exact .ref hv
  | _ => exact hv

theorem Both.bind {r s : Except Err α} {f g : α → Except Err β} (h : Both R r s)
    (hfg : ∀ a b, R a b → Both S (f a) (g b)) : Both S (r >>= f) (s >>= g) := by
  cases h with
  | ok h => exact hfg _ _ h
  | error e => exact .error e

theorem lo_writePath (ps : List Proj) {old old' v w : Val} (h : Lo old old') (hv : Lo v w) :
    Both Lo (writePath old ps v) (writePath old' ps w) := by
  induction ps generalizing old old' with
  | nil => exact .ok (h.retarget hv)
  | cons p ps ih =>
    have h' := h.strip
    cases p with
    | field x =>
      unfold writePath
      generalize old.strip = a at h'
      generalize old'.strip = b at h'
      cases h' with
      | struct t ns hs =>
        dsimp only
        rcases Los.get hs (ns.idxOf x) with ⟨a, b, e1, e2, hab⟩ | ⟨e1, e2⟩
        · rw [e1, e2]
          exact (ih hab).bind fun _ _ hr => .ok (h.retarget (.struct _ _ (Los.set hs _ hr)))
        · rw [e1, e2]; exact .error _
      | _ => exact .error _
    | index i =>
      unfold writePath
      generalize old.strip = a at h'
      generalize old'.strip = b at h'
      cases h' with
      | arr hs =>
        dsimp only
        rcases Los.get hs i with ⟨a, b, e1, e2, hab⟩ | ⟨e1, e2⟩
        · rw [e1, e2]
          exact (ih hab).bind fun _ _ hr => .ok (h.retarget (.arr (Los.set hs _ hr)))
        · rw [e1, e2]; exact .error _
      | _ => exact .error _

theorem lo_setPlace {ρ ρ' : Env} (h : LoEnv ρ ρ') (p : Place) {v w : Val} (hv : Lo v w) :
    Both LoEnv (setPlace ρ p v) (setPlace ρ' p w) := by
  obtain ⟨x, ps⟩ := p
  induction h with
  | nil => exact .error _
  | @cons a b ρ ρ' hab hρ ih =>
    obtain ⟨y, old⟩ := a
    obtain ⟨y', old'⟩ := b
    obtain ⟨rfl, ho⟩ : y = y' ∧ Lo old old' := hab
    unfold setPlace
    by_cases hy : y = x
    · rw [if_pos hy, if_pos hy]
      exact (lo_writePath ps ho hv).bind fun _ _ hr => .ok (.cons ⟨rfl, hr⟩ hρ)
    · rw [if_neg hy, if_neg hy]
      exact ih.bind fun _ _ hr => .ok (.cons ⟨rfl, ho⟩ hr)

theorem LoEnv.lookup {ρ ρ' : Env} (h : LoEnv ρ ρ') (x : Id) :
    (∃ v w, ρ.lookup x = some v ∧ ρ'.lookup x = some w ∧ Lo v w) ∨
      ρ.lookup x = none ∧ ρ'.lookup x = none := by
  induction h with
  | nil => exact .inr ⟨rfl, rfl⟩
  | @cons a b ρ ρ' hab hρ ih =>
    obtain ⟨y, old⟩ := a
    obtain ⟨y', old'⟩ := b
    obtain ⟨rfl, ho⟩ : y = y' ∧ Lo old old' := hab
    rw [List.lookup_cons, List.lookup_cons]
    cases x == y with
    | true => exact .inl ⟨_, _, rfl, rfl, ho⟩
    | false => exact ih

theorem lo_bounds {a b a' b' : Val} (ha : Lo a a') (hb : Lo b b') :
    Both Eq (bounds a b) (bounds a' b') := by
  rw [bounds, bounds, ha.index, hb.index]
  cases a'.index <;> cases b'.index <;> first | exact .error _ | exact .ok rfl

/-! ### Arithmetic -/

theorem Both.refl (r : Except Err Val) : Both Lo r r := by
  cases r with
  | ok v => exact .ok (Lo.refl v)
  | error e => exact .error e

/-- Both succeed or fail in the same way, or one of them overflows in a debug build. -/
inductive Near (pr : Profile) {α : Type} (R : α → α → Prop) (r s : Except Err α) : Prop where
  | both : Both R r s → Near pr R r s
  | left : pr = .debug → r = .error (.panic .overflow) → Near pr R r s
  | right : pr = .debug → s = .error (.panic .overflow) → Near pr R r s

theorem Near.bind {r s : Except Err α} {f g : α → Except Err β} (h : Near pr R r s)
    (hfg : ∀ a b, R a b → Near pr S (f a) (g b)) : Near pr S (r >>= f) (s >>= g) := by
  rcases h with h | ⟨hp, h⟩ | ⟨hp, h⟩
  · cases h with
    | ok h => exact hfg _ _ h
    | error e => exact .both (.error e)
  · rw [h]; exact .left hp rfl
  · rw [h]; exact .right hp rfl

theorem Same.near {r s : Except Err α} (h : Near pr R r s) :
    Same pr R (T.quiet r) (T.quiet s) := by
  rcases h with h | ⟨hp, h⟩ | ⟨hp, h⟩
  · exact .both rfl h
  · exact .left hp h List.prefix_rfl
  · exact .right hp h List.prefix_rfl

theorem near_of {r s : Except Err α}
    (hr : (∃ v, r = .ok v) ∨ pr = .debug ∧ r = .error (.panic .overflow))
    (hs : (∃ v, s = .ok v) ∨ pr = .debug ∧ s = .error (.panic .overflow)) :
    Near pr (fun _ _ => True) r s := by
  rcases hr with ⟨v, rfl⟩ | ⟨hp, rfl⟩
  · rcases hs with ⟨w, rfl⟩ | ⟨hp, rfl⟩
    · exact .both (.ok trivial)
    · exact .right hp rfl
  · exact .left hp rfl

theorem near_arithTy (pr : Profile) (t : IntTy) (ht : t ≠ .usize) (x y : Int) :
    Near pr (fun _ _ => True) (arithTy pr t x) (arithTy pr t y) := by
  have key : ∀ x, (∃ v, arithTy pr .i64 x = .ok v) ∨
      pr = .debug ∧ arithTy pr .i64 x = .error (.panic .overflow) := by
    intro x
    rw [show arithTy pr .i64 x = lift (arith pr x) from rfl]
    unfold arith
    by_cases h : inI64 x = true
    · rw [if_pos h]; exact .inl ⟨x, rfl⟩
    · rw [if_neg h]
      cases pr with
      | debug => exact .inr ⟨rfl, rfl⟩
      | release => exact .inl ⟨_, rfl⟩
  cases t with
  | i64 => exact near_of (key x) (key y)
  | usize => exact absurd rfl ht
  | _ => exact .both (.error _)

theorem near_shiftBy (pr : Profile) {t : Option IntTy} {x y : Int}
    (h : t = none ∨ t = some .usize → x = y) :
    Near pr (fun _ _ => True) (shiftBy pr t x) (shiftBy pr t y) := by
  by_cases ht : t = none ∨ t = some .usize
  · rw [h ht]
    cases shiftBy pr t y with
    | ok v => exact .both (.ok trivial)
    | error e => exact .both (.error e)
  · rcases t with _ | (_ | _ | _ | _ | _ | _) <;>
      first | exact absurd (.inl rfl) ht | exact absurd (.inr rfl) ht | exact .both (.error _)

theorem prim_shift {op : BinOp} (h : op = .shl ∨ op = .shr) {s : Option IntTy} (hs : s ≠ some .i64)
    (t : Option IntTy) (x y : Int) : prim pr op (.int s x) (.int t y) = .error .stuck := by
  rcases h with rfl | rfl <;> rcases s with _ | (_ | _ | _ | _ | _ | _) <;>
    first
    | exact absurd rfl hs
    | (rcases t with _ | (_ | _ | _ | _ | _ | _) <;> rfl)

theorem prim_int {op : BinOp} (h1 : op ≠ .shl) (h2 : op ≠ .shr) (s t : Option IntTy) (x y : Int) :
    prim pr op (.int s x) (.int t y) = (do
      let ty ← unify s t
      match op, ty with
      | .add, _ => return .int (some ty) (← arithTy pr ty (x + y))
      | .sub, _ => return .int (some ty) (← arithTy pr ty (x - y))
      | .mul, _ => return .int (some ty) (← arithTy pr ty (x * y))
      | .div, .usize => if y = 0 then .error .stuck else return .int (some .usize) (x / y)
      | .rem, .usize => if y = 0 then .error .stuck else return .int (some .usize) (x % y)
      | .and, .i64 => return .int (some .i64) (and64 x y)
      | .or, .i64 => return .int (some .i64) (or64 x y)
      | .and, .u8 => return .int (some .u8) (and64 x y)
      | .or, .u8 => return .int (some .u8) (or64 x y)
      | .eq, _ => return .bool (decide (x = y))
      | _, _ => .error .stuck) := by
  cases op <;> first | exact absurd rfl h1 | exact absurd rfl h2 | rfl

/-- Integers equal up to secrets. -/
theorem near_prim_int (op : BinOp) {s t : Option IntTy} {x x' y y' : Int}
    (hx : s = none ∨ s = some .usize → x = x') (hy : t = none ∨ t = some .usize → y = y') :
    Near pr Lo (prim pr op (.int s x) (.int t y)) (prim pr op (.int s x') (.int t y')) := by
  have i64 : ∀ m n : Int, Lo (.int (some .i64) m) (.int (some .i64) n) :=
    fun m n => .secret _ m n (by decide)
  have shift : ∀ op : BinOp, op = .shl ∨ op = .shr →
      Near pr Lo (prim pr op (.int s x) (.int t y)) (prim pr op (.int s x') (.int t y')) := by
    intro op h
    by_cases hs : s = some .i64
    · subst hs
      rcases h with rfl | rfl <;>
        exact (near_shiftBy pr hy).bind fun _ _ _ => .both (.ok (i64 _ _))
    · rw [prim_shift h hs, prim_shift h hs]
      exact .both (.error _)
  by_cases h1 : op = .shl
  · exact shift op (.inl h1)
  by_cases h2 : op = .shr
  · exact shift op (.inr h2)
  rw [prim_int h1 h2, prim_int h1 h2]
  cases hu : unify s t with
  | error e => exact .both (.error e)
  | ok ty =>
    by_cases ht : ty = .usize
    · subst ht
      have e : (s = none ∨ s = some .usize) ∧ (t = none ∨ t = some .usize) := by
        rcases s with _ | s <;> rcases t with _ | t
        · exact absurd hu (by nofun)
        · cases hu; exact ⟨.inl rfl, .inr rfl⟩
        · cases hu; exact ⟨.inr rfl, .inl rfl⟩
        · rw [unify] at hu
          by_cases h : s = t
          · rw [if_pos h] at hu
            subst h; cases hu; exact ⟨.inr rfl, .inr rfl⟩
          · rw [if_neg h] at hu
            exact absurd hu (by nofun)
      rw [hx e.1, hy e.2]
      exact .both (Both.refl _)
    · have num : ∀ m n : Int, Near pr Lo
          (do return .int (some ty) (← arithTy pr ty m)) (do return .int (some ty) (← arithTy pr ty n)) :=
        fun m n => (near_arithTy pr ty ht m n).bind fun _ _ _ => .both (.ok (.secret _ _ _ ht))
      cases op with
      | shl => exact absurd rfl h1
      | shr => exact absurd rfl h2
      | add => exact num _ _
      | sub => exact num _ _
      | mul => exact num _ _
      | eq => exact .both (.ok (.bool _ _))
      | div => cases ty <;> first | exact absurd rfl ht | exact .both (.error _)
      | rem => cases ty <;> first | exact absurd rfl ht | exact .both (.error _)
      | and =>
        cases ty <;> first
          | exact absurd rfl ht | exact .both (.error _) | exact .both (.ok (.secret _ _ _ (by decide)))
      | or =>
        cases ty <;> first
          | exact absurd rfl ht | exact .both (.error _) | exact .both (.ok (.secret _ _ _ (by decide)))

/-- The two numbers behind `Lo`. -/
theorem Lo.of_int {s : Option IntTy} {x : Int} {w : Val} (h : Lo (.int s x) w) :
    ∃ x', w = .int s x' ∧ (s = none ∨ s = some .usize → x = x') := by
  cases h with
  | same => exact ⟨_, rfl, fun _ => rfl⟩
  | secret t m n ht => exact ⟨_, rfl, fun h => by rcases h with h | h <;> simp_all⟩

theorem near_prim (op : BinOp) {a a' b b' : Val} (ha : Lo a a') (hb : Lo b b') :
    Near pr Lo (prim pr op a b) (prim pr op a' b') := by
  have stuck : ∀ {r s : Except Err Val}, r = .error .stuck → s = .error .stuck → Near pr Lo r s := by
    rintro _ _ rfl rfl; exact .both (.error _)
  cases a with
  | int s x =>
    obtain ⟨x', rfl, hx⟩ := ha.of_int
    cases b with
    | int t y =>
      obtain ⟨y', rfl, hy⟩ := hb.of_int
      exact near_prim_int op hx hy
    | _ =>
      cases hb
      rcases s with _ | (_ | _ | _ | _ | _ | _) <;> cases op <;> exact stuck rfl rfl
  | bool u =>
    cases ha
    cases hb <;> cases op <;> first | exact .both (.ok (.bool _ _)) | exact stuck rfl rfl
  | _ => cases ha; cases hb <;> cases op <;> exact stuck rfl rfl

theorem lo_formatArg (f : Fmt) {v w : Val} (h : Lo v w) :
    Both (fun _ _ => True) (formatArg f v) (formatArg f w) := by
  have h' := h.strip
  unfold formatArg
  generalize v.strip = a at h'
  generalize w.strip = b at h'
  cases h' with
  | same t n => split <;> first | exact .ok trivial | exact .error _
  | secret t m n ht =>
    cases f <;> cases t <;> first | exact .ok trivial | exact .error _
  | _ => cases f <;> exact .error _

theorem lo_format (fs : List Fmt) {vs ws : List Val} (h : Los vs ws) :
    Both (fun _ _ => True) (format fs vs) (format fs ws) := by
  induction fs generalizing vs ws with
  | nil => cases h <;> first | exact .ok trivial | exact .error _
  | cons f fs ih =>
    cases f with
    | text s =>
      unfold format
      exact (ih h).bind fun _ _ _ => .ok trivial
    | _ =>
      cases h with
      | nil => exact .error _
      | cons hv hvs =>
        exact (lo_formatArg _ hv).bind fun _ _ _ => (ih hvs).bind fun _ _ _ => .ok trivial

/-! ### Expressions, blocks and calls -/

theorem same_setPlaceT {ρ ρ' : Env} (h : LoEnv ρ ρ') (p : Place) {v w : Val} (hv : Lo v w) :
    Same pr LoEnv (setPlaceT ρ p v) (setPlaceT ρ' p w) :=
  (Same.tell _).bind fun _ _ _ => .quiet (lo_setPlace h p hv)

theorem same_writeBackT (fs : List Bool) (ps : List (Option Place)) {vs ws : List Val}
    (hv : Los vs ws) {ρ ρ' : Env} (h : LoEnv ρ ρ') :
    Same pr LoEnv (writeBackT fs ps vs ρ) (writeBackT fs ps ws ρ') := by
  induction hv generalizing fs ps ρ ρ' with
  | nil => rcases fs with _ | ⟨_ | _, fs⟩ <;> rcases ps with _ | ⟨_ | p, ps⟩ <;> exact .pure h
  | cons hvw _ ih =>
    rcases fs with _ | ⟨_ | _, fs⟩ <;> rcases ps with _ | ⟨_ | p, ps⟩ <;>
      first
      | exact .pure h
      | exact ih _ _ h
      | exact (same_setPlaceT h p hvw.strip).bind fun _ _ hr => ih _ _ hr

/-- Results of calls: value and final values of the arguments. -/
def LoCall (r s : Val × List Val) : Prop := Lo r.1 s.1 ∧ Los r.2 s.2

/-- Results of operators: value and local variables. -/
def LoStep (r s : Val × Env) : Prop := Lo r.1 s.1 ∧ LoEnv r.2 s.2

/-- The same program; calls on values equal up to secrets do the same. -/
structure LoCtx (c c' : CtxT) : Prop where
  prog : c.prog = c'.prog
  pr : c.pr = c'.pr
  curve : c.curve = c'.curve
  const : c.const = c'.const
  call : ∀ fn vs ws, Los vs ws → Same c.pr LoCall (c.call fn vs) (c'.call fn ws)

/-- Receivers. -/
inductive LoRecv : Option (Val × Option Place) → Option (Val × Option Place) → Prop where
  | none : LoRecv none none
  | some {v w : Val} (p : Option Place) : Lo v w → LoRecv (some (v, p)) (some (w, p))

theorem Los.tail {vs ws : List Val} (h : Los vs ws) : Los vs.tail ws.tail := by
  cases h with
  | nil => exact .nil
  | cons _ h => exact h

variable {c c' : CtxT}

theorem same_invokeT (hc : LoCtx c c') (fn : Fn) {recv recv' : Option (Val × Option Place)}
    (hr : LoRecv recv recv') {args args' : List Val} (ha : Los args args')
    (places : List (Option Place)) {ρ ρ' : Env} (h : LoEnv ρ ρ') :
    Same c.pr LoStep (invokeT c fn recv args places ρ) (invokeT c' fn recv' args' places ρ') := by
  obtain ⟨ty, name, r, params, out, body, ret⟩ := fn
  rcases r with _ | _ | _ | _ <;> cases hr with
  | none =>
    first
    | exact .stuck
    | exact (hc.call _ _ _ ha).bind fun _ _ h1 =>
        (same_writeBackT _ _ h1.2 h).bind fun _ _ h2 => .pure ⟨h1.1, h2⟩
  | some p hv =>
    first
    | exact .stuck
    | exact (hc.call _ _ _ (.cons hv ha)).bind fun _ _ h1 =>
        (same_writeBackT _ _ (Los.tail h1.2) h).bind fun _ _ h2 => .pure ⟨h1.1, h2⟩
    | exact (hc.call _ _ _ (.cons (.ref hv.strip) ha)).bind fun _ _ h1 =>
        (same_writeBackT _ _ (Los.tail h1.2) h).bind fun _ _ h2 => .pure ⟨h1.1, h2⟩
    | exact (hc.call _ _ _ (.cons (.ref hv.strip) ha)).bind fun _ _ h1 =>
        (same_writeBackT _ _ h1.2 h).bind fun _ _ h2 => .pure ⟨h1.1, h2⟩

theorem same_tellOperand {a a' : Val} (ha : Lo a a') :
    Same pr (fun _ _ => True) (tellOperand a) (tellOperand a') := by
  unfold tellOperand
  rw [ha.index]
  split
  · exact .tell _
  · exact .pure trivial

theorem same_tellOperands (op : BinOp) {a a' b b' : Val} (ha : Lo a a') (hb : Lo b b') :
    Same pr (fun _ _ => True) (tellOperands op a b) (tellOperands op a' b') := by
  cases op <;> first
    | exact .pure trivial
    | exact same_tellOperand hb
    | exact (same_tellOperand ha).bind fun _ _ _ => same_tellOperand hb

theorem same_primT (hc : LoCtx c c') (op : BinOp) {a a' b b' : Val} (ha : Lo a a') (hb : Lo b b') :
    Same c.pr Lo (primT c op a b) (primT c' op a' b') := by
  unfold primT
  rw [ha.intTy, hb.intTy, ← hc.pr]
  exact (Same.tell _).bind fun _ _ _ => (same_tellOperands op ha hb).bind fun _ _ _ =>
    .near (near_prim op ha hb)

theorem same_binopT (hc : LoCtx c c') (op : BinOp) {a a' b b' : Val} (ha : Lo a a') (hb : Lo b b')
    {ρ ρ' : Env} (h : LoEnv ρ ρ') :
    Same c.pr LoStep (binopT c op a b ρ) (binopT c' op a' b' ρ') := by
  unfold binopT
  rw [ha.isPrim, hb.isPrim, ha.ty, hb.ty, hc.prog]
  split
  · exact (same_primT hc op ha hb).bind fun _ _ hv => .pure ⟨hv, h⟩
  · split
    · split
      · exact same_invokeT hc _ (.some _ ha) (.cons hb .nil) _ h
      · exact .stuck
    · exact .stuck

theorem same_opAssignT (hc : LoCtx c c') (op : BinOp) (p : Place) {a a' b b' : Val} (ha : Lo a a')
    (hb : Lo b b') {ρ ρ' : Env} (h : LoEnv ρ ρ') :
    Same c.pr LoEnv (opAssignT c op p a b ρ) (opAssignT c' op p a' b' ρ') := by
  unfold opAssignT
  rw [ha.isPrim, hb.isPrim, ha.ty, hb.ty, hc.prog]
  split
  · exact (same_primT hc op ha hb).bind fun _ _ hv => same_setPlaceT h p hv
  · split
    · split
      · exact (same_invokeT hc _ (.some _ ha) (.cons hb .nil) _ h).bind fun _ _ hr => .pure hr.2
      · exact .stuck
    · exact .stuck

/-- The arguments of `gen_range`. -/
theorem Los.gen {args args' : List Val} (h : Los args args') {hi : Int}
    (e : args = [.int none 0, .int (some .i64) hi]) :
    ∃ hi', args' = [.int none 0, .int (some .i64) hi'] := by
  subst e
  cases h with
  | cons h1 h =>
    cases h with
    | cons h2 h =>
      cases h
      obtain ⟨x', rfl, hx⟩ := h1.of_int
      obtain ⟨y', rfl, -⟩ := h2.of_int
      exact ⟨y', by rw [← hx (.inl rfl)]⟩

theorem Los.gen' {args args' : List Val} (h : Los args args') {hi : Int}
    (e : args' = [.int none 0, .int (some .i64) hi]) :
    ∃ hi', args = [.int none 0, .int (some .i64) hi'] := by
  subst e
  cases h with
  | cons h1 h =>
    cases h with
    | cons h2 h =>
      cases h
      cases h1
      cases h2 <;> exact ⟨_, rfl⟩

theorem same_callMethodT (hc : LoCtx c c') {recv recv' : Val} (hr : Lo recv recv')
    (p : Option Place) (m : Id) {args args' : List Val} (ha : Los args args')
    (places : List (Option Place)) {ρ ρ' : Env} (h : LoEnv ρ ρ') :
    Same c.pr LoStep (callMethodT c recv p m args places ρ)
      (callMethodT c' recv' p m args' places ρ') := by
  have other : ∀ v w : Val, Lo v w → Same c.pr LoStep
      (match v.ty with
      | some (_, t) =>
        match c.prog.method t m with
        | some fn => invokeT c fn (some (recv, p)) args places ρ
        | none => quiet (.error .stuck)
      | none => quiet (.error .stuck))
      (match w.ty with
      | some (_, t) =>
        match c'.prog.method t m with
        | some fn => invokeT c' fn (some (recv', p)) args' places ρ'
        | none => quiet (.error .stuck)
      | none => quiet (.error .stuck)) := by
    intro v w hvw
    rw [hvw.ty, hc.prog]
    split
    · split
      · exact same_invokeT hc _ (.some _ hr) ha _ h
      · exact .stuck
    · exact .stuck
  have hs := hr.strip
  unfold callMethodT
  by_cases hm : m = id! "clone"
  · rw [if_pos hm, if_pos hm]
    exact .pure ⟨hs, h⟩
  · rw [if_neg hm, if_neg hm]
    generalize recv.strip = a at hs
    generalize recv'.strip = b at hs
    cases hs with
    | rng n =>
      split
      next n' hi q he =>
        cases he
        obtain ⟨hi', e⟩ := ha.gen rfl
        subst e
        split
        · exact (Same.tell _).bind fun _ _ _ => (same_setPlaceT h _ (.rng _)).bind fun _ _ h1 =>
            .pure ⟨.secret _ _ _ (by decide), h1⟩
        · exact .stuck
      next hne =>
        show Same _ _ (quiet (.error .stuck)) _
        split
        next n' hi q =>
          obtain ⟨hi', e⟩ := ha.gen' rfl
          exact (hne _ _ _ rfl e rfl).elim
        · exact .stuck
    | same t n => exact other _ _ (.same t n)
    | secret t m n ht => exact other _ _ (.secret t m n ht)
    | bool a b => exact other _ _ (.bool a b)
    | unit => exact other _ _ .unit
    | arr h => exact other _ _ (.arr h)
    | struct t ns h => exact other _ _ (.struct t ns h)
    | ref h => exact other _ _ (.ref h)
    | fmt r s => exact other _ _ (.fmt r s)

theorem same_callPathT (hc : LoCtx c c') (p : List Id) {args args' : List Val} (ha : Los args args')
    (places : List (Option Place)) {ρ ρ' : Env} (h : LoEnv ρ ρ') :
    Same c.pr LoStep (callPathT c p args places ρ) (callPathT c' p args' places ρ') := by
  unfold callPathT
  rw [hc.prog, hc.curve]
  split
  · split
    · exact .pure ⟨.unit, h⟩
    · exact (Same.quiet (lo_tupleStruct _ ha)).bind fun _ _ hv => .pure ⟨hv, h⟩
  · split
    · cases ha with
      | nil => exact .stuck
      | cons h1 ht =>
        cases ht with
        | cons h2 ht =>
          cases h1 with
          | same t n => rcases t with _ | (_ | _ | _ | _ | _ | _) <;> exact .stuck
          | secret t m n ht => cases t <;> exact .stuck
          | _ => exact .stuck
        | nil =>
          cases h1 with
          | same t n =>
            rcases t with _ | (_ | _ | _ | _ | _ | _) <;> first
              | exact .stuck
              | (dsimp only; split <;> first | exact .stuck | exact .pure ⟨.same _ _, h⟩)
          | secret t m n ht =>
            cases t <;> first
              | exact .stuck
              | (dsimp only; split <;> first | exact .stuck | exact .pure ⟨.secret _ _ _ (by decide), h⟩)
          | _ => exact .stuck
    · split
      · exact same_invokeT hc _ .none ha _ h
      · exact .stuck
  · split
    · split
      · exact same_invokeT hc _ .none ha _ h
      · exact .stuck
    · exact .stuck
  · exact .stuck

theorem same_tellIndex {i j : Val} (h : Lo i j) :
    Same pr (fun _ _ => True) (tellIndex i) (tellIndex j) := by
  unfold tellIndex
  rw [h.index]
  split
  · exact .tell _
  · exact .pure trivial

theorem LoOut.list {o o' : Out} (h : LoOut o o') : Los o.list o'.list := by
  obtain ⟨v, ps, ρ⟩ := o
  obtain ⟨v', ps', ρ'⟩ := o'
  have hv : Lo v v' := h.val
  cases hv with
  | arr hl => exact hl
  | _ => exact .nil

theorem Los.replicate {v w : Val} (h : Lo v w) (n : Nat) :
    Los (List.replicate n v) (List.replicate n w) := by
  induction n with
  | zero => exact .nil
  | succ n ih => exact .cons h ih

theorem same_evalT (hc : LoCtx c c') (e : Expr) {ρ ρ' : Env} (h : LoEnv ρ ρ') :
    Same c.pr LoOut (evalT c ρ e) (evalT c' ρ' e) := by
  induction e generalizing ρ ρ' with
  | lit t n => exact .pure ⟨.same _ _, rfl, h⟩
  | bool b => exact .pure ⟨.bool _ _, rfl, h⟩
  | unit => exact .pure ⟨.unit, rfl, h⟩
  | anil => exact .pure ⟨.arr .nil, rfl, h⟩
  | var x =>
    refine (Same.tell _).bind fun _ _ _ => ?_
    rcases LoEnv.lookup h x with ⟨v, w, e1, e2, hvw⟩ | ⟨e1, e2⟩
    · rw [e1, e2]; exact .pure ⟨hvw, rfl, h⟩
    · rw [e1, e2, hc.const]
      dsimp only
      split
      · exact .pure ⟨Lo.refl _, rfl, h⟩
      · exact .stuck
  | ref e ih => exact (ih h).bind fun _ _ o => .pure ⟨.ref o.val, o.places, o.env⟩
  | deref e ih =>
    refine (ih h).bind fun o o' ho => ?_
    obtain ⟨v, ps, ρ1⟩ := o
    obtain ⟨v', ps', ρ1'⟩ := o'
    obtain ⟨hv, rfl, h1⟩ := ho
    cases hv with
    | ref hv => exact .pure ⟨hv, rfl, h1⟩
    | _ => exact .stuck
  | not e ih =>
    exact (ih h).bind fun _ _ o => (Same.tell _).bind fun _ _ _ =>
      (Same.quiet (lo_notV o.val)).bind fun _ _ hv => .pure ⟨hv, rfl, o.env⟩
  | bin op a b iha ihb =>
    exact (iha h).bind fun _ _ x => (ihb x.env).bind fun _ _ y =>
      (same_binopT hc op x.val y.val y.env).bind fun _ _ r => .pure ⟨r.1, rfl, r.2⟩
  | cast e t ih =>
    exact (ih h).bind fun _ _ o => (Same.tell _).bind fun _ _ _ =>
      (Same.quiet (lo_castTo t o.val)).bind fun _ _ hv => .pure ⟨hv, rfl, o.env⟩
  | field e x ih =>
    exact (ih h).bind fun _ _ o => (Same.tell _).bind fun _ _ _ =>
      (Same.quiet (lo_getField x o.val)).bind fun _ _ hv =>
        .pure ⟨hv, by dsimp only; rw [o.places], o.env⟩
  | index e i ihe ihi =>
    exact (ihe h).bind fun _ _ o => (ihi o.env).bind fun _ _ j =>
      (same_tellIndex j.val).bind fun _ _ _ =>
      (Same.quiet (lo_getIndex o.val j.val)).bind fun _ _ hv =>
        .pure ⟨hv, by dsimp only; rw [o.places, j.val.indexProj], j.env⟩
  | array es ih => exact (ih h).bind fun _ _ o => .pure ⟨.arr o.list, rfl, o.env⟩
  | rep e n ih => exact (ih h).bind fun _ _ o => .pure ⟨.arr (Los.replicate o.val n), rfl, o.env⟩
  | path p args ih =>
    refine (ih h).bind fun _ _ o => ?_
    rw [o.places]
    exact (same_callPathT hc p o.list _ o.env).bind fun _ _ r => .pure ⟨r.1, rfl, r.2⟩
  | method e m args ihe iha =>
    refine (ihe h).bind fun _ _ r => (iha r.env).bind fun _ _ o => ?_
    rw [o.places, r.places]
    exact (same_callMethodT hc r.val _ m o.list _ o.env).bind fun _ _ r => .pure ⟨r.1, rfl, r.2⟩
  | struct t names args ih => exact (ih h).bind fun _ _ o => .pure ⟨.struct _ _ o.list, rfl, o.env⟩
  | write f parts args ihf iha =>
    refine (ihf h).bind fun w w' hw => (iha hw.env).bind fun _ _ o =>
      (Same.tell _).bind fun _ _ _ => (Same.quiet (lo_format parts o.list)).bind fun s s' _ => ?_
    have hs := hw.val.strip
    rw [hw.places]
    generalize w.val.strip = a at hs
    generalize w'.val.strip = b at hs
    cases hs with
    | fmt r s =>
      split
      next old p e1 e2 =>
        cases e1
        rw [e2]
        exact (same_setPlaceT o.env p (.fmt _ _)).bind fun _ _ h1 => .pure ⟨.unit, rfl, h1⟩
      next hne =>
        split
        next e1 e2 => exact (hne _ _ rfl e2).elim
        · exact .stuck
    | _ => exact .stuck
  | «try» e ih => exact ih h
  | acons e es ihe ihs =>
    exact (ihe h).bind fun _ _ o => (ihs o.env).bind fun _ _ r =>
      .pure ⟨.arr (.cons o.val r.list), by dsimp only; rw [o.places, r.places], r.env⟩

theorem same_iterateT {step step' : Nat → Env → T Env}
    (hs : ∀ i ρ ρ', LoEnv ρ ρ' → Same pr LoEnv (step i ρ) (step' i ρ')) (n i : Nat) {ρ ρ' : Env}
    (h : LoEnv ρ ρ') : Same pr LoEnv (iterateT step n i ρ) (iterateT step' n i ρ') := by
  induction n generalizing i ρ ρ' with
  | zero => exact .pure h
  | succ n ih =>
    exact (Same.tell _).bind fun _ _ _ => (hs i _ _ h).bind fun _ _ h1 => ih _ h1

theorem LoEnv.drop {ρ ρ' : Env} (h : LoEnv ρ ρ') (n : Nat) : LoEnv (ρ.drop n) (ρ'.drop n) :=
  List.forall₂_drop n h

theorem same_execT (hc : LoCtx c c') (b : Block) {ρ ρ' : Env} (h : LoEnv ρ ρ') :
    Same c.pr LoEnv (execT c ρ b) (execT c' ρ' b) := by
  induction b generalizing ρ ρ' with
  | nil => exact .pure h
  | «let» x e rest ih =>
    exact (same_evalT hc e h).bind fun _ _ o => ih (.cons ⟨rfl, o.val⟩ o.env)
  | assign p e rest ih =>
    refine (same_evalT hc e h).bind fun _ _ o => (same_evalT hc p o.env).bind fun _ _ q => ?_
    rw [q.places]
    split
    · exact (same_setPlaceT q.env _ o.val).bind fun _ _ h1 => ih h1
    · exact .stuck
  | opAssign op p e rest ih =>
    refine (same_evalT hc e h).bind fun _ _ o => (same_evalT hc p o.env).bind fun _ _ q => ?_
    rw [q.places]
    split
    · exact (same_opAssignT hc op _ q.val o.val q.env).bind fun _ _ h1 => ih h1
    · exact .stuck
  | expr e rest ih => exact (same_evalT hc e h).bind fun _ _ o => ih o.env
  | «for» x a b body rest ihb ih =>
    refine (same_evalT hc a h).bind fun _ _ u => (same_evalT hc b u.env).bind fun _ _ v =>
      (Same.quiet (lo_bounds u.val v.val)).bind fun r _ hr => ?_
    subst hr
    refine (same_iterateT (fun i ρ ρ' hρ => ?_) _ _ v.env).bind fun _ _ h1 => ih h1
    refine (ihb (.cons ⟨rfl, .same _ _⟩ hρ)).bind fun _ _ h1 => .pure ?_
    rw [h1.length_eq, hρ.length_eq]
    exact LoEnv.drop h1 _

theorem Los.coerce (fn : Fn) {vs ws : List Val} (h : Los vs ws) :
    Los (fn.coerce vs) (fn.coerce ws) := by
  have zip : ∀ (ps : List (Id × Ty)) {vs ws : List Val}, Los vs ws →
      Los (List.zipWith (fun p v => Rust.coerce p.2 v) ps vs)
        (List.zipWith (fun p v => Rust.coerce p.2 v) ps ws) := by
    intro ps vs ws h
    induction h generalizing ps with
    | nil => cases ps <;> exact .nil
    | cons h _ ih =>
      cases ps with
      | nil => exact .nil
      | cons p ps => exact .cons (h.coerce _) (ih ps)
  obtain ⟨ty, name, r, params, out, body, ret⟩ := fn
  cases r with
  | none => exact zip params h
  | _ =>
    cases h with
    | nil => exact .nil
    | cons h ht => exact .cons h (zip params ht)

theorem LoEnv.zip (ns : List Id) {vs ws : List Val} (h : Los vs ws) :
    LoEnv (ns.zip vs) (ns.zip ws) := by
  induction h generalizing ns with
  | nil => cases ns <;> exact .nil
  | cons h _ ih =>
    cases ns with
    | nil => exact .nil
    | cons n ns => exact .cons ⟨rfl, h⟩ (ih ns)

theorem same_runBodyT (hc : LoCtx c c') (fn : Fn) {vs ws : List Val} (h : Los vs ws) :
    Same c.pr LoCall (runBodyT c fn vs) (runBodyT c' fn ws) := by
  refine (Same.tell _).bind fun _ _ _ =>
    (same_execT hc fn.body (LoEnv.zip _ (Los.coerce fn h))).bind fun _ _ h1 =>
    (same_evalT hc fn.ret h1).bind fun _ _ o => .pure ⟨o.val.coerce _, ?_⟩
  dsimp only [Los]
  rw [o.env.length_eq, List.forall₂_map_left_iff, List.forall₂_map_right_iff]
  exact (LoEnv.drop o.env _).imp fun _ _ h => h.2

/-- Runs of a function on arguments equal up to secrets, with arbitrary answers of the random
generator. -/
theorem runT_lo (p : Program) (pr : Profile) (curve : Id) (rng rng' : Nat → Int → Int) (n : Nat)
    (fn : Fn) {vs ws : List Val} (h : Los vs ws) :
    Same pr LoCall (runT p ⟨pr, curve, rng⟩ n fn vs) (runT p ⟨pr, curve, rng'⟩ n fn ws) := by
  induction n generalizing fn vs ws with
  | zero => exact .stuck
  | succ n ih =>
    exact same_runBodyT (c := ⟨p, pr, curve, rng, p.const, runT p ⟨pr, curve, rng⟩ n⟩)
      (c' := ⟨p, pr, curve, rng', p.const, runT p ⟨pr, curve, rng'⟩ n⟩)
      ⟨rfl, rfl, rfl, rfl, fun fn _ _ h => ih fn h⟩ fn h

end Verif.Rust

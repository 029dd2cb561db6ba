import Verif.Props.TextSecret
import Verif.Props.Refine

/-!
# C61: a program that uses the code leaks only what it looks at

C56 is about single calls.  A *script* is any program that calls functions of the text: it puts values into
registers, calls functions and operators with registers as arguments (by value or by reference), may look at
the value in a register, and goes on depending on what it has seen.  Its log contains the record of all
calls (`Verif/Rust/Trace.lean`) and every value it has looked at.  Two runs of a script that differ in
secrets only have the same log up to the first look at different values.
-/

namespace Verif

open Rust

/-! ### Scripts -/

/-- A function of the text: a method, or the function of an operator or formatting trait. -/
inductive Callee where
  | method (t m : Id)
  | trait (tr : Id) (l r : Bool × Id)

/-- The function in a program. -/
def Callee.find (P : Program) : Callee → Option Fn
  | method t m => P.method t m
  | trait tr l r => P.opFn tr l r

/-- A program that uses the code.  Registers are numbered from 0 in the order in which they are made. -/
inductive Script where
  | done
  /-- a value in a new register -/
  | value (v : Val) (k : Script)
  /-- a call; the arguments are registers, `true` for those passed by reference; the result is in a new
  register, and the registers passed by reference have the values they had at the end of the call -/
  | call (f : Callee) (args : List (Bool × Nat)) (k : Script)
  /-- look at a register, and go on depending on what is there -/
  | look (i : Nat) (k : Val → Script)

/-- An argument of a call. -/
def argument (rs : List Val) (a : Bool × Nat) : Val :=
  if a.1 then .ref (rs.getD a.2 .unit) else rs.getD a.2 .unit

/-- The registers after a call with the given final values of the arguments. -/
def afterCall : List (Bool × Nat) → List Val → List Val → List Val
  | a :: as, v :: vs, rs => afterCall as vs (if a.1 then rs.set a.2 v.strip else rs)
  | _, _, rs => rs

/-- An entry of a log. -/
inductive Entry where
  | event (e : Event)
  | answer (v : Val)

/-- The entries made by a script and its final registers. -/
structure Log where
  entries : List Entry
  res : Except Err (List Val)

/-- Entries before those of a log. -/
def Log.after (es : List Entry) (l : Log) : Log := ⟨es ++ l.entries, l.res⟩

/-- What a script has seen. -/
def answers (es : List Entry) : List Val :=
  es.filterMap fun | .answer v => some v | .event _ => none

section
variable (P : Program) (w : World) (n : Nat)

/-- Run a script. -/
def Script.run : Script → List Val → Except Err (List Val)
  | done, rs => .ok rs
  | value v k, rs => k.run (rs ++ [v])
  | call f args k, rs =>
    match f.find P with
    | none => .error .stuck
    | some fn => do
      let r ← Rust.run P w n fn (args.map (argument rs))
      k.run (afterCall args r.2 rs ++ [r.1])
  | look i k, rs =>
    match rs[i]? with
    | none => .error .stuck
    | some v => (k v).run rs

/-- Run a script, keeping a log. -/
def Script.log : Script → List Val → Log
  | done, rs => ⟨[], .ok rs⟩
  | value v k, rs => k.log (rs ++ [v])
  | call f args k, rs =>
    match f.find P with
    | none => ⟨[], .error .stuck⟩
    | some fn =>
      let s := runT P w n fn (args.map (argument rs))
      match s.res with
      | .error e => ⟨s.trace.map .event, .error e⟩
      | .ok r => (k.log (afterCall args r.2 rs ++ [r.1])).after (s.trace.map .event)
  | look i k, rs =>
    match rs[i]? with
    | none => ⟨[], .error .stuck⟩
    | some v => ((k v).log rs).after [.answer v]

end

/-- Scripts that differ in secrets only: in the secret parts of the values they put into registers. -/
inductive LoScript : Script → Script → Prop where
  | done : LoScript .done .done
  | value {v v' : Val} {k k' : Script} : Lo v v' → LoScript k k' → LoScript (.value v k) (.value v' k')
  | call (f : Callee) (args : List (Bool × Nat)) {k k' : Script} :
    LoScript k k' → LoScript (.call f args k) (.call f args k')
  | look (i : Nat) {k k' : Val → Script} : (∀ v, LoScript (k v) (k' v)) → LoScript (.look i k) (.look i k')

theorem LoScript.refl : (s : Script) → LoScript s s
  | .done => .done
  | .value v k => .value (Lo.refl v) (refl k)
  | .call f args k => .call f args (refl k)
  | .look i k => .look i fun v => refl (k v)

/-- A script that never looks. -/
inductive Blind : Script → Prop where
  | done : Blind .done
  | value {v : Val} {k : Script} : Blind k → Blind (.value v k)
  | call {f : Callee} {args : List (Bool × Nat)} {k : Script} : Blind k → Blind (.call f args k)

/-- How two logs can differ: not at all; from the first look at different values on; or, in debug builds, by
one of the runs ending early with an overflow. -/
inductive Leak (pr : Profile) (s t : Log) : Prop where
  | same : s.entries = t.entries → Both Los s.res t.res → Leak pr s t
  | answer (l : List Entry) (v v' : Val) : v ≠ v' → l ++ [.answer v] <+: s.entries →
    l ++ [.answer v'] <+: t.entries → Leak pr s t
  | left : pr = .debug → s.res = .error (.panic .overflow) → s.entries <+: t.entries → Leak pr s t
  | right : pr = .debug → t.res = .error (.panic .overflow) → t.entries <+: s.entries → Leak pr s t

/-! ### Proofs -/

theorem Leak.after {pr : Profile} {s t : Log} (h : Leak pr s t) (es : List Entry) :
    Leak pr (s.after es) (t.after es) := by
  rcases h with ⟨h1, h2⟩ | ⟨l, v, v', hv, h1, h2⟩ | ⟨hp, h1, h2⟩ | ⟨hp, h1, h2⟩
  · exact .same (by rw [Log.after, Log.after, h1]) h2
  · refine .answer (es ++ l) v v' hv ?_ ?_
    · rw [List.append_assoc]; exact (List.prefix_append_right_inj _).2 h1
    · rw [List.append_assoc]; exact (List.prefix_append_right_inj _).2 h2
  · exact .left hp h1 ((List.prefix_append_right_inj _).2 h2)
  · exact .right hp h1 ((List.prefix_append_right_inj _).2 h2)

theorem Los.getD {rs rs' : List Val} (h : Los rs rs') (i : Nat) : Lo (rs.getD i .unit) (rs'.getD i .unit) := by
  rw [List.getD_eq_getElem?_getD, List.getD_eq_getElem?_getD]
  rcases Los.get h i with ⟨v, w, e1, e2, hvw⟩ | ⟨e1, e2⟩
  · rw [e1, e2]; exact hvw
  · rw [e1, e2]; exact .unit

theorem lo_argument {rs rs' : List Val} (h : Los rs rs') (a : Bool × Nat) :
    Lo (argument rs a) (argument rs' a) := by
  unfold argument
  cases a.1
  · exact Los.getD h _
  · exact .ref (Los.getD h _)

theorem lo_afterCall (as : List (Bool × Nat)) {vs vs' rs rs' : List Val} (hv : Los vs vs') (h : Los rs rs') :
    Los (afterCall as vs rs) (afterCall as vs' rs') := by
  induction as generalizing vs vs' rs rs' with
  | nil => exact h
  | cons a as ih =>
    cases hv with
    | nil => exact h
    | cons hv hvs =>
      refine ih hvs ?_
      cases a.1
      · exact h
      · exact Los.set h _ hv.strip

theorem lo_snoc {rs rs' : List Val} (h : Los rs rs') {v v' : Val} (hv : Lo v v') :
    Los (rs ++ [v]) (rs' ++ [v']) := List.rel_append h (.cons hv .nil)

/-- C61: two runs of a script that differ in secrets only (also in the answers of the random generator) have
the same log up to the first look at different values; in debug builds one of the runs may end early with
an overflow. -/
theorem C61_leak (P : Program) (pr : Profile) (curve : Id) (rng rng' : Nat → Int → Int) (n : Nat)
    {s s' : Script} (hs : LoScript s s') {rs rs' : List Val} (hr : Los rs rs') :
    Leak pr (s.log P ⟨pr, curve, rng⟩ n rs) (s'.log P ⟨pr, curve, rng'⟩ n rs') := by
  induction hs generalizing rs rs' with
  | done => exact .same rfl (.ok hr)
  | value hv _ ih => exact ih (lo_snoc hr hv)
  | call f args _ ih =>
    unfold Script.log
    cases f.find P with
    | none => exact .same rfl (.error _)
    | some fn =>
      dsimp only
      have ha : Los (args.map (argument rs)) (args.map (argument rs')) :=
        List.forall₂_map_left_iff.2 (List.forall₂_map_right_iff.2 (List.forall₂_same.2 fun a _ =>
          lo_argument hr a))
      rcases runT_lo P pr curve rng rng' n fn ha with ⟨h1, h2⟩ | ⟨hp, h1, h2⟩ | ⟨hp, h1, h2⟩
      · rw [h1]
        generalize (runT P ⟨pr, curve, rng⟩ n fn _).res = u at h2
        generalize (runT P ⟨pr, curve, rng'⟩ n fn _).res = v at h2
        cases h2 with
        | error e => exact .same rfl (.error e)
        | ok h => exact (ih (lo_snoc (lo_afterCall args h.2 hr) h.1)).after _
      · rw [h1]
        refine .left hp rfl ((h2.map Entry.event).trans ?_)
        cases (runT P ⟨pr, curve, rng'⟩ n fn (args.map (argument rs'))).res with
        | error e => exact List.prefix_rfl
        | ok r => exact List.prefix_append _ _
      · rw [h1]
        refine .right hp rfl ((h2.map Entry.event).trans ?_)
        cases (runT P ⟨pr, curve, rng⟩ n fn (args.map (argument rs))).res with
        | error e => exact List.prefix_rfl
        | ok r => exact List.prefix_append _ _
  | look i _ ih =>
    unfold Script.log
    rcases Los.get hr i with ⟨v, v', e1, e2, hv⟩ | ⟨e1, e2⟩
    · rw [e1, e2]
      by_cases e : v = v'
      · subst e
        exact (ih v hr).after _
      · exact .answer [] v v' e (List.prefix_append _ _) (List.prefix_append _ _)
    · rw [e1, e2]
      exact .same rfl (.error _)

theorem answers_append (a b : List Entry) : answers (a ++ b) = answers a ++ answers b :=
  List.filterMap_append

theorem answers_events (l : List Event) : answers (l.map .event) = [] := by
  induction l with
  | nil => rfl
  | cons e l ih => exact ih

/-- C61: keeping the log does not change what happens. -/
theorem C61_faithful (P : Program) (w : World) (n : Nat) (s : Script) (rs : List Val) :
    (s.log P w n rs).res = s.run P w n rs := by
  induction s generalizing rs with
  | done => rfl
  | value v k ih => exact ih _
  | call f args k ih =>
    unfold Script.log Script.run
    cases f.find P with
    | none => rfl
    | some fn =>
      dsimp only
      rw [← runT_res]
      cases (runT P w n fn (args.map (argument rs))).res with
      | error e => rfl
      | ok r => exact ih _
  | look i k ih =>
    unfold Script.log Script.run
    cases rs[i]? with
    | none => rfl
    | some v => exact ih v rs

/-- C61: in release builds, two runs that differ in secrets only and see the same have the same log: the same
functions are entered, the same places read and written, the same operations executed in the same order; and
both succeed, or fail in the same way. -/
theorem C61_release (P : Program) (curve : Id) (rng rng' : Nat → Int → Int) (n : Nat) {s s' : Script}
    (hs : LoScript s s') {rs rs' : List Val} (hr : Los rs rs')
    (ha : answers (s.log P ⟨.release, curve, rng⟩ n rs).entries =
      answers (s'.log P ⟨.release, curve, rng'⟩ n rs').entries) :
    (s.log P ⟨.release, curve, rng⟩ n rs).entries = (s'.log P ⟨.release, curve, rng'⟩ n rs').entries ∧
      Both Los (s.run P ⟨.release, curve, rng⟩ n rs) (s'.run P ⟨.release, curve, rng'⟩ n rs') := by
  rw [← C61_faithful, ← C61_faithful]
  rcases C61_leak P .release curve rng rng' n hs hr with ⟨h1, h2⟩ | ⟨l, v, v', hv, ⟨a, h1⟩, ⟨b, h2⟩⟩ | ⟨hp, _⟩ |
    ⟨hp, _⟩
  · exact ⟨h1, h2⟩
  · rw [← h1, ← h2] at ha
    simp only [answers_append, List.append_assoc] at ha
    have h3 := List.append_cancel_left ha
    exact absurd (List.cons.inj h3).1 hv
  · cases hp
  · cases hp

theorem Blind.answers {s : Script} (h : Blind s) (P : Program) (w : World) (n : Nat) (rs : List Val) :
    answers (s.log P w n rs).entries = [] := by
  induction h generalizing rs with
  | done => rfl
  | value _ ih => exact ih _
  | @call f args k _ ih =>
    unfold Script.log
    cases f.find P with
    | none => rfl
    | some fn =>
      dsimp only
      cases (runT P w n fn (args.map (argument rs))).res with
      | error e => exact answers_events _
      | ok r =>
        show Verif.answers (List.map Entry.event _ ++ _) = []
        rw [answers_append, answers_events, ih]
        rfl

theorem LoScript.blind {s s' : Script} (h : LoScript s s') (hb : Blind s) : Blind s' := by
  induction h with
  | done => exact .done
  | value _ _ ih => cases hb with | value hb => exact .value (ih hb)
  | call _ _ _ ih => cases hb with | call hb => exact .call (ih hb)
  | look => cases hb

/-- C61: in release builds a script that never looks does the same for all secrets. -/
theorem C61_blind (P : Program) (curve : Id) (rng rng' : Nat → Int → Int) (n : Nat) {s s' : Script}
    (hs : LoScript s s') (hb : Blind s) {rs rs' : List Val} (hr : Los rs rs') :
    (s.log P ⟨.release, curve, rng⟩ n rs).entries = (s'.log P ⟨.release, curve, rng'⟩ n rs').entries ∧
      Both Los (s.run P ⟨.release, curve, rng⟩ n rs) (s'.run P ⟨.release, curve, rng'⟩ n rs') :=
  C61_release P curve rng rng' n hs hr
    ((hb.answers P _ n rs).trans ((hs.blind hb).answers P _ n rs').symm)

/-- C61: in both kinds of builds, two runs that succeed and see the same have the same log. -/
theorem C61_success (P : Program) (pr : Profile) (curve : Id) (rng rng' : Nat → Int → Int) (n : Nat)
    {s s' : Script} (hs : LoScript s s') {rs rs' out out' : List Val} (hr : Los rs rs')
    (h : s.run P ⟨pr, curve, rng⟩ n rs = .ok out) (h' : s'.run P ⟨pr, curve, rng'⟩ n rs' = .ok out')
    (ha : answers (s.log P ⟨pr, curve, rng⟩ n rs).entries =
      answers (s'.log P ⟨pr, curve, rng'⟩ n rs').entries) :
    (s.log P ⟨pr, curve, rng⟩ n rs).entries = (s'.log P ⟨pr, curve, rng'⟩ n rs').entries ∧ Los out out' := by
  rw [← C61_faithful] at h h'
  rcases C61_leak P pr curve rng rng' n hs hr with ⟨h1, h2⟩ | ⟨l, v, v', hv, ⟨a, h1⟩, ⟨b, h2⟩⟩ | ⟨-, h1, -⟩ |
    ⟨-, h1, -⟩
  · rw [h, h'] at h2
    cases h2 with
    | ok h2 => exact ⟨h1, h2⟩
  · rw [← h1, ← h2] at ha
    simp only [answers_append, List.append_assoc] at ha
    have h3 := List.append_cancel_left ha
    exact absurd (List.cons.inj h3).1 hv
  · rw [h] at h1; cases h1
  · rw [h'] at h1; cases h1

/-! ### A key exchange -/

/-- Read a secret scalar and a point from bytes and multiply: `unpacked`, `zero`, `init` and `scalar_mult`. -/
def exchange (c : Crv) (secret x y : List Int) : Script :=
  let unpacked := Callee.method (tyId c.fld) (id! "unpacked")
  .value (slice secret) <| .call unpacked [(false, 0)] <|
  .value (slice x) <| .call unpacked [(false, 2)] <|
  .value (slice y) <| .call unpacked [(false, 4)] <|
  .call (.method (id! "EdwardsExtended") (id! "zero")) [] <|
  .call (.method (id! "EdwardsExtended") (id! "init")) [(true, 6), (false, 3), (false, 5)] <|
  .call (.method (id! "EdwardsExtended") (id! "scalar_mult")) [(true, 6), (true, 1)] .done

theorem run_method (P : Program) (w : World) (n : Nat) (t m : Id) (args : List (Bool × Nat)) (k : Script)
    (rs : List Val) : (Script.call (.method t m) args k).run P w n rs =
      (callFn P w n t m (args.map (argument rs)) >>= fun r => k.run P w n (afterCall args r.2 rs ++ [r.1])) := by
  rw [Script.run, callFn, Callee.find]
  cases P.method t m <;> rfl

/-- C61: the key exchange runs without a panic, in both kinds of builds. -/
theorem C61_exchange_runs (c : Crv) (pr : Profile) {secret x y : List Int} (hs : IsBytes secret)
    (ls : c.fld.nbytes ≤ secret.length) (hx : IsBytes x) (lx : c.fld.nbytes ≤ x.length) (hy : IsBytes y)
    (ly : c.fld.nbytes ≤ y.length) :
    ∃ k u v r, (exchange c secret x y).run (crvProg c) (crvWorld c pr) 12 [] =
      .ok [slice secret, elem (tyId c.fld) k, slice x, elem (tyId c.fld) u, slice y, elem (tyId c.fld) v,
        pt c r, .unit, .unit] ∧ r.Ok c.fld.Tight := by
  obtain ⟨k, k1, k2⟩ := unpacked_tight c.fld pr hs ls
  obtain ⟨u, u1, u2⟩ := unpacked_tight c.fld pr hx lx
  obtain ⟨v, v1, v2⟩ := unpacked_tight c.fld pr hy ly
  obtain ⟨k', n1, n2, -⟩ := C09_normalize_correct_iff c.fld pr (Fld.Tight.rep k2)
  have hP := has_crv c
  have unp := fun (bs : List Int) {r : Elem} (h : c.fld.code.unpacked pr bs = .ok r) =>
    show callFn (crvProg c) (crvWorld c pr) 12 (tyId c.fld) (id! "unpacked") [slice bs] =
        .ok (elem (tyId c.fld) r, [slice bs]) by
      rw [(C54_pack hP.fld (crvWorld c pr) (Nat.le_refl 12) (const_length c.fld).1 bs).2.1,
        show c.fld.code.unpacked (crvWorld c pr).pr bs = .ok r from h]
      rfl
  generalize hz : EdwardsExtended.zero (c.scalar pr) = z
  generalize hq : z.init (c.scalar pr) u v = q
  have hq' : q.Ok c.fld.Tight := by
    have o := (c.impl pr).one.1
    subst hq
    exact ⟨u2, v2, o, o⟩
  have hz' : z.Ok c.fld.Tight := by
    have o := (c.impl pr).one.1
    have o' := (c.impl pr).zero.1
    subst hz
    exact ⟨o', o, o, o⟩
  have hk : k.length = c.fld.code.limbs := rep_length (Fld.Tight.rep k2)
  obtain ⟨r, ev, h1, h2⟩ := C32_total c pr hq' (k := k') ((rep_length (Fld.Tight.rep n2)).trans (by cases c <;> rfl))
  have hsm : q.scalarMult (c.scalar pr) k = .ok (r, k') := by
    have hn : (c.scalar pr).normalize k = .ok k' := by rw [c.scalar_eq]; exact n1
    rw [EdwardsExtended.scalarMult, hn]
    simp only [ok_bind, EdwardsExtended.scalarMultNormalized, h1]
    rfl
  have e1 := (C55_constructors hP (w := crvWorld c pr) rfl (Nat.le_refl 12) (p := z) u v).1
  have e2 := (C55_constructors hP (w := crvWorld c pr) rfl (Nat.le_refl 12) (p := z) u v).2.1
  have e3 := C55_scalar_mult hP (w := crvWorld c pr) rfl (Nat.le_refl 12) (tight_fits hq') hk
  rw [show EdwardsExtended.zero (c.scalar (crvWorld c pr).pr) = z from hz] at e1
  rw [show z.init (c.scalar (crvWorld c pr).pr) u v = q from hq] at e2
  rw [show q.scalarMult (c.scalar (crvWorld c pr).pr) k = .ok (r, k') from hsm] at e3
  refine ⟨k', u, v, r, ?_, h2⟩
  show (Script.call _ _ _).run _ _ _ [slice secret] = _
  rw [run_method]
  show (callFn _ _ _ _ _ [slice secret] >>= _) = _
  rw [unp secret k1]
  show (Script.call _ _ _).run _ _ _ [slice secret, elem (tyId c.fld) k, slice x] = _
  rw [run_method]
  show (callFn _ _ _ _ _ [slice x] >>= _) = _
  rw [unp x u1]
  show (Script.call _ _ _).run _ _ _ [slice secret, elem (tyId c.fld) k, slice x, elem (tyId c.fld) u, slice y] = _
  rw [run_method]
  show (callFn _ _ _ _ _ [slice y] >>= _) = _
  rw [unp y v1]
  show (Script.call _ _ _).run _ _ _ [slice secret, elem (tyId c.fld) k, slice x, elem (tyId c.fld) u, slice y,
    elem (tyId c.fld) v] = _
  rw [run_method]
  show (callPt _ _ _ _ [] >>= _) = _
  rw [e1]
  show (Script.call _ _ _).run _ _ _ [slice secret, elem (tyId c.fld) k, slice x, elem (tyId c.fld) u, slice y,
    elem (tyId c.fld) v, pt c z] = _
  rw [run_method]
  show (callPt _ _ _ _ [ptRef c z, elem (tyId c.fld) u, elem (tyId c.fld) v] >>= _) = _
  rw [e2]
  show (Script.call _ _ _).run _ _ _ [slice secret, elem (tyId c.fld) k, slice x, elem (tyId c.fld) u, slice y,
    elem (tyId c.fld) v, pt c q, .unit] = _
  rw [run_method]
  show (callPt _ _ _ _ [ptRef c q, rf c.fld k] >>= _) = _
  rw [e3]
  rfl

theorem lo_slice {a b : List Int} (h : a.length = b.length) : Lo (slice a) (slice b) := by
  refine .ref (.arr (List.forall₂_map_left_iff.2 (List.forall₂_map_right_iff.2 ?_)))
  exact List.forall₂_iff_get.2 ⟨h, fun _ _ _ => .secret _ _ _ (by decide)⟩

/-- C61: in both kinds of builds the key exchange does the same for all secrets and all points. -/
theorem C61_exchange (c : Crv) (pr : Profile) {k x y k' x' y' : List Int} (hk : IsBytes k) (hx : IsBytes x)
    (hy : IsBytes y) (hk' : IsBytes k') (hx' : IsBytes x') (hy' : IsBytes y') (lk : c.fld.nbytes ≤ k.length)
    (lx : c.fld.nbytes ≤ x.length) (ly : c.fld.nbytes ≤ y.length) (ek : k.length = k'.length)
    (ex : x.length = x'.length) (ey : y.length = y'.length) :
    ((exchange c k x y).log (crvProg c) (crvWorld c pr) 12 []).entries =
      ((exchange c k' x' y').log (crvProg c) (crvWorld c pr) 12 []).entries := by
  obtain ⟨_, _, _, _, h, -⟩ := C61_exchange_runs c pr hk lk hx lx hy ly
  obtain ⟨_, _, _, _, h', -⟩ := C61_exchange_runs c pr hk' (ek ▸ lk) hx' (ex ▸ lx) hy' (ey ▸ ly)
  have hl : LoScript (exchange c k x y) (exchange c k' x' y') :=
    .value (lo_slice ek) <| .call _ _ <| .value (lo_slice ex) <| .call _ _ <| .value (lo_slice ey) <|
      .call _ _ <| .call _ _ <| .call _ _ <| .call _ _ .done
  have hb : Blind (exchange c k x y) :=
    .value <| .call <| .value <| .call <| .value <| .call <| .call <| .call <| .call .done
  exact (C61_success _ _ _ _ _ _ hl .nil h h'
    ((hb.answers _ _ _ _).trans ((hl.blind hb).answers _ _ _ _).symm)).1

/-! ### Looking leaks -/

/-- Look at the last bit of an element and, if it is 1, square the element. -/
def peek (a : Elem) : Script :=
  .value (elem (tyId .e221_3) a) <| .value (usize 0) <|
  .call (.method (tyId .e221_3) (id! "bit")) [(true, 0), (false, 1)] <|
  .look 2 fun
    | .bool true => .call (.method (tyId .e221_3) (id! "square")) [(true, 0)] .done
    | _ => .done

/-- The scripts for 1 and 2 differ in secrets only, and their logs differ: the first one is longer.  By
`C61_leak` they agree up to the look. -/
theorem C61_looking_leaks : LoScript (peek [1, 0, 0, 0]) (peek [2, 0, 0, 0]) ∧
    ((peek [2, 0, 0, 0]).log (src .e221_3) ⟨.release, 0, fun _ _ => 0⟩ 12 []).entries.length <
      ((peek [1, 0, 0, 0]).log (src .e221_3) ⟨.release, 0, fun _ _ => 0⟩ 12 []).entries.length :=
  ⟨.value (lo_elem _ rfl) <| .value (Lo.refl _) <| .call _ _ <| .look _ fun _ => LoScript.refl _, by decide +kernel⟩

end Verif

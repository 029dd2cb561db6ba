import Verif.Props.Ring
import Verif.Check.Frame

/-!
# Exponentiation chains: simulation by symbolic values

`sim`: a chain run on field elements follows a run on abstract values.  Instances: "is
`Tight`" (nothing panics) and "denotes this polynomial in the argument".
-/

namespace Verif

/-- Unroll the loops of a chain. -/
def flatten : Chain → List CStep
  | [] => []
  | .step s :: rest => s :: flatten rest
  | .loop a b body :: rest => (List.replicate (b - a) body).flatten ++ flatten rest

namespace FieldCode
variable (F : FieldCode) (pr : Profile) (q : Elem → Res Elem)

theorem execSteps_append (s t : List CStep) (ρ : Regs) :
    F.execSteps pr q (s ++ t) ρ = (F.execSteps pr q s ρ >>= F.execSteps pr q t) := by
  induction s generalizing ρ with
  | nil => rfl
  | cons x s ih =>
    simp only [List.cons_append, execSteps, bind, Except.bind]
    cases F.execStep pr q ρ x with
    | error e => rfl
    | ok ρ' => exact ih ρ'

theorem execLoop_eq (body : List CStep) : ∀ (n : Nat) (ρ : Regs),
    F.execLoop pr q body n ρ = F.execSteps pr q (List.replicate n body).flatten ρ := by
  intro n
  induction n with
  | zero => intro ρ; rfl
  | succ n ih =>
    intro ρ
    simp only [List.replicate_succ, List.flatten_cons, execSteps_append, execLoop, bind,
      Except.bind]
    cases F.execSteps pr q body ρ with
    | error e => rfl
    | ok ρ' => exact ih ρ'

theorem execChain_eq (c : Chain) : ∀ (ρ : Regs),
    F.execChain pr q c ρ = F.execSteps pr q (flatten c) ρ := by
  induction c with
  | nil => intro ρ; rfl
  | cons s c ih =>
    intro ρ
    cases s with
    | step s =>
      simp only [flatten, execChain, execSteps, bind, Except.bind]
      cases F.execStep pr q ρ s with
      | error e => rfl
      | ok ρ' => exact ih ρ'
    | loop a b body =>
      simp only [flatten, execChain, execSteps_append, execLoop_eq, bind, Except.bind]
      cases F.execSteps pr q (List.replicate (b - a) body).flatten ρ with
      | error e => rfl
      | ok ρ' => exact ih ρ'

/-- What runs without a panic in a debug build gives the same result in any build. -/
theorem runLimb_mono {P : Prog} {a b r : Elem} (h : F.runLimb .debug P a b = .ok r) :
    F.runLimb pr P a b = .ok r := by
  simp only [runLimb, bind, Except.bind, pure, Except.pure] at *
  cases h1 : runProg .debug P (initEnv a b) with
  | error e => rw [h1] at h; cases h
  | ok ρ => rw [h1] at h; rw [Check.run_mono pr _ _ _ h1]; exact h

theorem execStep_mono {q' : Elem → Res Elem} (hq : ∀ a r, q a = .ok r → q' a = .ok r)
    {ρ ρ' : Regs} {s : CStep} (h : F.execStep .debug q ρ s = .ok ρ') :
    F.execStep pr q' ρ s = .ok ρ' := by
  have bnd : ∀ {α β : Type} {x y : Res α} {g g' : α → Res β} {r : β},
      (x >>= g) = .ok r → (∀ v, x = .ok v → y = .ok v) →
      (∀ v, g v = .ok r → g' v = .ok r) → (y >>= g') = .ok r := by
    intro α β x y g g' r h h1 h2
    simp only [bind, Except.bind] at *
    cases x with
    | error e => cases h
    | ok v => rw [h1 v rfl]; exact h2 v h
  cases s with
  | clone x y => exact h
  | ret x => exact h
  | squared x y =>
    exact bnd h (fun _ h => h) fun v h => bnd h (fun w h => runLimb_mono F pr h) fun _ h => h
  | quartic x y =>
    exact bnd h (fun _ h => h) fun v h => bnd h (fun w h => hq _ _ h) fun _ h => h
  | square x =>
    exact bnd h (fun _ h => h) fun v h => bnd h (fun w h => runLimb_mono F pr h) fun _ h => h
  | mulAssign x y =>
    exact bnd h (fun _ h => h) fun v h => bnd h (fun _ h => h) fun u h =>
      bnd h (fun w h => runLimb_mono F pr h) fun _ h => h
  | subAssign x y =>
    exact bnd h (fun _ h => h) fun v h => bnd h (fun _ h => h) fun u h =>
      bnd h (fun w h => runLimb_mono F pr h) fun _ h => h
  | addAssign x y =>
    exact bnd h (fun _ h => h) fun v h => bnd h (fun _ h => h) fun u h =>
      bnd h (fun w h => runLimb_mono F pr h) fun _ h => h
  | retMul x y =>
    exact bnd h (fun _ h => h) fun v h => bnd h (fun _ h => h) fun u h =>
      bnd h (fun w h => runLimb_mono F pr h) fun _ h => h

theorem execSteps_mono {q' : Elem → Res Elem} (hq : ∀ a r, q a = .ok r → q' a = .ok r)
    (s : List CStep) : ∀ {ρ ρ' : Regs}, F.execSteps .debug q s ρ = .ok ρ' →
    F.execSteps pr q' s ρ = .ok ρ' := by
  induction s with
  | nil => intro ρ ρ' h; exact h
  | cons x s ih =>
    intro ρ ρ' h
    simp only [execSteps, bind, Except.bind] at *
    cases h1 : F.execStep .debug q ρ x with
    | error e => rw [h1] at h; cases h
    | ok ρ1 =>
      rw [h1] at h
      rw [execStep_mono F pr q hq h1]
      exact ih h

theorem runChain_mono {q' : Elem → Res Elem} (hq : ∀ a r, q a = .ok r → q' a = .ok r)
    {c : Chain} {a r : Elem} (h : F.runChain .debug q c a = .ok r) :
    F.runChain pr q' c a = .ok r := by
  simp only [runChain, execChain_eq, bind, Except.bind] at *
  cases h1 : F.execSteps .debug q (flatten c) (F.initRegs a) with
  | error e => rw [h1] at h; cases h
  | ok ρ => rw [h1] at h; rw [execSteps_mono F pr q hq _ h1]; exact h

theorem quarticLegendre_mono {a r : Elem} (h : F.quarticLegendre .debug a = .ok r) :
    F.quarticLegendre pr a = .ok r := by
  simp only [quarticLegendre] at *
  cases hc : F.quarticC with
  | none => rw [hc] at h; cases h
  | some c =>
    rw [hc] at h
    exact runChain_mono F pr _ (fun _ _ h => h) h

/-! ### Simulation -/

/-- Abstract operations; `none` means "not known to be allowed". -/
structure AbsOps (α : Type) where
  sq : α → Option α
  mul : α → α → Option α
  sub : α → α → Option α
  add : α → α → Option α
  quart : α → Option α

variable {α : Type} (S : AbsOps α)

/-- Abstract step. -/
def absStep (A : Tree α) : CStep → Option (Tree α)
  | .clone x y => do return A.set x (← A.get y)
  | .squared x y => do return A.set x (← S.sq (← A.get y))
  | .quartic x y => do return A.set x (← S.quart (← A.get y))
  | .square x => do return A.set x (← S.sq (← A.get x))
  | .mulAssign x y => do return A.set x (← S.mul (← A.get x) (← A.get y))
  | .subAssign x y => do return A.set x (← S.sub (← A.get x) (← A.get y))
  | .addAssign x y => do return A.set x (← S.add (← A.get x) (← A.get y))
  | .ret x => do return A.set 0 (← A.get x)
  | .retMul x y => do return A.set 0 (← S.mul (← A.get x) (← A.get y))

def absSteps : List CStep → Tree α → Option (Tree α)
  | [], A => some A
  | s :: rest, A => (absStep S A s).bind (absSteps rest)

variable (M : Elem → Elem → Prop)

/-- The operands of the multiplication in this step (if it is one) satisfy `M`. -/
def SafeStep (ρ : Regs) : CStep → Prop
  | .mulAssign x y => ∀ a b, ρ.get x = some a → ρ.get y = some b → M a b
  | .retMul x y => ∀ a b, ρ.get x = some a → ρ.get y = some b → M a b
  | _ => True

/-- The operands of every multiplication executed satisfy `M`. -/
def SafeSteps : List CStep → Regs → Prop
  | [], _ => True
  | s :: rest, ρ => SafeStep M ρ s ∧ ∀ ρ', F.execStep pr q ρ s = .ok ρ' → SafeSteps rest ρ'

variable (R : α → Elem → Prop)

/-- Registers related to abstract registers. -/
def Rel (A : Tree α) (ρ : Regs) : Prop :=
  ∀ i a, A.get i = some a → ∃ v, ρ.get i = some v ∧ R a v

/-- Soundness of the abstract operations. -/
structure Sound : Prop where
  sq : ∀ {a b v}, S.sq a = some b → R a v → ∃ r, F.square pr v = .ok r ∧ R b r
  mul : ∀ {a a' b v w}, S.mul a a' = some b → R a v → R a' w → M v w →
    ∃ r, F.mulAssign pr v w = .ok r ∧ R b r
  sub : ∀ {a a' b v w}, S.sub a a' = some b → R a v → R a' w →
    ∃ r, F.subAssign pr v w = .ok r ∧ R b r
  add : ∀ {a a' b v w}, S.add a a' = some b → R a v → R a' w →
    ∃ r, F.addAssign pr v w = .ok r ∧ R b r
  quart : ∀ {a b v}, S.quart a = some b → R a v → ∃ r, q v = .ok r ∧ R b r

variable {F pr q S M R}

theorem Rel.set {A : Tree α} {ρ : Regs} (h : Rel R A ρ) (x : Nat) {a : α} {v : Elem}
    (hv : R a v) : Rel R (A.set x a) (ρ.set x v) := by
  intro i b hb
  by_cases hi : i = x
  · subst hi
    rw [Tree.get_set_self] at hb
    cases hb
    exact ⟨v, Tree.get_set_self _ _ _, hv⟩
  · rw [Tree.get_set_ne _ _ hi] at hb
    obtain ⟨w, h1, h2⟩ := h i b hb
    exact ⟨w, by rw [Tree.get_set_ne _ _ hi, h1], h2⟩

theorem sim_step (hS : Sound F pr q S M R) {A A' : Tree α} {ρ : Regs} (h : Rel R A ρ)
    {s : CStep} (ha : absStep S A s = some A') (hsafe : SafeStep M ρ s) :
    ∃ ρ', F.execStep pr q ρ s = .ok ρ' ∧ Rel R A' ρ' := by
  cases s with
  | clone x y =>
    simp only [absStep, Option.bind_eq_bind, Option.bind_eq_some_iff, Option.pure_def,
      Option.some.injEq] at ha
    obtain ⟨a, h1, rfl⟩ := ha
    obtain ⟨v, h2, h3⟩ := h _ _ h1
    exact ⟨_, by simp only [execStep, reg, h2, bind, Except.bind, pure, Except.pure], h.set x h3⟩
  | ret x =>
    simp only [absStep, Option.bind_eq_bind, Option.bind_eq_some_iff, Option.pure_def,
      Option.some.injEq] at ha
    obtain ⟨a, h1, rfl⟩ := ha
    obtain ⟨v, h2, h3⟩ := h _ _ h1
    exact ⟨_, by simp only [execStep, reg, h2, bind, Except.bind, pure, Except.pure], h.set 0 h3⟩
  | squared x y =>
    simp only [absStep, Option.bind_eq_bind, Option.bind_eq_some_iff, Option.pure_def,
      Option.some.injEq] at ha
    obtain ⟨a, h1, b, hb, rfl⟩ := ha
    obtain ⟨v, h2, h3⟩ := h _ _ h1
    obtain ⟨r, h4, h5⟩ := hS.sq hb h3
    exact ⟨_, by simp only [execStep, reg, h2, squared, h4, bind, Except.bind, pure, Except.pure],
      h.set x h5⟩
  | quartic x y =>
    simp only [absStep, Option.bind_eq_bind, Option.bind_eq_some_iff, Option.pure_def,
      Option.some.injEq] at ha
    obtain ⟨a, h1, b, hb, rfl⟩ := ha
    obtain ⟨v, h2, h3⟩ := h _ _ h1
    obtain ⟨r, h4, h5⟩ := hS.quart hb h3
    exact ⟨_, by simp only [execStep, reg, h2, h4, bind, Except.bind, pure, Except.pure],
      h.set x h5⟩
  | square x =>
    simp only [absStep, Option.bind_eq_bind, Option.bind_eq_some_iff, Option.pure_def,
      Option.some.injEq] at ha
    obtain ⟨a, h1, b, hb, rfl⟩ := ha
    obtain ⟨v, h2, h3⟩ := h _ _ h1
    obtain ⟨r, h4, h5⟩ := hS.sq hb h3
    exact ⟨_, by simp only [execStep, reg, h2, h4, bind, Except.bind, pure, Except.pure],
      h.set x h5⟩
  | mulAssign x y =>
    simp only [absStep, Option.bind_eq_bind, Option.bind_eq_some_iff, Option.pure_def,
      Option.some.injEq] at ha
    obtain ⟨a, h1, a', h1', b, hb, rfl⟩ := ha
    obtain ⟨v, h2, h3⟩ := h _ _ h1
    obtain ⟨w, h2', h3'⟩ := h _ _ h1'
    obtain ⟨r, h4, h5⟩ := hS.mul hb h3 h3' (hsafe v w h2 h2')
    exact ⟨_, by simp only [execStep, reg, h2, h2', h4, bind, Except.bind, pure, Except.pure],
      h.set x h5⟩
  | subAssign x y =>
    simp only [absStep, Option.bind_eq_bind, Option.bind_eq_some_iff, Option.pure_def,
      Option.some.injEq] at ha
    obtain ⟨a, h1, a', h1', b, hb, rfl⟩ := ha
    obtain ⟨v, h2, h3⟩ := h _ _ h1
    obtain ⟨w, h2', h3'⟩ := h _ _ h1'
    obtain ⟨r, h4, h5⟩ := hS.sub hb h3 h3'
    exact ⟨_, by simp only [execStep, reg, h2, h2', h4, bind, Except.bind, pure, Except.pure],
      h.set x h5⟩
  | addAssign x y =>
    simp only [absStep, Option.bind_eq_bind, Option.bind_eq_some_iff, Option.pure_def,
      Option.some.injEq] at ha
    obtain ⟨a, h1, a', h1', b, hb, rfl⟩ := ha
    obtain ⟨v, h2, h3⟩ := h _ _ h1
    obtain ⟨w, h2', h3'⟩ := h _ _ h1'
    obtain ⟨r, h4, h5⟩ := hS.add hb h3 h3'
    exact ⟨_, by simp only [execStep, reg, h2, h2', h4, bind, Except.bind, pure, Except.pure],
      h.set x h5⟩
  | retMul x y =>
    simp only [absStep, Option.bind_eq_bind, Option.bind_eq_some_iff, Option.pure_def,
      Option.some.injEq] at ha
    obtain ⟨a, h1, a', h1', b, hb, rfl⟩ := ha
    obtain ⟨v, h2, h3⟩ := h _ _ h1
    obtain ⟨w, h2', h3'⟩ := h _ _ h1'
    obtain ⟨r, h4, h5⟩ := hS.mul hb h3 h3' (hsafe v w h2 h2')
    exact ⟨_, by
      simp only [execStep, reg, h2, h2', mul, h4, bind, Except.bind, pure, Except.pure],
      h.set 0 h5⟩

theorem sim (hS : Sound F pr q S M R) (s : List CStep) : ∀ {A A' : Tree α} {ρ : Regs},
    Rel R A ρ → absSteps S s A = some A' → SafeSteps F pr q M s ρ →
    ∃ ρ', F.execSteps pr q s ρ = .ok ρ' ∧ Rel R A' ρ' := by
  induction s with
  | nil =>
    intro A A' ρ h ha _
    simp only [absSteps, Option.some.injEq] at ha
    subst ha
    exact ⟨ρ, rfl, h⟩
  | cons x s ih =>
    intro A A' ρ h ha hs
    simp only [absSteps, Option.bind_eq_some_iff] at ha
    obtain ⟨A1, h1, h2⟩ := ha
    obtain ⟨ρ1, h3, h4⟩ := sim_step hS h h1 hs.1
    obtain ⟨ρ', h5, h6⟩ := ih h4 h2 (hs.2 ρ1 h3)
    exact ⟨ρ', by simp only [execSteps, h3, h5, bind, Except.bind], h6⟩

/-- The safety condition holds of everything that satisfies it always. -/
theorem SafeSteps.of_forall (hM : ∀ a b, M a b) (s : List CStep) :
    ∀ (ρ : Regs), SafeSteps F pr q M s ρ := by
  induction s with
  | nil => intro ρ; trivial
  | cons x s ih =>
    intro ρ
    refine ⟨?_, fun ρ' _ => ih ρ'⟩
    cases x with
    | mulAssign x y => exact fun a b _ _ => hM a b
    | retMul x y => exact fun a b _ _ => hM a b
    | _ => trivial

end FieldCode
end Verif

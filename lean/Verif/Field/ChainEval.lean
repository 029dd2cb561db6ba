import Verif.Field.ChainSym

/-!
# Kernel evaluation of chains on concrete arguments (helper lemmas)

A loop whose body leaves the registers unchanged need not be iterated further; values are
put in normal form after each step.
-/

namespace Verif
deriving instance DecidableEq for Tree

namespace FieldCode
variable (F : FieldCode) (pr : Profile) (q : Elem → Res Elem)

/-! ### Forcing: continue with a value in normal form -/

def forceNat {β : Type} (n : Nat) (k : Nat → β) : β :=
  match n with
  | 0 => k 0
  | m + 1 => k (Nat.succ m)

theorem forceNat_eq {β : Type} (n : Nat) (k : Nat → β) : forceNat n k = k n := by
  cases n <;> rfl

def forceInt {β : Type} (x : Int) (k : Int → β) : β :=
  match x with
  | .ofNat n => forceNat n fun m => k (.ofNat m)
  | .negSucc n => forceNat n fun m => k (.negSucc m)

theorem forceInt_eq {β : Type} (x : Int) (k : Int → β) : forceInt x k = k x := by
  cases x <;> simp [forceInt, forceNat_eq]

def forceList {β : Type} : List Int → (List Int → β) → β
  | [], k => k []
  | x :: xs, k => forceInt x fun x => forceList xs fun xs => k (x :: xs)

theorem forceList_eq {β : Type} : ∀ (l : List Int) (k : List Int → β), forceList l k = k l := by
  intro l
  induction l with
  | nil => intro k; rfl
  | cons x xs ih => intro k; simp [forceList, forceInt_eq, ih]

def forceRegs {β : Type} : Regs → (Regs → β) → β
  | .leaf, k => k .leaf
  | .node l v r, k => forceRegs l fun l => forceRegs r fun r => match v with
    | none => k (.node l none r)
    | some v => forceList v fun v => k (.node l (some v) r)

theorem forceRegs_eq {β : Type} : ∀ (t : Regs) (k : Regs → β), forceRegs t k = k t := by
  intro t
  induction t with
  | leaf => intro k; rfl
  | node l v r ihl ihr =>
    intro k
    simp only [forceRegs, ihl, ihr]
    cases v <;> simp [forceList_eq]

/-! ### Evaluation -/

variable (M : Elem → Elem → Bool)

def safeStepB (ρ : Regs) : CStep → Bool
  | .mulAssign x y => match ρ.get x, ρ.get y with
    | some a, some b => M a b
    | _, _ => true
  | .retMul x y => match ρ.get x, ρ.get y with
    | some a, some b => M a b
    | _, _ => true
  | _ => true

/-- Run steps, checking the safety condition. -/
def safeRunB : List CStep → Regs → Option Regs
  | [], ρ => some ρ
  | s :: rest, ρ => if safeStepB M ρ s then match F.execStep pr q ρ s with
    | .error _ => none
    | .ok ρ' => forceRegs ρ' (safeRunB rest)
    else none

def safeLoopB (body : List CStep) : Nat → Regs → Option Regs
  | 0, ρ => some ρ
  | n + 1, ρ => match F.safeRunB pr q M body ρ with
    | none => none
    | some ρ' => if ρ' = ρ then some ρ else safeLoopB body n ρ'

def safeChainB : Chain → Regs → Option Regs
  | [], ρ => some ρ
  | .step s :: rest, ρ => match F.safeRunB pr q M [s] ρ with
    | none => none
    | some ρ' => safeChainB rest ρ'
  | .loop a b body :: rest, ρ => match F.safeLoopB pr q M body (b - a) ρ with
    | none => none
    | some ρ' => safeChainB rest ρ'

variable {F pr q M} {P : Elem → Elem → Prop}

theorem SafeSteps.append {s t : List CStep} : ∀ {ρ : Regs}, SafeSteps F pr q P s ρ →
    (∀ ρ', F.execSteps pr q s ρ = .ok ρ' → SafeSteps F pr q P t ρ') →
    SafeSteps F pr q P (s ++ t) ρ := by
  induction s with
  | nil => intro ρ _ h; exact h ρ rfl
  | cons x s ih =>
    intro ρ h1 h2
    refine ⟨h1.1, fun ρ' h => ih (h1.2 ρ' h) fun ρ'' h' => h2 ρ'' ?_⟩
    simp only [execSteps, h, h', bind, Except.bind]

variable (hM : ∀ a b, M a b = true → P a b)
include hM

theorem safeStepB_sound {ρ : Regs} {s : CStep} (h : safeStepB M ρ s = true) : SafeStep P ρ s := by
  cases s with
  | mulAssign x y =>
    intro a b ha hb
    simp only [safeStepB, ha, hb] at h
    exact hM a b h
  | retMul x y =>
    intro a b ha hb
    simp only [safeStepB, ha, hb] at h
    exact hM a b h
  | _ => trivial

theorem safeRunB_sound (s : List CStep) : ∀ {ρ ρ' : Regs}, F.safeRunB pr q M s ρ = some ρ' →
    SafeSteps F pr q P s ρ ∧ F.execSteps pr q s ρ = .ok ρ' := by
  induction s with
  | nil => intro ρ ρ' h; cases h; exact ⟨trivial, rfl⟩
  | cons x s ih =>
    intro ρ ρ' h
    simp only [safeRunB, forceRegs_eq] at h
    split at h
    · next hs =>
      cases h1 : F.execStep pr q ρ x with
      | error e => rw [h1] at h; cases h
      | ok ρ1 =>
        rw [h1] at h
        obtain ⟨h2, h3⟩ := ih h
        refine ⟨⟨safeStepB_sound hM hs, fun ρ'' h4 => ?_⟩, ?_⟩
        · rw [h1] at h4; cases h4; exact h2
        · simp only [execSteps, h1, h3, bind, Except.bind]
    · cases h

omit hM in
theorem safe_fix {body : List CStep} {ρ : Regs} (h1 : SafeSteps F pr q P body ρ)
    (h2 : F.execSteps pr q body ρ = .ok ρ) : ∀ n,
    SafeSteps F pr q P (List.replicate n body).flatten ρ ∧
    F.execSteps pr q (List.replicate n body).flatten ρ = .ok ρ := by
  intro n
  induction n with
  | zero => exact ⟨trivial, rfl⟩
  | succ n ih =>
    rw [List.replicate_succ, List.flatten_cons]
    refine ⟨h1.append fun ρ' h => ?_, ?_⟩
    · rw [h2] at h; cases h; exact ih.1
    · rw [execSteps_append, h2]; exact ih.2

theorem safeLoopB_sound (body : List CStep) : ∀ (n : Nat) {ρ ρ' : Regs},
    F.safeLoopB pr q M body n ρ = some ρ' →
    SafeSteps F pr q P (List.replicate n body).flatten ρ ∧
    F.execSteps pr q (List.replicate n body).flatten ρ = .ok ρ' := by
  intro n
  induction n with
  | zero => intro ρ ρ' h; cases h; exact ⟨trivial, rfl⟩
  | succ n ih =>
    intro ρ ρ' h
    simp only [safeLoopB] at h
    cases h1 : F.safeRunB pr q M body ρ with
    | none => rw [h1] at h; cases h
    | some ρ1 =>
      rw [h1] at h
      simp only at h
      obtain ⟨h2, h3⟩ := safeRunB_sound hM _ h1
      split at h
      · next he => subst he; cases h; exact safe_fix h2 h3 _
      · obtain ⟨h4, h5⟩ := ih h
        rw [List.replicate_succ, List.flatten_cons]
        refine ⟨h2.append fun ρ' h => ?_, ?_⟩
        · rw [h3] at h; cases h; exact h4
        · rw [execSteps_append, h3]; exact h5

theorem safeChainB_sound (c : Chain) : ∀ {ρ ρ' : Regs}, F.safeChainB pr q M c ρ = some ρ' →
    SafeSteps F pr q P (flatten c) ρ ∧ F.execSteps pr q (flatten c) ρ = .ok ρ' := by
  induction c with
  | nil => intro ρ ρ' h; cases h; exact ⟨trivial, rfl⟩
  | cons s c ih =>
    intro ρ ρ' h
    cases s with
    | step s =>
      simp only [safeChainB] at h
      cases h1 : F.safeRunB pr q M [s] ρ with
      | none => rw [h1] at h; cases h
      | some ρ1 =>
        rw [h1] at h
        obtain ⟨h2, h3⟩ := safeRunB_sound hM _ h1
        obtain ⟨h4, h5⟩ := ih h
        rw [flatten, ← List.singleton_append]
        refine ⟨h2.append fun ρ' h => ?_, ?_⟩
        · rw [h3] at h; cases h; exact h4
        · rw [execSteps_append, h3]; exact h5
    | loop a b body =>
      simp only [safeChainB] at h
      cases h1 : F.safeLoopB pr q M body (b - a) ρ with
      | none => rw [h1] at h; cases h
      | some ρ1 =>
        rw [h1] at h
        obtain ⟨h2, h3⟩ := safeLoopB_sound hM _ _ h1
        obtain ⟨h4, h5⟩ := ih h
        rw [flatten]
        refine ⟨h2.append fun ρ' h => ?_, ?_⟩
        · rw [h3] at h; cases h; exact h4
        · rw [execSteps_append, h3]; exact h5

end FieldCode

namespace Fld
open FieldCode

def symMB (f : Fld) (a b : Elem) : Bool :=
  decide (f ≠ .e251_9) || (decide (0 ≤ f.V a * f.V b) && decide (f.V a * f.V b < Check.p2 504))

theorem symMB_sound {f : Fld} (a b : Elem) (h : f.symMB a b = true) : f.symM a b := by
  intro hf
  subst hf
  simp only [symMB, Bool.or_eq_true, Bool.and_eq_true, decide_eq_true_eq, Check.p2_eq] at h
  rcases h with h | h
  · exact absurd rfl h
  · exact h

/-- Evaluate a chain. -/
def evalChain (f : Fld) (q : Elem → Res Elem) (c : Chain) (a : Elem) : Elem :=
  match f.code.safeChainB .debug q (fun _ _ => true) c (f.code.initRegs a) with
  | some ρ => forceList ((ρ.get 0).getD []) id
  | none => []

theorem runChain_of {f : Fld} (pr : Profile) {q q' : Elem → Res Elem}
    (hq : ∀ a r, q a = .ok r → q' a = .ok r) {c : Chain} {a r : Elem}
    (h : f.evalChain q c a = r) (hr : r ≠ []) : f.code.runChain pr q' c a = .ok r := by
  simp only [evalChain] at h
  cases h1 : f.code.safeChainB .debug q (fun _ _ => true) c (f.code.initRegs a) with
  | none => rw [h1] at h; exact absurd h.symm hr
  | some ρ =>
    rw [h1] at h
    obtain ⟨-, h2⟩ := safeChainB_sound (P := fun _ _ => True) (fun _ _ _ => trivial) c h1
    refine runChain_mono _ pr _ hq ?_
    simp only [forceList_eq, id] at h
    simp only [runChain, execChain_eq, h2, bind, Except.bind, reg]
    cases h3 : ρ.get 0 with
    | none => rw [h3] at h; exact absurd h.symm hr
    | some v => rw [h3] at h; rw [← h]; rfl

theorem safeChain_of {f : Fld} {c : Chain} {a : Elem}
    (h : (f.code.safeChainB .debug noQuartic f.symMB c (f.code.initRegs a)).isSome = true) :
    f.SafeChain c a := by
  obtain ⟨ρ, hρ⟩ := Option.isSome_iff_exists.mp h
  exact (safeChainB_sound (fun a b => symMB_sound a b) c hρ).1

end Fld
end Verif

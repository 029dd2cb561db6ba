import Verif.Check.Frame
import Verif.Check.Bridge

/-!
# Replacing one statement of a straight-line program (helper lemmas)
-/

namespace Verif.Check

/-- Two states agree except on slot `s`. -/
def AgreeOff (s : Nat) (ρ σ : Env) : Prop := ∀ j, j ≠ s → σ.get j = ρ.get j

theorem eval_agree (pr : Profile) {s : Nat} {ρ σ : Env} (h : AgreeOff s ρ σ) : ∀ (e : Expr),
    readsE s e = false → e.eval pr σ = e.eval pr ρ := by
  intro e
  induction e with
  | lit n => intro _; rfl
  | get t =>
    intro ht
    simp only [Expr.eval, h t (beq_false ht).symm]
  | add a b ha hb | sub a b ha hb | mul a b ha hb | and a b ha hb | or a b ha hb =>
    intro hr
    simp only [readsE, Bool.or_eq_false_iff] at hr
    simp only [Expr.eval, ha hr.1, hb hr.2]
  | shl a k ha | shr a k ha | u8 a ha =>
    intro hr
    simp only [Expr.eval, ha hr]

theorem AgreeOff.set {s : Nat} {ρ σ : Env} (h : AgreeOff s ρ σ) (t : Nat) (x : Int) :
    AgreeOff s (ρ.set t x) (σ.set t x) := by
  intro j hj
  simp only [Tree.get_set, h j hj]

theorem run_agree (pr : Profile) {s : Nat} : ∀ (P : Prog) (ρ σ ρ' : Env), AgreeOff s ρ σ →
    (P.all fun st => !needs s st && !assigns s st) = true → runProg pr P ρ = .ok ρ' →
    ∃ σ', runProg pr P σ = .ok σ' ∧ AgreeOff s ρ' σ' := by
  intro P
  induction P with
  | nil => intro ρ σ ρ' h _ hr; cases hr; exact ⟨σ, rfl, h⟩
  | cons st P ih =>
    intro ρ σ ρ' h hP hr
    simp only [List.all_cons, Bool.and_eq_true, Bool.not_eq_true'] at hP
    simp only [runProg, bind, Except.bind] at hr
    cases hst : st.exec pr ρ with
    | error e => rw [hst] at hr; cases hr
    | ok ρ1 =>
      rw [hst] at hr
      obtain ⟨σ1, h1, h2⟩ : ∃ σ1, st.exec pr σ = .ok σ1 ∧ AgreeOff s ρ1 σ1 := by
        cases st with
        | bind t e =>
          have he := eval_agree pr h e hP.1.1
          simp only [Stmt.exec, bind, Except.bind, pure, Except.pure, he] at hst ⊢
          cases hx : e.eval pr ρ with
          | error x => rw [hx] at hst; cases hst
          | ok v => rw [hx] at hst; cases hst; exact ⟨_, rfl, h.set t v⟩
        | store t e =>
          have hn := hP.1.1
          simp only [needs, Bool.or_eq_false_iff] at hn
          have he := eval_agree pr h e hn.2
          have hg := h t (beq_false hn.1).symm
          simp only [Stmt.exec, bind, Except.bind, pure, Except.pure, he, hg] at hst ⊢
          cases hx : e.eval pr ρ with
          | error x => rw [hx] at hst; cases hst
          | ok v =>
            rw [hx] at hst
            cases hy : ρ.get t with
            | none => simp [hy] at hst
            | some y => simp only [hy] at hst; cases hst; exact ⟨_, rfl, h.set t v⟩
      obtain ⟨σ', h3, h4⟩ := ih ρ1 σ1 ρ' h2 (by simpa using hP.2) hr
      exact ⟨σ', by simp only [runProg, bind, Except.bind, h1]; exact h3, h4⟩

/-- A program that computes the value of slot `s` with `e`, and later copies it to slot `t`. -/
def viaSlot (P1 : Prog) (s : Nat) (e : Expr) (S : Prog) (t : Nat) : Prog :=
  P1 ++ .bind s e :: (S ++ [.store t (.get s)])

/-- The same program with another expression: only slot `t` of the result differs. -/
theorem run_viaSlot (pr : Profile) {P1 S : Prog} {s t : Nat} {e e' : Expr} {ρ0 ρ ρQ : Env} {x' : Int}
    (h1 : runProg pr P1 ρ0 = .ok ρ) (he' : e'.eval pr ρ = .ok x')
    (hS : (S.all fun st => !needs s st && !assigns s st) = true)
    (hQ : runProg pr (viaSlot P1 s e S t) ρ0 = .ok ρQ) :
    ∃ x σ, e.eval pr ρ = .ok x ∧ ρQ.get t = some x ∧
      runProg pr (viaSlot P1 s e' S t) ρ0 = .ok σ ∧ σ.get t = some x' ∧
      ∀ j, j ≠ s → j ≠ t → σ.get j = ρQ.get j := by
  simp only [viaSlot, runProg_append, h1, Except.bind, runProg, bind, Stmt.exec, pure,
    Except.pure] at hQ ⊢
  cases hx : e.eval pr ρ with
  | error z => rw [hx] at hQ; cases hQ
  | ok x =>
    rw [hx] at hQ
    simp only [he'] at hQ ⊢
    cases h2 : runProg pr S (ρ.set s x) with
    | error z => rw [h2] at hQ; cases hQ
    | ok ρ2 =>
      have hag : AgreeOff s (ρ.set s x) (ρ.set s x') := by
        intro j hj; rw [Tree.get_set_ne _ _ hj, Tree.get_set_ne _ _ hj]
      obtain ⟨σ2, h3, h4⟩ := run_agree pr S _ _ _ hag hS h2
      have hS' : (S.all fun st => !assigns s st) = true := by
        rw [List.all_eq_true] at hS ⊢
        intro st hst
        have := hS st hst
        simp only [Bool.and_eq_true] at this
        exact this.2
      have hs1 := frame pr s S _ _ hS' h2
      have hs2 := frame pr s S _ _ hS' h3
      rw [Tree.get_set_self] at hs1 hs2
      simp only [h2, h3, Expr.eval, hs1, hs2] at hQ ⊢
      cases hy : ρ2.get t with
      | none => simp [hy] at hQ
      | some y =>
        simp only [hy] at hQ
        cases hQ
        refine ⟨x, σ2.set t x', rfl, Tree.get_set_self _ _ _, ?_, Tree.get_set_self _ _ _, ?_⟩
        · by_cases hts : t = s
          · subst hts; simp only [hs2]
          · simp only [h4 t hts, hy]
        · intro j hj hjt
          rw [Tree.get_set_ne _ _ hjt, Tree.get_set_ne _ _ hjt, h4 j hj]

/-- The same program with an expression that panics. -/
theorem run_viaSlot_error (pr : Profile) {P1 S : Prog} {s t : Nat} {e' : Expr} {ρ0 ρ : Env}
    {z : Panic} (h1 : runProg pr P1 ρ0 = .ok ρ) (he' : e'.eval pr ρ = .error z) :
    runProg pr (viaSlot P1 s e' S t) ρ0 = .error z := by
  simp only [viaSlot, runProg_append, h1, Except.bind, runProg, bind, Stmt.exec, he']

end Verif.Check

import Verif.Model.Ast

/-!
# Frame properties of straight-line code (helper lemmas)
-/

namespace Verif.Check

/-- Does evaluating the expression read slot `s`? -/
def readsE (s : Nat) : Expr → Bool
  | .lit _ => false
  | .get t => Nat.beq s t
  | .add a b => readsE s a || readsE s b
  | .sub a b => readsE s a || readsE s b
  | .mul a b => readsE s a || readsE s b
  | .and a b => readsE s a || readsE s b
  | .or a b => readsE s a || readsE s b
  | .shl a _ => readsE s a
  | .shr a _ => readsE s a
  | .u8 a => readsE s a

/-- Does the statement need slot `s` to exist? -/
def needs (s : Nat) : Stmt → Bool
  | .bind _ e => readsE s e
  | .store t e => Nat.beq s t || readsE s e

/-- Does the statement assign slot `s`? -/
def assigns (s : Nat) : Stmt → Bool
  | .bind t _ => Nat.beq s t
  | .store t _ => Nat.beq s t

/-- Does the statement create slot `s`? -/
def creates (s : Nat) : Stmt → Bool
  | .bind t _ => Nat.beq s t
  | .store _ _ => false

theorem beq_false {s t : Nat} (h : Nat.beq s t = false) : s ≠ t := by
  rintro rfl; rw [Nat.beq_refl] at h; cases h

theorem frame (pr : Profile) (s : Nat) : ∀ (P : Prog) (ρ ρ' : Env),
    (P.all fun st => !assigns s st) = true → runProg pr P ρ = .ok ρ' → ρ'.get s = ρ.get s := by
  intro P
  induction P with
  | nil => intro ρ ρ' _ h; cases h; rfl
  | cons st P ih =>
    intro ρ ρ' hP h
    simp only [List.all_cons, Bool.and_eq_true, Bool.not_eq_true'] at hP
    simp only [runProg, bind, Except.bind] at h
    cases hst : st.exec pr ρ with
    | error e => rw [hst] at h; cases h
    | ok ρ1 =>
      rw [hst] at h
      rw [ih ρ1 ρ' hP.2 h]
      cases st with
      | bind t e =>
        simp only [Stmt.exec, bind, Except.bind, pure, Except.pure] at hst
        cases he : e.eval pr ρ with
        | error x => rw [he] at hst; cases hst
        | ok v =>
          rw [he] at hst; cases hst
          exact Tree.get_set_ne _ _ (beq_false hP.1)
      | store t e =>
        simp only [Stmt.exec, bind, Except.bind, pure, Except.pure] at hst
        cases he : e.eval pr ρ with
        | error x => rw [he] at hst; cases hst
        | ok v =>
          rw [he] at hst
          cases hg : ρ.get t with
          | none => simp [hg] at hst
          | some w =>
            simp only [hg] at hst; cases hst
            exact Tree.get_set_ne _ _ (beq_false hP.1)

theorem eval_absent (pr : Profile) (s : Nat) (ρ : Env) (hs : ρ.get s = none) : ∀ (e : Expr),
    readsE s e = true → ∃ x, e.eval pr ρ = .error x := by
  intro e
  have two : ∀ (a b : Expr) (g : Int → Int → Res Int),
      (readsE s a = true → ∃ x, a.eval pr ρ = .error x) →
      (readsE s b = true → ∃ x, b.eval pr ρ = .error x) → (readsE s a || readsE s b) = true →
      ∃ x, ((a.eval pr ρ).bind fun u => (b.eval pr ρ).bind fun v => g u v) = .error x := by
    intro a b g ha hb h
    cases hea : a.eval pr ρ with
    | error x => exact ⟨x, rfl⟩
    | ok u =>
      simp only [Bool.or_eq_true] at h
      rcases h with h | h
      · obtain ⟨x, hx⟩ := ha h
        rw [hea] at hx; cases hx
      · obtain ⟨x, hx⟩ := hb h
        exact ⟨x, by simp [Except.bind, hx]⟩
  have one : ∀ (a : Expr) (g : Int → Res Int),
      (readsE s a = true → ∃ x, a.eval pr ρ = .error x) → readsE s a = true →
      ∃ x, ((a.eval pr ρ).bind g) = .error x := by
    intro a g ha h
    obtain ⟨x, hx⟩ := ha h
    exact ⟨x, by simp [Except.bind, hx]⟩
  induction e with
  | lit n => intro h; cases h
  | get t =>
    intro h
    have := Nat.eq_of_beq_eq_true h
    subst this
    exact ⟨.index, by simp [Expr.eval, hs]⟩
  | add a b ha hb => exact two a b _ ha hb
  | sub a b ha hb => exact two a b _ ha hb
  | mul a b ha hb => exact two a b _ ha hb
  | and a b ha hb => exact two a b _ ha hb
  | or a b ha hb => exact two a b _ ha hb
  | shl a k ha => exact one a _ ha
  | shr a k ha => exact one a _ ha
  | u8 a ha => exact one a _ ha

/-- A program that needs a slot that does not exist panics. -/
theorem run_absent (pr : Profile) (s : Nat) : ∀ (P : Prog) (ρ : Env), ρ.get s = none →
    (P.all fun st => !creates s st) = true → P.any (needs s) = true →
    ∃ x, runProg pr P ρ = .error x := by
  intro P
  induction P with
  | nil => intro ρ _ _ h; cases h
  | cons st P ih =>
    intro ρ hs hc hn
    simp only [List.all_cons, Bool.and_eq_true, Bool.not_eq_true'] at hc
    simp only [List.any_cons, Bool.or_eq_true] at hn
    simp only [runProg, bind, Except.bind]
    cases st with
    | bind t e =>
      simp only [Stmt.exec, bind, Except.bind, pure, Except.pure]
      cases he : e.eval pr ρ with
      | error x => exact ⟨x, rfl⟩
      | ok v =>
        refine ih _ ?_ hc.2 ?_
        · rw [Tree.get_set_ne _ _ (beq_false hc.1)]; exact hs
        · rcases hn with hn | hn
          · obtain ⟨x, hx⟩ := eval_absent pr s ρ hs e hn
            rw [he] at hx; cases hx
          · exact hn
    | store t e =>
      simp only [Stmt.exec, bind, Except.bind, pure, Except.pure]
      cases he : e.eval pr ρ with
      | error x => exact ⟨x, rfl⟩
      | ok v =>
        cases hg : ρ.get t with
        | none => exact ⟨.index, rfl⟩
        | some w =>
          simp only
          refine ih _ ?_ hc.2 ?_
          · rw [Tree.get_set_ne]
            · exact hs
            · rintro rfl; rw [hs] at hg; cases hg
          · rcases hn with hn | hn
            · simp only [needs, Bool.or_eq_true] at hn
              rcases hn with hn | hn
              · have := Nat.eq_of_beq_eq_true hn
                subst this
                rw [hs] at hg; cases hg
              · obtain ⟨x, hx⟩ := eval_absent pr s ρ hs e hn
                rw [he] at hx; cases hx
            · exact hn

theorem arith_mono {x v : Int} (h : arith .debug x = .ok v) (pr : Profile) :
    arith pr x = .ok v := by
  simp only [arith] at *
  split at h
  · next hi => rw [if_pos hi]; exact h
  · cases h

theorem eval_mono (pr : Profile) (ρ : Env) : ∀ (e : Expr) (v : Int),
    e.eval .debug ρ = .ok v → e.eval pr ρ = .ok v := by
  intro e
  have two : ∀ (a b : Expr) (g g' : Int → Int → Res Int) (v : Int),
      (∀ v, a.eval .debug ρ = .ok v → a.eval pr ρ = .ok v) →
      (∀ v, b.eval .debug ρ = .ok v → b.eval pr ρ = .ok v) →
      (∀ u w x, g u w = .ok x → g' u w = .ok x) →
      ((a.eval .debug ρ).bind fun u => (b.eval .debug ρ).bind fun v => g u v) = .ok v →
      ((a.eval pr ρ).bind fun u => (b.eval pr ρ).bind fun v => g' u v) = .ok v := by
    intro a b g g' v ha hb hg h
    cases hea : a.eval .debug ρ with
    | error x => simp [hea, Except.bind] at h
    | ok u =>
      cases heb : b.eval .debug ρ with
      | error x => simp [hea, heb, Except.bind] at h
      | ok w =>
        simp only [hea, heb, Except.bind] at h
        simp only [ha u hea, hb w heb, Except.bind]
        exact hg _ _ _ h
  have one : ∀ (a : Expr) (g : Int → Res Int) (v : Int),
      (∀ v, a.eval .debug ρ = .ok v → a.eval pr ρ = .ok v) →
      ((a.eval .debug ρ).bind g) = .ok v → ((a.eval pr ρ).bind g) = .ok v := by
    intro a g v ha h
    cases hea : a.eval .debug ρ with
    | error x => simp [hea, Except.bind] at h
    | ok u => simp only [hea, Except.bind] at h; simp only [ha u hea, Except.bind, h]
  induction e with
  | lit n => intro v h; exact h
  | get t => intro v h; exact h
  | add a b ha hb => exact fun v => two a b _ _ v ha hb fun _ _ _ h => arith_mono h pr
  | sub a b ha hb => exact fun v => two a b _ _ v ha hb fun _ _ _ h => arith_mono h pr
  | mul a b ha hb => exact fun v => two a b _ _ v ha hb fun _ _ _ h => arith_mono h pr
  | and a b ha hb => exact fun v => two a b _ _ v ha hb fun _ _ _ h => h
  | or a b ha hb => exact fun v => two a b _ _ v ha hb fun _ _ _ h => h
  | shl a k ha => exact fun v => one a _ v ha
  | shr a k ha => exact fun v => one a _ v ha
  | u8 a ha => exact fun v => one a _ v ha

/-- What runs without a panic in a debug build gives the same result in any build. -/
theorem run_mono (pr : Profile) : ∀ (P : Prog) (ρ ρ' : Env),
    runProg .debug P ρ = .ok ρ' → runProg pr P ρ = .ok ρ' := by
  intro P
  induction P with
  | nil => intro ρ ρ' h; exact h
  | cons st P ih =>
    intro ρ ρ' h
    simp only [runProg, bind, Except.bind] at *
    cases hst : st.exec .debug ρ with
    | error e => rw [hst] at h; cases h
    | ok ρ1 =>
      rw [hst] at h
      have : st.exec pr ρ = .ok ρ1 := by
        cases st with
        | bind t e =>
          simp only [Stmt.exec, bind, Except.bind, pure, Except.pure] at *
          cases he : e.eval .debug ρ with
          | error x => rw [he] at hst; cases hst
          | ok v => rw [he] at hst; rw [eval_mono pr ρ e v he]; exact hst
        | store t e =>
          simp only [Stmt.exec, bind, Except.bind, pure, Except.pure] at *
          cases he : e.eval .debug ρ with
          | error x => rw [he] at hst; cases hst
          | ok v => rw [he] at hst; rw [eval_mono pr ρ e v he]; exact hst
      rw [this]
      exact ih _ _ h

end Verif.Check

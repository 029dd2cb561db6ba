import Verif.Model.Ast
import Verif.Check.Bridge
import Verif.Check.Frame

/-!
# Runs without a panic, and debug runs compared with release runs (helper lemmas)
-/

namespace Verif

/-- A computation with a debug and a release version either panics in the release version, or the
debug version gives the same result or panics because of an overflow. -/
def Coh {α : Type} (g : Profile → Res α) : Prop :=
  (∃ e, g .release = .error e) ∨
  ∃ r, g .release = .ok r ∧ (g .debug = .ok r ∨ g .debug = .error .overflow)

namespace Coh
variable {α β : Type}

theorem const (x : Res α) : Coh fun _ => x := by
  cases x with
  | error e => exact .inl ⟨e, rfl⟩
  | ok r => exact .inr ⟨r, rfl, .inl rfl⟩

theorem bind {g : Profile → Res α} {h : Profile → α → Res β} (hg : Coh g)
    (hh : ∀ a, Coh fun pr => h pr a) : Coh fun pr => (g pr >>= h pr : Res β) := by
  rcases hg with ⟨e, he⟩ | ⟨r, h1, h2 | h2⟩
  · exact .inl ⟨e, by simp only [he]; rfl⟩
  · rcases hh r with ⟨e, he⟩ | ⟨r', h3, h4⟩
    · exact .inl ⟨e, by simp only [h1]; exact he⟩
    · exact .inr ⟨r', by simp only [h1]; exact h3, by simp only [h2]; exact h4⟩
  · cases h3 : h .release r with
    | error e => exact .inl ⟨e, by simp only [h1]; exact h3⟩
    | ok r' => exact .inr ⟨r', by simp only [h1]; exact h3, .inr (by simp only [h2]; rfl)⟩

/-- The debug version after a release version without a panic. -/
theorem ok {g : Profile → Res α} (hg : Coh g) {r : α} (h : g .release = .ok r) :
    g .debug = .ok r ∨ g .debug = .error .overflow := by
  rcases hg with ⟨e, he⟩ | ⟨r', h1, h2⟩
  · rw [h] at he; cases he
  · rw [h] at h1; cases h1; exact h2

theorem arith (x : Int) : Coh fun pr => Verif.arith pr x := by
  unfold Verif.arith
  by_cases h : inI64 x
  · simp only [h, if_true]; exact const _
  · simp only [h]; exact .inr ⟨_, rfl, .inr rfl⟩

theorem eval (ρ : Env) (e : Expr) : Coh fun pr => e.eval pr ρ := by
  induction e with
  | lit n => exact const _
  | get s => exact const _
  | add a b ha hb | sub a b ha hb | mul a b ha hb =>
    exact ha.bind fun _ => hb.bind fun _ => arith _
  | and a b ha hb | or a b ha hb => exact ha.bind fun _ => hb.bind fun _ => const _
  | shl a k ha | shr a k ha | u8 a ha => exact ha.bind fun _ => const _

theorem exec (ρ : Env) (s : Stmt) : Coh fun pr => s.exec pr ρ := by
  cases s with
  | bind s e => exact (eval ρ e).bind fun _ => const _
  | store s e => exact (eval ρ e).bind fun _ => const _

theorem runProg (P : Prog) : ∀ ρ : Env, Coh fun pr => Verif.runProg pr P ρ := by
  induction P with
  | nil => intro ρ; exact const _
  | cons s P ih => intro ρ; exact (exec ρ s).bind ih

end Coh

/-- `x` is the value of an `i64`. -/
def IsI64 (x : Int) : Prop := -2 ^ 63 ≤ x ∧ x < 2 ^ 63

namespace Check

theorem wrap64_isI64 (x : Int) : IsI64 (wrap64 x) := by
  unfold wrap64 IsI64; omega

theorem arith_release_isI64 (x : Int) : ∃ v, arith .release x = .ok v ∧ IsI64 v := by
  unfold arith
  by_cases h : inI64 x
  · simp only [h, if_true]
    refine ⟨x, rfl, ?_⟩
    simp only [inI64, Bool.and_eq_true, decide_eq_true_eq] at h
    unfold IsI64; omega
  · simp only [h]
    exact ⟨_, rfl, wrap64_isI64 _⟩

/-- Slots read are defined and literals fit in 64 bits. -/
def okE (A : Tree Unit) : Expr → Bool
  | .lit n => n < 9223372036854775808
  | .get s => (A.get s).isSome
  | .add a b | .sub a b | .mul a b | .and a b | .or a b => okE A a && okE A b
  | .shl a _ | .shr a _ | .u8 a => okE A a

/-- Defined slots after a program all of whose reads are of defined slots. -/
def okP : Prog → Tree Unit → Option (Tree Unit)
  | [], A => some A
  | .bind s e :: P, A => if okE A e then okP P (A.set s ()) else none
  | .store s e :: P, A => if okE A e && (A.get s).isSome then okP P (A.set s ()) else none

/-- The slots of `A` hold 64-bit integers. -/
def Holds (A : Tree Unit) (ρ : Env) : Prop :=
  ∀ s, (A.get s).isSome = true → ∃ x, ρ.get s = some x ∧ IsI64 x

theorem Holds.set {A : Tree Unit} {ρ : Env} (h : Holds A ρ) (s : Nat) {x : Int} (hx : IsI64 x) :
    Holds (A.set s ()) (ρ.set s x) := by
  intro t ht
  by_cases e : t = s
  · subst e; exact ⟨x, Tree.get_set_self _ _ _, hx⟩
  · rw [Tree.get_set_ne _ _ e] at ht ⊢
    exact h t ht

theorem eval_total {A : Tree Unit} {ρ : Env} (h : Holds A ρ) (e : Expr) (he : okE A e = true) :
    ∃ x, e.eval .release ρ = .ok x ∧ IsI64 x := by
  induction e with
  | lit n =>
    simp only [okE, decide_eq_true_eq] at he
    exact ⟨n, rfl, by unfold IsI64; omega⟩
  | get s =>
    obtain ⟨x, h1, h2⟩ := h s he
    exact ⟨x, by simp only [Expr.eval, h1], h2⟩
  | add a b ha hb =>
    simp only [okE, Bool.and_eq_true] at he
    obtain ⟨x, h1, h2⟩ := ha he.1
    obtain ⟨y, h3, h4⟩ := hb he.2
    obtain ⟨v, h5, h6⟩ := arith_release_isI64 (x + y)
    exact ⟨v, by simp only [Expr.eval, h1, h3, bind, Except.bind, h5], h6⟩
  | sub a b ha hb =>
    simp only [okE, Bool.and_eq_true] at he
    obtain ⟨x, h1, h2⟩ := ha he.1
    obtain ⟨y, h3, h4⟩ := hb he.2
    obtain ⟨v, h5, h6⟩ := arith_release_isI64 (x - y)
    exact ⟨v, by simp only [Expr.eval, h1, h3, bind, Except.bind, h5], h6⟩
  | mul a b ha hb =>
    simp only [okE, Bool.and_eq_true] at he
    obtain ⟨x, h1, h2⟩ := ha he.1
    obtain ⟨y, h3, h4⟩ := hb he.2
    obtain ⟨v, h5, h6⟩ := arith_release_isI64 (x * y)
    exact ⟨v, by simp only [Expr.eval, h1, h3, bind, Except.bind, h5], h6⟩
  | and a b ha hb =>
    simp only [okE, Bool.and_eq_true] at he
    obtain ⟨x, h1, h2⟩ := ha he.1
    obtain ⟨y, h3, h4⟩ := hb he.2
    exact ⟨and64 x y, by simp only [Expr.eval, h1, h3, bind, Except.bind, pure, Except.pure],
      wrap64_isI64 _⟩
  | or a b ha hb =>
    simp only [okE, Bool.and_eq_true] at he
    obtain ⟨x, h1, h2⟩ := ha he.1
    obtain ⟨y, h3, h4⟩ := hb he.2
    exact ⟨or64 x y, by simp only [Expr.eval, h1, h3, bind, Except.bind, pure, Except.pure],
      wrap64_isI64 _⟩
  | shl a k ha =>
    obtain ⟨x, h1, h2⟩ := ha he
    exact ⟨shl64 x k, by simp only [Expr.eval, h1, bind, Except.bind, pure, Except.pure],
      wrap64_isI64 _⟩
  | shr a k ha =>
    obtain ⟨x, h1, h2⟩ := ha he
    refine ⟨shr64 x k, by simp only [Expr.eval, h1, bind, Except.bind, pure, Except.pure], ?_⟩
    have hk : (0 : Int) < 2 ^ k := by positivity
    have hk1 : (1 : Int) ≤ 2 ^ k := hk
    unfold IsI64 shr64 at *
    constructor
    · rw [Int.le_ediv_iff_mul_le hk]; nlinarith [h2.1]
    · rw [Int.ediv_lt_iff_lt_mul hk]; nlinarith [h2.2]
  | u8 a ha =>
    obtain ⟨x, h1, h2⟩ := ha he
    refine ⟨asU8 x, by simp only [Expr.eval, h1, bind, Except.bind, pure, Except.pure], ?_⟩
    unfold IsI64 asU8; omega

theorem run_total : ∀ (P : Prog) {A A' : Tree Unit} {ρ : Env}, Holds A ρ → okP P A = some A' →
    ∃ ρ', runProg .release P ρ = .ok ρ' ∧ Holds A' ρ' := by
  intro P
  induction P with
  | nil => intro A A' ρ h hP; cases hP; exact ⟨ρ, rfl, h⟩
  | cons st P ih =>
    intro A A' ρ h hP
    cases st with
    | bind s e =>
      simp only [okP] at hP
      split at hP
      · next he =>
        obtain ⟨x, h1, h2⟩ := eval_total h e he
        obtain ⟨ρ', h3, h4⟩ := ih (h.set s h2) hP
        exact ⟨ρ', by simp only [runProg, Stmt.exec, h1, bind, Except.bind, pure, Except.pure, h3], h4⟩
      · cases hP
    | store s e =>
      simp only [okP] at hP
      split at hP
      · next he =>
        simp only [Bool.and_eq_true] at he
        obtain ⟨x, h1, h2⟩ := eval_total h e he.1
        obtain ⟨y, h5, -⟩ := h s he.2
        obtain ⟨ρ', h3, h4⟩ := ih (h.set s h2) hP
        exact ⟨ρ', by simp only [runProg, Stmt.exec, h1, h5, bind, Except.bind, pure, Except.pure, h3], h4⟩
      · cases hP

/-- Defined slots at the start: `k` words of `self`, `m` of the argument. -/
def initT (k m : Nat) : Tree Unit :=
  ((Tree.leaf : Tree Unit).setList 0 (List.replicate k ())).setList 16 (List.replicate m ())

theorem initT_holds {k m : Nat} {a b : List Int} (ha : k ≤ a.length)
    (hb : m ≤ b.length) (hm : m ≤ 112) (hk : k ≤ 16)
    (h1 : ∀ x ∈ a, IsI64 x) (h2 : ∀ x ∈ b, IsI64 x) :
    Holds (initT k m) (initEnv a b) := by
  intro s hs
  simp only [initT, Tree.get_setList, List.length_replicate, Tree.get_leaf] at hs
  simp only [initEnv, Tree.get_setList, Tree.get_leaf, List.length_take]
  by_cases c1 : 16 ≤ s ∧ s < 16 + m
  · have hl : s - 16 < (b.take 112).length := by rw [List.length_take]; omega
    rw [if_pos (by omega), List.getElem?_eq_getElem hl]
    exact ⟨_, rfl, h2 _ (List.mem_of_mem_take (List.getElem_mem hl))⟩
  · rw [if_neg c1] at hs
    by_cases c2 : 0 ≤ s ∧ s < 0 + k
    · have hl : s - 0 < a.length := by omega
      rw [if_neg (by omega), if_pos (by omega), List.getElem?_eq_getElem hl]
      exact ⟨_, rfl, h1 _ (List.getElem_mem hl)⟩
    · rw [if_neg c2] at hs; cases hs

theorem readSlots_isI64 {A : Tree Unit} {ρ : Env} (h : Holds A ρ) : ∀ (n i : Nat),
    (∀ j, i ≤ j → j < i + n → (A.get j).isSome = true) →
    ∀ x ∈ readSlots ρ i n, IsI64 x := by
  intro n
  induction n with
  | zero => intro i _ x hx; cases hx
  | succ n ih =>
    intro i hi x hx
    simp only [readSlots, List.mem_cons] at hx
    rcases hx with rfl | hx
    · obtain ⟨y, h1, h2⟩ := h i (hi i le_rfl (by omega))
      rw [h1]; exact h2
    · exact ih (i + 1) (fun j h1 h2 => hi j (by omega) (by omega)) x hx

theorem readSlots_len (ρ : Env) : ∀ (n i : Nat), (readSlots ρ i n).length = n := by
  intro n
  induction n with
  | zero => intro i; rfl
  | succ n ih => intro i; simp only [readSlots, List.length_cons, ih]

/-- An expression of type `u8`. -/
def byteE : Expr → Bool
  | .u8 _ => true
  | .or a b => byteE a && byteE b
  | _ => false

theorem or64_byte {x y : Int} (hx : 0 ≤ x ∧ x < 256) (hy : 0 ≤ y ∧ y < 256) :
    0 ≤ or64 x y ∧ or64 x y < 256 := by
  have hx' : toU64 x < 2 ^ 8 := by
    unfold toU64; rw [Int.emod_eq_of_lt hx.1 (by omega)]; omega
  have hy' : toU64 y < 2 ^ 8 := by
    unfold toU64; rw [Int.emod_eq_of_lt hy.1 (by omega)]; omega
  have h : toU64 x ||| toU64 y < 256 := Nat.or_lt_two_pow hx' hy'
  clear hx' hy'
  unfold or64 ofU64 wrap64
  generalize toU64 x ||| toU64 y = n at *
  omega

theorem byteE_spec {pr : Profile} {ρ : Env} (e : Expr) (he : byteE e = true) {x : Int}
    (h : e.eval pr ρ = .ok x) : 0 ≤ x ∧ x < 256 := by
  induction e generalizing x with
  | u8 a _ =>
    simp only [Expr.eval, bind, Except.bind, pure, Except.pure] at h
    cases ha : a.eval pr ρ with
    | error x => rw [ha] at h; cases h
    | ok w =>
      rw [ha] at h; cases h
      unfold asU8; omega
  | or a b iha ihb =>
    simp only [byteE, Bool.and_eq_true] at he
    simp only [Expr.eval, bind, Except.bind, pure, Except.pure] at h
    cases ha : a.eval pr ρ with
    | error x => rw [ha] at h; cases h
    | ok v =>
      cases hb : b.eval pr ρ with
      | error x => rw [ha, hb] at h; cases h
      | ok w =>
        rw [ha, hb] at h
        rw [← Except.ok.inj h]
        exact or64_byte (iha he.1 ha) (ihb he.2 hb)
  | _ => cases he

/-- Slots from 16 to 127 are only assigned bytes. -/
def bytesP (P : Prog) : Bool := P.all fun st => match st with
  | .bind s _ => decide (128 ≤ s)
  | .store s e => decide (s < 16) || byteE e

/-- Slots from 16 to 127 hold bytes. -/
def HoldsBytes (ρ : Env) : Prop := ∀ s x, 16 ≤ s → s < 128 → ρ.get s = some x → 0 ≤ x ∧ x < 256

theorem HoldsBytes.set {ρ : Env} (h : HoldsBytes ρ) {s : Nat} {x : Int}
    (hx : 16 ≤ s → s < 128 → 0 ≤ x ∧ x < 256) : HoldsBytes (ρ.set s x) := by
  intro t y h1 h2 ht
  by_cases e : t = s
  · subst e; rw [Tree.get_set_self] at ht; cases ht; exact hx h1 h2
  · rw [Tree.get_set_ne _ _ e] at ht; exact h t y h1 h2 ht

theorem run_bytes (pr : Profile) : ∀ (P : Prog) {ρ ρ' : Env}, bytesP P = true → HoldsBytes ρ →
    runProg pr P ρ = .ok ρ' → HoldsBytes ρ' := by
  intro P
  induction P with
  | nil => intro ρ ρ' _ h hr; cases hr; exact h
  | cons st P ih =>
    intro ρ ρ' hP h hr
    simp only [bytesP, List.all_cons, Bool.and_eq_true] at hP
    simp only [runProg, bind, Except.bind] at hr
    cases hst : st.exec pr ρ with
    | error e => rw [hst] at hr; cases hr
    | ok ρ1 =>
      rw [hst] at hr
      refine ih hP.2 ?_ hr
      cases st with
      | bind s e =>
        simp only [Stmt.exec, bind, Except.bind, pure, Except.pure] at hst
        cases he : e.eval pr ρ with
        | error x => rw [he] at hst; cases hst
        | ok v =>
          rw [he] at hst; cases hst
          have := hP.1
          simp only [decide_eq_true_eq] at this
          exact h.set fun _ _ => by omega
      | store s e =>
        simp only [Stmt.exec, bind, Except.bind, pure, Except.pure] at hst
        cases he : e.eval pr ρ with
        | error x => rw [he] at hst; cases hst
        | ok v =>
          rw [he] at hst
          cases hg : ρ.get s with
          | none => simp [hg] at hst
          | some y =>
            simp only [hg] at hst; cases hst
            have := hP.1
            simp only [Bool.or_eq_true, decide_eq_true_eq] at this
            refine h.set fun h1 h2 => ?_
            rcases this with h | h
            · omega
            · exact byteE_spec e h he

theorem readSlots_bytes {ρ : Env} (h : HoldsBytes ρ) : ∀ (n i : Nat), 16 ≤ i → i + n ≤ 128 →
    ∀ x ∈ readSlots ρ i n, 0 ≤ x ∧ x < 256 := by
  intro n
  induction n with
  | zero => intro i _ _ x hx; cases hx
  | succ n ih =>
    intro i h1 h2 x hx
    simp only [readSlots, List.mem_cons] at hx
    rcases hx with rfl | hx
    · cases hg : ρ.get i with
      | none => exact ⟨le_rfl, by norm_num⟩
      | some y => exact h i y h1 (by omega) hg
    · exact ih (i + 1) (by omega) (by omega) x hx

end Check
end Verif

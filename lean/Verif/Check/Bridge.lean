import Verif.Check.Sound
import Verif.Spec

/-!
# From checker runs to statements about limb functions

Helper lemmas only.
-/

namespace Verif.Check

/-- `w · (ρ base + 2^L ρ (base+1) + …)`. -/
def vform (L : Nat) : Nat → Nat → Int → EForm
  | _, 0, _ => []
  | base, k + 1, w => (base, .fl 0, w) :: vform L (base + 1) k (w * p2 L)

theorem vform_val (w0 w1 L : Nat) (ρ : Env) : ∀ (k base : Nat) (w : Int),
    (vform L base k w).val w0 w1 (envF ρ) = w * digitsVal L (readSlots ρ base k) := by
  intro k
  induction k with
  | zero => intro base w; simp [vform, EForm.val, readSlots, digitsVal]
  | succ k ih =>
    intro base w
    simp only [vform, EForm.val, readSlots, digitsVal, ih, kv, envF, pow_zero, Int.ediv_one,
      p2_eq]
    ring

/-- Attach slots to a list of intervals. -/
def rng : Nat → List (Int × Int) → List (Nat × Int × Int)
  | _, [] => []
  | base, r :: rs => (base, r) :: rng (base + 1) rs

/-- Every element lies in its interval. -/
abbrev InRs (rs : List (Int × Int)) (a : List Int) : Prop :=
  List.Forall₂ (fun r x => r.1 ≤ x ∧ x ≤ r.2) rs a

theorem readSlots_inRs {ρ : Env} : ∀ (rs : List (Int × Int)) (base : Nat),
    (∀ x ∈ rng base rs, ∃ v, ρ.get x.1 = some v ∧ x.2.1 ≤ v ∧ v ≤ x.2.2) →
    InRs rs (readSlots ρ base rs.length) := by
  intro rs
  induction rs with
  | nil => intro base _; exact .nil
  | cons r rs ih =>
    intro base h
    simp only [List.length_cons, readSlots]
    refine .cons ?_ (ih _ fun x hx => h x (by simp [rng, hx]))
    obtain ⟨v, h1, h2, h3⟩ := h (base, r) (by simp [rng])
    simp only [h1, Option.getD_some]
    exact ⟨h2, h3⟩

theorem rng_of_get {ρ : Env} : ∀ (rs : List (Int × Int)) (a : List Int) (base : Nat), InRs rs a →
    (∀ i, i < a.length → ρ.get (base + i) = a[i]?) →
    ∀ x ∈ rng base rs, ∃ v, ρ.get x.1 = some v ∧ x.2.1 ≤ v ∧ v ≤ x.2.2 := by
  intro rs
  induction rs with
  | nil => intro a base _ _ x hx; simp [rng] at hx
  | cons r rs ih =>
    intro a base h hg x hx
    cases h with
    | cons h1 h2 =>
      next v a' =>
      simp only [rng, List.mem_cons] at hx
      rcases hx with rfl | hx
      · have := hg 0 (by simp)
        simp only [Nat.add_zero, List.getElem?_cons_zero] at this
        exact ⟨v, this, h1⟩
      · refine ih a' (base + 1) h2 (fun i hi => ?_) x hx
        have := hg (i + 1) (by simp; omega)
        simp only [List.getElem?_cons_succ] at this
        rw [← this]; congr 1; omega

theorem get_initEnv_self (a b : List Int) (ha : a.length ≤ 16) (i : Nat) (hi : i < a.length) :
    (initEnv a b).get i = a[i]? := by
  simp only [initEnv, Tree.get_setList, Tree.get_leaf]
  rw [if_neg (by omega), if_pos (by omega)]; simp

theorem get_initEnv_arg (a b : List Int) (hb : b.length ≤ 112) (i : Nat)
    (hi : i < b.length) : (initEnv a b).get (16 + i) = b[i]? := by
  simp only [initEnv, Tree.get_setList, Tree.get_leaf, List.take_of_length_le hb]
  rw [if_pos (by omega)]; congr 1; omega

theorem get_initEnv_take (a b : List Int) : initEnv a b = initEnv a (b.take 112) := by
  simp [initEnv, List.take_take]

theorem readSlots_eq {ρ : Env} : ∀ (a : List Int) (base : Nat),
    (∀ i, i < a.length → ρ.get (base + i) = a[i]?) → readSlots ρ base a.length = a := by
  intro a
  induction a with
  | nil => intro base _; rfl
  | cons x a ih =>
    intro base h
    simp only [List.length_cons, readSlots]
    have h0 := h 0 (by simp)
    simp only [Nat.add_zero, List.getElem?_cons_zero] at h0
    rw [h0, ih (base + 1)]
    · rfl
    · intro i hi
      have := h (i + 1) (by simp; omega)
      simp only [List.getElem?_cons_succ] at this
      rw [← this]; congr 1; omega

theorem readSlots_self (a b : List Int) (ha : a.length ≤ 16) :
    readSlots (initEnv a b) 0 a.length = a :=
  readSlots_eq a 0 (fun i hi => by rw [Nat.zero_add]; exact get_initEnv_self a b ha i hi)

theorem readSlots_arg (a b : List Int) (hb : b.length ≤ 112) :
    readSlots (initEnv a b) 16 b.length = b :=
  readSlots_eq b 16 (fun i hi => get_initEnv_arg a b hb i hi)

theorem runProg_append (pr : Profile) (p q : Prog) (ρ : Env) :
    runProg pr (p ++ q) ρ = (runProg pr p ρ).bind (runProg pr q) := by
  induction p generalizing ρ with
  | nil => rfl
  | cons s p ih =>
    simp only [List.cons_append, runProg, bind, Except.bind]
    cases s.exec pr ρ with
    | error e => rfl
    | ok ρ' => simp only [ih]; rfl

theorem rng_append : ∀ (rs : List (Int × Int)) (base : Nat) (x : Nat × Int × Int),
    x ∈ rng base rs → base ≤ x.1 ∧ x.1 < base + rs.length := by
  intro rs
  induction rs with
  | nil => intro base x hx; simp [rng] at hx
  | cons r rs ih =>
    intro base x hx
    simp only [rng, List.mem_cons] at hx
    rcases hx with rfl | hx
    · simp
    · have := ih _ _ hx
      simp only [List.length_cons]; omega

/-- A limb function with a checked weighted sum. -/
theorem run_check {m : Int} {w0 w1 : Nat} {P : Prog} {ra rb : List (Int × Int)}
    {post pre : EForm} {out : List (Nat × Int × Int)}
    (h : check m w0 w1 P (rng 0 ra ++ rng 16 rb) post pre out = true)
    (pr : Profile) {a b : List Int} (ha : InRs ra a) (hb : InRs rb b)
    (la : a.length ≤ 16) (lb : b.length ≤ 112) :
    ∃ ρ', runProg pr P (initEnv a b) = .ok ρ' ∧
      (∀ x ∈ out, ∃ v, ρ'.get x.1 = some v ∧ x.2.1 ≤ v ∧ v ≤ x.2.2) ∧
      m ∣ post.val w0 w1 (envF ρ') - pre.val w0 w1 (envF (initEnv a b)) := by
  apply check_sound h
  intro x hx
  rw [List.mem_append] at hx
  rcases hx with hx | hx
  · exact rng_of_get ra a 0 ha
      (fun i hi => by rw [Nat.zero_add]; exact get_initEnv_self a b la i hi) x hx
  · exact rng_of_get rb b 16 hb (fun i hi => get_initEnv_arg a b lb i hi) x hx

/-- A monomial for the product of two slots. -/
def pdN (s t : Nat) (c : Int) : Nat × Kind × Int :=
  bif Nat.ble s t then (s, .pd t, c) else (t, .pd s, c)

/-- `c · ρ s · (ρ t + 2^w ρ (t+1) + …)`. -/
def outer1 (w s : Nat) : Nat → Nat → Int → EForm
  | _, 0, _ => []
  | t, n + 1, c => pdN s t c :: outer1 w s (t + 1) n (c * p2 w)

/-- `c · (ρ s + 2^w ρ (s+1) + …) · (ρ t + 2^w ρ (t+1) + …)`. -/
def outer (w t n : Nat) : Nat → Nat → Int → EForm
  | _, 0, _ => []
  | s, k + 1, c => outer1 w s t n c ++ outer w t n (s + 1) k (c * p2 w)

theorem pdN_val (w0 w1 : Nat) (ρ : Nat → Int) (s t : Nat) (c : Int)
    (hs : w0 ≤ s ∧ s < w1) (ht : w0 ≤ t ∧ t < w1) (r : EForm) :
    EForm.val w0 w1 ρ (pdN s t c :: r) = c * (ρ s * ρ t) + r.val w0 w1 ρ := by
  simp only [pdN]
  cases Nat.ble s t with
  | true => simp [EForm.val, kv, ht]
  | false => simp [EForm.val, kv, hs, mul_comm (ρ s)]

theorem outer1_val (w0 w1 w s : Nat) (ρ : Env) (hs : w0 ≤ s ∧ s < w1) : ∀ (n t : Nat) (c : Int),
    w0 ≤ t → t + n ≤ w1 →
    (outer1 w s t n c).val w0 w1 (envF ρ) = c * (envF ρ s * digitsVal w (readSlots ρ t n)) := by
  intro n
  induction n with
  | zero => intro t c _ _; simp [outer1, EForm.val, readSlots, digitsVal]
  | succ n ih =>
    intro t c h1 h2
    simp only [outer1]
    rw [pdN_val w0 w1 _ s t c hs (by omega), ih _ _ (by omega) (by omega)]
    simp only [readSlots, digitsVal, p2_eq]
    simp only [envF]
    ring

theorem outer_val (w0 w1 w t n : Nat) (ρ : Env) (ht : w0 ≤ t) (htn : t + n ≤ w1) :
    ∀ (k s : Nat) (c : Int), w0 ≤ s → s + k ≤ w1 →
    (outer w t n s k c).val w0 w1 (envF ρ) =
      c * (digitsVal w (readSlots ρ s k) * digitsVal w (readSlots ρ t n)) := by
  intro k
  induction k with
  | zero => intro s c _ _; simp [outer, EForm.val, readSlots, digitsVal]
  | succ k ih =>
    intro s c h1 h2
    simp only [outer, EForm.val_append]
    rw [outer1_val w0 w1 w s ρ (by omega) n t c ht htn, ih _ _ (by omega) (by omega)]
    simp only [readSlots, digitsVal, p2_eq]
    simp only [envF]
    ring

end Verif.Check

/-!
# Finite maps from `Nat` used as variable environments

A binary trie, so that the kernel can evaluate programs of several hundred
variables.  This is a helper of the model (not repo code): the environment of
local variables of a straight-line function.
-/

namespace Verif

inductive Tree (α : Type) where
  | leaf
  | node (l : Tree α) (v : Option α) (r : Tree α)

namespace Tree
variable {α : Type}

/-- Look up index `i`: index `0` is the root, odd indices are to the left,
positive even indices to the right. -/
def get : Tree α → Nat → Option α
  | leaf, _ => none
  | node l v r, i =>
    if i = 0 then v
    else if i % 2 = 1 then l.get (i / 2) else r.get (i / 2 - 1)

/-- Assign index `i` (`fuel > i`). -/
def setAux : Nat → Tree α → Nat → α → Tree α
  | 0, t, _, _ => t
  | n + 1, leaf, i, x =>
    if i = 0 then node leaf (some x) leaf
    else if i % 2 = 1 then node (setAux n leaf (i / 2) x) none leaf
    else node leaf none (setAux n leaf (i / 2 - 1) x)
  | n + 1, node l v r, i, x =>
    if i = 0 then node l (some x) r
    else if i % 2 = 1 then node (setAux n l (i / 2) x) v r
    else node l v (setAux n r (i / 2 - 1) x)

/-- Assign index `i`. -/
def set (t : Tree α) (i : Nat) (x : α) : Tree α := setAux (i + 1) t i x

/-- Assign consecutive indices starting at `i`. -/
def setList (t : Tree α) (i : Nat) : List α → Tree α
  | [] => t
  | x :: xs => (t.set i x).setList (i + 1) xs

theorem get_leaf (i : Nat) : (leaf : Tree α).get i = none := by
  cases i <;> rfl

theorem get_setAux : ∀ (n : Nat) (t : Tree α) (i j : Nat) (x : α), i < n →
    (setAux n t i x).get j = if j = i then some x else t.get j := by
  intro n
  induction n with
  | zero => intro t i j x h; omega
  | succ n ih =>
    intro t i j x h
    cases t with
    | leaf =>
      simp only [setAux]
      by_cases hi : i = 0
      · subst hi
        simp only [if_true, get]
        split
        · rfl
        · simp only [ite_self]
      · simp only [hi, if_false]
        by_cases ho : i % 2 = 1
        · simp only [ho, if_true, get]
          by_cases hj : j = 0
          · subst hj; simp; omega
          · simp only [hj, if_false]
            by_cases hjo : j % 2 = 1
            · simp only [hjo, if_true]
              rw [ih _ _ _ _ (by omega)]
              simp only [get_leaf]
              by_cases e : j = i
              · subst e; simp
              · rw [if_neg (by omega), if_neg e]
            · simp only [hjo, if_false]
              rw [if_neg (by intro e; subst e; omega)]
        · simp only [ho, if_false, get]
          by_cases hj : j = 0
          · subst hj; simp; omega
          · simp only [hj, if_false]
            by_cases hjo : j % 2 = 1
            · simp only [hjo, if_true]
              rw [if_neg (by intro e; subst e; omega)]
            · simp only [hjo, if_false]
              rw [ih _ _ _ _ (by omega)]
              simp only [get_leaf]
              by_cases e : j = i
              · subst e; simp
              · rw [if_neg (by omega), if_neg e]
    | node l v r =>
      simp only [setAux]
      by_cases hi : i = 0
      · subst hi
        simp only [if_true, get]
        split <;> rfl
      · simp only [hi, if_false]
        by_cases ho : i % 2 = 1
        · simp only [ho, if_true, get]
          by_cases hj : j = 0
          · subst hj; simp; omega
          · simp only [hj, if_false]
            by_cases hjo : j % 2 = 1
            · simp only [hjo, if_true]
              rw [ih _ _ _ _ (by omega)]
              by_cases e : j = i
              · subst e; simp
              · rw [if_neg (by omega), if_neg e]
            · simp only [hjo, if_false]
              rw [if_neg (by intro e; subst e; omega)]
        · simp only [ho, if_false, get]
          by_cases hj : j = 0
          · subst hj; simp; omega
          · simp only [hj, if_false]
            by_cases hjo : j % 2 = 1
            · simp only [hjo, if_true]
              rw [if_neg (by intro e; subst e; omega)]
            · simp only [hjo, if_false]
              rw [ih _ _ _ _ (by omega)]
              by_cases e : j = i
              · subst e; simp
              · rw [if_neg (by omega), if_neg e]

theorem get_set (t : Tree α) (i j : Nat) (x : α) :
    (t.set i x).get j = if j = i then some x else t.get j :=
  get_setAux _ _ _ _ _ (by omega)

theorem get_set_self (t : Tree α) (i : Nat) (x : α) : (t.set i x).get i = some x := by
  simp [get_set]

theorem get_set_ne (t : Tree α) {i j : Nat} (x : α) (h : j ≠ i) :
    (t.set i x).get j = t.get j := by
  simp [get_set, h]

theorem get_setList (t : Tree α) (xs : List α) : ∀ (i j : Nat),
    (t.setList i xs).get j =
      if i ≤ j ∧ j < i + xs.length then xs[j - i]? else t.get j := by
  induction xs generalizing t with
  | nil => intro i j; simp [setList]; omega
  | cons x xs ih =>
    intro i j
    simp only [setList, ih, List.length_cons]
    by_cases h1 : i + 1 ≤ j ∧ j < i + 1 + xs.length
    · rw [if_pos h1, if_pos (by omega)]
      have : j - i = (j - (i + 1)) + 1 := by omega
      rw [this, List.getElem?_cons_succ]
    · rw [if_neg h1]
      by_cases h2 : j = i
      · subst h2; simp [get_set]
      · rw [get_set_ne _ _ h2, if_neg (by omega)]

end Tree
end Verif

import Verif.Props.Canon
import Mathlib.Order.Interval.Finset.Defs
import Mathlib.Data.Int.Interval
import Mathlib.SetTheory.Cardinal.Finite

/-!
# Property C48: how many elements `rand` returns, and how often

`rand` asks the generator for one number below each word of the modulus.  Different answers give
different elements, so independent uniform answers give a uniform distribution on the
elements that can be returned; their number is the product of the words of the modulus, and less
than one element of the field in `2 ^ 21` is missing.
-/

namespace Verif
open Fld

/-- Lists bounded word by word. -/
abbrev Box (ms : List Int) : Type := {a : List Int // List.Forall₂ (fun x m => 0 ≤ x ∧ x < m) a ms}

theorem card_range (m : Int) : Nat.card {x : Int // 0 ≤ x ∧ x < m} = m.toNat := by
  rw [Nat.card_congr (Equiv.subtypeEquivRight (q := fun x => x ∈ Finset.Ico 0 m) (by simp)),
    Nat.card_eq_fintype_card, Fintype.card_coe]
  simp

/-- First word and the rest. -/
def boxEquiv (m : Int) (ms : List Int) : Box (m :: ms) ≃ {x : Int // 0 ≤ x ∧ x < m} × Box ms where
  toFun a := match a with
    | ⟨[], h⟩ => absurd h (by simp)
    | ⟨x :: l, h⟩ => (⟨x, (List.forall₂_cons.1 h).1⟩, ⟨l, (List.forall₂_cons.1 h).2⟩)
  invFun b := ⟨b.1.1 :: b.2.1, List.Forall₂.cons b.1.2 b.2.2⟩
  left_inv a := by
    obtain ⟨a, h⟩ := a
    cases a with
    | nil => exact absurd h (by simp)
    | cons x l => rfl
  right_inv b := rfl

theorem card_box (ms : List Int) : Nat.card (Box ms) = (ms.map Int.toNat).prod := by
  induction ms with
  | nil =>
    have : Unique (Box []) := ⟨⟨⟨[], .nil⟩⟩, fun a => Subtype.ext (List.forall₂_nil_right_iff.1 a.2)⟩
    rw [Nat.card_unique]; rfl
  | cons m ms ih =>
    rw [Nat.card_congr (boxEquiv m ms), Nat.card_prod, card_range, ih]; rfl

variable (f : Fld)

/-- The number of elements that `rand()` can return is the product of the words of the modulus. -/
theorem C48_rand_card :
    Nat.card {a : Elem // ∃ rng, IsRng rng ∧ f.code.rand rng = a} =
      (f.code.MODULUS.map Int.toNat).prod := by
  rw [← card_box]
  exact Nat.card_congr (Equiv.subtypeEquivRight fun a => C24_rand_range f a)

/-- The answers of the generator can be read off the element: different answers give different
elements, so that every element that can be returned arises from exactly one sequence of
answers. -/
theorem C48_rand_injective {rng rng' : Nat → Int → Int} :
    f.code.rand rng = f.code.rand rng' ↔
      ∀ i m, f.code.MODULUS[i]? = some m → rng i m = rng' i m := by
  have hlen : f.code.MODULUS.length = f.k := (modulus_shape f).length
  constructor
  · intro h i m hm
    have hi : i < f.k := by
      rw [← hlen]
      by_contra hi
      rw [List.getElem?_eq_none (by omega)] at hm
      cases hm
    have h1 := congrArg (fun l => l[i]?) h
    simp only [FieldCode.rand, limbs_eq, List.getElem?_map, List.getElem?_range hi,
      Option.map_some, List.getD_eq_getElem?_getD, hm, Option.getD_some, Option.some.injEq] at h1
    exact h1
  · intro h
    refine List.ext_getElem (by simp [FieldCode.rand]) fun i h1 h2 => ?_
    have hi : i < f.code.MODULUS.length := by
      simp only [FieldCode.rand, limbs_eq, List.length_map, List.length_range] at h1
      omega
    simp only [FieldCode.rand, List.getElem_map, List.getElem_range, List.getD_eq_getElem?_getD,
      List.getElem?_eq_getElem hi, Option.getD_some]
    exact h _ _ (List.getElem?_eq_getElem hi)

/-- Some elements of the field are never returned, but less than one in `2 ^ 21`.  In the worst
type, `Mod_e414_17`, it is more than one in `2 ^ 23`. -/
theorem C48_missing :
    f.code.MODULUS.prod < f.p ∧
    2 ^ 21 * (f.p - f.code.MODULUS.prod) < f.p ∧
    (f = .e414_17 → f.p < 2 ^ 23 * (f.p - f.code.MODULUS.prod)) := by
  cases f <;> decide +kernel

/-- Two generators that are told apart. -/
example : f.code.rand (fun _ _ => 0) ≠ f.code.rand (fun i hi => if i = 1 then hi - 1 else 0) := by
  rw [Ne, C48_rand_injective]
  intro h
  have h1 : ∃ m, f.code.MODULUS[1]? = some m ∧ 0 ≠ m - 1 := by
    cases f <;> exact ⟨_, rfl, by decide⟩
  obtain ⟨m, h2, h3⟩ := h1
  exact h3 (h 1 m h2)

/-- What holds of C24: `rand()` is always canonical, and covers the elements all of whose words are
below those of the modulus.  Missing: the other canonical elements, which are never returned. -/
theorem C24_rand_partial (f : Fld) :
    (∀ rng, IsRng rng → f.Canon (f.V (f.code.rand rng)) (f.code.rand rng)) ∧
    ∀ a, List.Forall₂ (fun x m => 0 ≤ x ∧ x < m) a f.code.MODULUS →
      ∃ rng, IsRng rng ∧ f.code.rand rng = a :=
  ⟨fun _ h => C24_rand_canonical f h, fun a h => (C24_rand_range f a).2 h⟩

/-- One such element. -/
example : List.Forall₂ (fun x m => 0 ≤ x ∧ x < m) [5, 2 ^ 55, 1, 0, 2 ^ 30]
    Fld.e255_19.code.MODULUS := by decide +kernel

end Verif

import Verif.Props.Rand
import Verif.Props.Power
import Mathlib.Algebra.Order.Ring.Pow
import Mathlib.Data.Fintype.BigOperators
import Mathlib.Data.Fintype.Pi
import Mathlib.Data.Set.Card
import Mathlib.SetTheory.Cardinal.Finite
import Mathlib.Tactic.FieldSimp

/-!
# Property C71: random elements are nearly uniform

Probabilities are numbers of cases divided by the number of all cases, all answers of the generator (`gen_range(0, hi)`
for each word) being equally likely.
-/

namespace Verif
open Fld

/-- The probability of an event, all cases being equally likely. -/
noncomputable def prob {Ω : Type} (E : Ω → Prop) : ℚ := Nat.card {ω // E ω} / Nat.card Ω

/-- The possible answers of the generator in one run of `rand`. -/
abbrev Answers (f : Fld) : Type := (i : Fin f.code.MODULUS.length) → Fin (f.code.MODULUS.get i).toNat

/-- The generator that gives these answers. -/
def Answers.rng {f : Fld} (ω : Answers f) : Nat → Int → Int := fun i hi =>
  if h : i < f.code.MODULUS.length then (if hi = f.code.MODULUS[i] then (ω ⟨i, h⟩ : Nat) else 0) else 0

/-- The residue of the element that `rand` makes of the answers. -/
def Answers.drawn {f : Fld} (ω : Answers f) : ZMod f.pN := ((f.V (f.code.rand ω.rng) : Int) : ZMod f.pN)

variable (f : Fld)

theorem Answers.isRng (ω : Answers f) : IsRng ω.rng := by
  intro i hi h
  unfold Answers.rng
  split
  · split
    · rename_i h1 h2
      have := (ω ⟨i, h1⟩).2
      simp only [List.get_eq_getElem] at this
      omega
    · omega
  · omega

theorem Answers.drawn_injective : Function.Injective (Answers.drawn (f := f)) := by
  intro ω ω' h
  have c := C24_rand_canonical f ω.isRng
  have c' := C24_rand_canonical f ω'.isRng
  have e := (ZMod.intCast_eq_intCast_iff _ _ _).1 h
  rw [← p_eq] at e
  have e2 : f.V (f.code.rand ω.rng) = f.V (f.code.rand ω'.rng) := by
    have := e
    rwa [Int.ModEq, Int.emod_eq_of_lt c.2.2.1 c.2.2.2, Int.emod_eq_of_lt c'.2.2.1 c'.2.2.2] at this
  rw [e2] at c
  have e3 := (C48_rand_injective f).1 (C09_canonical_unique f c c')
  funext i
  have e4 := e3 i _ (List.getElem?_eq_getElem i.2)
  simp only [Answers.rng, i.2, dif_pos, if_true] at e4
  exact Fin.ext (by exact_mod_cast e4)

theorem Answers.card : (Nat.card (Answers f) : Int) = f.code.MODULUS.prod := by
  rw [Nat.card_eq_fintype_card, Fintype.card_pi]
  simp only [Fintype.card_fin]
  have hpos : ∀ m ∈ f.code.MODULUS, 0 ≤ m := by cases f <;> decide
  push_cast
  rw [← List.prod_ofFn]
  congr 1
  refine List.ext_getElem (by simp) fun i h1 h2 => ?_
  simp only [List.getElem_ofFn, List.get_eq_getElem]
  exact Int.toNat_of_nonneg (hpos _ (List.getElem_mem _))

/-- Drawing from a part of a set. -/
theorem prob_distance {Ω X : Type} [Finite Ω] [Finite X] [Nonempty Ω] (g : Ω → X) (hg : Function.Injective g) (S : Set X) :
    |prob (fun ω => g ω ∈ S) - prob (fun x => x ∈ S)| ≤ 1 - (Nat.card Ω : ℚ) / Nat.card X ∧
    prob (fun ω => g ω ∈ Set.range g) - prob (fun x => x ∈ Set.range g) = 1 - (Nat.card Ω : ℚ) / Nat.card X := by
  have fin : ∀ T : Set X, T.Finite := fun T => Set.toFinite T
  have hN : 0 < Nat.card Ω := Nat.card_pos
  have hr : (Set.range g).ncard = Nat.card Ω := by
    rw [← Set.image_univ, Set.ncard_image_of_injective _ hg, Set.ncard_univ]
  have hle : Nat.card Ω ≤ Nat.card X := Nat.card_le_card_of_injective g hg
  have key : ∀ T : Set X, ∃ a t : Nat, prob (fun ω => g ω ∈ T) = a / Nat.card Ω ∧ prob (fun x => x ∈ T) = t / Nat.card X ∧
      a ≤ t ∧ a ≤ Nat.card Ω ∧ t + Nat.card Ω ≤ Nat.card X + a ∧ t = T.ncard ∧ a = (g ⁻¹' T).ncard := by
    intro T
    refine ⟨(g ⁻¹' T).ncard, T.ncard, rfl, rfl, ?_, ?_, ?_, rfl, rfl⟩
    · rw [← Set.ncard_image_of_injective _ hg]
      exact Set.ncard_le_ncard (Set.image_preimage_subset g T) (fin T)
    · rw [← Set.ncard_univ]
      exact Set.ncard_le_ncard (Set.subset_univ _) (Set.toFinite _)
    · have h := Set.ncard_union_add_ncard_inter T (Set.range g) (fin _) (fin _)
      rw [hr, ← Set.image_preimage_eq_inter_range, Set.ncard_image_of_injective _ hg] at h
      have h2 : (T ∪ Set.range g).ncard ≤ Nat.card X := by
        rw [← Set.ncard_univ]
        exact Set.ncard_le_ncard (Set.subset_univ _) (fin _)
      omega
  have hN' : (0 : ℚ) < Nat.card Ω := by exact_mod_cast hN
  have hM' : (0 : ℚ) < Nat.card X := by exact_mod_cast hN.trans_le hle
  have hle' : (Nat.card Ω : ℚ) ≤ Nat.card X := by exact_mod_cast hle
  constructor
  · obtain ⟨a, t, e1, e2, h1, h2, h3, -⟩ := key S
    have h1 : (a : ℚ) ≤ t := by exact_mod_cast h1
    have h2 : (a : ℚ) ≤ Nat.card Ω := by exact_mod_cast h2
    have h3 : (t : ℚ) + Nat.card Ω ≤ Nat.card X + a := by exact_mod_cast h3
    have ha : (0 : ℚ) ≤ a := by positivity
    rw [e1, e2]
    generalize (Nat.card Ω : ℚ) = N at *
    generalize (Nat.card X : ℚ) = M at *
    have hinv : M⁻¹ ≤ N⁻¹ := inv_anti₀ hN' hle'
    have hi : 0 < M⁻¹ := inv_pos.2 hM'
    have e3 : M * M⁻¹ = 1 := mul_inv_cancel₀ hM'.ne'
    have e4 : N * N⁻¹ = 1 := mul_inv_cancel₀ hN'.ne'
    rw [abs_le]
    simp only [div_eq_mul_inv]
    constructor
    · have : a * M⁻¹ ≤ a * N⁻¹ := mul_le_mul_of_nonneg_left hinv ha
      nlinarith
    · have : (a : ℚ) * (N⁻¹ - M⁻¹) ≤ N * (N⁻¹ - M⁻¹) := mul_le_mul_of_nonneg_right h2 (sub_nonneg.2 hinv)
      nlinarith
  · obtain ⟨a, t, e1, e2, -, -, -, h1, h2⟩ := key (Set.range g)
    rw [hr] at h1
    rw [Set.preimage_range, Set.ncard_univ] at h2
    rw [e1, e2, h1, h2, div_self hN'.ne']

variable (j : Nat)

/-- The residues drawn in `j` runs. -/
def drawnAll (ω : Fin j → Answers f) : Fin j → ZMod f.pN := fun i => (ω i).drawn

private theorem cards : (Nat.card (Fin j → Answers f) : ℚ) / Nat.card (Fin j → ZMod f.pN) = ((f.code.MODULUS.prod : ℚ) / f.p) ^ j := by
  rw [Nat.card_fun, Nat.card_fun, Nat.card_fin, Nat.card_zmod, p_eq, ← Answers.card, div_pow]
  push_cast
  rfl

private theorem answers_nonempty : Nonempty (Answers f) := by
  have h : 0 < f.code.MODULUS.prod := by cases f <;> decide +kernel
  rw [← Answers.card] at h
  exact (Nat.card_pos_iff.1 (by exact_mod_cast h)).1

/-- C71: no event of `j` draws of `rand` has a probability that differs from the one for uniform residues by more than
`1 - (N / p) ^ j`, where `N` is the product of the words of the modulus; and one event differs by so much. -/
theorem C71_distance : (∀ S : Set (Fin j → ZMod f.pN),
    |prob (fun ω => drawnAll f j ω ∈ S) - prob (fun x => x ∈ S)| ≤ 1 - ((f.code.MODULUS.prod : ℚ) / f.p) ^ j) ∧
    ∃ S : Set (Fin j → ZMod f.pN),
      |prob (fun ω => drawnAll f j ω ∈ S) - prob (fun x => x ∈ S)| = 1 - ((f.code.MODULUS.prod : ℚ) / f.p) ^ j := by
  haveI := answers_nonempty f
  haveI : NeZero f.pN := ⟨by cases f <;> decide +kernel⟩
  have hinj : Function.Injective (drawnAll f j) := fun ω ω' h => funext fun i =>
    Answers.drawn_injective f (congrFun h i)
  rw [← cards f j]
  refine ⟨fun S => (prob_distance _ hinj S).1, Set.range (drawnAll f j), ?_⟩
  have h := (prob_distance _ hinj Set.univ).1
  rw [(prob_distance _ hinj Set.univ).2, abs_of_nonneg ((abs_nonneg _).trans h)]

/-- C71: that is less than `j / 2 ^ 21`, and for `Mod_e414_17` and one draw more than `1 / 2 ^ 23`. -/
theorem C71_bound : 1 - ((f.code.MODULUS.prod : ℚ) / f.p) ^ j ≤ j / 2 ^ 21 ∧
    (f = .e414_17 → 1 / 2 ^ 23 < 1 - (f.code.MODULUS.prod : ℚ) / f.p) := by
  obtain ⟨h1, h2, h3⟩ := C48_missing f
  have hp : (0 : ℚ) < f.p := by
    have : 0 < f.p := by cases f <;> decide +kernel
    exact_mod_cast this
  have h0 : (0 : ℚ) ≤ f.code.MODULUS.prod := by
    have : 0 ≤ f.code.MODULUS.prod := by cases f <;> decide +kernel
    exact_mod_cast this
  have h2' : (2 : ℚ) ^ 21 * (f.p - f.code.MODULUS.prod) < f.p := by exact_mod_cast h2
  have e : (f.code.MODULUS.prod : ℚ) / f.p = 1 - (f.p - f.code.MODULUS.prod) / f.p := by
    field_simp; ring
  constructor
  · have hb : ((f.p : ℚ) - f.code.MODULUS.prod) / f.p ≤ 1 / 2 ^ 21 := by
      rw [div_le_div_iff₀ hp (by positivity)]
      linarith
    have hq : -2 ≤ (f.code.MODULUS.prod : ℚ) / f.p - 1 := by
      have : 0 ≤ (f.code.MODULUS.prod : ℚ) / f.p := div_nonneg h0 hp.le
      linarith
    have := one_add_mul_le_pow hq j
    rw [add_sub_cancel] at this
    have hj : (0 : ℚ) ≤ j := by positivity
    have := mul_le_mul_of_nonneg_left hb hj
    rw [e] at *
    calc _ ≤ (j : ℚ) * ((f.p - f.code.MODULUS.prod) / f.p) := by linarith
      _ ≤ j * (1 / 2 ^ 21) := this
      _ = j / 2 ^ 21 := by ring
  · intro hf
    have h3' : (f.p : ℚ) < 2 ^ 23 * (f.p - f.code.MODULUS.prod) := by exact_mod_cast h3 hf
    rw [e, sub_sub_cancel, div_lt_div_iff₀ (by positivity) hp]
    linarith

/-- C71: each residue is drawn with probability `1 / N` or never. -/
theorem C71_each (x : ZMod f.pN) : prob (fun ω : Answers f => ω.drawn = x) =
    if ∃ ω : Answers f, ω.drawn = x then 1 / (f.code.MODULUS.prod : ℚ) else 0 := by
  have hc : ((Nat.card (Answers f) : Int) : ℚ) = f.code.MODULUS.prod := by rw [Answers.card]
  unfold prob
  rw [← hc]
  split
  · rename_i h
    obtain ⟨ω, hω⟩ := h
    have : Nat.card {ω : Answers f // ω.drawn = x} = 1 := Nat.card_eq_one_iff_unique.2
      ⟨⟨fun a b => Subtype.ext (Answers.drawn_injective f (a.2.trans b.2.symm))⟩, ⟨ω, hω⟩⟩
    rw [this]
    push_cast
    rfl
  · rename_i h
    have : IsEmpty {ω : Answers f // ω.drawn = x} := ⟨fun ω => h ⟨ω.1, ω.2⟩⟩
    rw [Nat.card_of_isEmpty, Nat.cast_zero, zero_div]

/-- The residue of `-1` is never drawn, … -/
example : prob (fun ω : Answers .e255_19 => ω.drawn = -1) = 0 := by
  rw [C71_each, if_neg]
  rintro ⟨ω, h⟩
  refine C24_rand_never_m_one .e255_19 ω.isRng (C09_canonical_unique .e255_19 (x := Fld.e255_19.p - 1) ?_ (m_one_canon _))
  have c := C24_rand_canonical .e255_19 ω.isRng
  have e : (Fld.e255_19.V (Fld.e255_19.code.rand ω.rng)) = Fld.e255_19.p - 1 := by
    have h' : ((Fld.e255_19.V (Fld.e255_19.code.rand ω.rng) : Int) : ZMod Fld.e255_19.pN) = ((-1 : Int) : ZMod Fld.e255_19.pN) := by
      rw [Int.cast_neg, Int.cast_one]; exact h
    have h2 := (ZMod.intCast_eq_intCast_iff _ _ _).1 h'
    rw [← p_eq, Int.ModEq, Int.emod_eq_of_lt c.2.2.1 c.2.2.2] at h2
    rw [h2]
    decide +kernel
  rw [e] at c
  exact c

/-- … and two draws with the same residue are as likely as for uniform residues, up to `2 / 2 ^ 21`. -/
example : |prob (fun ω => drawnAll .e255_19 2 ω ∈ {x | x 0 = x 1}) - prob (fun x : Fin 2 → ZMod Fld.e255_19.pN => x ∈ {x | x 0 = x 1})| ≤
    2 / 2 ^ 21 :=
  ((C71_distance .e255_19 2).1 _).trans (C71_bound .e255_19 2).1

end Verif

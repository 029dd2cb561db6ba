import Verif.Props.Agreement
import Verif.Props.RandUniform
import Verif.Props.Orders
import Verif.Curve.Cofactor
import Mathlib.Data.Nat.Periodic

/-!
# Property C72: random keys are nearly uniform

A key is a random scalar times a point of the order of the base point.  Scalars are drawn below `p`, which is not a multiple
of that order; and `rand` does not return every scalar (C71).  With the repairs of C57 the resulting points are nearly uniform
nevertheless.
-/

namespace Verif
open EdwardsExtended

/-- The probabilities of an event that repeats with period `l`. -/
private theorem count_mul {l : Nat} (P : Nat → Prop) [DecidablePred P] (hP : Function.Periodic P l) (h : Nat) :
    Nat.count P (h * l) = h * Nat.count P l := by
  induction h with
  | zero => simp
  | succ h ih =>
    have := Nat.filter_Ico_card_eq_of_periodic (h * l) l P hP
    rw [Nat.succ_mul, Nat.succ_mul, ← ih, ← this, Nat.count_eq_card_filter_range, Nat.count_eq_card_filter_range,
      ← Finset.card_union_of_disjoint, ← Finset.filter_union]
    · congr 1
      congr 1
      ext x
      simp only [Finset.mem_range, Finset.mem_union, Finset.mem_Ico]
      omega
    · rw [Finset.disjoint_left]
      intro x h1 h2
      simp only [Finset.mem_filter, Finset.mem_range, Finset.mem_Ico] at h1 h2
      omega

private theorem count_diff (P : Nat → Prop) [DecidablePred P] (a b : Nat) :
    |(Nat.count P a : ℚ) - Nat.count P b| ≤ |(a : ℚ) - b| := by
  have key : ∀ a b, a ≤ b → |(Nat.count P a : ℚ) - Nat.count P b| ≤ |(a : ℚ) - b| := by
    intro a b h
    obtain ⟨d, rfl⟩ := Nat.exists_eq_add_of_le h
    have h1 : Nat.count P a ≤ Nat.count P (a + d) := Nat.count_monotone P h
    have h2 : Nat.count P (a + d) ≤ Nat.count P a + d := by
      rw [Nat.count_add]
      exact Nat.add_le_add_left (Nat.count_le _) _
    have h1 : (Nat.count P a : ℚ) ≤ Nat.count P (a + d) := by exact_mod_cast h1
    have h2 : (Nat.count P (a + d) : ℚ) ≤ Nat.count P a + d := by exact_mod_cast h2
    rw [abs_sub_comm, abs_of_nonneg (by linarith), abs_sub_comm, abs_of_nonneg (by push_cast; linarith)]
    push_cast
    linarith
  rcases le_total a b with h | h
  · exact key a b h
  · rw [abs_sub_comm, abs_sub_comm (a : ℚ)]
    exact key b a h

/-- Remainders of numbers below `p`, `p` being nearly a multiple of `l`. -/
private theorem periodic_distance {l p : Nat} (hl : 0 < l) (hp : 0 < p) (P : Nat → Prop) [DecidablePred P] (hP : Function.Periodic P l)
    {h : Nat} (hh : 0 < h) :
    |(Nat.count P p : ℚ) / p - (Nat.count P l : ℚ) / l| ≤ 2 * |(p : ℚ) - h * l| / p := by
  have h1 := count_diff P p (h * l)
  rw [count_mul P hP] at h1
  have h2 : Nat.count P l ≤ l := Nat.count_le _
  push_cast at h1
  have h2 : (Nat.count P l : ℚ) ≤ l := by exact_mod_cast h2
  have h3 : (0 : ℚ) ≤ Nat.count P l := by positivity
  have hl : (0 : ℚ) < l := by exact_mod_cast hl
  have hp : (0 : ℚ) < p := by exact_mod_cast hp
  generalize (Nat.count P p : ℚ) = a at *
  generalize (Nat.count P l : ℚ) = t at *
  generalize (p : ℚ) = p at *
  generalize (l : ℚ) = l at *
  have e : a / p - t / l = ((a - h * t) + (t / l) * (h * l - p)) / p := by field_simp; ring
  have ht : |t / l| ≤ 1 := by
    rw [abs_of_nonneg (div_nonneg h3 hl.le), div_le_one hl]; exact h2
  rw [e, abs_div, abs_of_pos hp]
  refine div_le_div_of_nonneg_right ?_ hp.le
  calc _ ≤ |a - h * t| + |t / l * (h * l - p)| := abs_add_le _ _
    _ ≤ |p - h * l| + 1 * |h * l - p| := by
      rw [abs_mul]
      exact add_le_add h1 (mul_le_mul_of_nonneg_right ht (abs_nonneg _))
    _ = 2 * |p - h * l| := by rw [abs_sub_comm (h * l : ℚ) p]; ring

private theorem prob_fin {p : Nat} (P : Nat → Prop) [DecidablePred P] : prob (fun x : Fin p => P x) = (Nat.count P p : ℚ) / p := by
  unfold prob
  have e : Nat.card {x : Fin p // P x} = Nat.card ((Finset.range p).filter P) :=
    Nat.card_congr ⟨fun x => ⟨x.1, Finset.mem_filter.2 ⟨Finset.mem_range.2 x.1.2, x.2⟩⟩,
      fun x => ⟨⟨x.1, Finset.mem_range.1 (Finset.mem_filter.1 x.2).1⟩, (Finset.mem_filter.1 x.2).2⟩, fun _ => rfl, fun _ => rfl⟩
  rw [e, Nat.card_fin, Nat.count_eq_card_filter_range, Nat.card_eq_fintype_card, Fintype.card_coe]

private theorem prob_congr {Ω X : Type} (e : Ω ≃ X) (E : X → Prop) : prob (fun ω => E (e ω)) = prob E := by
  unfold prob
  rw [Nat.card_congr e, Nat.card_congr (Equiv.subtypeEquiv e fun _ => Iff.rfl)]

variable (c : Crv)

/-- The order of the base point. -/
def Crv.ell : Nat := (c.fld.V c.order).toNat

/-- C72: what the repaired code makes of a random scalar and a representation of a point `P`. -/
theorem C72_code (pr : Profile) {p : EdwardsExtended Elem} {P : c.Point} (hp : c.Represents p P) (ω : Answers c.fld) :
    ∃ r k', Repaired.scalarMult (Repaired.scalar c pr) p (c.fld.code.rand ω.rng) = .ok (r, k') ∧
      c.Represents r (ω.drawn.val • P) := by
  have hc := C24_rand_canonical c.fld ω.isRng
  obtain ⟨r, k', h1, h2, -⟩ := C57_scalar_mult c pr hp hc.tight
  refine ⟨r, k', h1, ?_⟩
  have e : (ω.drawn.val : Int) = c.fld.V (c.fld.code.rand ω.rng) % c.fld.p := by
    haveI : NeZero c.fld.pN := ⟨by cases c <;> decide +kernel⟩
    rw [Answers.drawn, ZMod.val_intCast, ← Fld.p_eq]
  have e' : ω.drawn.val = (c.fld.V (c.fld.code.rand ω.rng) % c.fld.p).toNat := by omega
  rw [e']
  exact h2

/-- C72: for uniform scalars the probability that the key is in a set of points differs by at most `1 / 2 ^ 100` from the one
for uniform points of the subgroup. -/
theorem C72_uniform {P : c.Point} (hP : addOrderOf P = c.ell) (T : Set c.Point) :
    |prob (fun k : ZMod c.fld.pN => k.val • P ∈ T) - prob (fun Q : AddSubgroup.zmultiples P => (Q : c.Point) ∈ T)| ≤ 1 / 2 ^ 100 := by
  classical
  have hl : 0 < c.ell := by cases c <;> decide +kernel
  have hpos : 0 < c.fld.pN := by cases c <;> decide +kernel
  haveI : NeZero c.fld.pN := ⟨hpos.ne'⟩
  have e1 : prob (fun x : ZMod c.fld.pN => x.val • P ∈ T) = prob (fun x : Fin c.fld.pN => (x : Nat) • P ∈ T) :=
    (prob_congr (⟨fun x => ((x : Nat) : ZMod c.fld.pN), fun z => ⟨z.val, z.val_lt⟩, fun x => Fin.ext (ZMod.val_cast_of_lt x.2),
        fun z => ZMod.natCast_zmod_val z⟩ : Fin c.fld.pN ≃ ZMod c.fld.pN) (fun x : ZMod c.fld.pN => x.val • P ∈ T)).symm.trans (by
      congr 1
      funext x
      show (((x : Nat) : ZMod c.fld.pN).val • P ∈ T) = _
      rw [ZMod.val_cast_of_lt x.2])
  have hper : Function.Periodic (fun k : Nat => k • P ∈ T) c.ell := by
    intro k
    show ((k + c.ell) • P ∈ T) = (k • P ∈ T)
    rw [add_smul, ← hP, addOrderOf_nsmul_eq_zero, add_zero]
  have hfin : IsOfFinAddOrder P := addOrderOf_pos_iff.1 (by rw [hP]; exact hl)
  have e2 : prob (fun Q : AddSubgroup.zmultiples P => (Q : c.Point) ∈ T) = prob (fun x : Fin c.ell => (x : Nat) • P ∈ T) := by
    rw [← hP, ← prob_congr (finEquivZMultiples hfin)]
    rfl
  have h2 := periodic_distance hl hpos (fun k : Nat => k • P ∈ T) hper (h := c.cofactor) (by cases c <;> decide)
  have h3 : 2 * |(c.fld.pN : ℚ) - c.cofactor * c.ell| / c.fld.pN ≤ 1 / 2 ^ 100 := by
    rw [div_le_div_iff₀ (by exact_mod_cast hpos) (by positivity)]
    have : 2 * |(c.fld.pN : Int) - c.cofactor * c.ell| * 2 ^ 100 ≤ 1 * c.fld.pN := by cases c <;> decide +kernel
    exact_mod_cast this
  rw [e1, e2, prob_fin (fun k : Nat => k • P ∈ T), prob_fin (fun k : Nat => k • P ∈ T)]
  exact h2.trans h3

/-- C72: for the scalars that `rand` returns it differs by at most `1 / 2 ^ 20`. -/
theorem C72_distance {P : c.Point} (hP : addOrderOf P = c.ell) (T : Set c.Point) :
    |prob (fun ω : Answers c.fld => ω.drawn.val • P ∈ T) - prob (fun Q : AddSubgroup.zmultiples P => (Q : c.Point) ∈ T)| ≤ 1 / 2 ^ 20 := by
  haveI : NeZero c.fld.pN := ⟨by cases c <;> decide +kernel⟩
  haveI : Nonempty (Answers c.fld) := by
    have h : 0 < c.fld.code.MODULUS.prod := by cases c <;> decide +kernel
    rw [← Answers.card] at h
    exact (Nat.card_pos_iff.1 (by exact_mod_cast h)).1
  have h1 := (prob_distance _ (Answers.drawn_injective c.fld) {x | x.val • P ∈ T}).1
  have hb := (C71_bound c.fld 1).1
  have hcards : (Nat.card (Answers c.fld) : ℚ) / Nat.card (ZMod c.fld.pN) = (c.fld.code.MODULUS.prod : ℚ) / c.fld.p := by
    rw [Nat.card_zmod, Fld.p_eq, ← Answers.card]
    push_cast
    rfl
  rw [hcards] at h1
  rw [pow_one, Nat.cast_one] at hb
  calc _ ≤ _ := abs_sub_le _ (prob (fun k : ZMod c.fld.pN => k.val • P ∈ T)) _
    _ ≤ 1 / 2 ^ 21 + 1 / 2 ^ 100 := add_le_add (h1.trans hb) (C72_uniform c hP T)
    _ ≤ 1 / 2 ^ 20 := by norm_num

/-- C72: the base point is such a point. -/
theorem C72_base : addOrderOf c.base = c.ell := (C39_base_order c).1

/-- The public key is the neutral element with probability at most `1 / 2 ^ 20 + 1 / ORDER`. -/
example := C72_distance .e521 (C72_base _) {0}
example := C72_uniform .curve41417 (C72_base _) {0}

example (pr : Profile) (ω : Answers Crv.e222.fld) := C72_code .e222 pr (Crv.base1 .e222) ω

end Verif

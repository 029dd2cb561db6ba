import Verif.Model.RepairedRand
import Verif.Props.RandKeys
import Verif.Props.Repairs

/-!
# Property C77: a repaired generator of random elements

With the edit of `Verif/Model/RepairedRand.lean` every canonical element is drawn (C24), the `c` smallest residues twice as
often as the others, and no event of `j` draws differs by more than `j c / 2 ^ n` from what it is for uniform residues: that
is `j / 2 ^ 215` or less, where C71 has `j / 2 ^ 21`.
-/

namespace Verif
open Fld

variable (f : Fld) (pr : Profile)

/-- The possible answers of the generator in one run of the repaired `rand`. -/
abbrev Draws : Type := (i : Fin f.k) → Fin (2 ^ (if (i : Nat) + 1 < f.k then f.L else f.tb))

variable {f} in
/-- The generator that gives these answers. -/
def Draws.rng (ω : Draws f) : Nat → Int → Int := fun i hi =>
  if h : i < f.k then (if hi = Repaired.randBound f i then (ω ⟨i, h⟩ : Nat) else 0) else 0

variable {f} in
/-- The residue of the element that the repaired `rand` makes of the answers. -/
def Draws.drawn (ω : Draws f) : ZMod f.pN :=
  match Repaired.rand f pr ω.rng with
  | .ok r => ((f.V r : Int) : ZMod f.pN)
  | .error _ => 0

private def randWords (rng : Nat → Int → Int) : Elem := (List.range f.k).map fun i => rng i (Repaired.randBound f i)

variable {f} in
theorem Draws.isRng (ω : Draws f) : IsRng ω.rng := by
  intro i hi h
  unfold Draws.rng
  split
  · split
    · rename_i h1 h2
      have := (ω ⟨i, h1⟩).2
      rw [h2, Repaired.randBound]
      exact ⟨by positivity, by exact_mod_cast this⟩
    · omega
  · omega

private theorem k_pos : 0 < f.k := by cases f <;> decide

private theorem randWords_shape {rng : Nat → Int → Int} (h : IsRng rng) : f.Shape 0 (2 ^ f.tb - 1) (randWords f rng) := by
  have hk := k_pos f
  have e : f.k = f.k - 1 + 1 := by omega
  have hb : ∀ i, 0 ≤ rng i (Repaired.randBound f i) ∧ rng i (Repaired.randBound f i) < Repaired.randBound f i :=
    fun i => h i _ (by unfold Repaired.randBound; positivity)
  refine ⟨(List.range (f.k - 1)).map fun i => rng i (Repaired.randBound f i), rng (f.k - 1) (Repaired.randBound f (f.k - 1)),
    ?_, by simp, ?_, (hb _).1, ?_⟩
  · unfold randWords
    conv_lhs => rw [e, List.range_succ, List.map_append]
    rfl
  · intro x hx
    obtain ⟨i, hi, rfl⟩ := List.mem_map.1 hx
    rw [List.mem_range] at hi
    refine ⟨(hb i).1, (hb i).2.trans_le ?_⟩
    rw [Repaired.randBound, if_pos (by omega)]
  · have := (hb (f.k - 1)).2
    conv at this => rhs; rw [Repaired.randBound, if_neg (by omega)]
    omega

private theorem rand_ok {rng : Nat → Int → Int} (h : IsRng rng) :
    ∃ r, Repaired.rand f pr rng = .ok r ∧ f.Canon (f.V (randWords f rng) % f.p) r :=
  C09_normalize_partial f pr (word_tight (randWords_shape f h)).rep (by
    have := (word_V (randWords_shape f h)).1
    show -f.p ≤ f.V (randWords f rng)
    linarith [f.p_pos])

/-- C77: the repaired `rand` returns a canonical element. -/
theorem C77_canonical {rng : Nat → Int → Int} (h : IsRng rng) :
    ∃ r, Repaired.rand f pr rng = .ok r ∧ f.Canon (f.V r) r := by
  obtain ⟨r, h1, h2⟩ := rand_ok f pr h
  exact ⟨r, h1, h2.2.1.symm ▸ h2⟩

/-- C77: and every canonical element is returned, for some answers of the generator. -/
theorem C77_covers {a : Elem} {x : Int} (ha : f.Canon x a) :
    ∃ rng, IsRng rng ∧ Repaired.rand f pr rng = .ok a := by
  obtain ⟨low, top, e, hl, hlow, ht0, ht1⟩ := ha.1
  have hk := k_pos f
  have hlen : a.length = f.k := by rw [e, List.length_append, hl, List.length_singleton]; omega
  have hr : IsRng fun i hi => if 0 ≤ a.getD i 0 ∧ a.getD i 0 < hi then a.getD i 0 else 0 := by
    intro i hi h
    dsimp only
    split
    · assumption
    · omega
  refine ⟨_, hr, ?_⟩
  have ew : randWords f (fun i hi => if 0 ≤ a.getD i 0 ∧ a.getD i 0 < hi then a.getD i 0 else 0) = a := by
    refine List.ext_getElem (by simp [randWords, hlen]) fun i h1 h2 => ?_
    simp only [randWords, List.getElem_map, List.getElem_range]
    rw [List.getD_eq_getElem?_getD, List.getElem?_eq_getElem h2, Option.getD_some, if_pos]
    by_cases hi : i + 1 < f.k
    · rw [Repaired.randBound, if_pos hi]
      refine hlow _ ?_
      simp only [e]
      rw [List.getElem_append_left (by omega)]
      exact List.getElem_mem _
    · have hi2 : i = low.length := by omega
      rw [Repaired.randBound, if_neg hi]
      subst hi2
      simp only [e, List.getElem_concat_length]
      omega
  obtain ⟨r, h1, h2⟩ := rand_ok f pr hr
  rw [ew, ha.2.1, Int.emod_eq_of_lt ha.2.2.1 ha.2.2.2] at h2
  rw [h1, C09_canonical_unique f h2 ha]

private theorem drawn_eq (ω : Draws f) : ω.drawn pr = ((f.V (randWords f ω.rng) : Int) : ZMod f.pN) := by
  obtain ⟨r, h1, h2⟩ := rand_ok f pr ω.isRng
  unfold Draws.drawn
  rw [h1]
  dsimp only
  rw [h2.2.1]
  refine (ZMod.intCast_eq_intCast_iff _ _ _).2 ?_
  rw [← p_eq]
  exact Int.mod_modEq _ _

private def toNum (ω : Draws f) : Fin (2 ^ f.n) := ⟨(f.V (randWords f ω.rng)).toNat, by
  have := word_V (randWords_shape f ω.isRng)
  have h2 : (f.V (randWords f ω.rng)) < ((2 ^ f.n : Nat) : Int) := by push_cast; exact this.2
  omega⟩

private theorem toNum_val (ω : Draws f) : ((toNum f ω : Nat) : Int) = f.V (randWords f ω.rng) :=
  Int.toNat_of_nonneg (word_V (randWords_shape f ω.isRng)).1

private theorem toNum_inj : Function.Injective (toNum f) := by
  intro ω ω' h
  have h2 : f.V (randWords f ω.rng) = f.V (randWords f ω'.rng) := by rw [← toNum_val, ← toNum_val, h]
  have h3 := Shape.ext (randWords_shape f ω.isRng) (randWords_shape f ω'.isRng) h2
  funext i
  have h4 : (randWords f ω.rng)[(i : Nat)]? = (randWords f ω'.rng)[(i : Nat)]? := by rw [h3]
  simp only [randWords, List.getElem?_map, List.getElem?_range i.2, Option.map_some, Option.some.injEq, Draws.rng, i.2,
    dif_pos, if_true] at h4
  exact Fin.ext (by exact_mod_cast h4)

private theorem draws_card : Nat.card (Draws f) = 2 ^ f.n := by
  rw [Nat.card_eq_fintype_card, Fintype.card_pi]
  simp only [Fintype.card_fin]
  rw [Finset.prod_pow_eq_pow_sum]
  congr 1
  cases f <;> decide +kernel

private theorem toNum_bij : Function.Bijective (toNum f) :=
  (Nat.bijective_iff_injective_and_card _).2 ⟨toNum_inj f, by rw [draws_card, Nat.card_fin]⟩

private theorem pN_add' : f.pN + f.c = 2 ^ f.n := by
  have : ((f.pN + f.c : Nat) : Int) = 2 ^ f.n := by push_cast; rw [← p_eq]; unfold p; ring
  exact_mod_cast this

private theorem drawn_toNum (ω : Draws f) : ω.drawn pr = ((toNum f ω : Nat) : ZMod f.pN) := by
  rw [drawn_eq, ← toNum_val]
  push_cast
  rfl

open Classical in
private theorem count_one {p m : Nat} [NeZero p] (hm : m ≤ p) (x : ZMod p) :
    Nat.count (fun k : Nat => (k : ZMod p) = x) m = if x.val < m then 1 else 0 := by
  rw [Nat.count_eq_card_filter_range]
  have : (Finset.range m).filter (fun k : Nat => (k : ZMod p) = x) = if x.val < m then {x.val} else ∅ := by
    ext k
    rw [Finset.mem_filter, Finset.mem_range]
    have hk : k < m → ((k : ZMod p) = x ↔ k = x.val) := by
      intro hk
      constructor
      · rintro rfl
        rw [ZMod.val_natCast_of_lt (by omega)]
      · rintro rfl
        exact ZMod.natCast_zmod_val x
    split
    · rw [Finset.mem_singleton]
      constructor
      · rintro ⟨h1, h2⟩; exact (hk h1).1 h2
      · rintro rfl; exact ⟨by assumption, ZMod.natCast_zmod_val x⟩
    · constructor
      · rintro ⟨h1, h2⟩
        rw [hk h1] at h2
        omega
      · simp
  rw [this]
  split <;> simp

/-- C77: how often each residue is drawn. -/
theorem C77_each (x : ZMod f.pN) :
    prob (fun ω : Draws f => ω.drawn pr = x) = (if x.val < f.c then 2 else 1) / 2 ^ f.n := by
  classical
  have : NeZero f.pN := ⟨by cases f <;> decide +kernel⟩
  have hc : f.c ≤ f.pN := by cases f <;> decide +kernel
  have e1 : Nat.card {ω : Draws f // ω.drawn pr = x} = Nat.card {m : Fin (2 ^ f.n) // ((m : Nat) : ZMod f.pN) = x} :=
    Nat.card_congr (Equiv.subtypeEquiv (Equiv.ofBijective _ (toNum_bij f)) fun ω => by
      rw [drawn_toNum]; rfl)
  have e2 : Nat.card {m : Fin (2 ^ f.n) // ((m : Nat) : ZMod f.pN) = x} =
      Nat.count (fun k : Nat => (k : ZMod f.pN) = x) (2 ^ f.n) := by
    rw [Nat.card_eq_fintype_card, Fintype.card_subtype, Nat.count_eq_card_filter_range, Finset.card_filter,
      Finset.card_filter, Finset.sum_range]
  unfold prob
  rw [e1, e2, ← pN_add', Nat.count_add, count_one le_rfl, if_pos (ZMod.val_lt x), draws_card]
  simp only [Nat.cast_add, ZMod.natCast_self, zero_add]
  rw [count_one hc]
  split <;> norm_num

/-- Drawing from more than a set. -/
theorem prob_distance' {Ω X : Type} [Finite Ω] [Finite X] [Nonempty X] (g : Ω → X) (s : X → Ω) (hg : ∀ x, g (s x) = x) (S : Set X) :
    |prob (fun ω => g ω ∈ S) - prob (fun x => x ∈ S)| ≤ 1 - (Nat.card X : ℚ) / Nat.card Ω := by
  have hs : Function.Injective s := fun x y h => by rw [← hg x, h, hg]
  have hM : 0 < Nat.card X := Nat.card_pos
  have hle : Nat.card X ≤ Nat.card Ω := Nat.card_le_card_of_injective s hs
  have key : ∀ T : Set X, T.ncard ≤ (g ⁻¹' T).ncard := fun T => by
    rw [← Set.ncard_image_of_injective T hs]
    refine Set.ncard_le_ncard ?_ (Set.toFinite _)
    rintro _ ⟨x, hx, rfl⟩
    show g (s x) ∈ T
    rwa [hg]
  have h1 := key S
  have h2 := key Sᶜ
  have h3 := Set.ncard_add_ncard_compl S
  have h4 := Set.ncard_add_ncard_compl (g ⁻¹' S)
  rw [Set.preimage_compl] at h2
  show |((g ⁻¹' S).ncard : ℚ) / Nat.card Ω - (S.ncard : ℚ) / Nat.card X| ≤ _
  generalize (g ⁻¹' S).ncard = a at *
  generalize (g ⁻¹' S)ᶜ.ncard = a' at *
  generalize S.ncard = t at *
  generalize Sᶜ.ncard = t' at *
  rw [← h3, ← h4]
  have hN' : (0 : ℚ) < ((a + a' : Nat) : ℚ) := by exact_mod_cast (by omega : 0 < a + a')
  have hM' : (0 : ℚ) < ((t + t' : Nat) : ℚ) := by exact_mod_cast (by omega : 0 < t + t')
  have h1' : (t : ℚ) ≤ a := by exact_mod_cast h1
  have h2' : (t' : ℚ) ≤ a' := by exact_mod_cast h2
  push_cast at *
  have p1 : (0 : ℚ) ≤ t := by positivity
  have p2 : (0 : ℚ) ≤ t' := by positivity
  rw [div_sub_div _ _ hN'.ne' hM'.ne', one_sub_div hN'.ne', abs_div, abs_of_pos (mul_pos hN' hM'), div_le_div_iff₀ (mul_pos hN' hM') hN']
  have : |(a : ℚ) * (t + t') - (a + a') * t| ≤ (a + a' - (t + t')) * (t + t') := by
    rw [abs_le]
    constructor
    · nlinarith [mul_nonneg p1 (sub_nonneg.2 h2'), mul_nonneg p2 (sub_nonneg.2 h1'), mul_nonneg p1 (sub_nonneg.2 h1'), mul_nonneg p2 (sub_nonneg.2 h2')]
    · nlinarith [mul_nonneg p1 (sub_nonneg.2 h2'), mul_nonneg p2 (sub_nonneg.2 h1'), mul_nonneg p1 (sub_nonneg.2 h1'), mul_nonneg p2 (sub_nonneg.2 h2')]
  have := mul_le_mul_of_nonneg_right this hN'.le
  linarith

private theorem drawn_surjective (x : ZMod f.pN) : ∃ ω : Draws f, ω.drawn pr = x := by
  have : NeZero f.pN := ⟨by cases f <;> decide +kernel⟩
  have hx : x.val < 2 ^ f.n := by
    have := ZMod.val_lt x
    have := pN_add' f
    omega
  obtain ⟨ω, hω⟩ := (toNum_bij f).2 ⟨x.val, hx⟩
  exact ⟨ω, by rw [drawn_toNum, hω]; exact ZMod.natCast_zmod_val x⟩

variable (j : Nat)

/-- The residues drawn in `j` runs. -/
def drawsAll (ω : Fin j → Draws f) : Fin j → ZMod f.pN := fun i => (ω i).drawn pr

/-- C77: no event of `j` draws differs by more than `j c / 2 ^ n` from what it is for uniform residues. -/
theorem C77_distance (S : Set (Fin j → ZMod f.pN)) :
    |prob (fun ω => drawsAll f pr j ω ∈ S) - prob (fun x => x ∈ S)| ≤ j * (f.c / 2 ^ f.n) := by
  have : NeZero f.pN := ⟨by cases f <;> decide +kernel⟩
  choose s hs using drawn_surjective f pr
  refine (prob_distance' (drawsAll f pr j) (fun x i => s (x i)) (fun x => funext fun i => hs (x i)) S).trans ?_
  rw [Nat.card_fun, Nat.card_fun, Nat.card_fin, Nat.card_zmod, draws_card]
  push_cast
  rw [← div_pow]
  have hN : (0 : ℚ) < 2 ^ f.n := by positivity
  have e : (f.pN : ℚ) / 2 ^ f.n = 1 + -(f.c / 2 ^ f.n) := by
    have : (f.pN : ℚ) + f.c = 2 ^ f.n := by exact_mod_cast pN_add' f
    field_simp
    linarith
  have h0 : (0 : ℚ) ≤ f.pN / 2 ^ f.n := by positivity
  have := one_add_mul_le_pow (a := -((f.c : ℚ) / 2 ^ f.n)) (by rw [e] at h0; linarith) j
  rw [e]
  linarith

/-- C77: which is at most `j / 2 ^ 215`. -/
theorem C77_bound : (f.c : ℚ) / 2 ^ f.n ≤ 1 / 2 ^ 215 := by
  rw [div_le_div_iff₀ (by positivity) (by positivity), one_mul]
  have : f.c * 2 ^ 215 ≤ 2 ^ f.n := by cases f <;> decide +kernel
  exact_mod_cast this

/-- C77: what the repaired code makes of such a scalar and a representation of a point `P`. -/
theorem C77_code (c : Crv) {p : EdwardsExtended Elem} {P : c.Point} (hp : c.Represents p P) (ω : Draws c.fld) :
    ∃ k r k', Repaired.rand c.fld pr ω.rng = .ok k ∧ Repaired.scalarMult (Repaired.scalar c pr) p k = .ok (r, k') ∧
      c.Represents r ((ω.drawn pr).val • P) := by
  obtain ⟨k, h0, hc⟩ := C77_canonical c.fld pr ω.isRng
  obtain ⟨r, k', h1, h2, -⟩ := C57_scalar_mult c pr hp hc.tight
  refine ⟨k, r, k', h0, h1, ?_⟩
  have e : ((ω.drawn pr).val : Int) = c.fld.V k % c.fld.p := by
    have : NeZero c.fld.pN := ⟨by cases c <;> decide +kernel⟩
    rw [Draws.drawn, h0]
    dsimp only
    rw [ZMod.val_intCast, ← Fld.p_eq]
  have e' : (ω.drawn pr).val = (c.fld.V k % c.fld.p).toNat := by omega
  rw [e']
  exact h2

/-- C77: the probability that a public key is in a set of points differs by at most `1 / 2 ^ 99` from the one for uniform
points of the subgroup (C72 has `1 / 2 ^ 20`). -/
theorem C77_keys (c : Crv) {P : c.Point} (hP : addOrderOf P = c.ell) (T : Set c.Point) :
    |prob (fun ω : Draws c.fld => (ω.drawn pr).val • P ∈ T) - prob (fun Q : AddSubgroup.zmultiples P => (Q : c.Point) ∈ T)| ≤
      1 / 2 ^ 99 := by
  have : NeZero c.fld.pN := ⟨by cases c <;> decide +kernel⟩
  choose s hs using drawn_surjective c.fld pr
  have h1 := prob_distance' (fun ω : Draws c.fld => ω.drawn pr) s hs {x | x.val • P ∈ T}
  have hb := C77_bound c.fld
  have hN : (0 : ℚ) < 2 ^ c.fld.n := by positivity
  have e : 1 - (Nat.card (ZMod c.fld.pN) : ℚ) / Nat.card (Draws c.fld) = c.fld.c / 2 ^ c.fld.n := by
    have : (c.fld.pN : ℚ) + c.fld.c = 2 ^ c.fld.n := by exact_mod_cast pN_add' c.fld
    rw [Nat.card_zmod, draws_card]
    push_cast
    rw [one_sub_div hN.ne']
    congr 1
    linarith
  rw [e] at h1
  calc _ ≤ _ := abs_sub_le _ (prob (fun k : ZMod c.fld.pN => k.val • P ∈ T)) _
    _ ≤ 1 / 2 ^ 215 + 1 / 2 ^ 100 := add_le_add (h1.trans hb) (C72_uniform c hP T)
    _ ≤ 1 / 2 ^ 99 := by norm_num

example := C77_keys pr .e521 (C72_base _) {0}

example (ω : Draws Crv.e222.fld) := C77_code pr .e222 (Crv.base1 .e222) ω

/-- The element `-1`, which `rand` never returns (C24), … -/
example : ∃ rng, IsRng rng ∧ Repaired.rand .e255_19 pr rng = .ok Fld.e255_19.code.M_ONE :=
  C77_covers .e255_19 pr (m_one_canon _)

/-- … is drawn with the probability `1 / 2 ^ 255`, … -/
example : prob (fun ω : Draws .e255_19 => ω.drawn pr = -1) = 1 / 2 ^ 255 := by
  rw [C77_each, if_neg]
  · rfl
  · haveI : NeZero Fld.e255_19.pN := ⟨by decide +kernel⟩
    rw [ZMod.neg_val, if_neg (by decide +kernel)]
    decide +kernel

/-- … zero twice as often, … -/
example : prob (fun ω : Draws .e255_19 => ω.drawn pr = 0) = 2 / 2 ^ 255 := by
  rw [C77_each, if_pos]
  · rfl
  · rw [ZMod.val_zero]; decide

/-- … and equal residues in two draws are nearly as likely as for uniform residues. -/
example : |prob (fun ω => drawsAll .e255_19 pr 2 ω ∈ {x | x 0 = x 1}) -
    prob (fun x : Fin 2 → ZMod Fld.e255_19.pN => x ∈ {x | x 0 = x 1})| ≤ 2 * (1 / 2 ^ 215) :=
  (C77_distance .e255_19 pr 2 _).trans (mul_le_mul_of_nonneg_left (C77_bound .e255_19) (by norm_num))

/-- A generator that always gives the greatest number below the bound. -/
example := C77_canonical .e383_187 .release (rng := fun _ hi => hi - 1) (fun _ _ h => ⟨Int.sub_nonneg.2 h, Int.sub_one_lt_of_le le_rfl⟩)

/-- A run: the words of `2 ^ 255 - 1`, which is `p + 18`. -/
example : ∃ r, Repaired.rand .e255_19 .debug (fun _ hi => hi - 1) = .ok r ∧ r = [18, 0, 0, 0, 0] := by
  refine ⟨_, ?_, rfl⟩
  decide +kernel

end Verif

import Verif.Props.BlindPoints

/-!
# Property C88: random points of the curves

A client draws `y` with `rand` and decodes it with a sign that is drawn, too, as in C85.  What it returns is a point of the curve; the
probability that nothing is found is hardly more than a half; and if something is found, it is nearly a uniform point of the curve.
-/

namespace Verif
open Fld FieldCode Rust

/-- Draw `y` and compute the `x` with this lowest bit; the result are the bytes of `x` and `y`.  The registers are those of
`Crv.quickDecode`. -/
def Crv.drawPoint (c : Crv) (rng : Nat → Int → Int) (sg : Bool) : Client (Option (List Int × List Int)) :=
  .step (.rand rng) <| .step .zero <| .step (.addI 1 c.dInt) <| .step .one <| .step (.square 0) <| .step (.mul 2 4) <|
  .step (.sub 3 4) <| .step (.sub 3 5) <| .step (.div 6 7) <| .step (.sqrt 8) <| .step (.square 9) <| .step (.mul 10 7) <|
  .step (.sub 1 9) <| .eq 11 6 fun q => .bit 9 0 fun b => .packed (if b = sg then 9 else 12) fun xs => .packed 0 fun ys =>
  .done (if q then some (xs, ys) else none)

section
variable (c : Crv)

theorem Crv.drawPoint_uses {rng : Nat → Int → Int} (hr : IsRng rng) (sg : Bool) : (c.drawPoint rng sg).Uses c.fld fun _ => True := by
  have hd : IsI32 c.dInt := by cases c <;> exact ⟨by decide, by decide⟩
  have hb : 0 < c.fld.L * c.fld.k := by cases c <;> decide
  simp only [Crv.drawPoint, Client.Uses, Op.Valid, hr, hd, hb, implies_true, and_true]

/-- The results the client can have (helper lemma). -/
theorem Crv.drawPoint_outcome {S : Finset c.K} {ω : Answers c.fld} {sg : Bool} {r : Option (List Int × List Int)}
    (h : (c.drawPoint ω.rng sg).Outcome c.fld S [] r) :
    ∃ q x : c.K, let y : c.K := ω.drawn
      (1 - c.d * (y * y) ∉ S → q = (1 - y * y) * (1 - c.d * (y * y))⁻¹) ∧ (q ∉ S → x = c.fld.root q) ∧
      r = if x * x * (1 - c.d * (y * y)) = 1 - y * y then
        some (leBytes c.fld.nbytes (if x.val.testBit 0 = sg then x else -x).val, leBytes c.fld.nbytes y.val) else none := by
  obtain ⟨y, e0, ⟨z, e1, ⟨d, e2, ⟨o, e3, ⟨yy, e4, ⟨dyy, e5, ⟨n, e6, ⟨m, e7, ⟨q, e8, ⟨x, e9, ⟨xx, e10, ⟨t, e11, ⟨u, e12, h⟩⟩⟩⟩⟩⟩⟩⟩⟩⟩⟩⟩⟩ := h
  replace e0 := e0 nofun
  replace e1 := e1 nofun
  replace e2 := e2 nofun
  replace e3 := e3 nofun
  replace e4 := e4 nofun
  replace e5 := e5 nofun
  replace e6 := e6 nofun
  replace e7 := e7 nofun
  replace e10 := e10 nofun
  replace e11 := e11 nofun
  replace e12 := e12 nofun
  simp only [Op.ideal, List.nil_append, List.cons_append, List.getD_cons_zero, List.getD_cons_succ] at e1 e2 e3 e4 e5 e6 e7 e10 e11 e12
  simp only [Op.powArg, Op.ideal, Option.some.injEq, forall_eq', List.nil_append, List.cons_append, List.getD_cons_zero, List.getD_cons_succ] at e8 e9
  have e0' : y = ω.drawn := e0
  clear e0
  subst e1 e2 e3 e4 e5 e6 e7 e10 e11 e12
  simp only [Client.Outcome, List.nil_append, List.cons_append, List.getD_cons_zero, List.getD_cons_succ] at h
  have hd : (0 : c.K) + ((c.dInt : Int) : c.K) = c.d := zero_add _
  subst e0'
  rw [hd] at h e8
  refine ⟨q, x, e8, e9, ?_⟩
  rw [h]
  simp only [decide_eq_true_eq]
  by_cases hb : x.val.testBit 0 = sg
  · simp only [hb, if_true, List.getD_cons_zero, List.getD_cons_succ]
  · simp only [hb, if_false, List.getD_cons_zero, List.getD_cons_succ, zero_sub]

/-- The client returns the bytes of a point of the set, in all builds. -/
def Crv.Draws (T : Set c.Point) (ω : Answers c.fld × Bool) : Prop := ∃ P ∈ T, ∀ w,
  (c.drawPoint ω.1.rng ω.2).text (src c.fld) w 12 c.fld true =
    .ok (some (leBytes c.fld.nbytes P.x.val, leBytes c.fld.nbytes P.y.val))

/-- C88: the client returns the bytes of the point of the curve with the `y` and the sign that are drawn, or nothing; the same in all
builds. -/
theorem C88_sound (ω : Answers c.fld) (sg : Bool) :
    (∀ w, (c.drawPoint ω.rng sg).text (src c.fld) w 12 c.fld true = .ok none) ∨
    ∃ P : c.Point, P.y = ω.drawn ∧ (P.x.val.testBit 0 = sg ∨ P.x = 0) ∧ ∀ w,
      (c.drawPoint ω.rng sg).text (src c.fld) w 12 c.fld true =
        .ok (some (leBytes c.fld.nbytes P.x.val, leBytes c.fld.nbytes P.y.val)) := by
  obtain ⟨r, h1, h2⟩ := Client.text_outcome c.fld _ (c.drawPoint_uses ω.isRng sg)
  obtain ⟨q, x, -, -, h3⟩ := c.drawPoint_outcome h2
  split at h3
  · next hx =>
    obtain ⟨P, p1, p2, p3⟩ := c.signed_on sg hx
    refine .inr ⟨P, p2, p3, fun w => ?_⟩
    rw [h1, h3, p1, p2]
  · exact .inl fun w => by rw [h1, h3]

/-- The `y` for which an operand of the exponentiations is in the set. -/
noncomputable def Crv.badY : Finset c.K :=
  (Finset.univ.filter fun y : c.K => 1 - c.d * (y * y) ∈ c.fld.rareSet) ∪
    Finset.univ.filter fun y : c.K => (1 - y * y) * (1 - c.d * (y * y))⁻¹ ∈ c.fld.rareSet

theorem Crv.badY_card : c.badY.card * 2 ^ 11 < c.fld.pN := by
  have d0 : c.d ≠ 0 := fun h => c.d_nonsquare (by rw [h]; exact IsSquare.zero)
  have d1 : c.d ≠ 1 := fun h => c.d_nonsquare (by rw [h]; exact IsSquare.one)
  have k1 := card_fibre c.fld.rareSet (fun y : c.K => 1 - c.d * (y * y)) fun y z h => by
    refine mul_self_eq_mul_self_iff.1 (mul_left_cancel₀ d0 ?_)
    have h : 1 - c.d * (y * y) = 1 - c.d * (z * z) := h
    linear_combination -h
  have k2 := card_fibre c.fld.rareSet (fun y : c.K => (1 - y * y) * (1 - c.d * (y * y))⁻¹) fun y z h => by
    refine mul_self_eq_mul_self_iff.1 (mul_left_cancel₀ (sub_ne_zero.mpr d1) ?_)
    have h : (1 - y * y) * (1 - c.d * (y * y))⁻¹ = (1 - z * z) * (1 - c.d * (z * z))⁻¹ := h
    rw [mul_inv_eq_iff_eq_mul₀ (c.den_ne y), mul_right_comm, eq_mul_inv_iff_mul_eq₀ (c.den_ne z)] at h
    linear_combination h
  have k3 : c.badY.card ≤ 4 * c.fld.rareSet.card :=
    le_trans (Finset.card_union_le _ _) ((Nat.add_le_add k1 k2).trans (by rw [← Nat.add_mul]))
  refine (Nat.mul_le_mul_right _ k3).trans_lt ?_
  rw [show 4 * c.fld.rareSet.card * 2 ^ 11 = c.fld.rareSet.card * 2 ^ 13 by ring]
  exact c.fld.rareSet_card

theorem Crv.badY_others (hc : c.fld ≠ .e251_9) : c.badY.card = 0 := by
  rw [Finset.card_eq_zero, Crv.badY, rareSet_empty hc]
  simp only [Finset.notMem_empty, Finset.filter_false, Finset.union_empty]

/-- C88: a point whose `y` is drawn with its sign is returned; on Curve1174 if `y` is not one of the few of C85. -/
theorem C88_found {ω : Answers c.fld} {P : c.Point} (hy : P.y = ω.drawn) (hb : P.y ∉ c.badY) (w : World) :
    (c.drawPoint ω.rng (P.x.val.testBit 0)).text (src c.fld) w 12 c.fld true =
      .ok (some (leBytes c.fld.nbytes P.x.val, leBytes c.fld.nbytes P.y.val)) := by
  obtain ⟨r, g1, g2⟩ := Client.text_outcome c.fld _ (c.drawPoint_uses ω.isRng (P.x.val.testBit 0))
  obtain ⟨q, x, g3, g4, g5⟩ := c.drawPoint_outcome g2
  have hy : (ω.drawn : c.K) = P.y := hy.symm
  rw [hy] at g3 g5
  rw [Crv.badY, Finset.mem_union, Finset.mem_filter, Finset.mem_filter, not_or] at hb
  obtain rfl := g3 fun h => hb.1 ⟨Finset.mem_univ _, h⟩
  obtain rfl := g4 fun h => hb.2 ⟨Finset.mem_univ _, h⟩
  rw [g1]
  have hd := c.den_ne P.y
  have e : (1 - P.y * P.y) * (1 - c.d * (P.y * P.y))⁻¹ = P.x * P.x := by
    rw [mul_inv_eq_iff_eq_mul₀ hd]
    linear_combination -P.on
  have hx := (C45_root c.fld (x := (1 - P.y * P.y) * (1 - c.d * (P.y * P.y))⁻¹) ⟨P.x, e⟩).1
  generalize c.fld.root ((1 - P.y * P.y) * (1 - c.d * (P.y * P.y))⁻¹) = x at *
  have hq : x * x * (1 - c.d * (P.y * P.y)) = 1 - P.y * P.y := by rw [hx, inv_mul_cancel_right₀ hd]
  obtain ⟨Q, q1, q2, q3⟩ := c.signed_on (P.x.val.testBit 0) hq
  rw [g5, if_pos hq, ← q1, c.signed_unique q2 q3 (.inl rfl)]

/-! ### Counting -/

/-- The pair that is drawn for a point. -/
def Crv.tag (P : c.Point) : c.K × Bool := (P.y, P.x.val.testBit 0)

theorem Crv.tag_injective : Function.Injective c.tag := by
  intro P Q h
  obtain ⟨h1, h2⟩ := Prod.mk.inj h
  have h3 := c.signed_unique h1 (.inl h2) (.inl rfl)
  cases P; cases Q
  cases h1; cases h3
  rfl

/-- The `y` that are not drawn or for which the decoding can be wrong. -/
def Crv.lostY : Set c.K := {y | y ∉ Set.range (Answers.drawn (f := c.fld)) ∨ y ∈ c.badY}

theorem Crv.lostY_card : c.lostY.ncard + Nat.card (Answers c.fld) ≤ c.fld.pN + c.badY.card := by
  have h1 : c.lostY = (Set.range (Answers.drawn (f := c.fld)))ᶜ ∪ (c.badY : Set c.K) := rfl
  have h2 := Set.ncard_add_ncard_compl (Set.range (Answers.drawn (f := c.fld)))
  have h3 : (Set.range (Answers.drawn (f := c.fld))).ncard = Nat.card (Answers c.fld) := by
    rw [← Set.image_univ, Set.ncard_image_of_injective _ (Answers.drawn_injective c.fld), Set.ncard_univ]
  rw [h3, Nat.card_zmod] at h2
  have h4 := Set.ncard_union_le (Set.range (Answers.drawn (f := c.fld)))ᶜ (c.badY : Set c.K)
  rw [← h1, Set.ncard_coe_finset] at h4
  omega

theorem Crv.draws_count (T : Set c.Point) :
    T.ncard ≤ Nat.card {ω // c.Draws T ω} + 2 * c.lostY.ncard ∧ Nat.card {ω // c.Draws T ω} ≤ T.ncard + 2 := by
  let h : Answers c.fld × Bool → c.K × Bool := fun ω => (ω.1.drawn, ω.2)
  have hh : Function.Injective h := fun a b e => Prod.ext (Answers.drawn_injective c.fld (Prod.mk.inj e).1) (Prod.mk.inj e).2
  have e1 : Nat.card {ω // c.Draws T ω} = (h '' {ω | c.Draws T ω}).ncard := (Set.ncard_image_of_injective _ hh).symm
  have e2 : T.ncard = (c.tag '' T).ncard := (Set.ncard_image_of_injective _ c.tag_injective).symm
  have e3 : (c.lostY ×ˢ (Set.univ : Set Bool)).ncard = 2 * c.lostY.ncard := by
    rw [Set.ncard_prod, Set.ncard_univ, Nat.card_eq_fintype_card, Fintype.card_bool, mul_comm]
  rw [e1, e2, ← e3]
  constructor
  · refine (Set.ncard_le_ncard ?_ (Set.toFinite _)).trans (Set.ncard_union_le _ _)
    rintro _ ⟨P, hP, rfl⟩
    by_cases hl : P.y ∈ c.lostY
    · exact .inr ⟨hl, Set.mem_univ _⟩
    · have hl : ¬ (P.y ∉ Set.range (Answers.drawn (f := c.fld)) ∨ P.y ∈ c.badY) := hl
      rw [not_or, not_not] at hl
      obtain ⟨⟨ω, hω⟩, hb⟩ := hl
      exact .inl ⟨(ω, P.x.val.testBit 0), ⟨P, hP, fun w => C88_found c hω.symm hb w⟩, Prod.ext hω rfl⟩
  · have h2 : (({(1, true), (-1, true)} : Set (c.K × Bool))).ncard ≤ 2 := (Set.ncard_insert_le _ _).trans (by rw [Set.ncard_singleton])
    refine (Set.ncard_le_ncard ?_ (Set.toFinite _)).trans ((Set.ncard_union_le (c.tag '' T) {(1, true), (-1, true)}).trans (Nat.add_le_add_left h2 _))
    rintro _ ⟨⟨ω, sg⟩, ⟨P, hP, hw⟩, rfl⟩
    rcases C88_sound c ω sg with hn | ⟨Q, q1, q2, q3⟩
    · exact absurd ((hn ⟨.debug, default, fun _ _ => 0⟩).symm.trans (hw _)) nofun
    · have e := Prod.mk.inj (Option.some.inj (Except.ok.inj ((q3 ⟨.debug, default, fun _ _ => 0⟩).symm.trans (hw _))))
      have ex : Q.x = P.x := (Crv.coord_leBytes c Q.x).symm.trans ((congrArg c.received e.1).trans (Crv.coord_leBytes c P.x))
      have ey : Q.y = P.y := (Crv.coord_leBytes c Q.y).symm.trans ((congrArg c.received e.2).trans (Crv.coord_leBytes c P.y))
      rw [ex] at q2
      by_cases hs : P.x.val.testBit 0 = sg
      · exact .inl ⟨P, hP, Prod.ext (ey.symm.trans q1) hs⟩
      · have hx := q2.resolve_left hs
        have hsg : sg = true := by
          rw [hx, ZMod.val_zero, Nat.zero_testBit] at hs
          revert hs
          cases sg <;> decide
        have hon := P.on
        rw [hx] at hon
        have h1 : P.y * P.y = 1 * 1 := by linear_combination hon
        refine .inr ?_
        rcases mul_self_eq_mul_self_iff.1 h1 with h1 | h1
        · exact .inl (Prod.ext (q1.symm.trans (ey.trans h1)) hsg)
        · exact .inr (Prod.ext (q1.symm.trans (ey.trans h1)) hsg)

/-- The numbers of points and of answers (helper lemma). -/
theorem Crv.draw_numbers : c.fld.pN * 1073741823 ≤ Nat.card c.Point * 1073741824 ∧ Nat.card (Answers c.fld) < c.fld.pN ∧
    (c.fld.pN - Nat.card (Answers c.fld)) * 2 ^ 21 < c.fld.pN ∧ 2 ^ 100 < c.fld.pN := by
  obtain ⟨m1, m2, -⟩ := C48_missing c.fld
  rw [← Answers.card, p_eq] at m1 m2
  have m1 : Nat.card (Answers c.fld) < c.fld.pN := by exact_mod_cast m1
  refine ⟨?_, m1, ?_, by cases c <;> decide +kernel⟩
  · rw [C46_edwards_card]
    cases c <;> decide +kernel
  · zify [m1.le]
    linarith

/-- Conditional probabilities of nearly the same sets (helper lemma). -/
theorem ratio_close {e a t N r : ℚ} (h1 : t ≤ e + 2 * r) (h2 : e ≤ t + 2) (h3 : N ≤ a + 2 * r) (h4 : a ≤ N + 2) (ht : 0 ≤ t) (htN : t ≤ N)
    (hr : 1 ≤ r) (ha : 0 < a) (hN : 0 < N) : |e / a - t / N| ≤ 4 * r / a := by
  rw [div_sub_div _ _ ha.ne' hN.ne', abs_div, abs_of_pos (mul_pos ha hN), div_le_div_iff₀ (mul_pos ha hN) ha]
  have k1 : |e * N - a * t| ≤ 4 * r * N := by
    rw [abs_le]
    constructor <;> nlinarith
  nlinarith

/-- What is lost (helper lemma). -/
theorem Crv.lost_bound : ∃ r : ℚ, (c.lostY.ncard : ℚ) ≤ r ∧ 1 ≤ r ∧ r < (c.fld.pN : ℚ) / 2 ^ 11 + c.fld.pN / 2 ^ 21 ∧
    (c.fld ≠ .e251_9 → r < (c.fld.pN : ℚ) / 2 ^ 21) := by
  obtain ⟨-, n2, n3, -⟩ := c.draw_numbers
  have n4 := c.badY_card
  refine ⟨((c.fld.pN - Nat.card (Answers c.fld) + c.badY.card : Nat) : ℚ), ?_, ?_, ?_, fun hc => ?_⟩
  · exact_mod_cast (by have := c.lostY_card; omega : c.lostY.ncard ≤ c.fld.pN - Nat.card (Answers c.fld) + c.badY.card)
  · exact_mod_cast (by omega : 1 ≤ c.fld.pN - Nat.card (Answers c.fld) + c.badY.card)
  · have n3 : ((c.fld.pN - Nat.card (Answers c.fld) : Nat) : ℚ) * 2 ^ 21 < c.fld.pN := by exact_mod_cast n3
    have n4 : (c.badY.card : ℚ) * 2 ^ 11 < c.fld.pN := by exact_mod_cast n4
    rw [Nat.cast_add]
    linarith
  · have n3 : ((c.fld.pN - Nat.card (Answers c.fld) : Nat) : ℚ) * 2 ^ 21 < c.fld.pN := by exact_mod_cast n3
    rw [c.badY_others hc, Nat.add_zero]
    linarith

/-- C88: given that a point is found, it is in a set `T` with nearly the probability of a uniform point of the curve: up to `1 / 2^18` on
the other four curves, and up to `1 / 2^8` on Curve1174. -/
theorem C88_distance (T : Set c.Point) :
    |prob (c.Draws T) / prob (c.Draws Set.univ) - (T.ncard : ℚ) / Nat.card c.Point| ≤ 1 / 2 ^ 8 ∧
    (c.fld ≠ .e251_9 → |prob (c.Draws T) / prob (c.Draws Set.univ) - (T.ncard : ℚ) / Nat.card c.Point| ≤ 1 / 2 ^ 18) := by
  obtain ⟨r, r1, r2, r3, r4⟩ := c.lost_bound
  obtain ⟨n1, n2, n3, n4⟩ := c.draw_numbers
  obtain ⟨t1, t2⟩ := c.draws_count T
  obtain ⟨u1, u2⟩ := c.draws_count Set.univ
  have : Finite c.Point := Finite.of_injective _ c.tag_injective
  have t3 : T.ncard ≤ Nat.card c.Point := by
    rw [← Set.ncard_univ]
    exact Set.ncard_le_ncard (Set.subset_univ _) (Set.toFinite _)
  rw [Set.ncard_univ] at u1 u2
  have hM : 0 < Nat.card (Answers c.fld) := by omega
  have hΩ : (Nat.card (Answers c.fld × Bool) : ℚ) ≠ 0 := by
    rw [Nat.card_prod, Nat.card_eq_fintype_card (α := Bool), Fintype.card_bool]
    exact_mod_cast (by omega : Nat.card (Answers c.fld) * 2 ≠ 0)
  rw [prob, prob, div_div_div_cancel_right₀ hΩ]
  generalize Nat.card {ω // c.Draws T ω} = e at *
  generalize Nat.card {ω // c.Draws Set.univ ω} = a at *
  generalize c.lostY.ncard = l at *
  generalize T.ncard = t at *
  generalize Nat.card c.Point = N at *
  generalize c.fld.pN = p at *
  have t1 : (t : ℚ) ≤ e + 2 * l := by exact_mod_cast t1
  have t2 : (e : ℚ) ≤ t + 2 := by exact_mod_cast t2
  have u1 : (N : ℚ) ≤ a + 2 * l := by exact_mod_cast u1
  have u2 : (a : ℚ) ≤ N + 2 := by exact_mod_cast u2
  have t3 : (t : ℚ) ≤ N := by exact_mod_cast t3
  have n1 : (p : ℚ) * 1073741823 ≤ N * 1073741824 := by exact_mod_cast n1
  have n4 : (2 : ℚ) ^ 100 < p := by exact_mod_cast n4
  have hp : (0 : ℚ) < p := lt_trans (by positivity) n4
  have ha : (p : ℚ) * (1 / 2 + 1 / 4) < a := by linarith
  have k := ratio_close (e := e) (a := a) (t := t) (N := N) (r := r) (by linarith) t2 (by linarith) u2 (by positivity) t3 r2
    (by linarith) (by linarith)
  refine ⟨k.trans ?_, fun hc => k.trans ?_⟩
  · rw [div_le_div_iff₀ (by linarith) (by positivity)]
    linarith
  · have := r4 hc
    rw [div_le_div_iff₀ (by linarith) (by positivity)]
    linarith

/-- C88: `k` draws find nothing with probability at most `(1/2 + 1/2^10)^k`. -/
theorem C88_rejected (k : Nat) :
    prob (fun ω : Fin k → Answers c.fld × Bool => ∀ i, ¬ c.Draws Set.univ (ω i)) ≤ (1 / 2 + 1 / 2 ^ 10) ^ k := by
  obtain ⟨r, r1, r2, r3, -⟩ := c.lost_bound
  obtain ⟨n1, n2, n3, n4⟩ := c.draw_numbers
  obtain ⟨u1, -⟩ := c.draws_count Set.univ
  rw [Set.ncard_univ] at u1
  have hM : 0 < Nat.card (Answers c.fld) := by omega
  have hΩ : Nat.card (Answers c.fld × Bool) = Nat.card (Answers c.fld) * 2 := by
    rw [Nat.card_prod, Nat.card_eq_fintype_card (α := Bool), Fintype.card_bool]
  have hc : Nat.card {ω // c.Draws Set.univ ω} + Nat.card {ω // ¬ c.Draws Set.univ ω} = Nat.card (Answers c.fld) * 2 := by
    rw [← hΩ]
    exact Set.ncard_add_ncard_compl {ω | c.Draws Set.univ ω}
  rw [prob, Nat.card_fun, Nat.card_fin, Nat.card_congr (Equiv.subtypePiEquivPi (p := fun _ ω => ¬ c.Draws Set.univ ω)), Nat.card_pi,
    Finset.prod_const, Finset.card_univ, Fintype.card_fin, Nat.cast_pow, Nat.cast_pow, ← div_pow, hΩ]
  refine pow_le_pow_left₀ (by positivity) ?_ k
  generalize Nat.card {ω // c.Draws Set.univ ω} = a at *
  generalize Nat.card {ω // ¬ c.Draws Set.univ ω} = b at *
  generalize Nat.card (Answers c.fld) = M at *
  generalize c.lostY.ncard = l at *
  generalize Nat.card c.Point = N at *
  generalize c.fld.pN = p at *
  have u1 : (N : ℚ) ≤ a + 2 * l := by exact_mod_cast u1
  have n1 : (p : ℚ) * 1073741823 ≤ N * 1073741824 := by exact_mod_cast n1
  have n2 : (M : ℚ) < p := by exact_mod_cast n2
  have hM : (0 : ℚ) < M := by exact_mod_cast hM
  have hc : (a : ℚ) + b = M * 2 := by exact_mod_cast hc
  rw [Nat.cast_mul, div_le_iff₀ (by positivity)]
  push_cast
  linarith

/-! ### Cases -/

/-- A hundred draws. -/
example : prob (fun ω : Fin 100 → Answers c.fld × Bool => ∀ i, ¬ c.Draws Set.univ (ω i)) ≤ 1 / 2 ^ 99 :=
  (C88_rejected c 100).trans (by norm_num)

/-- A point of the subgroup of the base point. -/
example (hc : c.fld ≠ .e251_9) :
    |prob (c.Draws (AddSubgroup.zmultiples c.base : Set c.Point)) / prob (c.Draws Set.univ) - 1 / c.cofactor| ≤ 1 / 2 ^ 18 := by
  have h := (C88_distance c (AddSubgroup.zmultiples c.base : Set c.Point)).2 hc
  have e : ((AddSubgroup.zmultiples c.base : Set c.Point).ncard : ℚ) / Nat.card c.Point = 1 / c.cofactor := by
    have h1 : (AddSubgroup.zmultiples c.base : Set c.Point).ncard = (c.fld.V c.order).toNat :=
      (Nat.card_zmultiples c.base).trans (C39_base_order c).1
    have h2 : ((c.fld.V c.order).toNat : ℚ) ≠ 0 := Nat.cast_ne_zero.mpr (C39_order_prime c).pos.ne'
    rw [h1, C46_edwards_card, Nat.cast_mul, mul_comm, ← div_div, div_self h2]
  rwa [e] at h

/-- The neutral element is found for both signs, if 1 is drawn. -/
example (hc : c.fld ≠ .e251_9) {ω : Answers c.fld} (h : ω.drawn = 1) (w : World) :
    (c.drawPoint ω.rng false).text (src c.fld) w 12 c.fld true =
      .ok (some (leBytes c.fld.nbytes (0 : c.K).val, leBytes c.fld.nbytes (1 : c.K).val)) := by
  have h1 := C88_found c (ω := ω) (P := ⟨0, 1, by ring⟩) h.symm (by
    have := c.badY_others hc
    rw [Finset.card_eq_zero] at this
    rw [this]; exact Finset.notMem_empty _) w
  rwa [show (0 : c.K).val.testBit 0 = false by rw [ZMod.val_zero, Nat.zero_testBit]] at h1

end

end Verif

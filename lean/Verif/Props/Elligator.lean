import Verif.Props.MontgomeryLadder
import Verif.Props.SqrtValue

/-!
# Property C89: a map of residues to points of the Montgomery curves

Elligator 2 (Bernstein, Hamburg, Krasnova, Lange 2013; RFC 9380, section 6.7.1) with the non-square 2, as a client of the field types.  It
uses `/`, `legendre` and `sqrt`.  Whatever it receives, it returns a point of the curve, in all builds; two byte strings give the same point
just if they stand for the same residue or for opposite ones; and it reaches `(p + 1) / 2` points.
-/

namespace Verif
open Fld FieldCode Rust

/-- The registers: `r`, 0, `A`, 1, `r²`, `2 r²`, `1 + 2 r²`, `-A`, `x = -A / (1 + 2 r²)`, `-A - x`, `x + A`, `x² + A x`, `x² + A x + 1`,
`x³ + A x² + x`, its Legendre symbol, -1; then `u`, `u³ + A u² + u`, its root, and the opposite of the root. -/
def Mont.elligator (c : Mont) (rs : List Int) : Client (List Int × List Int) :=
  .step (.bytes rs) <| .step .zero <| .step (.addI 1 c.A) <| .step .one <| .step (.square 0) <| .step (.add 4 4) <| .step (.add 3 5) <|
  .step (.sub 1 2) <| .step (.div 7 6) <| .step (.sub 7 8) <| .step (.add 8 2) <| .step (.mul 10 8) <| .step (.add 11 3) <|
  .step (.mul 12 8) <| .step (.legendre 13) <| .step .mOne <| .eq 14 15 fun n =>
  .step (.select n 9 8) <| .step (.mul 12 16) <| .step (.sqrt 17) <| .step (.sub 1 18) <| .bit 18 0 fun b =>
  .packed 16 fun us => .packed (if b = n then 19 else 18) fun vs => .done (us, vs)

namespace Mont
variable (c : Mont)

theorem elligator_uses {rs : List Int} (hr : (Op.bytes rs).Valid c.fld) :
    (c.elligator rs).Uses c.fld fun o => c.fld = .e251_9 → o.NotPow := by
  have h : c.fld ≠ .e251_9 := by cases c <;> decide
  have hA : IsI32 c.A := by cases c <;> exact ⟨by decide, by decide⟩
  have hb : 0 < c.fld.L * c.fld.k := by cases c <;> decide
  have hr' : IsBytes rs ∧ c.fld.nbytes ≤ rs.length ∧ (c.fld = .e383_187 → leVal (rs.take c.fld.nbytes) < 2 ^ c.fld.n) := hr
  simp only [Mont.elligator, Client.Uses, Op.Valid, h, hA, hb, hr'.1, hr'.2.1, implies_true, true_and, and_true, false_implies]
  exact fun h' => hr'.2.2 h'

/-- The polynomial of the curve. -/
def g (x : c.K) : c.K := x ^ 3 + c.A * x ^ 2 + x

/-- The first candidate. -/
noncomputable def cand (r : c.K) : c.K := -(c.A : c.K) / (1 + 2 * r ^ 2)

theorem A_ne_zero : (c.A : c.K) ≠ 0 := by
  intro h
  have h1 : ((c.A : Int) : c.K) = ((0 : Int) : c.K) := by rw [h, Int.cast_zero]
  rw [← Fld.modEq_iff] at h1
  revert h1
  cases c <;> decide +kernel

theorem neg_one_square : IsSquare (-1 : c.K) := by
  rw [ZMod.exists_sq_eq_neg_one_iff]
  cases c <;> decide +kernel

theorem den_ne_zero (r : c.K) : 1 + 2 * r ^ 2 ≠ 0 := by
  intro h
  obtain ⟨i, hi⟩ := c.neg_one_square
  have hr : r ≠ 0 := by
    rintro rfl
    exact one_ne_zero (by linear_combination h)
  refine two_nonsquare c ⟨i / r, ?_⟩
  field_simp
  linear_combination h + hi

theorem cand_ne_zero (r : c.K) : c.cand r ≠ 0 := div_ne_zero (neg_ne_zero.mpr c.A_ne_zero) (c.den_ne_zero r)

theorem cand_eq (r : c.K) : c.cand r * (1 + 2 * r ^ 2) = -(c.A : c.K) := div_mul_cancel₀ _ (c.den_ne_zero r)

/-- The other candidate (helper lemma). -/
theorem g_other (r : c.K) : c.g (-(c.A : c.K) - c.cand r) = 2 * r ^ 2 * c.g (c.cand r) := by
  have h := c.cand_eq r
  unfold g
  generalize c.cand r = x at *
  have hA : (c.A : c.K) = -(x * (1 + 2 * r ^ 2)) := by linear_combination h
  rw [hA]
  ring

theorem square_mul {a b : c.K} (ha : ¬ IsSquare a) (hb : ¬ IsSquare b) : IsSquare (a * b) := by
  have a0 : a ≠ 0 := by rintro rfl; exact ha IsSquare.zero
  have b0 : b ≠ 0 := by rintro rfl; exact hb IsSquare.zero
  rw [← quadraticChar_one_iff_isSquare (mul_ne_zero a0 b0), map_mul, quadraticChar_neg_one_iff_not_isSquare.2 ha,
    quadraticChar_neg_one_iff_not_isSquare.2 hb]
  rfl

theorem other_square {r : c.K} (h : ¬ IsSquare (c.g (c.cand r))) : IsSquare (c.g (-(c.A : c.K) - c.cand r)) := by
  rw [c.g_other, mul_right_comm]
  exact (c.square_mul (two_nonsquare c) h).mul ⟨r, by ring⟩

theorem neg_bit {x : c.K} (hx : x ≠ 0) : (-x).val.testBit 0 = !x.val.testBit 0 := by
  have h : (-x).val = c.fld.pN - x.val := by rw [ZMod.neg_val, if_neg hx]
  have h1 : x.val < c.fld.pN := ZMod.val_lt x
  have h2 : c.fld.pN % 2 = 1 := by cases c <;> decide +kernel
  rw [h]
  simp only [Nat.testBit_zero]
  by_cases h3 : x.val % 2 = 1
  · rw [h3, show (c.fld.pN - x.val) % 2 = 0 by omega]; rfl
  · rw [show x.val % 2 = 0 by omega, show (c.fld.pN - x.val) % 2 = 1 by omega]; rfl

/-- What the map should be: the first candidate with an odd second coordinate, or the other one with an even second coordinate. -/
def Mapped (r u v : c.K) : Prop :=
  v ^ 2 = c.g u ∧ (IsSquare (c.g (c.cand r)) → u = c.cand r ∧ (v.val.testBit 0 = true ∨ v = 0)) ∧
    (¬ IsSquare (c.g (c.cand r)) → u = -(c.A : c.K) - c.cand r ∧ v.val.testBit 0 = false)

/-- The root with the wanted lowest bit (helper lemma). -/
theorem signed_root {a v : c.K} (n : Bool) (h : v * v = a) : (if v.val.testBit 0 = n then -v else v) ^ 2 = a ∧
    ((if v.val.testBit 0 = n then -v else v).val.testBit 0 = !n ∨ (if v.val.testBit 0 = n then -v else v) = 0) := by
  split
  · next hb =>
    refine ⟨by rw [← h]; ring, ?_⟩
    by_cases h0 : v = 0
    · right; rw [h0, neg_zero]
    · left; rw [c.neg_bit h0, hb]
  · next hb =>
    refine ⟨by rw [← h]; ring, .inl ?_⟩
    revert hb
    cases v.val.testBit 0 <;> cases n <;> decide

theorem exists_mapped (rs : List Int) : ∃ u v : c.K, c.Mapped (c.received rs) u v ∧
    (c.elligator rs).ideal c.fld [] = (leBytes c.fld.nbytes u.val, leBytes c.fld.nbytes v.val) := by
  have hr : (((leVal (rs.take c.fld.nbytes) % 2 ^ c.fld.n : Int)) : ZMod c.fld.pN) = c.received rs := rfl
  simp only [Mont.elligator, Client.ideal, Op.ideal, List.nil_append, List.cons_append, List.getD_cons_zero, List.getD_cons_succ, hr, zero_add,
    zero_sub]
  generalize c.received rs = r
  have hx : -(c.A : c.K) * (1 + (r * r + r * r))⁻¹ = c.cand r := by
    rw [cand, div_eq_mul_inv, show 2 * r ^ 2 = r * r + r * r by ring]
  have hg : ((c.cand r + c.A) * c.cand r + 1) * c.cand r = c.g (c.cand r) := by unfold g; ring
  have hg' : ((c.cand r + c.A) * c.cand r + 1) * (-(c.A : c.K) - c.cand r) = c.g (-(c.A : c.K) - c.cand r) := by unfold g; ring
  have hm : (-1 : c.K) ≠ 1 := fun h => two_ne_zero_pN c.fld (by linear_combination -h)
  simp only [hx, hg]
  by_cases hs : IsSquare (c.g (c.cand r))
  · have hl : ¬ (if c.g (c.cand r) = 0 then (0 : c.K) else if IsSquare (c.g (c.cand r)) then 1 else -1) = -1 := by
      rw [if_pos hs]
      split
      · exact fun h => one_ne_zero (neg_eq_zero.mp h.symm)
      · exact hm.symm
    simp only [hl, decide_false, Bool.false_eq_true, if_false, hg]
    have h1 := (C45_root c.fld hs).1
    generalize c.fld.root (c.g (c.cand r)) = v at *
    obtain ⟨h2, h3⟩ := c.signed_root false h1
    refine ⟨_, _, ⟨h2, fun _ => ⟨rfl, h3⟩, fun h => absurd hs h⟩, ?_⟩
    by_cases hb : v.val.testBit 0 = false
    · rw [if_pos hb, if_pos hb]; rfl
    · rw [if_neg hb, if_neg hb]; rfl
  · have h0 : c.g (c.cand r) ≠ 0 := fun h => hs (by rw [h]; exact IsSquare.zero)
    simp only [h0, hs, if_false, decide_true, if_true, hg']
    have h1 := (C45_root c.fld (c.other_square hs)).1
    generalize c.fld.root (c.g (-(c.A : c.K) - c.cand r)) = v at *
    obtain ⟨h2, h3⟩ := c.signed_root true h1
    refine ⟨_, _, ⟨h2, fun h => absurd h hs, fun _ => ⟨rfl, ?_⟩⟩, ?_⟩
    · rcases h3 with h3 | h3
      · exact h3
      · rw [h3, ZMod.val_zero, Nat.zero_testBit]
    · split <;> rfl

theorem g_zero : c.g 0 = 0 := by unfold g; ring

/-- Residues with the same candidate (helper lemma). -/
theorem cand_inj {r s : c.K} (h : c.cand r = c.cand s) : s = r ∨ s = -r := by
  have h1 := c.cand_eq r
  have h2 := c.cand_eq s
  have h3 := c.cand_ne_zero s
  rw [h] at h1
  have h4 : 1 + 2 * r ^ 2 = 1 + 2 * s ^ 2 := mul_left_cancel₀ h3 (h1.trans h2.symm)
  have h5 : (2 : c.K) ≠ 0 := two_ne_zero_pN c.fld
  have h6 : s * s = r * r := mul_left_cancel₀ h5 (by linear_combination -h4)
  exact mul_self_eq_mul_self_iff.1 h6

theorem cand_neg (r : c.K) : c.cand (-r) = c.cand r := by unfold cand; rw [neg_sq]

theorem mapped_unique {r u v u' v' : c.K} (h : c.Mapped r u v) (h' : c.Mapped r u' v') : u = u' ∧ v = v' := by
  obtain ⟨a1, a2, a3⟩ := h
  obtain ⟨b1, b2, b3⟩ := h'
  have key : u = u' → (v.val.testBit 0 = v'.val.testBit 0 ∨ v = 0 ∨ v' = 0) → v = v' := by
    rintro rfl h
    have e : v * v = v' * v' := by linear_combination a1 - b1
    rcases mul_self_eq_mul_self_iff.1 e with e | e
    · exact e
    · by_cases h0 : v' = 0
      · rw [e, h0, neg_zero]
      · rcases h with h | h | h
        · rw [e, c.neg_bit h0] at h
          cases hb : v'.val.testBit 0 <;> rw [hb] at h <;> cases h
        · rw [h] at e
          exact absurd (neg_eq_zero.mp e.symm) h0
        · exact absurd h h0
  by_cases hs : IsSquare (c.g (c.cand r))
  · obtain ⟨a4, a5⟩ := a2 hs
    obtain ⟨b4, b5⟩ := b2 hs
    refine ⟨a4.trans b4.symm, key (a4.trans b4.symm) ?_⟩
    rcases a5 with a5 | a5
    · rcases b5 with b5 | b5
      · exact .inl (a5.trans b5.symm)
      · exact .inr (.inr b5)
    · exact .inr (.inl a5)
  · obtain ⟨a4, a5⟩ := a3 hs
    obtain ⟨b4, b5⟩ := b3 hs
    exact ⟨a4.trans b4.symm, key (a4.trans b4.symm) (.inl (a5.trans b5.symm))⟩

theorem mapped_neg {r u v : c.K} (h : c.Mapped r u v) : c.Mapped (-r) u v := by
  unfold Mapped at *
  rwa [c.cand_neg]

/-- The same point from a first and from another candidate is impossible (helper lemma). -/
theorem mapped_mixed {r s u v : c.K} (h : c.Mapped r u v) (h' : c.Mapped s u v) (hr : IsSquare (c.g (c.cand r)))
    (hs : ¬ IsSquare (c.g (c.cand s))) : False := by
  obtain ⟨u1, b1⟩ := h.2.1 hr
  obtain ⟨u2, b2⟩ := h'.2.2 hs
  rcases b1 with b1 | b1
  · rw [b1] at b2; cases b2
  · have e1 : c.g u = 0 := by rw [← h.1, b1]; ring
    rw [u2, c.g_other] at e1
    have g0 : c.g (c.cand s) ≠ 0 := fun g => hs (by rw [g]; exact IsSquare.zero)
    have s0 : s = 0 := by
      rcases mul_eq_zero.mp e1 with e | e
      · rcases mul_eq_zero.mp e with e | e
        · exact absurd e (two_ne_zero_pN c.fld)
        · exact pow_eq_zero_iff (two_ne_zero) |>.mp e
      · exact absurd e g0
    have h2 := c.cand_eq s
    rw [s0] at h2 u2
    refine c.cand_ne_zero r ?_
    rw [← u1, u2]
    linear_combination -h2

theorem mapped_inj {r s u v : c.K} (h : c.Mapped r u v) (h' : c.Mapped s u v) : s = r ∨ s = -r := by
  by_cases hr : IsSquare (c.g (c.cand r))
  · by_cases hs : IsSquare (c.g (c.cand s))
    · exact c.cand_inj ((h.2.1 hr).1.symm.trans (h'.2.1 hs).1)
    · exact (c.mapped_mixed h h' hr hs).elim
  · by_cases hs : IsSquare (c.g (c.cand s))
    · exact (c.mapped_mixed h' h hs hr).elim
    · have := (h.2.2 hr).1.symm.trans (h'.2.2 hs).1
      exact c.cand_inj (sub_right_injective this)

theorem leBytes_inj {x y : c.K} (h : leBytes c.fld.nbytes x.val = leBytes c.fld.nbytes y.val) : x = y :=
  (received_leBytes x).1.symm.trans ((congrArg c.received h).trans (received_leBytes y).1)

/-- The image of a map whose fibres are pairs of opposite elements (helper lemma). -/
theorem card_range_even {F α : Type} [Field F] [Fintype F] [DecidableEq F] [DecidableEq α] (h2 : (2 : F) ≠ 0) (f : F → α)
    (hf : ∀ r s, f r = f s ↔ s = r ∨ s = -r) : 2 * (Finset.univ.image f).card = Fintype.card F + 1 := by
  have h := Finset.card_eq_sum_card_image f (Finset.univ : Finset F)
  have h0 : f 0 ∈ Finset.univ.image f := Finset.mem_image_of_mem f (Finset.mem_univ _)
  rw [← Finset.add_sum_erase _ _ h0] at h
  have e0 : (Finset.univ.filter fun r => f r = f 0).card = 1 := by
    rw [Finset.card_eq_one]
    refine ⟨0, Finset.ext fun r => ?_⟩
    rw [Finset.mem_filter, Finset.mem_singleton, hf]
    constructor
    · rintro ⟨-, h | h⟩
      · exact h.symm
      · exact neg_eq_zero.mp h.symm
    · rintro rfl
      exact ⟨Finset.mem_univ _, .inl rfl⟩
  have e1 : ∀ b ∈ (Finset.univ.image f).erase (f 0), (Finset.univ.filter fun r => f r = b).card = 2 := by
    intro b hb
    obtain ⟨hb0, hb⟩ := Finset.mem_erase.mp hb
    obtain ⟨r, -, rfl⟩ := Finset.mem_image.mp hb
    have hr : r ≠ 0 := fun h => hb0 (by rw [h])
    rw [Finset.card_eq_two]
    refine ⟨r, -r, fun h => hr ?_, Finset.ext fun s => ?_⟩
    · have : 2 * r = 0 := by linear_combination h
      exact (mul_eq_zero.mp this).resolve_left h2
    · rw [Finset.mem_filter, Finset.mem_insert, Finset.mem_singleton, hf]
      constructor
      · rintro ⟨-, h | h⟩
        · exact .inl h.symm
        · exact .inr (by rw [h, neg_neg])
      · rintro (h | h)
        · exact ⟨Finset.mem_univ _, .inl h.symm⟩
        · exact ⟨Finset.mem_univ _, .inr (by rw [h, neg_neg])⟩
  rw [e0, Finset.sum_congr rfl e1, Finset.sum_const, Finset.card_erase_of_mem h0, Finset.card_univ, smul_eq_mul] at h
  have := Finset.card_pos.mpr ⟨_, h0⟩
  omega

end Mont

variable (c : Mont)

/-- C89: whatever is received, the client returns in all builds the same: the first candidate `x = -A / (1 + 2 r²)` with an odd second
coordinate if `x³ + A x² + x` is a square, otherwise `-A - x` with an even one, and this is a point of the curve. -/
theorem C89_point {rs : List Int} (hr : (Op.bytes rs).Valid c.fld) : ∃ u v : c.K,
    (∀ w, (c.elligator rs).text (src c.fld) w 12 c.fld true = .ok (leBytes c.fld.nbytes u.val, leBytes c.fld.nbytes v.val)) ∧
    c.curve.Nonsingular u v ∧
    let x : c.K := -c.A / (1 + 2 * c.received rs ^ 2)
    (IsSquare (x ^ 3 + c.A * x ^ 2 + x) → u = x ∧ (v.val.testBit 0 = true ∨ v = 0)) ∧
    (¬ IsSquare (x ^ 3 + c.A * x ^ 2 + x) → u = -c.A - x ∧ v.val.testBit 0 = false) := by
  obtain ⟨u, v, h1, h2⟩ := c.exists_mapped rs
  refine ⟨u, v, fun w => by rw [C59_client_normalizing c.fld w _ (c.elligator_uses hr), h2], ?_, h1.2⟩
  have h3 := (C68_montgomery_model c one_ne_zero u v).2 (by rw [one_mul]; exact h1.1)
  rwa [one_mul, one_pow, one_mul, show c.twist 1 = c.curve by simp only [Mont.curve, Mont.twist, one_mul, one_pow]] at h3

/-- C89: two byte strings give the same point just if they stand for the same residue or for opposite ones. -/
theorem C89_same {rs ss : List Int} (hr : (Op.bytes rs).Valid c.fld) (hs : (Op.bytes ss).Valid c.fld) (w w' : World) :
    (c.elligator rs).text (src c.fld) w 12 c.fld true = (c.elligator ss).text (src c.fld) w' 12 c.fld true ↔
      c.received ss = c.received rs ∨ c.received ss = -c.received rs := by
  obtain ⟨u, v, h1, h2⟩ := c.exists_mapped rs
  obtain ⟨u', v', g1, g2⟩ := c.exists_mapped ss
  rw [C59_client_normalizing c.fld w _ (c.elligator_uses hr), C59_client_normalizing c.fld w' _ (c.elligator_uses hs), h2, g2]
  constructor
  · intro h
    obtain ⟨e1, e2⟩ := Prod.mk.inj (Except.ok.inj h)
    obtain rfl := c.leBytes_inj e1
    obtain rfl := c.leBytes_inj e2
    exact c.mapped_inj h1 g1
  · rintro (h | h)
    · rw [h] at g1
      obtain ⟨rfl, rfl⟩ := c.mapped_unique h1 g1
      rfl
    · rw [h] at g1
      obtain ⟨rfl, rfl⟩ := c.mapped_unique (c.mapped_neg h1) g1
      rfl

/-- C89: the client reaches `(p + 1) / 2` points. -/
theorem C89_count : 2 * Set.ncard {P : c.K × c.K | ∃ rs, (Op.bytes rs).Valid c.fld ∧ ∀ w,
    (c.elligator rs).text (src c.fld) w 12 c.fld true = .ok (leBytes c.fld.nbytes P.1.val, leBytes c.fld.nbytes P.2.val)} =
      c.fld.pN + 1 := by
  have h : ∀ r : c.K, ∃ P : c.K × c.K, c.Mapped r P.1 P.2 := fun r => by
    obtain ⟨u, v, h, -⟩ := c.exists_mapped (leBytes c.fld.nbytes r.val)
    rw [(Mont.received_leBytes r).1] at h
    exact ⟨(u, v), h⟩
  choose f hf using h
  have key := Mont.card_range_even (two_ne_zero_pN c.fld) f fun r s => ⟨fun h => ?_, ?_⟩
  · rw [ZMod.card] at key
    rw [← key, ← Set.ncard_coe_finset]
    congr 2
    ext ⟨u, v⟩
    rw [Finset.mem_coe, Finset.mem_image]
    constructor
    · rintro ⟨rs, h1, h2⟩
      obtain ⟨u', v', g1, g2⟩ := c.exists_mapped rs
      have h3 := (h2 ⟨.debug, default, fun _ _ => 0⟩).symm.trans (C59_client_normalizing c.fld _ _ (c.elligator_uses h1))
      rw [g2] at h3
      obtain ⟨e1, e2⟩ := Prod.mk.inj (Except.ok.inj h3)
      obtain rfl := c.leBytes_inj e1
      obtain rfl := c.leBytes_inj e2
      exact ⟨c.received rs, Finset.mem_univ _, Prod.ext (c.mapped_unique (hf _) g1).1 (c.mapped_unique (hf _) g1).2⟩
    · rintro ⟨r, -, h1⟩
      have hv := (Mont.received_leBytes r).2
      refine ⟨leBytes c.fld.nbytes r.val, hv, fun w => ?_⟩
      obtain ⟨u', v', g1, g2⟩ := c.exists_mapped (leBytes c.fld.nbytes r.val)
      rw [(Mont.received_leBytes r).1] at g1
      have h2 := hf r
      rw [h1] at h2
      obtain ⟨rfl, rfl⟩ := c.mapped_unique h2 g1
      rw [C59_client_normalizing c.fld w _ (c.elligator_uses hv), g2]
  · have h1 := hf r
    rw [h] at h1
    exact c.mapped_inj h1 (hf s)
  · rintro (rfl | rfl)
    · rfl
    · have h1 := c.mapped_unique (c.mapped_neg (hf r)) (hf (-r))
      exact Prod.ext h1.1 h1.2

/-! ### Cases -/

/-- Zero is mapped to a point with first coordinate `-A`, or to `(0, 0)`. -/
example (w : World) : (c.elligator (leBytes c.fld.nbytes (0 : c.K).val)).text (src c.fld) w 12 c.fld true =
      .ok (leBytes c.fld.nbytes (0 : c.K).val, leBytes c.fld.nbytes (0 : c.K).val) ∨
    ∃ v : c.K, (c.elligator (leBytes c.fld.nbytes (0 : c.K).val)).text (src c.fld) w 12 c.fld true =
      .ok (leBytes c.fld.nbytes (-(c.A : c.K)).val, leBytes c.fld.nbytes v.val) := by
  obtain ⟨u, v, h1, h2⟩ := c.exists_mapped (leBytes c.fld.nbytes (0 : c.K).val)
  rw [C59_client_normalizing c.fld w _ (c.elligator_uses (Mont.received_leBytes 0).2), h2]
  rw [(Mont.received_leBytes 0).1] at h1
  have e : c.cand 0 = -(c.A : c.K) := by
    have := c.cand_eq 0
    linear_combination this
  by_cases hs : IsSquare (c.g (c.cand 0))
  · right
    rw [(h1.2.1 hs).1, e]
    exact ⟨v, rfl⟩
  · left
    have hu := (h1.2.2 hs).1
    rw [e, sub_self] at hu
    have hv := h1.1
    rw [hu, c.g_zero] at hv
    rw [hu, pow_eq_zero_iff two_ne_zero |>.mp hv]

/-- One and minus one are mapped to the same point, one and two are not. -/
example (w : World) :
    (c.elligator (leBytes c.fld.nbytes (1 : c.K).val)).text (src c.fld) w 12 c.fld true =
      (c.elligator (leBytes c.fld.nbytes (-1 : c.K).val)).text (src c.fld) w 12 c.fld true ∧
    (c.elligator (leBytes c.fld.nbytes (1 : c.K).val)).text (src c.fld) w 12 c.fld true ≠
      (c.elligator (leBytes c.fld.nbytes (2 : c.K).val)).text (src c.fld) w 12 c.fld true := by
  rw [Ne, C89_same c (Mont.received_leBytes 1).2 (Mont.received_leBytes (-1)).2, C89_same c (Mont.received_leBytes 1).2 (Mont.received_leBytes 2).2,
    (Mont.received_leBytes 1).1, (Mont.received_leBytes (-1)).1, (Mont.received_leBytes 2).1]
  refine ⟨.inr rfl, ?_⟩
  rintro (h | h)
  · exact one_ne_zero (by linear_combination h : (1 : c.K) = 0)
  · have h1 : ((3 : Int) : c.K) = ((0 : Int) : c.K) := by push_cast; linear_combination h
    rw [← Fld.modEq_iff] at h1
    revert h1
    clear h
    cases c <;> decide +kernel

/-- Strings that are longer than needed, with unused bits set, are mapped, too. -/
example (w : World) : ∃ P, (Mont.curve25519.elligator (List.replicate 40 255)).text (src .e255_19) w 12 .e255_19 true = .ok P := by
  obtain ⟨u, v, h, -⟩ := C89_point .curve25519 (rs := List.replicate 40 255) ⟨by simp [IsBytes], by decide, nofun⟩
  exact ⟨_, h w⟩

end Verif

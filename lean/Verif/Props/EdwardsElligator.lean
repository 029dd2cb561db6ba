import Verif.Props.LegendrePoints
import Verif.Props.Elligator
import Mathlib.Algebra.CubicDiscriminant

/-!
# Property C91: a map of residues to points of the Edwards curves

Elligator 2 with the non-square -1, on the Montgomery form of the curve with `A = 2 (1 + d) / (1 - d)`, followed by the map
`y = (u - 1) / (u + 1)` to the Edwards form and the decoding of `y`; a client of the field types.  On Curve1174, where some powers are wrong
(C85), it is right for all residues but a few.
-/

namespace Verif
open Fld FieldCode Rust

/-- The registers: `r`, 0, `d`, 1, `1 - d`, `1 + d`, `2 (1 + d)`, `r²`, `1 - r²`, `(1 - d) (1 - r²)`, `-2 (1 + d)`, `u = -A / (1 - r²)`, `r² u`,
`-r² u`, `u²`, `u² + 1`, `(1 - d) (u² + 1)`, `2 (1 + d) u`, their sum, `(1 - d) (u³ + A u² + u)`, its Legendre symbol, -1; then the chosen `u`,
`u - 1`, `u + 1`, `y`, `y²`, `1 - y²`, `d y²`, `1 - d y²`, `x²`, the root, and the opposite of the root. -/
def Crv.elligator (c : Crv) (rs : List Int) : Client (List Int × List Int) :=
  .step (.bytes rs) <| .step .zero <| .step (.addI 1 c.dInt) <| .step .one <| .step (.sub 3 2) <| .step (.add 3 2) <| .step (.add 5 5) <|
  .step (.square 0) <| .step (.sub 3 7) <| .step (.mul 4 8) <| .step (.sub 1 6) <| .step (.div 10 9) <| .step (.mul 7 11) <|
  .step (.sub 1 12) <| .step (.square 11) <| .step (.add 14 3) <| .step (.mul 4 15) <| .step (.mul 6 11) <| .step (.add 16 17) <|
  .step (.mul 18 11) <| .step (.legendre 19) <| .step .mOne <| .eq 20 21 fun n =>
  .step (.select n 13 11) <| .step (.sub 22 3) <| .step (.add 22 3) <| .step (.div 23 24) <| .step (.square 25) <| .step (.sub 3 26) <|
  .step (.mul 2 26) <| .step (.sub 3 28) <| .step (.div 27 29) <| .step (.sqrt 30) <| .step (.sub 1 31) <| .bit 31 0 fun b =>
  .packed (if b = !n then 31 else 32) fun xs => .packed 25 fun ys => .done (xs, ys)

namespace Crv
variable (c : Crv)

theorem elligator_uses {rs : List Int} (hr : (Op.bytes rs).Valid c.fld) (P : Op → Prop) (h : ∀ o, P o) : (c.elligator rs).Uses c.fld P := by
  have hd : IsI32 c.dInt := by cases c <;> exact ⟨by decide, by decide⟩
  have hb : 0 < c.fld.L * c.fld.k := by cases c <;> decide
  have hr' : IsBytes rs ∧ c.fld.nbytes ≤ rs.length ∧ (c.fld = .e383_187 → leVal (rs.take c.fld.nbytes) < 2 ^ c.fld.n) := hr
  simp only [Crv.elligator, Client.Uses, Op.Valid, h, hd, hb, hr'.1, hr'.2.1, implies_true, true_and, and_true]
  exact fun h' => hr'.2.2 h'

theorem elligator_text (hc : c ≠ .curve1174) {rs : List Int} (hr : (Op.bytes rs).Valid c.fld) (w : World) :
    (c.elligator rs).text (src c.fld) w 12 c.fld true = .ok ((c.elligator rs).ideal c.fld []) := by
  have h : c.fld ≠ .e251_9 := by revert hc; cases c <;> decide
  exact C59_client_normalizing c.fld w _ (c.elligator_uses hr _ fun _ h' => absurd h' h)

/-- The coefficient of the Montgomery form. -/
noncomputable def A : c.K := 2 * (1 + c.d) / (1 - c.d)

/-- The polynomial of the Montgomery form `(1 - d) v² = u³ + A u² + u`, up to squares. -/
noncomputable def g (u : c.K) : c.K := (1 - c.d) * (u ^ 3 + c.A * u ^ 2 + u)

/-- The first candidate. -/
noncomputable def cand (r : c.K) : c.K := -c.A / (1 - r ^ 2)

theorem one_sub_d_ne : 1 - c.d ≠ 0 := fun h => c.d_nonsquare ⟨1, by linear_combination -h⟩

theorem A_eq : c.A * (1 - c.d) = 2 * (1 + c.d) := div_mul_cancel₀ _ c.one_sub_d_ne

theorem A_ne : c.A ≠ 0 := by
  refine div_ne_zero (mul_ne_zero (two_ne_zero_pN c.fld) fun h => ?_) c.one_sub_d_ne
  have h1 : ((1 + c.dInt : Int) : c.K) = ((0 : Int) : c.K) := by push_cast; exact h
  rw [← Fld.modEq_iff] at h1
  revert h1
  cases c <;> decide +kernel

theorem neg_one_nonsquare : ¬ IsSquare (-1 : c.K) := by
  rw [ZMod.exists_sq_eq_neg_one_iff]
  cases c <;> decide +kernel

theorem nonsquare_mul {a b : c.K} (ha : ¬ IsSquare a) (hb : ¬ IsSquare b) : IsSquare (a * b) := by
  have a0 : a ≠ 0 := by rintro rfl; exact ha IsSquare.zero
  have b0 : b ≠ 0 := by rintro rfl; exact hb IsSquare.zero
  rw [← quadraticChar_one_iff_isSquare (mul_ne_zero a0 b0), map_mul, quadraticChar_neg_one_iff_not_isSquare.2 ha,
    quadraticChar_neg_one_iff_not_isSquare.2 hb]
  rfl

theorem g_zero : c.g 0 = 0 := by unfold g; ring

theorem cand_eq {r : c.K} (h : 1 - r ^ 2 ≠ 0) : c.cand r * (1 - r ^ 2) = -c.A := div_mul_cancel₀ _ h

theorem other_square {r : c.K} (h : ¬ IsSquare (c.g (c.cand r))) : IsSquare (c.g (-c.A - c.cand r)) := by
  have h1 : 1 - r ^ 2 ≠ 0 := fun h1 => h (by rw [cand, h1, div_zero, c.g_zero]; exact IsSquare.zero)
  have h2 := c.cand_eq h1
  have h3 : c.g (-c.A - c.cand r) = -1 * c.g (c.cand r) * r ^ 2 := by
    unfold g
    generalize c.cand r = u at *
    have hA : c.A = -(u * (1 - r ^ 2)) := by linear_combination h2
    rw [hA]
    ring
  rw [h3]
  exact (c.nonsquare_mul c.neg_one_nonsquare h).mul ⟨r, by ring⟩

/-- The coordinate on the Edwards curve. -/
noncomputable def toY (u : c.K) : c.K := (u - 1) / (u + 1)

/-- The Montgomery form has no point with `u = -1` (helper lemma). -/
theorem add_one_ne {u : c.K} (h : IsSquare (c.g u)) : u + 1 ≠ 0 := by
  intro h1
  obtain rfl : u = -1 := by linear_combination h1
  obtain ⟨s, hs⟩ := h
  have h2 : (2 : c.K) ≠ 0 := two_ne_zero_pN c.fld
  refine c.d_nonsquare ⟨s / 2, ?_⟩
  field_simp
  have := c.A_eq
  unfold g at hs
  linear_combination hs - this

theorem toY_eq {u : c.K} (h : IsSquare (c.g u)) : c.toY u * (u + 1) = u - 1 := div_mul_cancel₀ _ (c.add_one_ne h)

theorem toY_inj {u v : c.K} (hu : IsSquare (c.g u)) (hv : IsSquare (c.g v)) (h : c.toY u = c.toY v) : u = v := by
  have h1 := c.toY_eq hu
  have h2 := c.toY_eq hv
  have h3 : (2 : c.K) ≠ 0 := two_ne_zero_pN c.fld
  rw [h] at h1
  refine mul_left_cancel₀ h3 ?_
  linear_combination (v + 1) * -h1 + (u + 1) * h2

theorem toY_square {u : c.K} (h : IsSquare (c.g u)) : IsSquare ((1 - c.toY u * c.toY u) * (1 - c.d * (c.toY u * c.toY u))⁻¹) := by
  have h0 := c.add_one_ne h
  have h1 := c.toY_eq h
  have h2 := c.den_ne (c.toY u)
  obtain ⟨s, hs⟩ := h
  generalize c.toY u = y at *
  have e1 : (1 - y * y) * (u + 1) ^ 2 = 4 * u := by linear_combination -(y * (u + 1) + (u - 1)) * h1
  have e2 : (1 - c.d * (y * y)) * (u + 1) ^ 2 = (1 - c.d) * (u ^ 2 + c.A * u + 1) := by
    linear_combination -c.d * (y * (u + 1) + (u - 1)) * h1 - u * c.A_eq
  have e3 : (1 - c.d * (y * y)) * (u + 1) ^ 2 ≠ 0 := mul_ne_zero h2 (pow_ne_zero 2 h0)
  refine ⟨2 * s / ((1 - c.d * (y * y)) * (u + 1) ^ 2), ?_⟩
  have e4 : s * s = u * ((1 - c.d * (y * y)) * (u + 1) ^ 2) := by
    unfold g at hs
    linear_combination -hs - u * e2
  rw [div_mul_div_comm, eq_div_iff (mul_ne_zero e3 e3)]
  have e5 : (1 - y * y) * (1 - c.d * (y * y))⁻¹ * ((1 - c.d * (y * y)) * (u + 1) ^ 2 * ((1 - c.d * (y * y)) * (u + 1) ^ 2)) =
      ((1 - c.d * (y * y))⁻¹ * (1 - c.d * (y * y))) * ((1 - y * y) * (u + 1) ^ 2) * ((1 - c.d * (y * y)) * (u + 1) ^ 2) := by
    generalize 1 - c.d * (y * y) = D
    ring
  rw [e5, inv_mul_cancel₀ h2, e1]
  linear_combination -4 * e4

theorem cand_reg (r : c.K) : -(1 + c.d + (1 + c.d)) * ((1 - c.d) * (1 - r * r))⁻¹ = c.cand r := by
  rw [cand, A, mul_inv, div_eq_mul_inv, div_eq_mul_inv, pow_two]
  ring

theorem g_reg (u : c.K) : ((1 - c.d) * (u * u + 1) + (1 + c.d + (1 + c.d)) * u) * u = c.g u := by
  unfold g
  linear_combination -u ^ 2 * c.A_eq

theorem other_reg {r : c.K} (h : ¬ IsSquare (c.g (c.cand r))) : -(r * r * c.cand r) = -c.A - c.cand r := by
  have h1 : 1 - r ^ 2 ≠ 0 := fun h1 => h (by rw [cand, h1, div_zero, c.g_zero]; exact IsSquare.zero)
  linear_combination c.cand_eq h1

/-- What the map should be: the first candidate with an odd `x`, or the other one with an even `x`. -/
def Mapped (r : c.K) (P : c.Point) : Prop :=
  (IsSquare (c.g (c.cand r)) → P.y = c.toY (c.cand r) ∧ (P.x.val.testBit 0 = true ∨ P.x = 0)) ∧
    (¬ IsSquare (c.g (c.cand r)) → P.y = c.toY (-c.A - c.cand r) ∧ P.x.val.testBit 0 = false)

theorem exists_mapped (rs : List Int) : ∃ P : c.Point, c.Mapped (c.received rs) P ∧
    (c.elligator rs).ideal c.fld [] = (leBytes c.fld.nbytes P.x.val, leBytes c.fld.nbytes P.y.val) := by
  have hr : (((leVal (rs.take c.fld.nbytes) % 2 ^ c.fld.n : Int)) : ZMod c.fld.pN) = c.received rs := rfl
  have hd : ((c.dInt : Int) : ZMod c.fld.pN) = c.d := rfl
  simp only [Crv.elligator, Client.ideal, Op.ideal, List.nil_append, List.cons_append, List.getD_cons_zero, List.getD_cons_succ, hr, hd,
    zero_add, zero_sub]
  generalize c.received rs = r
  have hx := c.cand_reg r
  have hg := c.g_reg (c.cand r)
  have hy : ∀ u : c.K, (u - 1) * (u + 1)⁻¹ = c.toY u := fun u => (div_eq_mul_inv _ _).symm
  have hm : (-1 : c.K) ≠ 1 := fun h => two_ne_zero_pN c.fld (by linear_combination -h)
  simp only [hx, hg, hy]
  have key : ∀ (n : Bool) (u : c.K), IsSquare (c.g u) → ∃ P : c.Point, P.y = c.toY u ∧ (P.x.val.testBit 0 = !n ∨ P.x = 0) ∧
      P.x = (if (c.fld.root ((1 - c.toY u * c.toY u) * (1 - c.d * (c.toY u * c.toY u))⁻¹)).val.testBit 0 = !n then
        c.fld.root ((1 - c.toY u * c.toY u) * (1 - c.d * (c.toY u * c.toY u))⁻¹) else
        -c.fld.root ((1 - c.toY u * c.toY u) * (1 - c.d * (c.toY u * c.toY u))⁻¹)) := by
    intro n u hu
    have h1 := (C45_root c.fld (c.toY_square hu)).1
    have h2 := c.den_ne (c.toY u)
    generalize c.fld.root ((1 - c.toY u * c.toY u) * (1 - c.d * (c.toY u * c.toY u))⁻¹) = x at *
    obtain ⟨P, p1, p2, p3⟩ := c.signed_on (x := x) (y := c.toY u) (!n) (by rw [h1, mul_assoc, inv_mul_cancel₀ h2, mul_one])
    exact ⟨P, p2, p3, p1⟩
  by_cases hs : IsSquare (c.g (c.cand r))
  · have hl : ¬ (if c.g (c.cand r) = 0 then (0 : c.K) else if IsSquare (c.g (c.cand r)) then 1 else -1) = -1 := by
      rw [if_pos hs]
      split
      · exact fun h => one_ne_zero (neg_eq_zero.mp h.symm)
      · exact hm.symm
    simp only [hl, decide_false, Bool.false_eq_true, if_false]
    obtain ⟨P, p1, p2, p3⟩ := key false _ hs
    refine ⟨P, ⟨fun _ => ⟨p1, p2⟩, fun h => absurd hs h⟩, ?_⟩
    rw [p1, p3]
    generalize c.fld.root ((1 - c.toY (c.cand r) * c.toY (c.cand r)) * (1 - c.d * (c.toY (c.cand r) * c.toY (c.cand r)))⁻¹) = x
    by_cases hb : x.val.testBit 0 = !false
    · rw [if_pos hb, if_pos hb]; rfl
    · rw [if_neg hb, if_neg hb]; rfl
  · have h0 : c.g (c.cand r) ≠ 0 := fun h => hs (by rw [h]; exact IsSquare.zero)
    simp only [h0, hs, if_false, decide_true, if_true, c.other_reg hs]
    obtain ⟨P, p1, p2, p3⟩ := key true _ (c.other_square hs)
    refine ⟨P, ⟨fun h => absurd h hs, fun _ => ⟨p1, ?_⟩⟩, ?_⟩
    · rcases p2 with p2 | p2
      · exact p2
      · rw [p2, ZMod.val_zero, Nat.zero_testBit]
    · rw [p1, p3]
      generalize c.fld.root ((1 - c.toY (-c.A - c.cand r) * c.toY (-c.A - c.cand r)) *
        (1 - c.d * (c.toY (-c.A - c.cand r) * c.toY (-c.A - c.cand r)))⁻¹) = x
      by_cases hb : x.val.testBit 0 = !true
      · rw [if_pos hb, if_pos hb]; rfl
      · rw [if_neg hb, if_neg hb]; rfl

/-- The `u` of a mapped point (helper lemma). -/
theorem mapped_cases {r : c.K} {P : c.Point} (h : c.Mapped r P) :
    (IsSquare (c.g (c.cand r)) ∧ P.y = c.toY (c.cand r) ∧ (P.x.val.testBit 0 = true ∨ P.x = 0)) ∨
    (¬ IsSquare (c.g (c.cand r)) ∧ IsSquare (c.g (-c.A - c.cand r)) ∧ P.y = c.toY (-c.A - c.cand r) ∧ P.x.val.testBit 0 = false) := by
  by_cases hs : IsSquare (c.g (c.cand r))
  · exact .inl ⟨hs, h.1 hs⟩
  · exact .inr ⟨hs, c.other_square hs, h.2 hs⟩

theorem cand_neg (r : c.K) : c.cand (-r) = c.cand r := by unfold cand; rw [neg_sq]

theorem mapped_neg {r : c.K} {P : c.Point} (h : c.Mapped r P) : c.Mapped (-r) P := by
  unfold Mapped at *
  rwa [c.cand_neg]

theorem cand_inj {r s : c.K} (hr : 1 - r ^ 2 ≠ 0) (hs : 1 - s ^ 2 ≠ 0) (h : c.cand r = c.cand s) : s = r ∨ s = -r := by
  have h1 := c.cand_eq hr
  have h2 := c.cand_eq hs
  have h3 : c.cand s ≠ 0 := div_ne_zero (neg_ne_zero.mpr c.A_ne) hs
  rw [h] at h1
  have h4 : 1 - r ^ 2 = 1 - s ^ 2 := mul_left_cancel₀ h3 (h1.trans h2.symm)
  exact mul_self_eq_mul_self_iff.1 (by linear_combination h4)

theorem mapped_unique {r : c.K} {P Q : c.Point} (h : c.Mapped r P) (h' : c.Mapped r Q) : P.x = Q.x ∧ P.y = Q.y := by
  have key : P.y = Q.y → (P.x.val.testBit 0 = Q.x.val.testBit 0 ∨ P.x = 0 ∨ Q.x = 0) → P.x = Q.x := by
    intro hy h
    have e : P.x * P.x = Q.x * Q.x := by
      refine mul_right_cancel₀ (c.den_ne Q.y) ?_
      have p := P.on
      have q := Q.on
      rw [hy] at p
      linear_combination p - q
    rcases mul_self_eq_mul_self_iff.1 e with e | e
    · exact e
    · by_cases h0 : Q.x = 0
      · rw [e, h0, neg_zero]
      · rcases h with h | h | h
        · rw [e, c.neg_bit h0] at h
          cases hb : Q.x.val.testBit 0 <;> rw [hb] at h <;> cases h
        · rw [h] at e
          exact absurd (neg_eq_zero.mp e.symm) h0
        · exact absurd h h0
  by_cases hs : IsSquare (c.g (c.cand r))
  · obtain ⟨a, b⟩ := h.1 hs
    obtain ⟨a', b'⟩ := h'.1 hs
    refine ⟨key (a.trans a'.symm) ?_, a.trans a'.symm⟩
    rcases b with b | b
    · rcases b' with b' | b'
      · exact .inl (b.trans b'.symm)
      · exact .inr (.inr b')
    · exact .inr (.inl b)
  · obtain ⟨a, b⟩ := h.2 hs
    obtain ⟨a', b'⟩ := h'.2 hs
    exact ⟨key (a.trans a'.symm) (.inl (b.trans b'.symm)), a.trans a'.symm⟩

/-- The same point from a first and from another candidate is impossible (helper lemma). -/
theorem mapped_mixed {r : c.K} (hr : 1 - r ^ 2 ≠ 0) {P : c.Point} (h1 : IsSquare (c.g (c.cand r))) (h2 : P.y = c.toY (c.cand r))
    (h3 : P.x.val.testBit 0 = true ∨ P.x = 0) (h4 : P.x.val.testBit 0 = false) : False := by
  rcases h3 with h3 | h3
  · rw [h3] at h4; cases h4
  · have h5 := P.on
    have h6 := c.toY_eq h1
    rw [h3, h2] at h5
    have h7 : (2 : c.K) ≠ 0 := two_ne_zero_pN c.fld
    generalize c.toY (c.cand r) = y at *
    have c0 : c.cand r ≠ 0 := div_ne_zero (neg_ne_zero.mpr c.A_ne) hr
    have h8 : y * y = 1 * 1 := by linear_combination h5
    rcases mul_self_eq_mul_self_iff.1 h8 with h8 | h8 <;> rw [h8] at h6
    · exact h7 (by linear_combination h6)
    · exact mul_ne_zero h7 c0 (by linear_combination -h6)

theorem mapped_inj {r s : c.K} (hr : 1 - r ^ 2 ≠ 0) (hs : 1 - s ^ 2 ≠ 0) {P : c.Point} (h : c.Mapped r P) (h' : c.Mapped s P) :
    s = r ∨ s = -r := by
  rcases c.mapped_cases h with ⟨a1, a2, a3⟩ | ⟨a1, a2, a3, a4⟩ <;> rcases c.mapped_cases h' with ⟨b1, b2, b3⟩ | ⟨b1, b2, b3, b4⟩
  · exact c.cand_inj hr hs (c.toY_inj a1 b1 (a2.symm.trans b2))
  · exact (c.mapped_mixed hr a1 a2 a3 b4).elim
  · exact (c.mapped_mixed hs b1 b2 b3 a4).elim
  · exact c.cand_inj hr hs (sub_right_injective (c.toY_inj a2 b2 (a3.symm.trans b3)))

/-- The chosen candidate. -/
noncomputable def chosen (r : c.K) : c.K := by
  classical exact if IsSquare (c.g (c.cand r)) then c.cand r else -c.A - c.cand r

theorem chosen_square (r : c.K) : IsSquare (c.g (c.chosen r)) := by
  unfold chosen
  split
  · assumption
  · next h => exact c.other_square h

/-- When the client raises no element of the set to a power (helper lemma). -/
theorem elligator_avoids {S : Finset c.K} {rs : List Int} (h1 : (1 - c.d) * (1 - c.received rs * c.received rs) ∉ S)
    (h2 : c.g (c.cand (c.received rs)) ∉ S) (h3 : c.chosen (c.received rs) + 1 ∉ S)
    (h4 : 1 - c.d * (c.toY (c.chosen (c.received rs)) * c.toY (c.chosen (c.received rs))) ∉ S)
    (h5 : (1 - c.toY (c.chosen (c.received rs)) * c.toY (c.chosen (c.received rs))) *
      (1 - c.d * (c.toY (c.chosen (c.received rs)) * c.toY (c.chosen (c.received rs))))⁻¹ ∉ S) :
    (c.elligator rs).Avoids c.fld S [] := by
  have hr : (((leVal (rs.take c.fld.nbytes) % 2 ^ c.fld.n : Int)) : ZMod c.fld.pN) = c.received rs := rfl
  have hd : ((c.dInt : Int) : ZMod c.fld.pN) = c.d := rfl
  have hx := c.cand_reg (c.received rs)
  have hg := c.g_reg (c.cand (c.received rs))
  have hy : ∀ u : c.K, (u - 1) * (u + 1)⁻¹ = c.toY u := fun u => (div_eq_mul_inv _ _).symm
  simp only [Crv.elligator, Client.Avoids, Op.ideal, Op.powArg, List.nil_append, List.cons_append, List.getD_cons_zero, List.getD_cons_succ,
    hr, hd, zero_add, zero_sub, hx, hg, hy, reduceCtorEq, false_implies, implies_true, true_and, and_true, Option.some.injEq, forall_eq']
  generalize c.received rs = r at *
  have hu : (if (if c.g (c.cand r) = 0 then (0 : c.K) else if IsSquare (c.g (c.cand r)) then 1 else -1) = -1 then -(r * r * c.cand r) else c.cand r) =
      c.chosen r := by
    have hm : (-1 : c.K) ≠ 1 := fun h => two_ne_zero_pN c.fld (by linear_combination -h)
    unfold chosen
    by_cases hs : IsSquare (c.g (c.cand r))
    · rw [if_pos hs, if_pos hs, if_neg]
      split
      · exact fun h => one_ne_zero (neg_eq_zero.mp h.symm)
      · exact hm.symm
    · have h0 : c.g (c.cand r) ≠ 0 := fun h => hs (by rw [h]; exact IsSquare.zero)
      rw [if_neg h0, if_neg hs, if_neg hs, if_pos rfl, c.other_reg hs]
  simp only [decide_eq_true_eq, hu]
  exact ⟨h1, h2, h3, h4, h5⟩

/-- Preimages under a function that is injective up to signs (helper lemma). -/
theorem card_fibre_on {F : Type} [Field F] [DecidableEq F] (T S : Finset F) (g : F → F)
    (hg : ∀ y ∈ T, ∀ z ∈ T, g y = g z → y = z ∨ y = -z) : (T.filter fun y => g y ∈ S).card ≤ 2 * S.card := by
  refine Finset.card_le_mul_card_image_of_maps_to (f := g) (fun y hy => (Finset.mem_filter.mp hy).2) 2 fun b _ => ?_
  rcases Finset.eq_empty_or_nonempty ((T.filter fun y => g y ∈ S).filter fun y => g y = b) with h | ⟨z, hz⟩
  · rw [h]; exact Nat.zero_le _
  · refine (Finset.card_le_card (t := {z, -z}) fun y hy => ?_).trans Finset.card_le_two
    rw [Finset.mem_insert, Finset.mem_singleton]
    obtain ⟨hz1, hz2⟩ := Finset.mem_filter.mp hz
    obtain ⟨hy1, hy2⟩ := Finset.mem_filter.mp hy
    exact hg y (Finset.mem_filter.mp hy1).1 z (Finset.mem_filter.mp hz1).1 (hy2.trans hz2.symm)

theorem cand_pm {r s : c.K} (h : c.cand r = c.cand s) : r = s ∨ r = -s := by
  by_cases hr : 1 - r ^ 2 = 0
  · have hs : 1 - s ^ 2 = 0 := by
      by_contra hs
      rw [cand, hr, div_zero] at h
      exact div_ne_zero (neg_ne_zero.mpr c.A_ne) hs h.symm
    exact mul_self_eq_mul_self_iff.1 (by linear_combination hs - hr)
  · have hs : 1 - s ^ 2 ≠ 0 := by
      intro hs
      have e : c.cand s = 0 := by rw [cand, hs, div_zero]
      exact div_ne_zero (neg_ne_zero.mpr c.A_ne) hr (h.trans e)
    exact c.cand_inj hs hr h.symm

/-- At most four residues for every value of the chosen candidate (helper lemma). -/
theorem card_chosen (S : Finset c.K) (h : c.K → c.K)
    (hh : ∀ u v, IsSquare (c.g u) → IsSquare (c.g v) → h u = h v → u = v) :
    (Finset.univ.filter fun r : c.K => h (c.chosen r) ∈ S).card ≤ 4 * S.card := by
  classical
  have k1 := card_fibre_on (Finset.univ.filter fun r : c.K => IsSquare (c.g (c.cand r))) S (fun r => h (c.chosen r)) fun y hy z hz e => by
    have e' := hh _ _ (c.chosen_square y) (c.chosen_square z) e
    unfold chosen at e'
    rw [if_pos (Finset.mem_filter.mp hy).2, if_pos (Finset.mem_filter.mp hz).2] at e'
    exact c.cand_pm e'
  have k2 := card_fibre_on (Finset.univ.filter fun r : c.K => ¬ IsSquare (c.g (c.cand r))) S (fun r => h (c.chosen r)) fun y hy z hz e => by
    have e' := hh _ _ (c.chosen_square y) (c.chosen_square z) e
    unfold chosen at e'
    rw [if_neg (Finset.mem_filter.mp hy).2, if_neg (Finset.mem_filter.mp hz).2] at e'
    exact c.cand_pm (sub_right_injective e')
  refine (Finset.card_le_card fun r hr => ?_).trans ((Finset.card_union_le _ _).trans ((Nat.add_le_add k1 k2).trans (by omega)))
  have hr := (Finset.mem_filter.mp hr).2
  simp only [Finset.mem_union, Finset.mem_filter, Finset.mem_univ, true_and]
  by_cases hs : IsSquare (c.g (c.cand r))
  · exact .inl ⟨hs, hr⟩
  · exact .inr ⟨hs, hr⟩

/-- The polynomial has each value at most three times (helper lemma). -/
theorem card_g (S : Finset c.K) : (Finset.univ.filter fun u : c.K => c.g u ∈ S).card ≤ 3 * S.card := by
  classical
  refine Finset.card_le_mul_card_image_of_maps_to (f := c.g) (fun y hy => (Finset.mem_filter.mp hy).2) 3 fun b _ => ?_
  let P : Cubic c.K := ⟨1 - c.d, (1 - c.d) * c.A, 1 - c.d, -b⟩
  refine (Finset.card_le_card (t := P.roots.toFinset) fun u hu => ?_).trans Cubic.card_roots_le
  have h := (Finset.mem_filter.mp hu).2
  rw [Multiset.mem_toFinset, Cubic.mem_roots_iff (Cubic.ne_zero_of_a_ne_zero c.one_sub_d_ne)]
  show (1 - c.d) * u ^ 3 + (1 - c.d) * c.A * u ^ 2 + (1 - c.d) * u + -b = 0
  unfold g at h
  linear_combination h

/-- The residues for which an operand of the exponentiations is in the set. -/
noncomputable def badR : Finset c.K :=
  (Finset.univ.filter fun r : c.K => (1 - c.d) * (1 - r * r) ∈ c.fld.rareSet) ∪
  (Finset.univ.filter fun r : c.K => c.g (c.cand r) ∈ c.fld.rareSet) ∪
  (Finset.univ.filter fun r : c.K => c.chosen r + 1 ∈ c.fld.rareSet) ∪
  (Finset.univ.filter fun r : c.K => 1 - c.d * (c.toY (c.chosen r) * c.toY (c.chosen r)) ∈ c.fld.rareSet) ∪
  (Finset.univ.filter fun r : c.K => (1 - c.toY (c.chosen r) * c.toY (c.chosen r)) *
    (1 - c.d * (c.toY (c.chosen r) * c.toY (c.chosen r)))⁻¹ ∈ c.fld.rareSet)

theorem badR_card : c.badR.card * 2 ^ 8 < c.fld.pN := by
  have d0 : c.d ≠ 0 := fun h => c.d_nonsquare (by rw [h]; exact IsSquare.zero)
  have d1 : c.d ≠ 1 := fun h => c.d_nonsquare (by rw [h]; exact IsSquare.one)
  generalize hS : c.fld.rareSet = S
  have k1 : (Finset.univ.filter fun r : c.K => (1 - c.d) * (1 - r * r) ∈ S).card ≤ 2 * S.card :=
    card_fibre S (fun r : c.K => (1 - c.d) * (1 - r * r)) fun y z h => by
    refine mul_self_eq_mul_self_iff.1 (mul_left_cancel₀ c.one_sub_d_ne ?_)
    have h : (1 - c.d) * (1 - y * y) = (1 - c.d) * (1 - z * z) := h
    linear_combination -h
  have k2 := (card_fibre (Finset.univ.filter fun u : c.K => c.g u ∈ S) c.cand fun y z h => c.cand_pm h).trans (Nat.mul_le_mul_left 2 (c.card_g S))
  have k3 := c.card_chosen S (fun u => u + 1) fun u v _ _ h => add_right_cancel h
  have k4 := (c.card_chosen (Finset.univ.filter fun y : c.K => 1 - c.d * (y * y) ∈ S) c.toY fun u v hu hv h => c.toY_inj hu hv h).trans
    (Nat.mul_le_mul_left 4 (card_fibre S (fun y : c.K => 1 - c.d * (y * y)) fun y z h => by
      refine mul_self_eq_mul_self_iff.1 (mul_left_cancel₀ d0 ?_)
      have h : 1 - c.d * (y * y) = 1 - c.d * (z * z) := h
      linear_combination -h))
  have k5 := (c.card_chosen (Finset.univ.filter fun y : c.K => (1 - y * y) * (1 - c.d * (y * y))⁻¹ ∈ S) c.toY fun u v hu hv h =>
    c.toY_inj hu hv h).trans (Nat.mul_le_mul_left 4 (card_fibre S (fun y : c.K => (1 - y * y) * (1 - c.d * (y * y))⁻¹) fun y z h => by
      refine mul_self_eq_mul_self_iff.1 (mul_left_cancel₀ (sub_ne_zero.mpr d1) ?_)
      have h : (1 - y * y) * (1 - c.d * (y * y))⁻¹ = (1 - z * z) * (1 - c.d * (z * z))⁻¹ := h
      rw [mul_inv_eq_iff_eq_mul₀ (c.den_ne y), mul_right_comm, eq_mul_inv_iff_mul_eq₀ (c.den_ne z)] at h
      linear_combination h))
  simp only [Finset.mem_filter, Finset.mem_univ, true_and] at k2 k4 k5
  have k6 : c.badR.card ≤ 28 * S.card := by
    rw [badR, hS]
    refine (Finset.card_union_le _ _).trans ?_
    have a1 := Finset.card_union_le ((Finset.univ.filter fun r : c.K => (1 - c.d) * (1 - r * r) ∈ S) ∪
      (Finset.univ.filter fun r : c.K => c.g (c.cand r) ∈ S) ∪ (Finset.univ.filter fun r : c.K => c.chosen r + 1 ∈ S))
      (Finset.univ.filter fun r : c.K => 1 - c.d * (c.toY (c.chosen r) * c.toY (c.chosen r)) ∈ S)
    have a2 := Finset.card_union_le ((Finset.univ.filter fun r : c.K => (1 - c.d) * (1 - r * r) ∈ S) ∪
      (Finset.univ.filter fun r : c.K => c.g (c.cand r) ∈ S)) (Finset.univ.filter fun r : c.K => c.chosen r + 1 ∈ S)
    have a3 := Finset.card_union_le (Finset.univ.filter fun r : c.K => (1 - c.d) * (1 - r * r) ∈ S)
      (Finset.univ.filter fun r : c.K => c.g (c.cand r) ∈ S)
    omega
  have k7 := c.fld.rareSet_card
  rw [hS] at k7
  refine (Nat.mul_le_mul_right _ k6).trans_lt (lt_of_le_of_lt ?_ k7)
  rw [mul_assoc, mul_comm, mul_assoc]
  refine Nat.mul_le_mul_left _ (by norm_num)

/-- The client is right for the strings that stand for this residue, in all builds. -/
def MapsRight (r : c.K) : Prop := ∃ P : c.Point,
  (∀ rs, (Op.bytes rs).Valid c.fld → c.received rs = r → ∀ w,
    (c.elligator rs).text (src c.fld) w 12 c.fld true = .ok (leBytes c.fld.nbytes P.x.val, leBytes c.fld.nbytes P.y.val)) ∧
  let a : c.K := 2 * (1 + c.d) / (1 - c.d)
  let u : c.K := -a / (1 - r ^ 2)
  (IsSquare ((1 - c.d) * (u ^ 3 + a * u ^ 2 + u)) → P.y = (u - 1) / (u + 1) ∧ (P.x.val.testBit 0 = true ∨ P.x = 0)) ∧
  (¬ IsSquare ((1 - c.d) * (u ^ 3 + a * u ^ 2 + u)) → P.y = (-a - u - 1) / (-a - u + 1) ∧ P.x.val.testBit 0 = false)

theorem bytes_of (r : c.K) : c.received (leBytes c.fld.nbytes r.val) = r ∧ (Op.bytes (leBytes c.fld.nbytes r.val)).Valid c.fld :=
  ⟨Crv.coord_leBytes c r, leBytes_isBytes _ _, (leBytes_length _ _).ge, fun h => absurd h (by cases c <;> decide)⟩

end Crv

variable (c : Crv)

/-- C91: whatever is received, the client returns in all builds the same: a point of the curve.  With `u = -A / (1 - r²)`, it has
`y = (u - 1) / (u + 1)` and an odd `x` (or zero) if `(1 - d) (u³ + A u² + u)` is a square, and otherwise the `y` of `-A - u` and an even `x`. -/
theorem C91_point (hc : c ≠ .curve1174) {rs : List Int} (hr : (Op.bytes rs).Valid c.fld) : ∃ P : c.Point,
    (∀ w, (c.elligator rs).text (src c.fld) w 12 c.fld true = .ok (leBytes c.fld.nbytes P.x.val, leBytes c.fld.nbytes P.y.val)) ∧
    let a : c.K := 2 * (1 + c.d) / (1 - c.d)
    let u : c.K := -a / (1 - c.received rs ^ 2)
    (IsSquare ((1 - c.d) * (u ^ 3 + a * u ^ 2 + u)) → P.y = (u - 1) / (u + 1) ∧ (P.x.val.testBit 0 = true ∨ P.x = 0)) ∧
    (¬ IsSquare ((1 - c.d) * (u ^ 3 + a * u ^ 2 + u)) → P.y = (-a - u - 1) / (-a - u + 1) ∧ P.x.val.testBit 0 = false) := by
  obtain ⟨P, h1, h2⟩ := c.exists_mapped rs
  exact ⟨P, fun w => by rw [c.elligator_text hc hr w, h2], h1⟩

/-- C91: two byte strings that do not stand for 1 or -1 give the same point just if they stand for the same residue or for opposite ones. -/
theorem C91_same (hc : c ≠ .curve1174) {rs ss : List Int} (hr : (Op.bytes rs).Valid c.fld) (hs : (Op.bytes ss).Valid c.fld)
    (hr1 : c.received rs ^ 2 ≠ 1) (hs1 : c.received ss ^ 2 ≠ 1) (w w' : World) :
    (c.elligator rs).text (src c.fld) w 12 c.fld true = (c.elligator ss).text (src c.fld) w' 12 c.fld true ↔
      c.received ss = c.received rs ∨ c.received ss = -c.received rs := by
  obtain ⟨P, h1, h2⟩ := c.exists_mapped rs
  obtain ⟨Q, g1, g2⟩ := c.exists_mapped ss
  rw [c.elligator_text hc hr w, c.elligator_text hc hs w', h2, g2]
  have key : (Except.ok (leBytes c.fld.nbytes P.x.val, leBytes c.fld.nbytes P.y.val) : Except Err (List Int × List Int)) =
      .ok (leBytes c.fld.nbytes Q.x.val, leBytes c.fld.nbytes Q.y.val) ↔ P.x = Q.x ∧ P.y = Q.y := by
    constructor
    · intro h
      obtain ⟨e1, e2⟩ := Prod.mk.inj (Except.ok.inj h)
      exact ⟨c.leBytes_inj e1, c.leBytes_inj e2⟩
    · rintro ⟨e1, e2⟩
      rw [e1, e2]
  rw [key]
  constructor
  · rintro ⟨e1, e2⟩
    refine c.mapped_inj (sub_ne_zero.mpr hr1.symm) (sub_ne_zero.mpr hs1.symm) h1 ?_
    unfold Crv.Mapped at g1 ⊢
    rwa [e1, e2]
  · rintro (h | h)
    · rw [h] at g1
      exact c.mapped_unique h1 g1
    · rw [h] at g1
      exact c.mapped_unique (c.mapped_neg h1) g1

/-- C91: strings that stand for 1 or -1 give the point `(0, -1)` of order two. -/
theorem C91_one (hc : c ≠ .curve1174) {rs : List Int} (hr : (Op.bytes rs).Valid c.fld) (h : c.received rs ^ 2 = 1) (w : World) :
    (c.elligator rs).text (src c.fld) w 12 c.fld true = .ok (leBytes c.fld.nbytes (0 : c.K).val, leBytes c.fld.nbytes (-1 : c.K).val) := by
  obtain ⟨P, h1, h2⟩ := c.exists_mapped rs
  rw [c.elligator_text hc hr w, h2]
  have e : c.cand (c.received rs) = 0 := by rw [Crv.cand, h, sub_self, div_zero]
  have hs : IsSquare (c.g (c.cand (c.received rs))) := by rw [e, c.g_zero]; exact IsSquare.zero
  have hy := (h1.1 hs).1
  rw [e] at hy
  have hy : P.y = -1 := by rw [hy, Crv.toY]; ring
  have hx : P.x = 0 := by
    have p := P.on
    rw [hy] at p
    have : (1 - c.d) * P.x ^ 2 = 0 := by linear_combination p
    exact pow_eq_zero_iff two_ne_zero |>.mp ((mul_eq_zero.mp this).resolve_left c.one_sub_d_ne)
  rw [hx, hy]

/-- C91: from the other residues, the client reaches `(p - 1) / 2` points. -/
theorem C91_count (hc : c ≠ .curve1174) : 2 * Set.ncard {P : c.Point | ∃ rs, (Op.bytes rs).Valid c.fld ∧ c.received rs ^ 2 ≠ 1 ∧ ∀ w,
    (c.elligator rs).text (src c.fld) w 12 c.fld true = .ok (leBytes c.fld.nbytes P.x.val, leBytes c.fld.nbytes P.y.val)} + 1 =
      c.fld.pN := by
  classical
  have ext : ∀ {P Q : c.Point}, P.x = Q.x ∧ P.y = Q.y → P = Q := fun h => EdPoint.ext h.1 h.2
  have h : ∀ r : c.K, ∃ P : c.Point, c.Mapped r P := fun r => by
    obtain ⟨P, h, -⟩ := c.exists_mapped (leBytes c.fld.nbytes r.val)
    rw [(c.bytes_of r).1] at h
    exact ⟨P, h⟩
  choose f hf using h
  have sq : ∀ {r s : c.K}, s = r ∨ s = -r → s ^ 2 = r ^ 2 := by rintro r s (rfl | rfl) <;> ring
  have key := Mont.card_range_even (two_ne_zero_pN c.fld) (fun r : c.K => if r ^ 2 = 1 then none else some (f r)) fun r s => ⟨fun h => ?_, ?_⟩
  · have e : Finset.univ.image (fun r : c.K => if r ^ 2 = 1 then none else some (f r)) =
        insert none (((Finset.univ.filter fun r : c.K => r ^ 2 ≠ 1).image f).image some) := by
      ext o
      simp only [Finset.mem_image, Finset.mem_univ, true_and, Finset.mem_insert, Finset.mem_filter]
      constructor
      · rintro ⟨r, rfl⟩
        by_cases hr : r ^ 2 = 1
        · exact .inl (if_pos hr)
        · exact .inr ⟨f r, ⟨r, hr, rfl⟩, (if_neg hr).symm⟩
      · rintro (rfl | ⟨_, ⟨r, hr, rfl⟩, rfl⟩)
        · exact ⟨1, if_pos (one_pow 2)⟩
        · exact ⟨r, if_neg hr⟩
    rw [e, Finset.card_insert_of_notMem (by simp), Finset.card_image_of_injective _ (Option.some_injective _), ZMod.card] at key
    have e2 : {P : c.Point | ∃ rs, (Op.bytes rs).Valid c.fld ∧ c.received rs ^ 2 ≠ 1 ∧ ∀ w,
        (c.elligator rs).text (src c.fld) w 12 c.fld true = .ok (leBytes c.fld.nbytes P.x.val, leBytes c.fld.nbytes P.y.val)} =
          (((Finset.univ.filter fun r : c.K => r ^ 2 ≠ 1).image f : Finset c.Point) : Set c.Point) := by
      ext P
      simp only [Set.mem_ofPred_eq, Finset.coe_image, Set.mem_image, Finset.coe_filter, Finset.mem_univ, true_and]
      constructor
      · rintro ⟨rs, h1, h0, h2⟩
        obtain ⟨Q, g1, g2⟩ := c.exists_mapped rs
        have h3 := (h2 ⟨.debug, default, fun _ _ => 0⟩).symm.trans (c.elligator_text hc h1 _)
        rw [g2] at h3
        obtain ⟨e1, e2⟩ := Prod.mk.inj (Except.ok.inj h3)
        obtain rfl := ext ⟨c.leBytes_inj e1, c.leBytes_inj e2⟩
        exact ⟨c.received rs, h0, ext (c.mapped_unique (hf _) g1)⟩
      · rintro ⟨r, h0, rfl⟩
        have hr := (c.bytes_of r).1
        refine ⟨leBytes c.fld.nbytes r.val, (c.bytes_of r).2, by rwa [hr], fun w => ?_⟩
        obtain ⟨Q, g1, g2⟩ := c.exists_mapped (leBytes c.fld.nbytes r.val)
        rw [hr] at g1
        obtain rfl := ext (c.mapped_unique (hf r) g1)
        rw [c.elligator_text hc (c.bytes_of r).2 w, g2]
    rw [e2, Set.ncard_coe_finset]
    omega
  · by_cases hr : r ^ 2 = 1
    · by_cases hs : s ^ 2 = 1
      · exact mul_self_eq_mul_self_iff.1 (by rw [← pow_two, ← pow_two, hr, hs])
      · simp only [hr, hs, if_true, if_false] at h
        cases h
    · by_cases hs : s ^ 2 = 1
      · simp only [hr, hs, if_true, if_false] at h
        cases h
      · simp only [hr, hs, if_false] at h
        have h1 := hf r
        rw [Option.some.inj h] at h1
        exact c.mapped_inj (sub_ne_zero.mpr (Ne.symm hr)) (sub_ne_zero.mpr (Ne.symm hs)) h1 (hf s)
  · intro h
    rw [sq h]
    by_cases hr : r ^ 2 = 1
    · rw [if_pos hr, if_pos hr]
    · rw [if_neg hr, if_neg hr]
      rcases h with rfl | rfl
      · rfl
      · rw [ext (c.mapped_unique (c.mapped_neg (hf r)) (hf (-r)))]

/-- C91: on every curve, and so on Curve1174, the client is right for all residues but less than one in `2^8`. -/
theorem C91_few : Set.ncard {r : c.K | ¬ c.MapsRight r} * 2 ^ 8 < c.fld.pN := by
  refine (Nat.mul_le_mul_right _ ?_).trans_lt c.badR_card
  rw [← Set.ncard_coe_finset]
  refine Set.ncard_le_ncard (fun r hr => ?_) (Finset.finite_toSet _)
  by_contra hb
  refine hr ?_
  rw [Finset.mem_coe, Crv.badR] at hb
  simp only [Finset.mem_union, Finset.mem_filter, Finset.mem_univ, true_and, not_or] at hb
  obtain ⟨⟨⟨⟨b1, b2⟩, b3⟩, b4⟩, b5⟩ := hb
  obtain ⟨P, h1, h2⟩ := c.exists_mapped (leBytes c.fld.nbytes r.val)
  rw [(c.bytes_of r).1] at h1
  refine ⟨P, ?_, h1⟩
  rintro rs hv rfl w
  obtain ⟨o, g1, g2⟩ := Client.text_outcome c.fld _ (c.elligator_uses hv _ fun _ => trivial)
  obtain ⟨Q, q1, q2⟩ := c.exists_mapped rs
  obtain ⟨e1, e2⟩ := c.mapped_unique h1 q1
  rw [g1, g2.ideal (c.elligator_avoids b1 b2 b3 b4 b5), q2, e1, e2]

/-! ### Cases -/

/-- Two and minus two are mapped to the same point of the curve, two and three are not. -/
example (hc : c ≠ .curve1174) (w : World) :
    (c.elligator (leBytes c.fld.nbytes (2 : c.K).val)).text (src c.fld) w 12 c.fld true =
      (c.elligator (leBytes c.fld.nbytes (-2 : c.K).val)).text (src c.fld) w 12 c.fld true ∧
    (c.elligator (leBytes c.fld.nbytes (2 : c.K).val)).text (src c.fld) w 12 c.fld true ≠
      (c.elligator (leBytes c.fld.nbytes (3 : c.K).val)).text (src c.fld) w 12 c.fld true := by
  have key : ∀ n : Int, (n % c.fld.p ≠ 0) → (n : c.K) ≠ 0 := fun n hn h => by
    have h1 : ((n : Int) : c.K) = ((0 : Int) : c.K) := by rw [h, Int.cast_zero]
    rw [← Fld.modEq_iff] at h1
    exact hn (Int.emod_eq_zero_of_dvd (Int.modEq_zero_iff_dvd.mp h1))
  have k3 : (3 : c.K) ≠ 0 := by exact_mod_cast key 3 (by cases c <;> decide +kernel)
  have k5 : (5 : c.K) ≠ 0 := by exact_mod_cast key 5 (by cases c <;> decide +kernel)
  have k8 : (8 : c.K) ≠ 0 := by exact_mod_cast key 8 (by cases c <;> decide +kernel)
  have a2 : (2 : c.K) ^ 2 ≠ 1 := fun h => k3 (by linear_combination h)
  have a3 : (3 : c.K) ^ 2 ≠ 1 := fun h => k8 (by linear_combination h)
  have r2 := c.bytes_of 2
  have r2' := c.bytes_of (-2)
  have r3 := c.bytes_of 3
  rw [Ne, C91_same c hc r2.2 r2'.2 (by rwa [r2.1]) (by rwa [r2'.1, neg_sq]), C91_same c hc r2.2 r3.2 (by rwa [r2.1]) (by rwa [r3.1]),
    r2.1, r2'.1, r3.1]
  refine ⟨.inr rfl, ?_⟩
  rintro (h | h)
  · exact one_ne_zero (by linear_combination h : (1 : c.K) = 0)
  · exact k5 (by linear_combination h)

/-- One is mapped to `(0, -1)`, zero is mapped to a point of the curve. -/
example (hc : c ≠ .curve1174) (w : World) :
    (c.elligator (leBytes c.fld.nbytes (1 : c.K).val)).text (src c.fld) w 12 c.fld true =
      .ok (leBytes c.fld.nbytes (0 : c.K).val, leBytes c.fld.nbytes (-1 : c.K).val) ∧
    ∃ P : c.Point, (c.elligator (leBytes c.fld.nbytes (0 : c.K).val)).text (src c.fld) w 12 c.fld true =
      .ok (leBytes c.fld.nbytes P.x.val, leBytes c.fld.nbytes P.y.val) := by
  obtain ⟨P, h, -⟩ := C91_point c hc (c.bytes_of 0).2
  exact ⟨C91_one c hc (c.bytes_of 1).2 (by rw [(c.bytes_of 1).1, one_pow]) w, P, h w⟩

/-- On all curves, and so on Curve1174, there are residues for which the client is right. -/
example : ∃ r : c.K, c.MapsRight r := by
  by_contra h
  have h1 := C91_few c
  rw [show {r : c.K | ¬ c.MapsRight r} = Set.univ from Set.eq_univ_of_forall fun r hr => h ⟨r, hr⟩, Set.ncard_univ, Nat.card_zmod] at h1
  omega

end Verif

import Verif.Props.Elligator
import Verif.Curve.Cofactor

/-!
# Property C90: the way back from points to residues

The inverse of the map of C89, as a client of the field types: it receives two coordinates, and returns the representative of the residue
that is mapped to this point, or nothing if there is none.
-/

namespace Verif
open Fld FieldCode Rust

/-- The registers: `u`, `v`, 0, `A`, 1, `u + A`, `u² + A u`, `u² + A u + 1`, `u³ + A u² + u`, `v²`, `-A - u`, the polynomial at `-A - u`, its
Legendre symbol, -1, `-u`; then the numerator and half of the denominator of `r²`, the denominator, the quotient, its root, the square of the
root, the product with the denominator, and the opposite of the root. -/
def Mont.unmap (c : Mont) (us vs : List Int) : Client (Option (List Int)) :=
  .step (.bytes us) <| .step (.bytes vs) <| .step .zero <| .step (.addI 2 c.A) <| .step .one <| .step (.add 0 3) <| .step (.mul 5 0) <|
  .step (.add 6 4) <| .step (.mul 7 0) <| .step (.square 1) <| .step (.sub 2 5) <| .step (.mul 7 10) <| .step (.legendre 11) <|
  .step .mOne <| .step (.sub 2 0) <| .eq 9 8 fun on => .bit 1 0 fun odd => .eq 12 13 fun ns =>
  .step (.select odd 10 14) <| .step (.select odd 0 5) <| .step (.add 16 16) <| .step (.div 15 17) <| .step (.sqrt 18) <|
  .step (.square 19) <| .step (.mul 20 17) <| .step (.sub 2 19) <| .eq 21 15 fun ok => .eq 17 2 fun dz => .bit 19 0 fun b =>
  .packed (if b then 22 else 19) fun rs => .done (if on && ok && !dz && (odd || ns) then some rs else none)

namespace Mont
variable (c : Mont)

theorem unmap_uses {us vs : List Int} (hu : (Op.bytes us).Valid c.fld) (hv : (Op.bytes vs).Valid c.fld) :
    (c.unmap us vs).Uses c.fld fun o => c.fld = .e251_9 → o.NotPow := by
  have h : c.fld ≠ .e251_9 := by cases c <;> decide
  have hA : IsI32 c.A := by cases c <;> exact ⟨by decide, by decide⟩
  have hb : 0 < c.fld.L * c.fld.k := by cases c <;> decide
  have hu' : IsBytes us ∧ c.fld.nbytes ≤ us.length ∧ (c.fld = .e383_187 → leVal (us.take c.fld.nbytes) < 2 ^ c.fld.n) := hu
  have hv' : IsBytes vs ∧ c.fld.nbytes ≤ vs.length ∧ (c.fld = .e383_187 → leVal (vs.take c.fld.nbytes) < 2 ^ c.fld.n) := hv
  simp only [Mont.unmap, Client.Uses, Op.Valid, h, hA, hb, hu'.1, hu'.2.1, hv'.1, hv'.2.1, implies_true, true_and, and_true, false_implies]
  exact ⟨fun h' => hu'.2.2 h', fun h' => hv'.2.2 h'⟩

set_option maxRecDepth 100000 in
theorem disc_nonsquare : ¬ IsSquare ((c.A : c.K) ^ 2 - 4) := by
  have h := c.fld.nonsquare_of_powM_int (c.A ^ 2 - 4) (by cases c <;> decide +kernel)
  push_cast at h
  exact h

set_option maxRecDepth 100000 in
theorem neg_A_nonsquare_iff : ¬ IsSquare (-(c.A : c.K)) ↔ c = curve25519 := by
  constructor
  · intro h
    by_contra hc
    have e : ∀ r : Nat, c.fld.p ∣ (r : Int) * r + c.A → False := fun r hr => h ⟨(r : c.K), by
      have := Fld.modEq_iff.1 (Int.modEq_zero_iff_dvd.mpr hr)
      push_cast at this
      linear_combination -this⟩
    revert e
    cases c
    · exact fun e => e 464469285344140735063179486002809097213264588321277436975103746989 (by decide +kernel)
    · exact absurd rfl hc
    · exact fun e => e 3145420638300803868482437777547649819361952821584788132252595479199924595950868880169284838804374246477215574173015 (by decide +kernel)
    · exact fun e => e 2924270072913008213231103375431958623171369306808257387705103751938549713392951438779051962561356583988490611094310 (by decide +kernel)
    · exact fun e => e 182482917611607132741041394789328986575498013358466284792175238423409298392119814451691747357740468284767875860017856816751321539635205204057593952487798 (by decide +kernel)
  · rintro rfl
    have h := Fld.nonsquare_of_powM_int .e255_19 (-curve25519.A) (by decide +kernel)
    push_cast at h
    exact h

theorem nonsingular_iff (u v : c.K) : c.curve.Nonsingular u v ↔ v ^ 2 = c.g u := by
  have h := C68_montgomery_model c one_ne_zero u v
  rwa [one_mul, one_mul, one_pow, one_mul, show c.twist 1 = c.curve by simp only [Mont.curve, Mont.twist, one_mul, one_pow]] at h

/-- The only point with second coordinate zero (helper lemma). -/
theorem g_eq_zero {u : c.K} (h : c.g u = 0) : u = 0 := by
  by_contra h0
  refine c.disc_nonsquare ⟨2 * u + c.A, ?_⟩
  have h1 : u ^ 2 + c.A * u + 1 = 0 := mul_left_cancel₀ h0 (by unfold g at h; linear_combination h)
  linear_combination -4 * h1

/-- The residues that are mapped to a point, as roots (helper lemma). -/
theorem mapped_iff (r u v : c.K) : c.Mapped r u v ↔ v ^ 2 = c.g u ∧
    ((v.val.testBit 0 = true ∧ u ≠ 0 ∧ r ^ 2 * (2 * u) = -(u + c.A)) ∨
      (v.val.testBit 0 = false ∧ u + c.A ≠ 0 ∧ r ^ 2 * (2 * (u + c.A)) = -u ∧ ¬ IsSquare (c.g (-(c.A : c.K) - u)))) := by
  have hx := c.cand_eq r
  have x0 := c.cand_ne_zero r
  have d0 := c.den_ne_zero r
  constructor
  · rintro ⟨h1, h2, h3⟩
    refine ⟨h1, ?_⟩
    by_cases hs : IsSquare (c.g (c.cand r))
    · obtain ⟨rfl, h4⟩ := h2 hs
      rcases h4 with h4 | h4
      · exact .inl ⟨h4, x0, by linear_combination hx⟩
      · rw [h4] at h1
        exact absurd (c.g_eq_zero (h1.symm.trans (by ring))) x0
    · obtain ⟨rfl, h4⟩ := h3 hs
      refine .inr ⟨h4, fun h => x0 (by linear_combination -h), by linear_combination -hx, ?_⟩
      rwa [sub_sub_cancel]
  · rintro ⟨h1, ⟨h2, h3, h4⟩ | ⟨h2, h3, h4, h5⟩⟩
    · have e : u = c.cand r := mul_right_cancel₀ d0 (by rw [hx]; linear_combination h4)
      subst e
      exact ⟨h1, fun _ => ⟨rfl, .inl h2⟩, fun h => absurd ⟨v, by rw [← h1]; ring⟩ h⟩
    · have e : -(c.A : c.K) - u = c.cand r := mul_right_cancel₀ d0 (by rw [hx]; linear_combination -h4)
      rw [e] at h5
      exact ⟨h1, fun h => absurd h h5, fun _ => ⟨by rw [← e]; ring, h2⟩⟩

/-- The points that are reached (helper lemma). -/
theorem exists_mapped_iff {u v : c.K} (hc : v ^ 2 = c.g u) : (∃ r, c.Mapped r u v) ↔
    if u = 0 then ¬ IsSquare (-(c.A : c.K)) else if u = -c.A then v.val.testBit 0 = true else IsSquare (-2 * u * (u + c.A)) := by
  have t0 : (2 : c.K) ≠ 0 := two_ne_zero_pN c.fld
  have A0 := c.A_ne_zero
  have bz : (0 : c.K).val.testBit 0 = false := by rw [ZMod.val_zero, Nat.zero_testBit]
  simp only [c.mapped_iff]
  have gA : c.g (-(c.A : c.K) - 0) = -(c.A : c.K) := by unfold g; ring
  split
  · next h =>
    subst h
    rw [c.g_zero, pow_eq_zero_iff two_ne_zero] at hc
    subst hc
    simp only [gA, bz, Bool.false_eq_true, false_and, false_or, true_and, zero_add, neg_zero, c.g_zero]
    constructor
    · rintro ⟨r, -, -, -, h⟩
      exact h
    · intro h
      exact ⟨0, by ring, A0, by ring, h⟩
  · next u0 =>
    split
    · next h =>
      have h' : u + c.A = 0 := by rw [h]; ring
      constructor
      · rintro ⟨r, -, ⟨h1, -⟩ | ⟨-, h1, -⟩⟩
        · exact h1
        · exact absurd h' h1
      · intro h1
        exact ⟨0, hc, .inl ⟨h1, u0, by rw [h']; ring⟩⟩
    · next h =>
      have s0 : u + c.A ≠ 0 := fun h' => h (by linear_combination h')
      constructor
      · rintro ⟨r, -, ⟨-, -, h1⟩ | ⟨-, -, h1, -⟩⟩
        · exact ⟨2 * u * r, by linear_combination -2 * u * h1⟩
        · exact ⟨2 * (u + c.A) * r, by linear_combination -2 * (u + c.A) * h1⟩
      · rintro ⟨s, hs⟩
        cases hb : v.val.testBit 0
        · refine ⟨s / (2 * (u + c.A)), hc, .inr ⟨rfl, s0, ?_, ?_⟩⟩
          · field_simp
            linear_combination -hs
          · rintro ⟨y, hy⟩
            have v0 : v ≠ 0 := fun h0 => u0 (c.g_eq_zero (by rw [← hc, h0]; ring))
            have w0 : u ^ 2 + c.A * u + 1 ≠ 0 := fun h0 => v0 (by
              have : v ^ 2 = 0 := by rw [hc]; unfold g; linear_combination u * h0
              exact pow_eq_zero_iff two_ne_zero |>.mp this)
            have z0 : s ≠ 0 := fun h0 => by
              rw [h0, mul_zero] at hs
              exact (mul_ne_zero (mul_ne_zero (neg_ne_zero.mpr t0) u0) s0) hs
            have y0 : y ≠ 0 := fun h0 => by
              rw [h0] at hy
              refine mul_ne_zero w0 (neg_ne_zero.mpr s0) ?_
              unfold g at hy
              linear_combination hy
            refine two_nonsquare c ⟨s * (u ^ 2 + c.A * u + 1) / (v * y), ?_⟩
            unfold g at hc hy
            field_simp
            linear_combination (u ^ 2 + c.A * u + 1) ^ 2 * hs + 2 * y ^ 2 * hc - 2 * (u ^ 3 + c.A * u ^ 2 + u) * hy
        · refine ⟨s / (2 * u), hc, .inl ⟨rfl, u0, ?_⟩⟩
          field_simp
          linear_combination -hs

/-- The representative of a pair of opposite residues. -/
def even (r : c.K) : c.K := if r.val.testBit 0 then -r else r

theorem even_bit (r : c.K) : (c.even r).val.testBit 0 = false := by
  unfold even
  split
  · next h =>
    rw [c.neg_bit, h]; rfl
    rintro rfl
    rw [ZMod.val_zero, Nat.zero_testBit] at h
    cases h
  · next h => exact Bool.eq_false_iff.mpr h

theorem even_eq (r : c.K) : c.even r = r ∨ c.even r = -r := by
  unfold even
  split
  · exact .inr rfl
  · exact .inl rfl

/-- What the client computes (helper lemma). -/
theorem unmap_ideal (us vs : List Int) : ∃ r : c.K,
    (c.Mapped r (c.received us) (c.received vs) ∧ (c.unmap us vs).ideal c.fld [] = some (leBytes c.fld.nbytes (c.even r).val)) ∨
    ((∀ r, ¬ c.Mapped r (c.received us) (c.received vs)) ∧ (c.unmap us vs).ideal c.fld [] = none) := by
  have hu : (((leVal (us.take c.fld.nbytes) % 2 ^ c.fld.n : Int)) : ZMod c.fld.pN) = c.received us := rfl
  have hv : (((leVal (vs.take c.fld.nbytes) % 2 ^ c.fld.n : Int)) : ZMod c.fld.pN) = c.received vs := rfl
  simp only [Mont.unmap, Client.ideal, Op.ideal, List.nil_append, List.cons_append, List.getD_cons_zero, List.getD_cons_succ, hu, hv, zero_add,
    zero_sub]
  generalize c.received us = u
  generalize c.received vs = v
  have hg : ((u + c.A) * u + 1) * u = c.g u := by unfold g; ring
  have hg' : ((u + c.A) * u + 1) * -(u + c.A) = c.g (-(c.A : c.K) - u) := by unfold g; ring
  have hm : (-1 : c.K) ≠ 1 := fun h => two_ne_zero_pN c.fld (by linear_combination -h)
  have hl : ((if c.g (-(c.A : c.K) - u) = 0 then (0 : c.K) else if IsSquare (c.g (-(c.A : c.K) - u)) then 1 else -1) = -1) ↔
      ¬ IsSquare (c.g (-(c.A : c.K) - u)) := by
    split
    · next h => rw [h]; exact ⟨fun h => absurd (neg_eq_zero.mp h.symm) one_ne_zero, fun h => absurd IsSquare.zero h⟩
    · split
      · next h => exact ⟨fun h => absurd h.symm hm, fun h' => absurd h h'⟩
      · next h => exact ⟨fun _ => h, fun _ => rfl⟩
  simp only [hg, hg', hl]
  have hiff := fun r => c.mapped_iff r u v
  generalize hn : (if v.val.testBit 0 = true then -(u + (c.A : c.K)) else -u) = n
  generalize hd : (if v.val.testBit 0 = true then u else u + (c.A : c.K)) = d
  have key : ∀ r, c.Mapped r u v ↔ v * v = c.g u ∧ r * r * (d + d) = n ∧ ¬ d + d = 0 ∧
      (v.val.testBit 0 = true ∨ ¬ IsSquare (c.g (-(c.A : c.K) - u))) := fun r => by
    have d2 : d + d = 0 ↔ d = 0 := by
      rw [← two_mul]
      exact ⟨fun h => (mul_eq_zero.mp h).resolve_left (two_ne_zero_pN c.fld), fun h => by rw [h, mul_zero]⟩
    rw [hiff, d2, ← hn, ← hd, pow_two, pow_two]
    by_cases hb : v.val.testBit 0 = true
    · simp only [hb, if_true, ← two_mul, true_and, Bool.true_eq_false, false_and, or_false, true_or, and_comm]
    · rw [Bool.not_eq_true] at hb
      simp only [hb, if_false, ← two_mul, true_and, Bool.false_eq_true, false_and, false_or]
      tauto
  have hroot : ∀ r, r * r * (d + d) = n → ¬ d + d = 0 → c.fld.root (n * (d + d)⁻¹) * c.fld.root (n * (d + d)⁻¹) * (d + d) = n := by
    intro r h h0
    have e : n * (d + d)⁻¹ = r * r := by rw [← h, mul_assoc, mul_inv_cancel₀ h0, mul_one]
    rw [e, (C45_root c.fld ⟨r, rfl⟩).1, h]
  generalize c.fld.root (n * (d + d)⁻¹) = ρ at *
  refine ⟨ρ, ?_⟩
  by_cases hc : v * v = c.g u ∧ ρ * ρ * (d + d) = n ∧ ¬ d + d = 0 ∧ (v.val.testBit 0 = true ∨ ¬ IsSquare (c.g (-(c.A : c.K) - u)))
  · left
    refine ⟨(key ρ).2 hc, ?_⟩
    obtain ⟨h1, h2, h3, h4⟩ := hc
    rw [if_pos]
    · congr 2
      unfold even
      by_cases hb : ρ.val.testBit 0 = true
      · rw [if_pos hb, if_pos hb]; rfl
      · rw [if_neg hb, if_neg hb]; rfl
    · simpa only [h1, h2, h3, decide_true, decide_false, Bool.not_false, Bool.true_and, Bool.or_eq_true, decide_eq_true_eq] using h4
  · right
    refine ⟨fun r hr => ?_, ?_⟩
    · obtain ⟨h1, h2, h3, h4⟩ := (key r).1 hr
      exact hc ⟨h1, hroot r h2 h3, h3, h4⟩
    · rw [if_neg]
      intro h
      simp only [Bool.and_eq_true, Bool.or_eq_true, decide_eq_true_eq, Bool.not_eq_true', decide_eq_false_iff_not] at h
      exact hc ⟨h.1.1.1, h.1.1.2, h.1.2, h.2⟩

end Mont

variable (c : Mont)

/-- C90: from every point that the map of C89 reaches, the client comes back to the residue or to its opposite, whichever is even. -/
theorem C90_back {rs : List Int} (hr : (Op.bytes rs).Valid c.fld) {us vs : List Int} (w₀ : World)
    (h : (c.elligator rs).text (src c.fld) w₀ 12 c.fld true = .ok (us, vs)) : ∃ r : c.K,
    (r = c.received rs ∨ r = -c.received rs) ∧ r.val.testBit 0 = false ∧
    ∀ w, (c.unmap us vs).text (src c.fld) w 12 c.fld true = .ok (some (leBytes c.fld.nbytes r.val)) := by
  obtain ⟨u, v, h1, h2⟩ := c.exists_mapped rs
  rw [C59_client_normalizing c.fld w₀ _ (c.elligator_uses hr), h2] at h
  obtain ⟨rfl, rfl⟩ := Prod.mk.inj (Except.ok.inj h)
  obtain ⟨r, h3⟩ := c.unmap_ideal (leBytes c.fld.nbytes u.val) (leBytes c.fld.nbytes v.val)
  rw [(Mont.received_leBytes u).1, (Mont.received_leBytes v).1] at h3
  rcases h3 with ⟨h3, h4⟩ | ⟨h3, -⟩
  · refine ⟨c.even r, ?_, c.even_bit r, fun w => ?_⟩
    · rcases c.mapped_inj h1 h3 with h5 | h5 <;> rcases c.even_eq r with h6 | h6 <;> rw [h6, h5]
      · exact .inl rfl
      · exact .inr rfl
      · exact .inr rfl
      · exact .inl (neg_neg _)
    · rw [C59_client_normalizing c.fld w _ (c.unmap_uses (Mont.received_leBytes u).2 (Mont.received_leBytes v).2), h4]
  · exact absurd h1 (h3 _)

/-- C90: whatever is received, the client gives in all builds the same answer: an even residue that the map of C89 takes to the two
coordinates, or nothing, if no byte string is taken there. -/
theorem C90_all {us vs : List Int} (hu : (Op.bytes us).Valid c.fld) (hv : (Op.bytes vs).Valid c.fld) :
    (∃ r : c.K, r.val.testBit 0 = false ∧
      (∀ w, (c.unmap us vs).text (src c.fld) w 12 c.fld true = .ok (some (leBytes c.fld.nbytes r.val))) ∧
      ∀ rs, (Op.bytes rs).Valid c.fld → ((∀ w, (c.elligator rs).text (src c.fld) w 12 c.fld true =
        .ok (leBytes c.fld.nbytes (c.received us).val, leBytes c.fld.nbytes (c.received vs).val)) ↔
          c.received rs = r ∨ c.received rs = -r)) ∨
    ((∀ w, (c.unmap us vs).text (src c.fld) w 12 c.fld true = .ok none) ∧
      ∀ rs, (Op.bytes rs).Valid c.fld → ∀ w, (c.elligator rs).text (src c.fld) w 12 c.fld true ≠
        .ok (leBytes c.fld.nbytes (c.received us).val, leBytes c.fld.nbytes (c.received vs).val)) := by
  have hU : ∀ w, (c.unmap us vs).text (src c.fld) w 12 c.fld true = .ok ((c.unmap us vs).ideal c.fld []) := fun w =>
    C59_client_normalizing c.fld w _ (c.unmap_uses hu hv)
  have hE : ∀ rs, (Op.bytes rs).Valid c.fld → ∀ w, (c.elligator rs).text (src c.fld) w 12 c.fld true =
      .ok (leBytes c.fld.nbytes (c.received us).val, leBytes c.fld.nbytes (c.received vs).val) →
        c.Mapped (c.received rs) (c.received us) (c.received vs) := by
    intro rs hr w h
    obtain ⟨u, v, h1, h2⟩ := c.exists_mapped rs
    rw [C59_client_normalizing c.fld w _ (c.elligator_uses hr), h2] at h
    obtain ⟨e1, e2⟩ := Prod.mk.inj (Except.ok.inj h)
    rwa [c.leBytes_inj e1, c.leBytes_inj e2] at h1
  obtain ⟨r, ⟨h1, h2⟩ | ⟨h1, h2⟩⟩ := c.unmap_ideal us vs
  · refine .inl ⟨c.even r, c.even_bit r, fun w => by rw [hU, h2], fun rs hr => ?_⟩
    have h3 : c.Mapped (c.even r) (c.received us) (c.received vs) := by
      rcases c.even_eq r with h | h <;> rw [h]
      · exact h1
      · exact c.mapped_neg h1
    constructor
    · exact fun h => c.mapped_inj h3 (hE rs hr ⟨.debug, default, fun _ _ => 0⟩ (h _))
    · intro h w
      have h4 : c.Mapped (c.received rs) (c.received us) (c.received vs) := by
        rcases h with h | h <;> rw [h]
        · exact h3
        · exact c.mapped_neg h3
      obtain ⟨u, v, g1, g2⟩ := c.exists_mapped rs
      obtain ⟨rfl, rfl⟩ := c.mapped_unique g1 h4
      rw [C59_client_normalizing c.fld w _ (c.elligator_uses hr), g2]
  · exact .inr ⟨fun w => by rw [hU, h2], fun rs hr w h => h1 _ (hE rs hr w h)⟩

/-- C90: what is off the curve is rejected.  A point of the curve is rejected just if `-2 u (u + A)` is not a square, whatever its second
coordinate, with two exceptions: `(0, 0)` is rejected just if `-A` is a square, and the points with `u = -A` if the second coordinate is even. -/
theorem C90_rejected {us vs : List Int} (hu : (Op.bytes us).Valid c.fld) (hv : (Op.bytes vs).Valid c.fld) (w : World) :
    (¬ c.curve.Nonsingular (c.received us) (c.received vs) → (c.unmap us vs).text (src c.fld) w 12 c.fld true = .ok none) ∧
    (c.curve.Nonsingular (c.received us) (c.received vs) →
      ((c.unmap us vs).text (src c.fld) w 12 c.fld true = .ok none ↔
        if c.received us = 0 then IsSquare (-(c.A : c.K)) else if c.received us = -c.A then (c.received vs).val.testBit 0 = false else
          ¬ IsSquare (-2 * c.received us * (c.received us + c.A)))) := by
  rw [C59_client_normalizing c.fld w _ (c.unmap_uses hu hv), c.nonsingular_iff]
  have hM : (c.unmap us vs).ideal c.fld [] = none ↔ ¬ ∃ r, c.Mapped r (c.received us) (c.received vs) := by
    obtain ⟨r, ⟨h1, h2⟩ | ⟨h1, h2⟩⟩ := c.unmap_ideal us vs
    · rw [h2]
      exact ⟨fun h => (Option.some_ne_none _ h).elim, fun h => absurd ⟨r, h1⟩ h⟩
    · rw [h2]
      exact ⟨fun _ ⟨r, h⟩ => h1 r h, fun _ => rfl⟩
  rw [show ((.ok ((c.unmap us vs).ideal c.fld []) : Except Err (Option (List Int))) = .ok none) = ((c.unmap us vs).ideal c.fld [] = none) from
    propext ⟨fun h => Except.ok.inj h, fun h => by rw [h]⟩, hM]
  refine ⟨fun h ⟨r, hr⟩ => h hr.1, fun hc => ?_⟩
  rw [c.exists_mapped_iff hc]
  split
  · exact not_not
  · split
    · rw [Bool.not_eq_true]
    · rfl

/-- C90: the point `(0, 0)` is reached on Curve25519 and rejected on the other four curves. -/
theorem C90_origin (w : World) :
    (c.unmap (leBytes c.fld.nbytes (0 : c.K).val) (leBytes c.fld.nbytes (0 : c.K).val)).text (src c.fld) w 12 c.fld true =
      .ok (if c = .curve25519 then some (leBytes c.fld.nbytes (0 : c.K).val) else none) := by
  obtain ⟨h1, h2⟩ := Mont.received_leBytes (c := c) 0
  have hN : c.curve.Nonsingular 0 0 := (c.nonsingular_iff 0 0).2 (by rw [c.g_zero]; ring)
  have h := (C90_rejected c h2 h2 w).2
  rw [h1, if_pos rfl] at h
  have h := h hN
  split
  · next hc =>
    rw [C59_client_normalizing c.fld w _ (c.unmap_uses h2 h2)] at h ⊢
    obtain ⟨r, ⟨h3, h4⟩ | ⟨-, h4⟩⟩ := c.unmap_ideal (leBytes c.fld.nbytes (0 : c.K).val) (leBytes c.fld.nbytes (0 : c.K).val)
    · rw [h4]
      rw [h1, c.mapped_iff] at h3
      have bz : (0 : c.K).val.testBit 0 = false := by rw [ZMod.val_zero, Nat.zero_testBit]
      have r0 : r = 0 := by
        rcases h3.2 with ⟨h5, -⟩ | ⟨-, h5, h6, -⟩
        · rw [bz] at h5; cases h5
        · by_contra r0
          exact mul_ne_zero (pow_ne_zero 2 r0) (mul_ne_zero (two_ne_zero_pN c.fld) h5) (by rw [h6, neg_zero])
      have e0 : c.even 0 = 0 := by
        unfold Mont.even
        rw [bz]; rfl
      rw [r0, e0]
    · exact absurd (h.1 (by rw [h4])) ((c.neg_A_nonsquare_iff).2 hc)
  · next hc => exact h.2 (not_not.1 fun h' => hc ((c.neg_A_nonsquare_iff).1 h'))

/-! ### Cases -/

/-- There and back. -/
example (w : World) : ∃ us vs, (c.elligator (leBytes c.fld.nbytes (2 : c.K).val)).text (src c.fld) w 12 c.fld true = .ok (us, vs) ∧
    (c.unmap us vs).text (src c.fld) w 12 c.fld true = .ok (some (leBytes c.fld.nbytes (2 : c.K).val)) := by
  obtain ⟨h1, h2⟩ := Mont.received_leBytes (c := c) 2
  obtain ⟨u, v, h3, -⟩ := C89_point c h2
  refine ⟨_, _, h3 w, ?_⟩
  obtain ⟨r, h4, h5, h6⟩ := C90_back c h2 w (h3 w)
  rw [h6, h1] at *
  have e : (2 : c.K).val = 2 := by cases c <;> decide +kernel
  have e2 : (2 : c.K).val.testBit 0 = false := by rw [e]; rfl
  rcases h4 with rfl | rfl
  · rfl
  · rw [c.neg_bit (two_ne_zero_pN c.fld), e2] at h5
    cases h5

/-- A point off the curve, `(1, 0)`, is rejected. -/
example (w : World) : (c.unmap (leBytes c.fld.nbytes (1 : c.K).val) (leBytes c.fld.nbytes (0 : c.K).val)).text (src c.fld) w 12 c.fld true =
    .ok none := by
  obtain ⟨h1, h2⟩ := Mont.received_leBytes (c := c) 1
  obtain ⟨h3, h4⟩ := Mont.received_leBytes (c := c) 0
  refine (C90_rejected c h2 h4 w).1 fun h => ?_
  rw [h1, h3, c.nonsingular_iff] at h
  exact one_ne_zero (c.g_eq_zero (h.symm.trans (by ring)))

end Verif

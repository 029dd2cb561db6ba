import Verif.Props.EdwardsElligator

/-!
# Property C92: the way back from points of the Edwards curves to residues

The inverse of the map of C91, as a client of the field types: it receives two coordinates, and returns a residue that is mapped to this
point, or nothing if there is none.
-/

namespace Verif
open Fld FieldCode Rust

/-- The registers: `x`, `y`, 0, `d`, 1, `1 + y`, `1 - y`, `1 - d`, `1 + d`, `(1 + y) (1 - d)`, `2 (1 + d)`, `2 (1 + d) (1 - y)`, the sum of the
tenth and the last one, `x²`, `y²`, `x² + y²`, `x² y²`, `d x² y²`, `1 + d x² y²`; then numerator and denominator of `r²`, the quotient, its root,
the square of the root, its product with the denominator, and the opposite of the root. -/
def Crv.unmap (c : Crv) (xs ys : List Int) : Client (Option (List Int)) :=
  .step (.bytes xs) <| .step (.bytes ys) <| .step .zero <| .step (.addI 2 c.dInt) <| .step .one <| .step (.add 4 1) <| .step (.sub 4 1) <|
  .step (.sub 4 3) <| .step (.add 4 3) <| .step (.mul 5 7) <| .step (.add 8 8) <| .step (.mul 10 6) <| .step (.add 9 11) <|
  .step (.square 0) <| .step (.square 1) <| .step (.add 13 14) <| .step (.mul 13 14) <| .step (.mul 3 16) <| .step (.add 4 17) <|
  .eq 15 18 fun on => .eq 0 2 fun xz => .eq 1 4 fun yo => .bit 0 0 fun odd =>
  .step (.select odd 12 9) <| .step (.select odd 9 12) <| .step (.div 19 20) <| .step (.sqrt 21) <| .step (.square 22) <|
  .step (.mul 23 20) <| .step (.sub 2 22) <| .eq 24 19 fun ok => .bit 22 0 fun b =>
  .packed (if xz then 4 else if b then 25 else 22) fun rs => .done (if on && (if xz then !yo else ok) then some rs else none)

namespace Crv
variable (c : Crv)

theorem unmap_text (hc : c ≠ .curve1174) {xs ys : List Int} (hx : (Op.bytes xs).Valid c.fld) (hy : (Op.bytes ys).Valid c.fld) (w : World) :
    (c.unmap xs ys).text (src c.fld) w 12 c.fld true = .ok ((c.unmap xs ys).ideal c.fld []) := by
  have h : c.fld ≠ .e251_9 := by revert hc; cases c <;> decide
  have h3 : c.fld ≠ .e383_187 := by cases c <;> decide
  have hd : IsI32 c.dInt := by cases c <;> exact ⟨by decide, by decide⟩
  have hb : 0 < c.fld.L * c.fld.k := by cases c <;> decide
  have hx' : IsBytes xs ∧ c.fld.nbytes ≤ xs.length ∧ (c.fld = .e383_187 → leVal (xs.take c.fld.nbytes) < 2 ^ c.fld.n) := hx
  have hy' : IsBytes ys ∧ c.fld.nbytes ≤ ys.length ∧ (c.fld = .e383_187 → leVal (ys.take c.fld.nbytes) < 2 ^ c.fld.n) := hy
  refine C59_client_normalizing c.fld w _ ?_
  simp only [Crv.unmap, Client.Uses, Op.Valid, h, h3, hd, hb, hx'.1, hx'.2.1, hy'.1, hy'.2.1, implies_true, and_true, false_implies]

/-- A point of the curve on the Montgomery form (helper lemma). -/
theorem toU_good {P : c.Point} (hx : P.x ≠ 0) : ∃ u, u ≠ 0 ∧ u * (1 - P.y) = 1 + P.y ∧ 1 - P.y ≠ 0 ∧ P.y = c.toY u ∧ IsSquare (c.g u) ∧ c.g u ≠ 0 := by
  have h2 : (2 : c.K) ≠ 0 := two_ne_zero_pN c.fld
  have on := P.on
  have on' : P.x ^ 2 * (1 - c.d * (P.y * P.y)) = (1 - P.y) * (1 + P.y) := by linear_combination on
  have hn : (1 - P.y) * (1 + P.y) ≠ 0 := by
    rw [← on']
    exact mul_ne_zero (pow_ne_zero 2 hx) (c.den_ne _)
  have m0 := left_ne_zero_of_mul hn
  have n0 := right_ne_zero_of_mul hn
  have hu : (1 + P.y) / (1 - P.y) * (1 - P.y) = 1 + P.y := div_mul_cancel₀ _ m0
  have u0 : (1 + P.y) / (1 - P.y) ≠ 0 := div_ne_zero n0 m0
  generalize (1 + P.y) / (1 - P.y) = u at *
  have k1 : u + 1 ≠ 0 := fun h => h2 (by linear_combination (1 - P.y) * h - hu)
  have hy : P.y * (u + 1) = u - 1 := by linear_combination -hu
  have e2 : (1 - c.d * (P.y * P.y)) * (u + 1) ^ 2 = (1 - c.d) * (u ^ 2 + c.A * u + 1) := by
    linear_combination -c.d * (P.y * (u + 1) + (u - 1)) * hy - u * c.A_eq
  have e1 : (1 - P.y) * (1 + P.y) * (u + 1) ^ 2 = 4 * u := by linear_combination -(P.y * (u + 1) + (u - 1)) * hy
  have e3 : P.x ^ 2 * ((1 - c.d) * (u ^ 2 + c.A * u + 1)) = 4 * u := by linear_combination e1 + (u + 1) ^ 2 * on' - P.x ^ 2 * e2
  have E0 : (1 - c.d) * (u ^ 2 + c.A * u + 1) ≠ 0 := by rw [← e2]; exact mul_ne_zero (c.den_ne _) (pow_ne_zero 2 k1)
  have hg : c.g u = u * ((1 - c.d) * (u ^ 2 + c.A * u + 1)) := by unfold g; ring
  refine ⟨u, u0, hu, m0, (eq_div_iff k1).2 hy, ⟨P.x * ((1 - c.d) * (u ^ 2 + c.A * u + 1)) / 2, ?_⟩, ?_⟩
  · rw [hg]
    field_simp
    linear_combination -((1 - c.d) * (u ^ 2 + c.A * u + 1)) * e3
  · rw [hg]
    exact mul_ne_zero u0 E0

/-- The residues that are mapped to a point with `x ≠ 0`, as roots (helper lemma). -/
theorem mapped_iff (r : c.K) {P : c.Point} (hx : P.x ≠ 0) : c.Mapped r P ↔
    r * r * (if P.x.val.testBit 0 = true then (1 + P.y) * (1 - c.d) else (1 + P.y) * (1 - c.d) + (1 + c.d + (1 + c.d)) * (1 - P.y)) =
      if P.x.val.testBit 0 = true then (1 + P.y) * (1 - c.d) + (1 + c.d + (1 + c.d)) * (1 - P.y) else (1 + P.y) * (1 - c.d) := by
  obtain ⟨u, u0, hu, m0, hy, hs, g0⟩ := c.toU_good hx
  have hA := c.A_eq
  have A0 := c.A_ne
  have k0 : (1 - P.y) * (1 - c.d) ≠ 0 := mul_ne_zero m0 c.one_sub_d_ne
  have en : (1 + P.y) * (1 - c.d) = u * ((1 - P.y) * (1 - c.d)) := by linear_combination -(1 - c.d) * hu
  have es : (1 + P.y) * (1 - c.d) + (1 + c.d + (1 + c.d)) * (1 - P.y) = (u + c.A) * ((1 - P.y) * (1 - c.d)) := by
    linear_combination en - (1 - P.y) * hA
  rw [es, en]
  have r1 : ∀ {a b : c.K}, a ≠ b → r * r * a = b → 1 - r ^ 2 ≠ 0 := fun {a b} h h1 h2 => h (by linear_combination h1 + a * h2)
  have cand0 : 1 - r ^ 2 = 0 → c.cand r = 0 := fun h => by rw [cand, h, div_zero]
  by_cases hb : P.x.val.testBit 0 = true
  · rw [if_pos hb, if_pos hb, ← mul_assoc]
    constructor
    · intro h
      rcases c.mapped_cases h with ⟨a1, a2, -⟩ | ⟨-, -, -, a4⟩
      · have e := c.toY_inj hs a1 (hy.symm.trans a2)
        have h1 : 1 - r ^ 2 ≠ 0 := fun h1 => u0 (e.trans (cand0 h1))
        have h2 := c.cand_eq h1
        rw [← e] at h2
        congr 1
        linear_combination -h2
      · rw [hb] at a4; cases a4
    · intro h
      have h := mul_right_cancel₀ k0 h
      have h1 := r1 (fun h' => A0 (by linear_combination -h')) h
      have e : u = c.cand r := mul_right_cancel₀ h1 (by rw [c.cand_eq h1]; linear_combination -h)
      rw [e] at hs hy
      exact ⟨fun _ => ⟨hy, .inl hb⟩, fun h => absurd hs h⟩
  · rw [if_neg hb, if_neg hb, ← mul_assoc]
    rw [Bool.not_eq_true] at hb
    constructor
    · intro h
      rcases c.mapped_cases h with ⟨-, -, a3⟩ | ⟨a1, a2, a3, -⟩
      · rcases a3 with a3 | a3
        · rw [hb] at a3; cases a3
        · exact absurd a3 hx
      · have e := c.toY_inj hs a2 (hy.symm.trans a3)
        have h1 : 1 - r ^ 2 ≠ 0 := fun h1 => a1 (by rw [cand0 h1, c.g_zero]; exact IsSquare.zero)
        have h2 := c.cand_eq h1
        congr 1
        linear_combination h2 + (r * r - 1) * e
    · intro h
      have h := mul_right_cancel₀ k0 h
      have h1 := r1 (fun h' => A0 (by linear_combination h')) h
      have e : -c.A - u = c.cand r := mul_right_cancel₀ h1 (by rw [c.cand_eq h1]; linear_combination h)
      have e' : u = -c.A - c.cand r := by rw [← e]; ring
      have hns : ¬ IsSquare (c.g (c.cand r)) := by
        rintro ⟨t, ht⟩
        obtain ⟨s, hs⟩ := hs
        have h3 : c.g u = -1 * c.g (c.cand r) * r ^ 2 := by
          have h2 := c.cand_eq h1
          rw [e']
          unfold g
          generalize c.cand r = v at *
          have hA : c.A = -(v * (1 - r ^ 2)) := by linear_combination h2
          rw [hA]
          ring
        have q0 : t * r ≠ 0 := fun h' => g0 (by rw [h3, ht]; linear_combination -(t * r) * h')
        refine c.neg_one_nonsquare ⟨s / (t * r), ?_⟩
        have t0 := left_ne_zero_of_mul q0
        have r0 := right_ne_zero_of_mul q0
        field_simp
        rw [hs, ht] at h3
        linear_combination -h3
      rw [e'] at hy
      exact ⟨fun h => absurd h hns, fun _ => ⟨hy, hb⟩⟩

theorem mapped_y_ne {r : c.K} {P : c.Point} (h : c.Mapped r P) : P.y ≠ 1 := by
  have key : ∀ u, IsSquare (c.g u) → c.toY u ≠ 1 := fun u hu h1 => two_ne_zero_pN c.fld (by
    have := c.toY_eq hu
    rw [h1] at this
    linear_combination this)
  rcases c.mapped_cases h with ⟨a1, a2, -⟩ | ⟨-, a2, a3, -⟩
  · rw [a2]; exact key _ a1
  · rw [a3]; exact key _ a2

theorem mapped_one {P : c.Point} (hx : P.x = 0) (hy : P.y ≠ 1) : c.Mapped 1 P := by
  have e : c.cand 1 = 0 := by rw [cand, one_pow, sub_self, div_zero]
  have hs : IsSquare (c.g (c.cand 1)) := by rw [e, c.g_zero]; exact IsSquare.zero
  refine ⟨fun _ => ⟨?_, .inr hx⟩, fun h => absurd hs h⟩
  have on := P.on
  rw [hx] at on
  have h : P.y * P.y = 1 * 1 := by linear_combination on
  rw [(mul_self_eq_mul_self_iff.1 h).resolve_left hy, e, toY]
  ring

/-- Only 0, 1 and -1 can be mapped to the point `(0, -1)` (helper lemma). -/
theorem mapped_x_ne {r : c.K} {P : c.Point} (h : c.Mapped r P) (r0 : r ≠ 0) (r1 : r ^ 2 ≠ 1) : P.x ≠ 0 := by
  intro hx
  have h1 : 1 - r ^ 2 ≠ 0 := sub_ne_zero.mpr r1.symm
  have h2 := c.cand_eq h1
  have c0 : c.cand r ≠ 0 := div_ne_zero (neg_ne_zero.mpr c.A_ne) h1
  rcases c.mapped_cases h with ⟨a1, a2, a3⟩ | ⟨-, a2, a3, -⟩
  · exact c.mapped_mixed h1 a1 a2 a3 (by rw [hx, ZMod.val_zero, Nat.zero_testBit])
  · have e := c.toY_eq a2
    have on := P.on
    rw [hx] at on
    have hy : P.y * P.y = 1 * 1 := by linear_combination on
    rw [← a3, (mul_self_eq_mul_self_iff.1 hy).resolve_left (c.mapped_y_ne h)] at e
    have e1 : 2 * (c.cand r * r ^ 2) = 0 := by linear_combination e - 2 * h2
    exact mul_ne_zero (two_ne_zero_pN c.fld) (mul_ne_zero c0 (pow_ne_zero 2 r0)) e1

/-- The representative of a pair of opposite residues. -/
def even (r : c.K) : c.K := if r.val.testBit 0 then -r else r

theorem even_bit (r : c.K) : (c.even r).val.testBit 0 = false := by
  unfold even
  split
  · next h =>
    rw [c.neg_bit, h]; rfl
    rintro rfl
    rw [ZMod.val_zero, Nat.zero_testBit] at h
    cases h
  · next h => exact Bool.eq_false_iff.mpr h

theorem even_eq (r : c.K) : c.even r = r ∨ c.even r = -r := by
  unfold even
  split
  · exact .inr rfl
  · exact .inl rfl

/-- What the client computes (helper lemma). -/
theorem unmap_ideal (xs ys : List Int) :
    (∃ (P : c.Point) (r : c.K), P.x = c.received xs ∧ P.y = c.received ys ∧ c.Mapped r P ∧
      (if P.x = 0 then r = 1 else r.val.testBit 0 = false) ∧ (c.unmap xs ys).ideal c.fld [] = some (leBytes c.fld.nbytes r.val)) ∨
    ((∀ (P : c.Point) (r : c.K), P.x = c.received xs → P.y = c.received ys → ¬ c.Mapped r P) ∧ (c.unmap xs ys).ideal c.fld [] = none) := by
  have hx : (((leVal (xs.take c.fld.nbytes) % 2 ^ c.fld.n : Int)) : ZMod c.fld.pN) = c.received xs := rfl
  have hy : (((leVal (ys.take c.fld.nbytes) % 2 ^ c.fld.n : Int)) : ZMod c.fld.pN) = c.received ys := rfl
  have hd : ((c.dInt : Int) : ZMod c.fld.pN) = c.d := rfl
  simp only [Crv.unmap, Client.ideal, Op.ideal, List.nil_append, List.cons_append, List.getD_cons_zero, List.getD_cons_succ, hx, hy, hd,
    zero_add, zero_sub]
  generalize c.received xs = x
  generalize c.received ys = y
  by_cases on : x * x + y * y = 1 + c.d * (x * x * (y * y))
  · let P : c.Point := ⟨x, y, by linear_combination on⟩
    have uniq : ∀ Q : c.Point, Q.x = x → Q.y = y → Q = P := fun Q h1 h2 => EdPoint.ext h1 h2
    by_cases x0 : x = 0
    · by_cases y1 : y = 1
      · right
        refine ⟨fun Q r h1 h2 h3 => c.mapped_y_ne h3 (h2.trans y1), ?_⟩
        simp only [x0, y1, decide_true, if_true, Bool.not_true, Bool.and_false, Bool.false_eq_true, if_false]
      · left
        refine ⟨P, 1, rfl, rfl, c.mapped_one x0 y1, (if_pos x0).mpr rfl, ?_⟩
        simp only [x0, y1, decide_true, decide_false, if_true, Bool.not_false, Bool.and_true]
        rw [if_pos (by rw [x0] at on; exact decide_eq_true on)]
        rfl
    · have hiff := fun r => c.mapped_iff r (P := P) x0
      have hx' : P.x = x := rfl
      have hy' : P.y = y := rfl
      simp only [hx', hy'] at hiff
      simp only [on, x0, decide_true, decide_false, Bool.true_and, Bool.false_eq_true, if_false, decide_eq_true_eq]
      generalize hn : (if x.val.testBit 0 = true then (1 + y) * (1 - c.d) + (1 + c.d + (1 + c.d)) * (1 - y) else (1 + y) * (1 - c.d)) = n at *
      generalize hm : (if x.val.testBit 0 = true then (1 + y) * (1 - c.d) else (1 + y) * (1 - c.d) + (1 + c.d + (1 + c.d)) * (1 - y)) = m at *
      have hroot : ∀ r, r * r * m = n → c.fld.root (n * m⁻¹) * c.fld.root (n * m⁻¹) * m = n := by
        intro r h
        by_cases h0 : m = 0
        · rw [h0, mul_zero] at h ⊢
          exact h
        · have e : n * m⁻¹ = r * r := by rw [← h, mul_assoc, mul_inv_cancel₀ h0, mul_one]
          rw [e, (C45_root c.fld ⟨r, rfl⟩).1, h]
      generalize c.fld.root (n * m⁻¹) = ρ at *
      by_cases hok : ρ * ρ * m = n
      · left
        refine ⟨P, c.even ρ, rfl, rfl, ?_, ?_, ?_⟩
        · rw [hiff]
          rcases c.even_eq ρ with h | h <;> rw [h]
          · exact hok
          · rw [neg_mul_neg]; exact hok
        · rw [if_neg x0]
          exact c.even_bit ρ
        · rw [if_pos hok]
          unfold even
          by_cases hb : ρ.val.testBit 0 = true
          · rw [if_pos hb, if_pos hb]; rfl
          · rw [if_neg hb, if_neg hb]; rfl
      · right
        refine ⟨fun Q r h1 h2 h3 => hok (hroot r ?_), if_neg hok⟩
        rw [uniq Q h1 h2] at h3
        exact (hiff r).1 h3
  · right
    refine ⟨fun P r h1 h2 _ => on ?_, ?_⟩
    · rw [← h1, ← h2]
      linear_combination P.on
    · simp only [on, decide_false, Bool.false_and, Bool.false_eq_true, if_false]

end Crv

variable (c : Crv)

/-- C92: from the point that a residue other than 0, 1 and -1 is mapped to, the client comes back to the residue or to its opposite, whichever
is even. -/
theorem C92_back (hc : c ≠ .curve1174) {rs : List Int} (hr : (Op.bytes rs).Valid c.fld) (r0 : c.received rs ≠ 0) (r1 : c.received rs ^ 2 ≠ 1)
    {xs ys : List Int} (w₀ : World) (h : (c.elligator rs).text (src c.fld) w₀ 12 c.fld true = .ok (xs, ys)) : ∃ r : c.K,
    (r = c.received rs ∨ r = -c.received rs) ∧ r.val.testBit 0 = false ∧
    ∀ w, (c.unmap xs ys).text (src c.fld) w 12 c.fld true = .ok (some (leBytes c.fld.nbytes r.val)) := by
  obtain ⟨P, h1, h2⟩ := c.exists_mapped rs
  rw [c.elligator_text hc hr w₀, h2] at h
  obtain ⟨rfl, rfl⟩ := Prod.mk.inj (Except.ok.inj h)
  have x0 := c.mapped_x_ne h1 r0 r1
  have tx := c.unmap_text hc (c.bytes_of P.x).2 (c.bytes_of P.y).2
  rcases c.unmap_ideal (leBytes c.fld.nbytes P.x.val) (leBytes c.fld.nbytes P.y.val) with ⟨Q, r, q1, q2, q3, q4, q5⟩ | ⟨q, -⟩
  · rw [(c.bytes_of P.x).1] at q1
    rw [(c.bytes_of P.y).1] at q2
    obtain rfl : Q = P := EdPoint.ext q1 q2
    rw [if_neg x0] at q4
    refine ⟨r, ?_, q4, fun w => by rw [tx, q5]⟩
    refine c.mapped_inj (sub_ne_zero.mpr r1.symm) (fun h' => ?_) h1 q3
    have e : c.cand r = 0 := by rw [Crv.cand, h', div_zero]
    have hs : IsSquare (c.g (c.cand r)) := by rw [e, c.g_zero]; exact IsSquare.zero
    have hy := (q3.1 hs).1
    rw [e] at hy
    have hy : Q.y = -1 := by rw [hy, Crv.toY]; ring
    have p := Q.on
    rw [hy] at p
    have : (1 - c.d) * Q.x ^ 2 = 0 := by linear_combination p
    exact x0 (pow_eq_zero_iff two_ne_zero |>.mp ((mul_eq_zero.mp this).resolve_left c.one_sub_d_ne))
  · exact absurd h1 (q P _ (c.bytes_of P.x).1.symm (c.bytes_of P.y).1.symm)

/-- C92: whatever is received, the client gives in all builds the same answer: a residue that the map of C91 takes to the two coordinates,
which is even, or is 1 for the point `(0, -1)`; or nothing, if no byte string is taken there. -/
theorem C92_all (hc : c ≠ .curve1174) {xs ys : List Int} (hx : (Op.bytes xs).Valid c.fld) (hy : (Op.bytes ys).Valid c.fld) :
    (∃ r : c.K, (if c.received xs = 0 then r = 1 else r.val.testBit 0 = false) ∧
      (∀ w, (c.unmap xs ys).text (src c.fld) w 12 c.fld true = .ok (some (leBytes c.fld.nbytes r.val))) ∧
      ∀ w, (c.elligator (leBytes c.fld.nbytes r.val)).text (src c.fld) w 12 c.fld true =
        .ok (leBytes c.fld.nbytes (c.received xs).val, leBytes c.fld.nbytes (c.received ys).val)) ∨
    ((∀ w, (c.unmap xs ys).text (src c.fld) w 12 c.fld true = .ok none) ∧
      ∀ rs, (Op.bytes rs).Valid c.fld → ∀ w, (c.elligator rs).text (src c.fld) w 12 c.fld true ≠
        .ok (leBytes c.fld.nbytes (c.received xs).val, leBytes c.fld.nbytes (c.received ys).val)) := by
  have tx := c.unmap_text hc hx hy
  rcases c.unmap_ideal xs ys with ⟨P, r, q1, q2, q3, q4, q5⟩ | ⟨q, q5⟩
  · rw [q1] at q4
    refine .inl ⟨r, q4, fun w => by rw [tx, q5], fun w => ?_⟩
    obtain ⟨Q, g1, g2⟩ := c.exists_mapped (leBytes c.fld.nbytes r.val)
    rw [(c.bytes_of r).1] at g1
    obtain ⟨e1, e2⟩ := c.mapped_unique g1 q3
    rw [c.elligator_text hc (c.bytes_of r).2, g2, e1, e2, q1, q2]
  · refine .inr ⟨fun w => by rw [tx, q5], fun rs hr w h => ?_⟩
    obtain ⟨Q, g1, g2⟩ := c.exists_mapped rs
    rw [c.elligator_text hc hr, g2] at h
    obtain ⟨e1, e2⟩ := Prod.mk.inj (Except.ok.inj h)
    exact q Q _ (c.leBytes_inj e1) (c.leBytes_inj e2) g1

/-- C92: what is off the curve is rejected, and so is the neutral element; the point `(0, -1)` is accepted. -/
theorem C92_rejected (hc : c ≠ .curve1174) {xs ys : List Int} (hx : (Op.bytes xs).Valid c.fld) (hy : (Op.bytes ys).Valid c.fld) (w : World) :
    ((¬ ∃ P : c.Point, P.x = c.received xs ∧ P.y = c.received ys) → (c.unmap xs ys).text (src c.fld) w 12 c.fld true = .ok none) ∧
    (c.received ys = 1 → (c.unmap xs ys).text (src c.fld) w 12 c.fld true = .ok none) ∧
    (c.received xs = 0 → c.received ys = -1 →
      (c.unmap xs ys).text (src c.fld) w 12 c.fld true = .ok (some (leBytes c.fld.nbytes (1 : c.K).val))) := by
  rw [c.unmap_text hc hx hy]
  have h1 : (-1 : c.K) ≠ 1 := fun h => two_ne_zero_pN c.fld (by linear_combination -h)
  rcases c.unmap_ideal xs ys with ⟨P, r, q1, q2, q3, q4, q5⟩ | ⟨q, q5⟩
  · refine ⟨fun h => absurd ⟨P, q1, q2⟩ h, fun h => absurd (q2.trans h) (c.mapped_y_ne q3), fun h _ => ?_⟩
    rw [if_pos (q1.trans h)] at q4
    rw [q5, q4]
  · refine ⟨fun _ => by rw [q5], fun _ => by rw [q5], fun hx hy => ?_⟩
    let P : c.Point := ⟨0, -1, by ring⟩
    exact absurd (c.mapped_one (P := P) rfl h1) (q P 1 hx.symm hy.symm)

/-! ### Cases -/

/-- There and back. -/
example (hc : c ≠ .curve1174) (w : World) : ∃ xs ys,
    (c.elligator (leBytes c.fld.nbytes (2 : c.K).val)).text (src c.fld) w 12 c.fld true = .ok (xs, ys) ∧
    (c.unmap xs ys).text (src c.fld) w 12 c.fld true = .ok (some (leBytes c.fld.nbytes (2 : c.K).val)) := by
  obtain ⟨h1, h2⟩ := c.bytes_of 2
  obtain ⟨P, h3, -⟩ := C91_point c hc h2
  refine ⟨_, _, h3 w, ?_⟩
  have k3 : ((3 : Int) : c.K) ≠ ((0 : Int) : c.K) := by rw [Ne, ← Fld.modEq_iff]; cases c <;> decide +kernel
  obtain ⟨r, h4, h5, h6⟩ := C92_back c hc h2 (by rw [h1]; exact two_ne_zero_pN c.fld)
    (by rw [h1]; exact fun h => k3 (by push_cast; linear_combination h)) w (h3 w)
  rw [h6, h1] at *
  have e : (2 : c.K).val = 2 := by cases c <;> decide +kernel
  have e2 : (2 : c.K).val.testBit 0 = false := by rw [e]; rfl
  rcases h4 with rfl | rfl
  · rfl
  · rw [c.neg_bit (two_ne_zero_pN c.fld), e2] at h5
    cases h5

/-- The neutral element is rejected. -/
example (hc : c ≠ .curve1174) (w : World) :
    (c.unmap (leBytes c.fld.nbytes (0 : c.K).val) (leBytes c.fld.nbytes (1 : c.K).val)).text (src c.fld) w 12 c.fld true = .ok none :=
  (C92_rejected c hc (c.bytes_of 0).2 (c.bytes_of 1).2 w).2.1 (c.bytes_of 1).1

end Verif

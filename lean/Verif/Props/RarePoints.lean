import Verif.Props.RareClients
import Verif.Props.PackedAgreement

/-!
# Property C85, second part: compressed points with the exponentiations of the field types

The client of C83 computes the quotient and the square root of the decoding as powers, with `*`.  Here a client uses `/` and `sqrt` of the
field type.  It checks what it gets, so that it never returns a wrong point; on Curve1174 it can miss the points with less than one in
`2^11` of the `y`, on the other curves it misses none.
-/

namespace Verif
open Fld FieldCode Rust

/-- From the bytes of `y` and a sign the bytes of the `x` with this lowest bit, with `/` and `sqrt`.  The registers: `y`, 0, `d`, 1, `y²`,
`d y²`, `1 - y²`, `1 - d y²`, the quotient, its root `x`, `x²`, `x² (1 - d y²)`, `-x`. -/
def Crv.quickDecode (c : Crv) (ys : List Int) (sg : Bool) : Client (Option (List Int)) :=
  .step (.bytes ys) <| .step .zero <| .step (.addI 1 c.dInt) <| .step .one <| .step (.square 0) <| .step (.mul 2 4) <|
  .step (.sub 3 4) <| .step (.sub 3 5) <| .step (.div 6 7) <| .step (.sqrt 8) <| .step (.square 9) <| .step (.mul 10 7) <|
  .step (.sub 1 9) <| .eq 11 6 fun q => .bit 9 0 fun b => .packed (if b = sg then 9 else 12) fun out =>
  .done (if q then some out else none)

section
variable (c : Crv)

theorem Crv.quickDecode_uses {ys : List Int} (hy : IsBytes ys ∧ c.fld.nbytes ≤ ys.length) (sg : Bool) :
    (c.quickDecode ys sg).Uses c.fld fun _ => True := by
  have h : c.fld ≠ .e383_187 := by cases c <;> decide
  have hd : IsI32 c.dInt := by cases c <;> exact ⟨by decide, by decide⟩
  have hb : 0 < c.fld.L * c.fld.k := by cases c <;> decide
  simp only [Crv.quickDecode, Client.Uses, Op.Valid, true_and, hy.1, hy.2, hd, hb, implies_true, and_true]
  exact fun h' => absurd h' h

/-- The results the client can have (helper lemma). -/
theorem Crv.quickDecode_outcome {S : Finset c.K} {ys : List Int} {sg : Bool} {r : Option (List Int)}
    (h : (c.quickDecode ys sg).Outcome c.fld S [] r) :
    ∃ q x : c.K, let y := c.received ys
      (1 - c.d * (y * y) ∉ S → q = (1 - y * y) * (1 - c.d * (y * y))⁻¹) ∧ (q ∉ S → x = c.fld.root q) ∧
      r = if x * x * (1 - c.d * (y * y)) = 1 - y * y then
        some (leBytes c.fld.nbytes (if x.val.testBit 0 = sg then x else -x).val) else none := by
  obtain ⟨y, e0, ⟨z, e1, ⟨d, e2, ⟨o, e3, ⟨yy, e4, ⟨dyy, e5, ⟨n, e6, ⟨m, e7, ⟨q, e8, ⟨x, e9, ⟨xx, e10, ⟨t, e11, ⟨u, e12, h⟩⟩⟩⟩⟩⟩⟩⟩⟩⟩⟩⟩⟩ := h
  replace e0 := e0 nofun
  replace e1 := e1 nofun
  replace e2 := e2 nofun
  replace e3 := e3 nofun
  replace e4 := e4 nofun
  replace e5 := e5 nofun
  replace e6 := e6 nofun
  replace e7 := e7 nofun
  replace e10 := e10 nofun
  replace e11 := e11 nofun
  replace e12 := e12 nofun
  simp only [Op.ideal, List.nil_append, List.cons_append, List.getD_cons_zero, List.getD_cons_succ] at e1 e2 e3 e4 e5 e6 e7 e10 e11 e12
  simp only [Op.powArg, Op.ideal, Option.some.injEq, forall_eq', List.nil_append, List.cons_append, List.getD_cons_zero, List.getD_cons_succ] at e8 e9
  have e0' : y = c.received ys := e0
  clear e0
  subst e1 e2 e3 e4 e5 e6 e7 e10 e11 e12
  simp only [Client.Outcome, List.nil_append, List.cons_append, List.getD_cons_zero, List.getD_cons_succ] at h
  have hd : (0 : c.K) + ((c.dInt : Int) : c.K) = c.d := zero_add _
  subst e0'
  rw [hd] at h e8
  refine ⟨q, x, e8, e9, ?_⟩
  rw [h]
  simp only [decide_eq_true_eq]
  by_cases hb : x.val.testBit 0 = sg
  · simp only [hb, if_true, List.getD_cons_zero, List.getD_cons_succ]
  · simp only [hb, if_false, List.getD_cons_zero, List.getD_cons_succ, zero_sub]

/-- What the decoding is for: all points with this `y` are found, and other strings rejected. -/
def Crv.DecodesRight (y : c.K) : Prop := ∀ (sg : Bool) (w : World),
  (∀ P : c.Point, P.y = y → (P.x.val.testBit 0 = sg ∨ P.x = 0) →
    (c.quickDecode (leBytes c.fld.nbytes y.val) sg).text (src c.fld) w 12 c.fld true =
      .ok (some (leBytes c.fld.nbytes P.x.val))) ∧
  ((¬ ∃ P : c.Point, P.y = y) →
    (c.quickDecode (leBytes c.fld.nbytes y.val) sg).text (src c.fld) w 12 c.fld true = .ok none)

theorem Crv.signed_on {x y : c.K} (sg : Bool) (h : x * x * (1 - c.d * (y * y)) = 1 - y * y) :
    ∃ P : c.Point, P.x = (if x.val.testBit 0 = sg then x else -x) ∧ P.y = y ∧ (P.x.val.testBit 0 = sg ∨ P.x = 0) := by
  refine ⟨⟨if x.val.testBit 0 = sg then x else -x, y, ?_⟩, rfl, rfl, ?_⟩
  · split <;> linear_combination h
  · show (if x.val.testBit 0 = sg then x else -x).val.testBit 0 = sg ∨ (if x.val.testBit 0 = sg then x else -x) = 0
    by_cases hb : x.val.testBit 0 = sg
    · rw [if_pos hb]; exact .inl hb
    · rw [if_neg hb]
      by_cases hx : x = 0
      · right; rw [hx, neg_zero]
      · left
        rw [c.neg_bit hx]
        revert hb
        cases x.val.testBit 0 <;> cases sg <;> decide

/-- Points with the same `y` and the same lowest bit of `x` are the same. -/
theorem Crv.signed_unique {P Q : c.Point} {sg : Bool} (hy : P.y = Q.y) (hP : P.x.val.testBit 0 = sg ∨ P.x = 0)
    (hQ : Q.x.val.testBit 0 = sg ∨ Q.x = 0) : P.x = Q.x := by
  have h1 := P.on
  have h2 := Q.on
  rw [hy] at h1
  have h3 : P.x * P.x = Q.x * Q.x := mul_right_cancel₀ (c.den_ne Q.y) (by linear_combination h1 - h2)
  rcases mul_self_eq_mul_self_iff.1 h3 with h | h
  · exact h
  by_cases h0 : Q.x = 0
  · rw [h, h0, neg_zero]
  · have h4 := hP.resolve_right fun g => h0 (by rw [g] at h; exact neg_eq_zero.mp h.symm)
    have h5 := hQ.resolve_right h0
    rw [h, c.neg_bit h0, h5] at h4
    cases sg <;> cases h4

/-- C85: whatever is received, the client returns in all builds the same, and never anything but the `x` of the point of the curve with this
`y` and sign. -/
theorem C85_sound {ys : List Int} (hy : IsBytes ys ∧ c.fld.nbytes ≤ ys.length) (sg : Bool) :
    ∃ r, (∀ w, (c.quickDecode ys sg).text (src c.fld) w 12 c.fld true = .ok r) ∧
      ∀ out, r = some out → ∃ P : c.Point, P.y = c.received ys ∧ (P.x.val.testBit 0 = sg ∨ P.x = 0) ∧
        out = leBytes c.fld.nbytes P.x.val := by
  obtain ⟨r, h1, h2⟩ := Client.text_outcome c.fld _ (c.quickDecode_uses hy sg)
  refine ⟨r, h1, fun out hr => ?_⟩
  obtain ⟨q, x, -, -, h3⟩ := c.quickDecode_outcome h2
  rw [hr] at h3
  split at h3
  · next hx =>
    obtain ⟨P, p1, p2, p3⟩ := c.signed_on sg hx
    exact ⟨P, p2, p3, by rw [p1]; exact Option.some.inj h3⟩
  · cases h3

/-- Right, if neither operand of the exponentiations is in the set (helper lemma). -/
theorem Crv.decodes_of_not_mem {y : c.K} (h1 : 1 - c.d * (y * y) ∉ c.fld.rareSet)
    (h2 : (1 - y * y) * (1 - c.d * (y * y))⁻¹ ∉ c.fld.rareSet) : c.DecodesRight y := by
  intro sg w
  have hr : c.received (leBytes c.fld.nbytes y.val) = y := Crv.coord_leBytes c _
  obtain ⟨r, g1, g2⟩ := Client.text_outcome c.fld _ (c.quickDecode_uses (c.bytes_ok y) sg)
  obtain ⟨q, x, g3, g4, g5⟩ := c.quickDecode_outcome g2
  rw [hr] at g3 g5
  obtain rfl := g3 h1
  obtain rfl := g4 h2
  rw [g1]
  have hd := c.den_ne y
  refine ⟨fun P py px => ?_, fun hn => ?_⟩
  · have e : (1 - y * y) * (1 - c.d * (y * y))⁻¹ = P.x * P.x := by
      rw [mul_inv_eq_iff_eq_mul₀ hd, ← py]
      linear_combination -P.on
    have hx := (C45_root c.fld (x := (1 - y * y) * (1 - c.d * (y * y))⁻¹) ⟨P.x, e⟩).1
    generalize c.fld.root ((1 - y * y) * (1 - c.d * (y * y))⁻¹) = x at *
    have hq : x * x * (1 - c.d * (y * y)) = 1 - y * y := by rw [hx, inv_mul_cancel_right₀ hd]
    obtain ⟨Q, q1, q2, q3⟩ := c.signed_on sg hq
    rw [g5, if_pos hq, ← q1, c.signed_unique (q2.trans py.symm) q3 px]
  · rw [g5, if_neg]
    intro hq
    obtain ⟨Q, -, q2, -⟩ := c.signed_on sg hq
    exact hn ⟨Q, q2⟩

/-- C85: on the other four curves the decoding is right for all `y`. -/
theorem C85_decode_others (hc : c.fld ≠ .e251_9) (y : c.K) : c.DecodesRight y := by
  have := rareSet_empty hc
  exact c.decodes_of_not_mem (by rw [this]; exact Finset.notMem_empty _) (by rw [this]; exact Finset.notMem_empty _)

theorem card_fibre {F : Type} [Field F] [Fintype F] [DecidableEq F] (S : Finset F) (g : F → F)
    (hg : ∀ y z, g y = g z → y = z ∨ y = -z) : (Finset.univ.filter fun y => g y ∈ S).card ≤ 2 * S.card := by
  refine Finset.card_le_mul_card_image_of_maps_to (f := g) (fun y hy => (Finset.mem_filter.mp hy).2) 2 fun b _ => ?_
  rcases Finset.eq_empty_or_nonempty ((Finset.univ.filter fun y => g y ∈ S).filter fun y => g y = b) with h | ⟨z, hz⟩
  · rw [h]; exact Nat.zero_le _
  · refine (Finset.card_le_card (t := {z, -z}) fun y hy => ?_).trans Finset.card_le_two
    rw [Finset.mem_insert, Finset.mem_singleton]
    exact hg y z ((Finset.mem_filter.mp hy).2.trans (Finset.mem_filter.mp hz).2.symm)

/-- C85: on every curve, and so on Curve1174, it is right for all `y` but less than one in `2^11`. -/
theorem C85_decode_few : Set.ncard {y : c.K | ¬ c.DecodesRight y} * 2 ^ 11 < c.fld.pN := by
  have d0 : c.d ≠ 0 := fun h => c.d_nonsquare (by rw [h]; exact IsSquare.zero)
  have d1 : c.d ≠ 1 := fun h => c.d_nonsquare (by rw [h]; exact IsSquare.one)
  have k1 := card_fibre c.fld.rareSet (fun y : c.K => 1 - c.d * (y * y)) fun y z h => by
    refine mul_self_eq_mul_self_iff.1 (mul_left_cancel₀ d0 ?_)
    have h : 1 - c.d * (y * y) = 1 - c.d * (z * z) := h
    linear_combination -h
  have k2 := card_fibre c.fld.rareSet (fun y : c.K => (1 - y * y) * (1 - c.d * (y * y))⁻¹) fun y z h => by
    refine mul_self_eq_mul_self_iff.1 (mul_left_cancel₀ (sub_ne_zero.mpr d1) ?_)
    have h : (1 - y * y) * (1 - c.d * (y * y))⁻¹ = (1 - z * z) * (1 - c.d * (z * z))⁻¹ := h
    rw [mul_inv_eq_iff_eq_mul₀ (c.den_ne y), mul_right_comm, eq_mul_inv_iff_mul_eq₀ (c.den_ne z)] at h
    linear_combination h
  have k3 : Set.ncard {y : c.K | ¬ c.DecodesRight y} ≤ 4 * c.fld.rareSet.card := by
    refine le_trans ?_ (le_trans (Finset.card_union_le _ _) ((Nat.add_le_add k1 k2).trans (by rw [← Nat.add_mul])))
    rw [← Set.ncard_coe_finset]
    refine Set.ncard_le_ncard (fun y hy => ?_) (Finset.finite_toSet _)
    rw [Finset.mem_coe, Finset.mem_union, Finset.mem_filter, Finset.mem_filter]
    by_contra h
    rw [not_or] at h
    exact hy (c.decodes_of_not_mem (fun g => h.1 ⟨Finset.mem_univ _, g⟩) fun g => h.2 ⟨Finset.mem_univ _, g⟩)
  refine (Nat.mul_le_mul_right _ k3).trans_lt ?_
  rw [show 4 * c.fld.rareSet.card * 2 ^ 11 = c.fld.rareSet.card * 2 ^ 13 by ring]
  exact c.fld.rareSet_card

end

/-! ### The base point of Curve1174 -/

/-- The next `n` squares are mild. -/
def mildSquares : Nat → Nat → Bool
  | 0, _ => true
  | n + 1, r => let s := r * r % e251_9.pN
    decide (2 ^ 228 + 18 ≤ s) && decide (s + 2 ^ 228 < 2 ^ 251 + 9) && mildSquares n s

theorem Fld.Mild.congr {x y : Int} (h : x ≡ y [ZMOD e251_9.p]) (hx : Mild x) : Mild y :=
  fun v h1 h2 h3 => hx v h1 h2 (h3.trans h.symm)

theorem mild_of_mid {s : Nat} (h1 : 2 ^ 228 + 18 ≤ s) (h2 : s + 2 ^ 228 < 2 ^ 251 + 9) : Mild (s : Int) := by
  intro v v1 v2 h
  obtain ⟨k, hk⟩ := h.symm.dvd
  have hp : e251_9.p = 2 ^ 251 - 9 := rfl
  rw [hp] at hk
  norm_num at h1 h2 v1 v2 hk
  omega

theorem mild_squares : ∀ (n r : Nat), mildSquares n r = true → ∀ j, j < n → Mild ((r : Int) ^ 2 ^ (j + 1))
  | 0, _, _, j, hj => absurd hj (Nat.not_lt_zero j)
  | n + 1, r, h, j, hj => by
    simp only [mildSquares, Bool.and_eq_true, decide_eq_true_eq] at h
    have e : ((r * r % e251_9.pN : Nat) : Int) ≡ (r : Int) ^ 2 [ZMOD e251_9.p] := by
      rw [p_eq, pow_two]
      push_cast
      exact Int.mod_modEq _ _
    cases j with
    | zero => exact Fld.Mild.congr (by simpa using e) (mild_of_mid h.1.1 h.1.2)
    | succ j =>
      refine Fld.Mild.congr ?_ (mild_squares n _ h.2 j (by omega))
      rw [pow_succ' 2 (j + 1), pow_mul]
      exact e.pow _

theorem not_rare_of_mild {r : Nat} (h : mildSquares 250 r = true) : ¬ Rare (r : Int) := by
  rintro ⟨j, hj, hm⟩
  exact hm (mild_squares 250 r h j hj)

theorem not_mem_of_mild {r : Nat} {d : ZMod e251_9.pN} (h : mildSquares 250 r = true) (hd : (r : ZMod e251_9.pN) = d) :
    d ∉ e251_9.rareSet := by
  intro hm
  refine not_rare_of_mild h ((mem_rareSet.mp hm).2.congr ?_)
  rw [modEq_iff, Int.cast_natCast, Int.cast_natCast, ZMod.natCast_zmod_val, hd]

set_option maxRecDepth 100000 in
theorem base_mild : mildSquares 250 (1 + 1174 * (Crv.curve1174.nat Crv.curve1174.baseY * Crv.curve1174.nat Crv.curve1174.baseY)) = true ∧
    mildSquares 250 (Crv.curve1174.nat Crv.curve1174.baseX * Crv.curve1174.nat Crv.curve1174.baseX) = true := by
  decide +kernel

/-- C85: the base point of Curve1174 is decoded, in all builds. -/
theorem C85_base : Crv.curve1174.DecodesRight Crv.curve1174.base.y := by
  obtain ⟨h1, h2⟩ := base_mild
  obtain ⟨b1, b2, -⟩ := Crv.curve1174.base_canon
  have key : ∀ (r : Nat) (d : Crv.curve1174.K), mildSquares 250 r = true → (r : Crv.curve1174.K) = d → d ∉ Crv.curve1174.fld.rareSet :=
    fun r d => not_mem_of_mild
  have ex : (Crv.curve1174.nat Crv.curve1174.baseX : Crv.curve1174.K) = Crv.curve1174.base.x := Crv.curve1174.nat_cast b1.2.2.1
  have ey : (Crv.curve1174.nat Crv.curve1174.baseY : Crv.curve1174.K) = Crv.curve1174.base.y := Crv.curve1174.nat_cast b2.2.2.1
  have hon := Crv.curve1174.base.on
  have hd : Crv.curve1174.d = -1174 := by
    show (((-1174 : Int)) : Crv.curve1174.K) = _
    push_cast; rfl
  have hn := Crv.curve1174.den_ne Crv.curve1174.base.y
  refine Crv.decodes_of_not_mem _ (key _ _ h1 ?_) (key _ _ h2 ?_)
  · rw [Nat.cast_add, Nat.cast_mul, Nat.cast_mul, ey]
    generalize Crv.curve1174.base.y = y
    rw [hd]
    push_cast
    ring
  · rw [Nat.cast_mul, ex]
    generalize Crv.curve1174.base.y = y at *
    generalize Crv.curve1174.base.x = x at *
    rw [eq_mul_inv_iff_mul_eq₀ hn]
    linear_combination hon

/-! ### Cases -/

/-- Strings that are longer than needed, and set bits that are not used. -/
example (w : World) : ∃ r, (Crv.quickDecode .curve1174 (List.replicate 40 255) true).text (src .e251_9) w 12 .e251_9 true = .ok r := by
  obtain ⟨r, h, -⟩ := C85_sound .curve1174 (ys := List.replicate 40 255) ⟨by simp [IsBytes], by decide⟩ true
  exact ⟨r, h w⟩

/-- There are clients that avoid the set: taking a root of an element that is not in it. -/
example : ∃ x, (rootClient x).Uses .e251_9 (fun _ => True) ∧ ∀ w,
    (rootClient x).text (src .e251_9) w 12 .e251_9 true = .ok ((rootClient x).ideal .e251_9 []) := by
  obtain ⟨S, h1, -, h2⟩ := C85_avoiding .e251_9
  have h3 : S.card < Fintype.card (ZMod e251_9.pN) := by
    rw [ZMod.card]
    exact lt_of_le_of_lt (Nat.le_mul_of_pos_right _ (by positivity)) h1
  obtain ⟨d, -, hd⟩ := Finset.exists_mem_notMem_of_card_lt_card (s := S) (t := Finset.univ) (by rwa [Finset.card_univ])
  have hu := rootClient_uses (x := leBytes e251_9.nbytes d.val) ⟨leBytes_isBytes _ _, (leBytes_length _ _).ge, nofun⟩
  refine ⟨_, hu, h2 _ hu ⟨nofun, fun i hi => ?_, nofun, trivial⟩⟩
  cases hi
  exact fun g => hd (by rwa [← (resid_ok e251_9 d).2.2])

/-- After an exponentiation of an unknown element the client of a check that fails says so, whatever the set. -/
example (x : List Int) (hx : (Op.bytes x).Valid e251_9) : ∃ r, ∀ w, (rootClient x).text (src .e251_9) w 12 .e251_9 true = .ok r := by
  obtain ⟨S, -, -, h⟩ := C85_clients .e251_9
  obtain ⟨r, h1, -⟩ := h _ (rootClient_uses hx)
  exact ⟨r, h1⟩

/-- The base points of the other curves, and the two points of order four. -/
example (c : Crv) (hc : c.fld ≠ .e251_9) (w : World) :
    (c.quickDecode (leBytes c.fld.nbytes c.base.y.val) (c.base.x.val.testBit 0)).text (src c.fld) w 12 c.fld true =
      .ok (some (leBytes c.fld.nbytes c.base.x.val)) ∧
    ∃ out, (c.quickDecode (leBytes c.fld.nbytes (0 : c.K).val) true).text (src c.fld) w 12 c.fld true = .ok (some out) := by
  refine ⟨((C85_decode_others c hc c.base.y) _ w).1 c.base rfl (.inl rfl), ?_⟩
  obtain ⟨P, -, h1, h2⟩ := c.signed_on (x := 1) (y := 0) true (by ring)
  exact ⟨_, ((C85_decode_others c hc 0) true w).1 P h1 h2⟩

/-- The base point of Curve1174. -/
example (w : World) : (Crv.curve1174.quickDecode (leBytes 32 Crv.curve1174.base.y.val) (Crv.curve1174.base.x.val.testBit 0)).text
    (src .e251_9) w 12 .e251_9 true = .ok (some (leBytes 32 Crv.curve1174.base.x.val)) :=
  (C85_base _ w).1 Crv.curve1174.base rfl (.inl rfl)

/-- A `y` of Curve1174 for which the decoding is right exists by counting, too. -/
example : ∃ y, Crv.curve1174.DecodesRight y := by
  by_contra h
  rw [not_exists] at h
  have h1 := C85_decode_few .curve1174
  have h2 : {y : Crv.curve1174.K | ¬ Crv.curve1174.DecodesRight y} = Set.univ := Set.eq_univ_of_forall h
  rw [h2, Set.ncard_univ, Nat.card_zmod] at h1
  exact absurd h1 (by decide +kernel)

end Verif

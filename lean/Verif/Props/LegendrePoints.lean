import Verif.Props.BlindPoints

/-!
# Property C87: compressed points as the comments on `legendre` and `sqrt` suggest

src/field/prime_field.rs, lines 85–92: the Legendre symbol is 1 if a square root exists, and `sqrt` has a meaning if `legendre` returns 1.
Here a client relies on this: it takes the root if `legendre` returns 1 and does not look at the square of the root.  On four curves it is
right for all `y`, and on Curve1174 for all but less than one in `2^11`.  But there are points of Curve1174 from whose `y` it makes an
`x` that is not on the curve, in all builds.
-/

namespace Verif
open Fld FieldCode Rust

/-- From the bytes of `y` and a sign the bytes of the `x` with this lowest bit, with `/`, `legendre` and `sqrt`.  The registers: `y`, 0,
`d`, 1, `y²`, `d y²`, `1 - y²`, `1 - d y²`, the quotient, its Legendre symbol, its root `x`, `-x`. -/
def Crv.symbolDecode (c : Crv) (ys : List Int) (sg : Bool) : Client (Option (List Int)) :=
  .step (.bytes ys) <| .step .zero <| .step (.addI 1 c.dInt) <| .step .one <| .step (.square 0) <| .step (.mul 2 4) <|
  .step (.sub 3 4) <| .step (.sub 3 5) <| .step (.div 6 7) <| .step (.legendre 8) <| .step (.sqrt 8) <| .step (.sub 1 10) <|
  .eq 9 3 fun l => .eq 9 1 fun z => .bit 10 0 fun b => .packed (if b = sg then 10 else 11) fun out => .packed 1 fun zero =>
  .done (if l then some out else if z then some zero else none)

section
variable (c : Crv)

theorem Crv.symbolDecode_uses {ys : List Int} (hy : IsBytes ys ∧ c.fld.nbytes ≤ ys.length) (sg : Bool) :
    (c.symbolDecode ys sg).Uses c.fld fun _ => True := by
  have h : c.fld ≠ .e383_187 := by cases c <;> decide
  have hd : IsI32 c.dInt := by cases c <;> exact ⟨by decide, by decide⟩
  have hb : 0 < c.fld.L * c.fld.k := by cases c <;> decide
  simp only [Crv.symbolDecode, Client.Uses, Op.Valid, true_and, hy.1, hy.2, hd, hb, implies_true, and_true]
  exact fun h' => absurd h' h

/-- The results the client can have (helper lemma). -/
theorem Crv.symbolDecode_outcome {S : Finset c.K} {ys : List Int} {sg : Bool} {r : Option (List Int)}
    (h : (c.symbolDecode ys sg).Outcome c.fld S [] r) :
    ∃ q l x : c.K, let y := c.received ys
      (1 - c.d * (y * y) ∉ S → q = (1 - y * y) * (1 - c.d * (y * y))⁻¹) ∧
      (q ∉ S → l = if q = 0 then 0 else if IsSquare q then 1 else -1) ∧ (q ∉ S → x = c.fld.root q) ∧
      r = if l = 1 then some (leBytes c.fld.nbytes (if x.val.testBit 0 = sg then x else -x).val)
        else if l = 0 then some (leBytes c.fld.nbytes (0 : c.K).val) else none := by
  obtain ⟨y, e0, ⟨z, e1, ⟨d, e2, ⟨o, e3, ⟨yy, e4, ⟨dyy, e5, ⟨n, e6, ⟨m, e7, ⟨q, e8, ⟨l, e9, ⟨x, e10, ⟨u, e11, h⟩⟩⟩⟩⟩⟩⟩⟩⟩⟩⟩⟩ := h
  replace e0 := e0 nofun
  replace e1 := e1 nofun
  replace e2 := e2 nofun
  replace e3 := e3 nofun
  replace e4 := e4 nofun
  replace e5 := e5 nofun
  replace e6 := e6 nofun
  replace e7 := e7 nofun
  replace e11 := e11 nofun
  simp only [Op.ideal, List.nil_append, List.cons_append, List.getD_cons_zero, List.getD_cons_succ] at e1 e2 e3 e4 e5 e6 e7 e11
  simp only [Op.powArg, Op.ideal, Option.some.injEq, forall_eq', List.nil_append, List.cons_append, List.getD_cons_zero, List.getD_cons_succ] at e8 e9 e10
  have e0' : y = c.received ys := e0
  clear e0
  subst e1 e2 e3 e4 e5 e6 e7 e11
  simp only [Client.Outcome, List.nil_append, List.cons_append, List.getD_cons_zero, List.getD_cons_succ] at h
  have hd : (0 : c.K) + ((c.dInt : Int) : c.K) = c.d := zero_add _
  subst e0'
  rw [hd] at e8
  refine ⟨q, l, x, e8, e9, e10, ?_⟩
  rw [h]
  simp only [decide_eq_true_eq]
  by_cases hb : x.val.testBit 0 = sg
  · simp only [hb, if_true, List.getD_cons_zero, List.getD_cons_succ]
  · simp only [hb, if_false, List.getD_cons_zero, List.getD_cons_succ, zero_sub]

/-- What the decoding is for: all points with this `y` are found, and other strings rejected. -/
def Crv.SymbolRight (y : c.K) : Prop := ∀ (sg : Bool) (w : World),
  (∀ P : c.Point, P.y = y → (P.x.val.testBit 0 = sg ∨ P.x = 0) →
    (c.symbolDecode (leBytes c.fld.nbytes y.val) sg).text (src c.fld) w 12 c.fld true =
      .ok (some (leBytes c.fld.nbytes P.x.val))) ∧
  ((¬ ∃ P : c.Point, P.y = y) →
    (c.symbolDecode (leBytes c.fld.nbytes y.val) sg).text (src c.fld) w 12 c.fld true = .ok none)

/-- Right, if neither operand of the exponentiations is in the set (helper lemma). -/
theorem Crv.symbol_of_not_mem {y : c.K} (h1 : 1 - c.d * (y * y) ∉ c.fld.rareSet)
    (h2 : (1 - y * y) * (1 - c.d * (y * y))⁻¹ ∉ c.fld.rareSet) : c.SymbolRight y := by
  intro sg w
  have hr : c.received (leBytes c.fld.nbytes y.val) = y := Crv.coord_leBytes c _
  obtain ⟨r, g1, g2⟩ := Client.text_outcome c.fld _ (c.symbolDecode_uses (c.bytes_ok y) sg)
  obtain ⟨q, l, x, g3, g4, g5, g6⟩ := c.symbolDecode_outcome g2
  rw [hr] at g3
  obtain rfl := g3 h1
  obtain rfl := g5 h2
  have g4 := g4 h2
  rw [g1]
  have hd := c.den_ne y
  have h10 : (1 : c.K) ≠ 0 := one_ne_zero
  refine ⟨fun P py px => ?_, fun hn => ?_⟩
  · have e : (1 - y * y) * (1 - c.d * (y * y))⁻¹ = P.x * P.x := by
      rw [mul_inv_eq_iff_eq_mul₀ hd, ← py]
      linear_combination -P.on
    have hx := (C45_root c.fld (x := (1 - y * y) * (1 - c.d * (y * y))⁻¹) ⟨P.x, e⟩).1
    generalize c.fld.root ((1 - y * y) * (1 - c.d * (y * y))⁻¹) = x at *
    by_cases h0 : (1 - y * y) * (1 - c.d * (y * y))⁻¹ = 0
    · rw [if_pos h0] at g4
      rw [g6, g4, if_neg h10.symm, if_pos rfl, show P.x = 0 from mul_self_eq_zero.mp (e.symm.trans h0)]
    · rw [if_neg h0, if_pos ⟨P.x, e⟩] at g4
      have hq : x * x * (1 - c.d * (y * y)) = 1 - y * y := by rw [hx, inv_mul_cancel_right₀ hd]
      obtain ⟨Q, q1, q2, q3⟩ := c.signed_on sg hq
      rw [g6, if_pos g4, ← q1, c.signed_unique (q2.trans py.symm) q3 px]
  · have hs : ¬ IsSquare ((1 - y * y) * (1 - c.d * (y * y))⁻¹) := by
      rintro ⟨x, hx⟩
      obtain ⟨Q, -, q2, -⟩ := c.signed_on (x := x) (y := y) sg (by rw [← hx, inv_mul_cancel_right₀ hd])
      exact hn ⟨Q, q2⟩
    have h0 : (1 - y * y) * (1 - c.d * (y * y))⁻¹ ≠ 0 := fun h => hs (by rw [h]; exact IsSquare.zero)
    rw [if_neg h0, if_neg hs] at g4
    have hm : (-1 : c.K) ≠ 1 := fun h => two_ne_zero_pN c.fld (by linear_combination -h)
    rw [g6, g4, if_neg hm, if_neg (neg_ne_zero.mpr h10)]

/-- C87: on the other four curves the decoding is right for all `y`. -/
theorem C87_others (hc : c.fld ≠ .e251_9) (y : c.K) : c.SymbolRight y := by
  have := rareSet_empty hc
  exact c.symbol_of_not_mem (by rw [this]; exact Finset.notMem_empty _) (by rw [this]; exact Finset.notMem_empty _)

/-- C87: on every curve, and so on Curve1174, it is right for all `y` but less than one in `2^11`. -/
theorem C87_few : Set.ncard {y : c.K | ¬ c.SymbolRight y} * 2 ^ 11 < c.fld.pN := by
  have d0 : c.d ≠ 0 := fun h => c.d_nonsquare (by rw [h]; exact IsSquare.zero)
  have d1 : c.d ≠ 1 := fun h => c.d_nonsquare (by rw [h]; exact IsSquare.one)
  have k1 := card_fibre c.fld.rareSet (fun y : c.K => 1 - c.d * (y * y)) fun y z h => by
    refine mul_self_eq_mul_self_iff.1 (mul_left_cancel₀ d0 ?_)
    have h : 1 - c.d * (y * y) = 1 - c.d * (z * z) := h
    linear_combination -h
  have k2 := card_fibre c.fld.rareSet (fun y : c.K => (1 - y * y) * (1 - c.d * (y * y))⁻¹) fun y z h => by
    refine mul_self_eq_mul_self_iff.1 (mul_left_cancel₀ (sub_ne_zero.mpr d1) ?_)
    have h : (1 - y * y) * (1 - c.d * (y * y))⁻¹ = (1 - z * z) * (1 - c.d * (z * z))⁻¹ := h
    rw [mul_inv_eq_iff_eq_mul₀ (c.den_ne y), mul_right_comm, eq_mul_inv_iff_mul_eq₀ (c.den_ne z)] at h
    linear_combination h
  have k3 : Set.ncard {y : c.K | ¬ c.SymbolRight y} ≤ 4 * c.fld.rareSet.card := by
    refine le_trans ?_ (le_trans (Finset.card_union_le _ _) ((Nat.add_le_add k1 k2).trans (by rw [← Nat.add_mul])))
    rw [← Set.ncard_coe_finset]
    refine Set.ncard_le_ncard (fun y hy => ?_) (Finset.finite_toSet _)
    rw [Finset.mem_coe, Finset.mem_union, Finset.mem_filter, Finset.mem_filter]
    by_contra h
    rw [not_or] at h
    exact hy (c.symbol_of_not_mem (fun g => h.1 ⟨Finset.mem_univ _, g⟩) fun g => h.2 ⟨Finset.mem_univ _, g⟩)
  refine (Nat.mul_le_mul_right _ k3).trans_lt ?_
  rw [show 4 * c.fld.rareSet.card * 2 ^ 11 = c.fld.rareSet.card * 2 ^ 13 by ring]
  exact c.fld.rareSet_card

/-- If the division and the symbol are right and the root is wrong, the wrong root is returned (helper lemma). -/
theorem Crv.symbolDecode_wrong {y d1 : c.K} {a x y1 l l1 : Elem} (hm : 1 - c.d * (y * y) ∉ c.fld.rareSet)
    (ha : c.fld.Of ((1 - y * y) * (1 - c.d * (y * y))⁻¹) a)
    (h0 : ∀ pr, c.fld.code.legendre pr a = .ok l ∧ c.fld.code.normalize pr l = .ok l1) (hl : c.fld.Of (1 : c.K) l1)
    (h1 : ∀ pr, c.fld.code.sqrt pr a = .ok x ∧ c.fld.code.normalize pr x = .ok y1) (h2 : c.fld.Of d1 y1) (sg : Bool) (w : World) :
    (c.symbolDecode (leBytes c.fld.nbytes y.val) sg).text (src c.fld) w 12 c.fld true =
      .ok (some (leBytes c.fld.nbytes (if d1.val.testBit 0 = sg then d1 else -d1).val)) := by
  let os : List Op := [.bytes (leBytes c.fld.nbytes y.val), .zero, .addI 1 c.dInt, .one, .square 0, .mul 2 4, .sub 3 4, .sub 3 5, .div 6 7]
  let k : Client (Option (List Int)) := .step (.sub 1 10) <|
    .eq 9 3 fun l => .eq 9 1 fun z => .bit 10 0 fun b => .packed (if b = sg then 10 else 11) fun out => .packed 1 fun zero =>
    .done (if l then some out else if z then some zero else none)
  have e : c.symbolDecode (leBytes c.fld.nbytes y.val) sg = Client.ops os (.step (.legendre 8) (.step (.sqrt 8) k)) := rfl
  have hu := c.symbolDecode_uses (c.bytes_ok y) sg
  have hv : ∀ o ∈ os, o.Valid c.fld := by
    rw [e] at hu
    obtain ⟨-, v0, -, v1, -, v2, -, v3, -, v4, -, v5, -, v6, -, v7, -, v8, -⟩ := hu
    simp only [os, List.forall_mem_cons, v0, v1, v2, v3, v4, v5, v6, v7, v8, true_and]
    exact fun o ho => absurd ho List.not_mem_nil
  have hk : k.Uses c.fld fun _ => True := by
    rw [e] at hu
    exact hu.2.2.2.2.2.2.2.2.2.2.2.2.2.2.2.2.2.2.2.2.2.2
  have hy : (Op.bytes (leBytes c.fld.nbytes y.val)).ideal c.fld [] = y := Crv.coord_leBytes c _
  have hd : (0 : c.K) + ((c.dInt : Int) : c.K) = c.d := zero_add _
  have ho : opsRun c.fld [] os = [y, 0, c.d, 1, y * y, c.d * (y * y), 1 - y * y, 1 - c.d * (y * y),
      (1 - y * y) * (1 - c.d * (y * y))⁻¹] := by
    simp only [os, opsRun, List.foldl_cons, List.foldl_nil, hy]
    simp only [Op.ideal, List.nil_append, List.cons_append, List.getD_cons_zero, List.getD_cons_succ, hd]
  have hav : OpsAvoid c.fld [] os := by
    refine ⟨nofun, nofun, nofun, nofun, nofun, nofun, nofun, nofun, ?_, trivial⟩
    intro i hi
    cases hi
    rw [hy]
    simp only [Op.ideal, List.nil_append, List.cons_append, List.getD_cons_zero, List.getD_cons_succ, hd]
    exact hm
  obtain ⟨rs, g1, g2⟩ := run_ops c.fld hv hav .nil
  rw [ho] at g1
  have f1 := forall₂_snoc g1 hl
  have ea : rs.getD 8 c.fld.code.ZERO = a := C09_canonical_unique c.fld (forall₂_getD of_zero g1 8) ha
  have eb : (rs ++ [l1]).getD 8 c.fld.code.ZERO = a := C09_canonical_unique c.fld (forall₂_getD of_zero f1 8) ha
  obtain ⟨res, g3, g4⟩ := Client.outcome (f := c.fld) (S := c.fld.rareSet) (fun d hf h => mem_rareSet.mpr ⟨hf, h⟩) k hk (forall₂_snoc f1 h2)
  rw [C59_client_model (has_src _) w (Nat.le_refl 12), e, g2, Client.run_step _ (x := l) (y := l1), Client.run_step k (x := x) (y := y1), g3]
  · obtain ⟨v, e3, h⟩ := g4
    replace e3 := e3 nofun
    simp only [Op.ideal, List.nil_append, List.cons_append, List.getD_cons_zero, List.getD_cons_succ] at e3
    subst e3
    simp only [Client.Outcome, List.nil_append, List.cons_append, List.getD_cons_zero, List.getD_cons_succ] at h
    rw [h, if_pos (decide_eq_true trivial)]
    by_cases hb : d1.val.testBit 0 = sg
    · simp only [hb, if_true, List.getD_cons_zero, List.getD_cons_succ]
      rfl
    · simp only [hb, if_false, List.getD_cons_zero, List.getD_cons_succ, zero_sub]
      rfl
  · rw [Op.exec]
    simp only [eb]
    exact h1 w.pr
  · rw [Op.exec]
    simp only [ea]
    exact h0 w.pr

theorem Crv.off_curve {y d1 : c.K} (h : d1 * d1 ≠ (1 - y * y) * (1 - c.d * (y * y))⁻¹) (sg : Bool) :
    ¬ ∃ Q : c.Point, Q.x = (if d1.val.testBit 0 = sg then d1 else -d1) ∧ Q.y = y := by
  rintro ⟨Q, q1, q2⟩
  have q3 := Q.on
  have q4 : Q.x * Q.x = d1 * d1 := by
    rw [q1]
    split
    · rfl
    · exact neg_mul_neg _ _
  refine h ?_
  rw [← q4, eq_mul_inv_iff_mul_eq₀ (c.den_ne y), ← q2]
  linear_combination q3

theorem Crv.leBytes_inj {x y : c.K} (h : leBytes c.fld.nbytes x.val = leBytes c.fld.nbytes y.val) : x = y :=
  (Crv.coord_leBytes c x).symm.trans ((congrArg c.received h).trans (Crv.coord_leBytes c y))

/-- An `x` that is not on the curve is not right (helper lemma). -/
theorem Crv.not_right {P : c.Point} (h : ∀ sg, ∃ x : c.K,
    (∀ w, (c.symbolDecode (leBytes c.fld.nbytes P.y.val) sg).text (src c.fld) w 12 c.fld true = .ok (some (leBytes c.fld.nbytes x.val))) ∧
    ¬ ∃ Q : c.Point, Q.x = x ∧ Q.y = P.y) : ¬ c.SymbolRight P.y := by
  intro hr
  obtain ⟨x, h1, h2⟩ := h (P.x.val.testBit 0)
  have h3 := (hr (P.x.val.testBit 0) ⟨.debug, default, fun _ _ => 0⟩).1 P rfl (.inl rfl)
  exact h2 ⟨P, (c.leBytes_inj (Option.some.inj (Except.ok.inj ((h1 _).symm.trans h3)))).symm, rfl⟩

end

/-! ### The point of C86 -/

/-- The symbol of an element of `Mod_e251_9` from the value of the chain (helper lemma). -/
theorem right_symbol {q : ZMod e251_9.pN} {a : Elem} {v : Int} (ha : e251_9.Of q a)
    (h1 : e251_9.intRun (fun _ => none) e251_9.code.legendreC (e251_9.V a) = some v) (h2 : v % e251_9.p = 1) :
    ∃ l l1, (∀ pr, e251_9.code.legendre pr a = .ok l ∧ e251_9.code.normalize pr l = .ok l1) ∧ e251_9.Of 1 l1 := by
  have hr : List.Forall₂ e251_9.Of [q] [a] := .cons ha .nil
  obtain ⟨x1, y1, d1, b1, b2, -⟩ := op_step e251_9 (.legendre 0) trivial (forall₂_getD of_zero hr)
  simp only [Op.exec, List.getD_cons_zero] at b1
  obtain ⟨r, g1, g2, g3⟩ := chain_pos exp_results.2.1 (.of_canon ha) .debug noQuartic
  obtain rfl := ok_unique g1 (b1 .debug).1
  obtain ⟨r', k1, -, k2⟩ := intRun_sound' .debug (q := noQuartic) (Canon.tight ha) h1
  obtain rfl := ok_unique g1 k1
  have b4 : d1 = ((e251_9.V r : Int) : ZMod e251_9.pN) := b2.cast.symm.trans (of_pos g2 g3 (b1 .debug).2).cast
  have b5 : d1 = 1 := by
    rw [b4, k2]
    have : ((v : Int) : ZMod e251_9.pN) = ((1 : Int) : ZMod e251_9.pN) := by
      rw [← modEq_iff]
      exact h2.trans (by decide +kernel)
    rw [this, Int.cast_one]
  exact ⟨_, _, b1, b5 ▸ b2⟩

set_option maxRecDepth 100000 in
theorem missed_symbol : ∃ v, e251_9.intRun (fun _ => none) e251_9.code.legendreC (e251_9.V missedSquare) = some v ∧ v % e251_9.p = 1 := by
  have h1 : (match e251_9.intRun (fun _ => none) e251_9.code.legendreC (e251_9.V missedSquare) with
      | some v => decide (v % e251_9.p = 1)
      | none => false) = true := by decide +kernel
  split at h1
  · next v hv => exact ⟨v, hv, of_decide_eq_true h1⟩
  · cases h1

theorem off_curve_of {X Y : Crv.curve1174.K} {a r s : Elem} {v : Int} (hon : X * X + Y * Y + 1174 * (X * X * (Y * Y)) = 1)
    (hc : e251_9.Canon (e251_9.V a) a) (hV : ((e251_9.V a : Int) : Crv.curve1174.K) = X * X)
    (h1 : e251_9.code.sqrt .debug a = .ok r) (h2 : e251_9.code.squared .debug r = .ok s) (h3 : ¬ e251_9.Denotes s (e251_9.V a))
    (h4 : e251_9.intRun (fun _ => none) e251_9.code.legendreC (e251_9.V a) = some v) (h5 : v % e251_9.p = 1)
    (k1 : 1 + 1174 * (Y * Y) ∉ Crv.curve1174.fld.rareSet) :
    ∃ P : Crv.curve1174.Point, ∀ sg, ∃ x : Crv.curve1174.K,
      (∀ w, (Crv.curve1174.symbolDecode (leBytes 32 P.y.val) sg).text (src .e251_9) w 12 .e251_9 true = .ok (some (leBytes 32 x.val))) ∧
      ¬ ∃ Q : Crv.curve1174.Point, Q.x = x ∧ Q.y = P.y := by
  have hd : Crv.curve1174.d = -1174 := by
    show (((-1174 : Int)) : Crv.curve1174.K) = _
    push_cast; rfl
  have hn := Crv.curve1174.den_ne Y
  have e1 : 1 + 1174 * (Y * Y) = 1 - Crv.curve1174.d * (Y * Y) := by rw [hd]; ring
  have e2 : X * X = (1 - Y * Y) * (1 - Crv.curve1174.d * (Y * Y))⁻¹ := by
    rw [eq_mul_inv_iff_mul_eq₀ hn, ← e1]
    linear_combination hon
  rw [e1] at k1
  have ho : e251_9.Of (((1 - Y * Y) * (1 - Crv.curve1174.d * (Y * Y))⁻¹ : Crv.curve1174.K)) a := by
    rw [← e2, ← hV]
    refine .of_emod ?_
    rwa [Int.emod_eq_of_lt hc.2.2.1 hc.2.2.2]
  obtain ⟨x, y1, d1, g1, g2, g3⟩ := wrong_root ho h1 h2 h3
  obtain ⟨l, l1, m1, m2⟩ := right_symbol ho h4 h5
  refine ⟨⟨X, Y, by rw [hd]; linear_combination hon⟩, fun sg => ⟨_, fun w => Crv.symbolDecode_wrong Crv.curve1174 k1 ho m1 m2 g1 g2 sg w,
    Crv.off_curve Crv.curve1174 g3 sg⟩⟩

/-- C87: there is a point of Curve1174 from whose `y` the client makes, for both signs and in all builds, an `x` with which it is not a
point of the curve. -/
theorem C87_off_curve : ∃ P : Crv.curve1174.Point, ∀ sg, ∃ x : Crv.curve1174.K,
    (∀ w, (Crv.curve1174.symbolDecode (leBytes 32 P.y.val) sg).text (src .e251_9) w 12 .e251_9 true = .ok (some (leBytes 32 x.val))) ∧
    ¬ ∃ Q : Crv.curve1174.Point, Q.x = x ∧ Q.y = P.y := by
  obtain ⟨hc, r, s, r1, r2, r3⟩ := missed_root
  obtain ⟨v, v1, v2⟩ := missed_symbol
  obtain ⟨n1, n2, -, n4, -⟩ := missed_numbers
  have key : ∀ (r : Nat) (d : Crv.curve1174.K), mildSquares 250 r = true → (r : Crv.curve1174.K) = d → d ∉ Crv.curve1174.fld.rareSet :=
    fun r d => not_mem_of_mild
  have m1 : ((missedX * missedX + missedY * missedY + 1174 * (missedX * missedX * (missedY * missedY)) : Nat) : Crv.curve1174.K) = ((1 : Nat) : Crv.curve1174.K) :=
    (ZMod.natCast_eq_natCast_iff _ _ _).2 n1
  have m2 : ((e251_9.V missedSquare : Int) : Crv.curve1174.K) = ((missedX * missedX : Nat) : Crv.curve1174.K) := by
    have : ((e251_9.V missedSquare : Int) : ZMod e251_9.pN) = ((missedX * missedX : Int) : ZMod e251_9.pN) := by
      rw [← modEq_iff]
      exact (Int.modEq_iff_dvd.mpr (Int.dvd_of_emod_eq_zero n2)).symm
    refine Eq.trans this ?_
    push_cast
    rfl
  rw [Nat.cast_mul] at m2
  have k1 := key _ (1 + 1174 * ((missedY : Crv.curve1174.K) * missedY)) n4 (by push_cast; rfl)
  exact off_curve_of (by push_cast at m1; exact m1) hc m2 r1 r2 r3 v1 v2 k1

/-- C87: so `SymbolRight` fails for some `y` of Curve1174. -/
theorem C87_not_right : ∃ y, ¬ Crv.curve1174.SymbolRight y := by
  obtain ⟨P, h⟩ := C87_off_curve
  exact ⟨P.y, Crv.not_right Crv.curve1174 h⟩

/-! ### Cases -/

/-- The base points of the other curves. -/
example (c : Crv) (hc : c.fld ≠ .e251_9) (w : World) :
    (c.symbolDecode (leBytes c.fld.nbytes c.base.y.val) (c.base.x.val.testBit 0)).text (src c.fld) w 12 c.fld true =
      .ok (some (leBytes c.fld.nbytes c.base.x.val)) :=
  ((C87_others c hc c.base.y) _ w).1 c.base rfl (.inl rfl)

/-- The neutral element, for both signs: the symbol of 0 is 0. -/
example (c : Crv) (hc : c.fld ≠ .e251_9) (sg : Bool) (w : World) :
    (c.symbolDecode (leBytes c.fld.nbytes (1 : c.K).val) sg).text (src c.fld) w 12 c.fld true =
      .ok (some (leBytes c.fld.nbytes (0 : c.K).val)) :=
  ((C87_others c hc 1) sg w).1 ⟨0, 1, by ring⟩ rfl (.inr rfl)

end Verif

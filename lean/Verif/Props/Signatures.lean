import Verif.Props.EdwardsAgreement

/-!
# Property C82: signatures on the Edwards curves with the field types as they are

As in C81 the text of the field files is run by a client that normalizes every new element.  `Crv.verify` (`Verif/Curve/EdProgram.lean`)
is the test of a Schnorr signature: `s B = R + h A`, where `A` is the public key, `R` and `s` are the signature and `h` is the challenge,
the bytes that a hash function makes of `R`, `A` and the message.  It accepts exactly the signatures that fulfil the equation.
-/

namespace Verif
open Fld FieldCode Rust

section
variable (c : Crv)

private theorem start_eq (ax ay rx ry : List Int) :
    let X := c.received ax
    let Y := c.received ay
    let U := c.received rx
    let V := c.received ry
    opsRun c.fld [] ([.bytes ax, .bytes ay, .zero, .addI 2 c.dInt, .one, .bytes rx, .bytes ry, .bytes c.baseBytes.1, .bytes c.baseBytes.2] ++
      edOn 9 0 1 ++ edOn 15 5 6) =
      [X, Y, 0, c.d, 1, U, V, c.base.x, c.base.y, X * X, Y * Y, X * X + Y * Y, X * X * (Y * Y), c.d * (X * X * (Y * Y)),
        1 + c.d * (X * X * (Y * Y)), U * U, V * V, U * U + V * V, U * U * (V * V), c.d * (U * U * (V * V)),
        1 + c.d * (U * U * (V * V))] := by
  have h1 : c.received c.baseBytes.1 = c.base.x := Crv.coord_leBytes c _
  have h2 : c.received c.baseBytes.2 = c.base.y := Crv.coord_leBytes c _
  rw [← h1, ← h2]
  simp only [opsRun, edOn, List.foldl_cons, List.foldl_nil, Op.ideal, List.nil_append, List.cons_append, List.getD_cons_zero,
    List.getD_cons_succ, zero_add, Nat.reduceAdd]
  rfl

/-- In `ℤ / p` (helper lemma). -/
theorem Crv.ideal_verify {s h : List Int} (hs : IsBytes s) (hh : IsBytes h) (ax ay rx ry : List Int) :
    (c.verify s h ax ay rx ry).ideal c.fld [] = true ↔
      ∃ A ∈ AddSubgroup.zmultiples c.base, ∃ R ∈ AddSubgroup.zmultiples c.base, A.x = c.received ax ∧ A.y = c.received ay ∧
        R.x = c.received rx ∧ R.y = c.received ry ∧ (leVal s).toNat • c.base = R + (leVal h).toNat • A := by
  have key : ∀ ds : List c.K, ds.length = 21 →
      opsRun c.fld [] ([.bytes ax, .bytes ay, .zero, .addI 2 c.dInt, .one, .bytes rx, .bytes ry, .bytes c.baseBytes.1,
        .bytes c.baseBytes.2] ++ edOn 9 0 1 ++ edOn 15 5 6) = ds →
      ds.getD 2 0 = 0 → ds.getD 3 0 = c.d → ds.getD 4 0 = 1 → ds.getD 7 0 = c.base.x → ds.getD 8 0 = c.base.y →
      (ds.getD 11 0 = ds.getD 14 0 ↔ ds.getD 0 0 ^ 2 + ds.getD 1 0 ^ 2 = 1 + c.d * ds.getD 0 0 ^ 2 * ds.getD 1 0 ^ 2) →
      (ds.getD 17 0 = ds.getD 20 0 ↔ ds.getD 5 0 ^ 2 + ds.getD 6 0 ^ 2 = 1 + c.d * ds.getD 5 0 ^ 2 * ds.getD 6 0 ^ 2) →
      ((c.verify s h ax ay rx ry).ideal c.fld [] = true ↔
      ∃ A ∈ AddSubgroup.zmultiples c.base, ∃ R ∈ AddSubgroup.zmultiples c.base, A.x = ds.getD 0 0 ∧ A.y = ds.getD 1 0 ∧
        R.x = ds.getD 5 0 ∧ R.y = ds.getD 6 0 ∧ (leVal s).toNat • c.base = R + (leVal h).toNat • A) := by
    intro ds hl hds g2 g3 g4 g7 g8 gA gR
    unfold Crv.verify
    dsimp only
    generalize hm : 21 + 37 * c.orderBits.length = m
    generalize hm' : m + 3 + 37 * c.orderBits.length = m'
    generalize hk : m' + 3 + 37 * (scalarBits s).length = k
    generalize hj : k + 3 + 37 * (scalarBits h).length = j
    rw [ideal_ops]
    simp only [Client.ideal]
    rw [opsRun_append, opsRun_append, opsRun_append, opsRun_append, opsRun_append, opsRun_append, hds]
    generalize hd1 : opsRun c.fld ds (edMul c.orderBits 21 0 1) = d1
    generalize hd2 : opsRun c.fld d1 (edMul c.orderBits (m + 3) 5 6) = d2
    generalize hd3 : opsRun c.fld d2 (edMul (scalarBits s) (m' + 3) 7 8) = d3
    generalize hd4 : opsRun c.fld d3 (edMul (scalarBits h) (k + 3) 0 1) = d4
    generalize hd5 : opsRun c.fld d4 (edAdd (j + 3) j (j + 1) (j + 2) 5 6 4) = d5
    generalize hd6 : opsRun c.fld d5 [.mul k (j + 19), .mul (j + 16) (k + 2), .mul (k + 1) (j + 19), .mul (j + 18) (k + 2)] = d6
    have l1 : d1.length = m + 3 := by rw [← hd1, opsRun_length, hl, edMul_length]; omega
    have l2 : d2.length = m' + 3 := by rw [← hd2, opsRun_length, l1, edMul_length]; omega
    have l3 : d3.length = k + 3 := by rw [← hd3, opsRun_length, l2, edMul_length]; omega
    have l4 : d4.length = j + 3 := by rw [← hd4, opsRun_length, l3, edMul_length]; omega
    have l5 : d5.length = j + 20 := by rw [← hd5, opsRun_length, l4]; simp [edAdd]
    have o1 (i : Nat) (hi : i < 21) : d1.getD i 0 = ds.getD i 0 := by rw [← hd1, opsRun_old _ _ _ (by omega)]
    have o2 (i : Nat) (hi : i < m + 3) : d2.getD i 0 = d1.getD i 0 := by rw [← hd2, opsRun_old _ _ _ (by omega)]
    have o3 (i : Nat) (hi : i < m' + 3) : d3.getD i 0 = d2.getD i 0 := by rw [← hd3, opsRun_old _ _ _ (by omega)]
    have o4 (i : Nat) (hi : i < k + 3) : d4.getD i 0 = d3.getD i 0 := by rw [← hd4, opsRun_old _ _ _ (by omega)]
    have o5 (i : Nat) (hi : i < j + 3) : d5.getD i 0 = d4.getD i 0 := by rw [← hd5, opsRun_old _ _ _ (by omega)]
    have o6 (i : Nat) (hi : i < j + 20) : d6.getD i 0 = d5.getD i 0 := by rw [← hd6, opsRun_old _ _ _ (by omega)]
    have f6 (i : Nat) (hi : i < 21) : d6.getD i 0 = ds.getD i 0 := by
      rw [o6 i (by omega), o5 i (by omega), o4 i (by omega), o3 i (by omega), o2 i (by omega), o1 i hi]
    have e6 : d6.getD (j + 20) 0 = d5.getD k 0 * d5.getD (j + 19) 0 ∧ d6.getD (j + 21) 0 = d5.getD (j + 16) 0 * d5.getD (k + 2) 0 ∧
        d6.getD (j + 22) 0 = d5.getD (k + 1) 0 * d5.getD (j + 19) 0 ∧ d6.getD (j + 23) 0 = d5.getD (j + 18) 0 * d5.getD (k + 2) 0 := by
      have new (i : Nat) (l : List c.K) : (d5 ++ l).getD (j + 20 + i) 0 = l.getD i 0 := by
        rw [← l5]; simp [List.getD_eq_getElem?_getD, List.getElem?_append_right]
      have old {i : Nat} (hi : i < j + 20) (l : List c.K) : (d5 ++ l).getD i 0 = d5.getD i 0 := by
        simp [List.getD_eq_getElem?_getD, List.getElem?_append_left (show i < d5.length by omega)]
      rw [← hd6]
      simp only [opsRun, List.foldl_cons, List.foldl_nil, Op.ideal, List.append_assoc, List.cons_append, List.nil_append]
      rw [old (i := k + 2) (by omega), old (i := k + 1) (by omega), old (i := k + 2) (by omega), old (i := j + 16) (by omega),
        old (i := j + 18) (by omega), old (i := j + 19) (by omega)]
      exact ⟨new 0 _, new 1 _, new 2 _, new 3 _⟩
    simp only [Bool.and_eq_true, decide_eq_true_eq]
    rw [f6 11 (by omega), f6 14 (by omega), f6 17 (by omega), f6 20 (by omega), gA, gR, e6.1, e6.2.1, e6.2.2.1, e6.2.2.2]
    have core : ∀ A R : c.Point, A.x = ds.getD 0 0 → A.y = ds.getD 1 0 → R.x = ds.getD 5 0 → R.y = ds.getD 6 0 →
        (d6.getD m 0 = d6.getD 2 0 ∧ d6.getD (m + 1) 0 = d6.getD (m + 2) 0 ↔ A ∈ AddSubgroup.zmultiples c.base) ∧
        (d6.getD m' 0 = d6.getD 2 0 ∧ d6.getD (m' + 1) 0 = d6.getD (m' + 2) 0 ↔ R ∈ AddSubgroup.zmultiples c.base) ∧
        (d5.getD k 0 * d5.getD (j + 19) 0 = d5.getD (j + 16) 0 * d5.getD (k + 2) 0 ∧
          d5.getD (k + 1) 0 * d5.getD (j + 19) 0 = d5.getD (j + 18) 0 * d5.getD (k + 2) 0 ↔
            (leVal s).toNat • c.base = R + (leVal h).toNat • A) := by
      intro A R ax ay rx ry
      have one : ds.getD 4 0 ≠ 0 := by rw [g4]; exact one_ne_zero
      have bA : EdBase ds 0 1 A := ⟨by omega, by omega, by omega, g3, g4, by rw [g4, mul_one, ax], by rw [g4, mul_one, ay], one⟩
      have bR : EdBase ds 5 6 R := ⟨by omega, by omega, by omega, g3, g4, by rw [g4, mul_one, rx], by rw [g4, mul_one, ry], one⟩
      have bB : EdBase ds 7 8 c.base := ⟨by omega, by omega, by omega, g3, g4, by rw [g4, mul_one, g7], by rw [g4, mul_one, g8], one⟩
      have r1 := rep_edMul c.orderBits hl bA
      have bA1 := bA.mono (edMul c.orderBits 21 0 1)
      have bR1 := bR.mono (edMul c.orderBits 21 0 1)
      have bB1 := bB.mono (edMul c.orderBits 21 0 1)
      rw [hd1] at r1 bA1 bR1 bB1
      rw [Crv.order_bits, hm] at r1
      have r2 := rep_edMul c.orderBits l1 bR1
      have bA2 := bA1.mono (edMul c.orderBits (m + 3) 5 6)
      have bR2 := bR1.mono (edMul c.orderBits (m + 3) 5 6)
      have bB2 := bB1.mono (edMul c.orderBits (m + 3) 5 6)
      rw [hd2] at r2 bA2 bR2 bB2
      rw [Crv.order_bits, hm'] at r2
      have r3 := rep_edMul (scalarBits s) l2 bB2
      have bA3 := bA2.mono (edMul (scalarBits s) (m' + 3) 7 8)
      have bR3 := bR2.mono (edMul (scalarBits s) (m' + 3) 7 8)
      rw [hd3] at r3 bA3 bR3
      have e (t : List Int) (ht : IsBytes t) : Mont.bitsVal (scalarBits t) 0 = (leVal t).toNat := by
        rw [← bitsVal_scalar ht, Int.toNat_natCast]
      rw [e s hs, hk] at r3
      have r4 := rep_edMul (scalarBits h) l3 bA3
      have bR4 := bR3.mono (edMul (scalarBits h) (k + 3) 0 1)
      have r34 := r3.mono (edMul (scalarBits h) (k + 3) 0 1) (by omega) (by omega) (by omega)
      rw [hd4] at r4 bR4 r34
      rw [e h hh, hj] at r4
      have r5 := rep_edAdd l4 (by omega) (by omega) (by omega) (by omega) (by omega) (by omega) (by omega) bR4.d r4 bR4.pt
      have r35 := r34.mono (edAdd (j + 3) j (j + 1) (j + 2) 5 6 4) (by omega) (by omega) (by omega)
      rw [hd5] at r5 r35
      refine ⟨?_, ?_, ?_⟩
      · rw [C49_edwards_subgroup, ← r1.zero_iff, f6 2 (by omega), g2]
        have f (i : Nat) (hi : i < m + 3) : d6.getD i 0 = d1.getD i 0 := by
          rw [o6 i (by omega), o5 i (by omega), o4 i (by omega), o3 i (by omega), o2 i (by omega)]
        rw [f m (by omega), f (m + 1) (by omega), f (m + 2) (by omega)]
      · rw [C49_edwards_subgroup, ← r2.zero_iff, f6 2 (by omega), g2]
        have f (i : Nat) (hi : i < m' + 3) : d6.getD i 0 = d2.getD i 0 := by
          rw [o6 i (by omega), o5 i (by omega), o4 i (by omega), o3 i (by omega)]
        rw [f m' (by omega), f (m' + 1) (by omega), f (m' + 2) (by omega)]
      · rw [add_comm R]
        exact r35.eq_iff r5
    constructor
    · rintro ⟨⟨⟨⟨⟨⟨⟨hA, hR⟩, q2⟩, q3⟩, q4⟩, q5⟩, q6⟩, q7⟩
      obtain ⟨c1, c2, c3⟩ := core ⟨_, _, hA⟩ ⟨_, _, hR⟩ rfl rfl rfl rfl
      exact ⟨_, c1.1 ⟨q2, q3⟩, _, c2.1 ⟨q4, q5⟩, rfl, rfl, rfl, rfl, c3.1 ⟨q6, q7⟩⟩
    · rintro ⟨A, hA, R, hR, a1, a2, b1, b2, hv⟩
      obtain ⟨c1, c2, c3⟩ := core A R a1 a2 b1 b2
      have onA := A.on
      have onR := R.on
      rw [a1, a2] at onA
      rw [b1, b2] at onR
      obtain ⟨q2, q3⟩ := c1.2 hA
      obtain ⟨q4, q5⟩ := c2.2 hR
      obtain ⟨q6, q7⟩ := c3.2 hv
      exact ⟨⟨⟨⟨⟨⟨⟨onA, onR⟩, q2⟩, q3⟩, q4⟩, q5⟩, q6⟩, q7⟩
  refine key _ rfl (start_eq c ax ay rx ry) rfl rfl rfl rfl rfl ?_ ?_ <;> simp only [List.getD_cons_zero, List.getD_cons_succ] <;>
    constructor <;> intro h <;> linear_combination h

private theorem edOn_plain (n x y : Nat) : ∀ o ∈ edOn n x y, o.Plain := by simp [edOn, Op.Plain]

/-- Bytes that the field type unpacks. -/
def Crv.Unpacks (bs : List Int) : Prop := IsBytes bs ∧ c.fld.nbytes ≤ bs.length

theorem Crv.uses_verify (s h : List Int) {ax ay rx ry : List Int} (hax : c.Unpacks ax) (hay : c.Unpacks ay) (hrx : c.Unpacks rx)
    (hry : c.Unpacks ry) : (c.verify s h ax ay rx ry).Uses c.fld fun o => c.fld = .e251_9 → o.NotPow := by
  have h0 : c.fld ≠ .e383_187 := by cases c <;> decide
  have hd : IsI32 c.dInt := by cases c <;> exact ⟨by decide, by decide⟩
  have b1 : c.Unpacks c.baseBytes.1 := c.bytes_ok _
  have b2 : c.Unpacks c.baseBytes.2 := c.bytes_ok _
  unfold Crv.verify
  refine Client.uses_ops (fun o ho => ?_) fun _ _ _ _ _ _ _ _ => trivial
  simp only [List.mem_append] at ho
  rcases ho with (((((((ho | ho) | ho) | ho) | ho) | ho) | ho) | ho) | ho
  · revert o
    simp [Op.NotPow, Op.Valid, hax.1, hax.2, hay.1, hay.2, hrx.1, hrx.2, hry.1, hry.2, b1.1, b1.2, b2.1, b2.2, h0, hd]
  · exact (edOn_plain _ _ _ o ho).ok _
  · exact (edOn_plain _ _ _ o ho).ok _
  · exact (edMul_plain _ _ _ _ o ho).ok _
  · exact (edMul_plain _ _ _ _ o ho).ok _
  · exact (edMul_plain _ _ _ _ o ho).ok _
  · exact (edMul_plain _ _ _ _ o ho).ok _
  · exact (edAdd_plain _ _ _ _ _ _ _ o ho).ok _
  · refine Op.Plain.ok ?_ _
    revert o
    simp [Op.Plain]

variable (w : World)

/-- C82: the test of signatures answers for all byte strings, in all builds; it accepts exactly if public key and commitment are points of
the subgroup of the base point for which the equation holds. -/
theorem C82_verify {s h ax ay rx ry : List Int} (hs : IsBytes s) (hh : IsBytes h) (hax : c.Unpacks ax) (hay : c.Unpacks ay)
    (hrx : c.Unpacks rx) (hry : c.Unpacks ry) :
    ∃ q : Bool, (c.verify s h ax ay rx ry).text (src c.fld) w 12 c.fld true = .ok q ∧
      (q = true ↔ ∃ A ∈ AddSubgroup.zmultiples c.base, ∃ R ∈ AddSubgroup.zmultiples c.base, A.x = c.received ax ∧
        A.y = c.received ay ∧ R.x = c.received rx ∧ R.y = c.received ry ∧
        (leVal s).toNat • c.base = R + (leVal h).toNat • A) :=
  ⟨_, C59_client_normalizing c.fld w _ (c.uses_verify s h hax hay hrx hry), c.ideal_verify hs hh ax ay rx ry⟩

/-- C82: key and commitment are made by the program of C81, possibly in another build; whatever the challenge, the signatures accepted
are those with `s ≡ r + h a` modulo the order. -/
theorem C82_sign (w' : World) {a r : List Int} (ha : IsBytes a) (hr : IsBytes r) :
    ∃ A R, (c.program a c.baseBytes.1 c.baseBytes.2).text (src c.fld) w' 12 c.fld true = .ok (some A) ∧
      (c.program r c.baseBytes.1 c.baseBytes.2).text (src c.fld) w' 12 c.fld true = .ok (some R) ∧
      ∀ {s h : List Int}, IsBytes s → IsBytes h →
        (c.verify s h A.1 A.2 R.1 R.2).text (src c.fld) w 12 c.fld true =
          .ok (decide ((leVal s).toNat ≡ (leVal r).toNat + (leVal h).toNat * (leVal a).toNat [MOD (c.fld.V c.order).toNat])) := by
  refine ⟨_, _, c.of_point w' ha (AddSubgroup.mem_zmultiples _), c.of_point w' hr (AddSubgroup.mem_zmultiples _), fun {s h} hs hh => ?_⟩
  obtain ⟨q, h1, h2⟩ := C82_verify c w hs hh (c.bytes_ok ((leVal a).toNat • c.base).x) (c.bytes_ok ((leVal a).toNat • c.base).y)
    (c.bytes_ok ((leVal r).toNat • c.base).x) (c.bytes_ok ((leVal r).toNat • c.base).y)
  rw [h1]
  congr 1
  rw [Bool.eq_iff_iff, h2, decide_eq_true_eq, ← (C39_base_order c).1, ← nsmul_eq_nsmul_iff_modEq, add_smul, mul_smul]
  constructor
  · rintro ⟨A, -, R, -, a1, a2, r1, r2, e⟩
    have eA : A = (leVal a).toNat • c.base := EdPoint.ext (a1.trans (Crv.coord_leBytes c _)) (a2.trans (Crv.coord_leBytes c _))
    have eR : R = (leVal r).toNat • c.base := EdPoint.ext (r1.trans (Crv.coord_leBytes c _)) (r2.trans (Crv.coord_leBytes c _))
    rw [e, eA, eR]
  · intro e
    exact ⟨_, c.mem_sub _, _, c.mem_sub _, (Crv.coord_leBytes c _).symm, (Crv.coord_leBytes c _).symm, (Crv.coord_leBytes c _).symm,
      (Crv.coord_leBytes c _).symm, e⟩

/-- C82: two answers to different challenges with the same commitment tell the secret: every public key that is accepted has one, and it
is `(s - s') / (h - h')` modulo the order. -/
theorem C82_extract {s h s' h' ax ay rx ry : List Int} (hs : IsBytes s) (hh : IsBytes h) (hs' : IsBytes s') (hh' : IsBytes h')
    (hax : c.Unpacks ax) (hay : c.Unpacks ay) (hrx : c.Unpacks rx) (hry : c.Unpacks ry)
    (h1 : (c.verify s h ax ay rx ry).text (src c.fld) w 12 c.fld true = .ok true)
    (h2 : (c.verify s' h' ax ay rx ry).text (src c.fld) w 12 c.fld true = .ok true)
    (hne : ¬ (leVal h).toNat ≡ (leVal h').toNat [MOD (c.fld.V c.order).toNat]) :
    (∃ x : Nat, (x • c.base).x = c.received ax ∧ (x • c.base).y = c.received ay) ∧
    ∀ x : Nat, (x • c.base).x = c.received ax → (x • c.base).y = c.received ay →
      (x : ZMod (c.fld.V c.order).toNat) =
        (((leVal s).toNat : ZMod (c.fld.V c.order).toNat) - ((leVal s').toNat : ZMod (c.fld.V c.order).toNat)) *
          (((leVal h).toNat : ZMod (c.fld.V c.order).toNat) - ((leVal h').toNat : ZMod (c.fld.V c.order).toNat))⁻¹ := by
  have : Fact (c.fld.V c.order).toNat.Prime := ⟨C39_order_prime c⟩
  obtain ⟨q, e1, i1⟩ := C82_verify c w hs hh hax hay hrx hry
  obtain ⟨q', e2, i2⟩ := C82_verify c w hs' hh' hax hay hrx hry
  rw [h1] at e1
  rw [h2] at e2
  obtain ⟨A, hA, R, -, a1, a2, r1, r2, e⟩ := i1.1 (Except.ok.inj e1).symm
  obtain ⟨A', -, R', -, a1', a2', r1', r2', e'⟩ := i2.1 (Except.ok.inj e2).symm
  obtain rfl : A' = A := EdPoint.ext (a1'.trans a1.symm) (a2'.trans a2.symm)
  obtain rfl : R' = R := EdPoint.ext (r1'.trans r1.symm) (r2'.trans r2.symm)
  refine ⟨?_, fun x x1 x2 => ?_⟩
  · obtain ⟨k, hk⟩ := AddSubgroup.mem_zmultiples_iff.1 hA
    have hpos : (0 : Int) < (c.fld.V c.order).toNat := by exact_mod_cast (C39_order_prime c).pos
    refine ⟨(k % (c.fld.V c.order).toNat).toNat, ?_⟩
    have : (k % (c.fld.V c.order).toNat).toNat • c.base = A' := by
      rw [← natCast_zsmul, Int.toNat_of_nonneg (Int.emod_nonneg _ hpos.ne'), ← (C39_base_order c).1, mod_addOrderOf_zsmul, hk]
    rw [this]
    exact ⟨a1, a2⟩
  · obtain rfl : x • c.base = A' := EdPoint.ext (x1.trans a1.symm) (x2.trans a2.symm)
    have k1 : ((leVal s).toNat + (leVal h').toNat * x) • c.base = ((leVal s').toNat + (leVal h).toNat * x) • c.base := by
      rw [add_smul, add_smul, mul_smul, mul_smul, e, e']
      abel
    rw [nsmul_eq_nsmul_iff_modEq, (C39_base_order c).1, ← ZMod.natCast_eq_natCast_iff] at k1
    push_cast at k1
    rw [← ZMod.natCast_eq_natCast_iff] at hne
    rw [eq_mul_inv_iff_mul_eq₀ (sub_ne_zero.2 hne)]
    linear_combination - k1

end

/-! ### Cases -/

/-- A signature with secret 5, nonce 1000, challenge 7. -/
example (c : Crv) (w w' : World) : ∃ A R, (c.program [5] c.baseBytes.1 c.baseBytes.2).text (src c.fld) w' 12 c.fld true = .ok (some A) ∧
    (c.program [232, 3] c.baseBytes.1 c.baseBytes.2).text (src c.fld) w' 12 c.fld true = .ok (some R) ∧
    (c.verify [11, 4] [7] A.1 A.2 R.1 R.2).text (src c.fld) w 12 c.fld true = .ok true ∧
    (c.verify [12, 4] [7] A.1 A.2 R.1 R.2).text (src c.fld) w 12 c.fld true = .ok false ∧
    (c.verify [16, 4] [8] A.1 A.2 R.1 R.2).text (src c.fld) w 12 c.fld true = .ok true := by
  obtain ⟨A, R, h1, h2, h3⟩ := C82_sign c w w' (a := [5]) (r := [232, 3]) (by simp [IsBytes]) (by simp [IsBytes])
  refine ⟨A, R, h1, h2, ?_, ?_, ?_⟩ <;> rw [h3 (by simp [IsBytes]) (by simp [IsBytes])] <;> cases c <;> decide +kernel

/-- The two signatures above tell the secret 5. -/
example (c : Crv) (w : World) (A R : List Int × List Int)
    (h1 : (c.verify [11, 4] [7] A.1 A.2 R.1 R.2).text (src c.fld) w 12 c.fld true = .ok true)
    (h2 : (c.verify [16, 4] [8] A.1 A.2 R.1 R.2).text (src c.fld) w 12 c.fld true = .ok true)
    (hA : c.Unpacks A.1 ∧ c.Unpacks A.2) (hR : c.Unpacks R.1 ∧ c.Unpacks R.2) (x : Nat) (hx : (x • c.base).x = c.received A.1)
    (hy : (x • c.base).y = c.received A.2) : (x : ZMod (c.fld.V c.order).toNat) = 5 := by
  have : Fact (c.fld.V c.order).toNat.Prime := ⟨C39_order_prime c⟩
  have hb : ∀ l ∈ [[11, 4], [7], [16, 4], [(8 : Int)]], IsBytes l := by simp [IsBytes]
  have h := (C82_extract c w (hb _ (by simp)) (hb _ (by simp)) (hb _ (by simp)) (hb _ (by simp)) hA.1 hA.2 hR.1 hR.2 h1 h2
    (by cases c <;> decide +kernel)).2 x hx hy
  have e : (leVal [11, 4]).toNat = 1035 ∧ (leVal [16, 4]).toNat = 1040 ∧ (leVal [7]).toNat = 7 ∧ (leVal [8]).toNat = 8 := by decide
  rw [e.1, e.2.1, e.2.2.1, e.2.2.2] at h
  rw [h]
  push_cast
  norm_num [inv_neg]

/-- The point of order four is no public key, whatever the signature. -/
example (c : Crv) (w : World) {s h rx ry : List Int} (hs : IsBytes s) (hh : IsBytes h) (hrx : c.Unpacks rx) (hry : c.Unpacks ry) :
    (c.verify s h (leBytes c.fld.nbytes (1 : c.K).val) (leBytes c.fld.nbytes (0 : c.K).val) rx ry).text (src c.fld) w 12 c.fld true =
      .ok false := by
  obtain ⟨q, h1, h2⟩ := C82_verify c w hs hh (c.bytes_ok 1) (c.bytes_ok 0) hrx hry
  rw [h1]
  congr 1
  rw [← Bool.not_eq_true, h2]
  rintro ⟨A, hA, -, -, hx, hy, -⟩
  have h4 : A = EdPoint.four := EdPoint.ext (hx.trans (Crv.coord_leBytes c _)) (hy.trans (Crv.coord_leBytes c _))
  have h3 := addOrderOf_dvd_of_nsmul_eq_zero ((C49_edwards_subgroup c A).1 hA)
  rw [h4, addOrderOf_eq_prime_pow (p := 2) (n := 1) EdPoint.four_order.2 EdPoint.four_order.1] at h3
  revert h3
  cases c <;> decide +kernel

end Verif

import Verif.Props.EdwardsAgreement
import Verif.Props.Compression

/-!
# Property C83: compressed points with the field types as they are

Key agreement as in C81 in which points are sent as the bytes of `y` and the lowest bit of `x` (C75 has this for the repaired code).  The
client `Crv.packedProgram` (`Verif/Curve/EdProgram.lean`) computes the quotient and the square root of the decoding as powers; `sqrt` of
`Mod_e251_9` is wrong for some canonical elements (C18).
-/

namespace Verif
open Fld FieldCode Rust

section
variable (c : Crv)

private theorem root_bits : Mont.bitsVal c.rootBits 0 = (c.fld.pN + 1) / 4 := by
  have h : (c.fld.pN + 1) / 4 < 2 ^ (8 * c.fld.nbytes) := by cases c <;> decide +kernel
  have := bitsVal_scalar (leBytes_isBytes c.fld.nbytes ((c.fld.pN + 1) / 4))
  rw [leVal_leBytes _ _ h] at this
  exact_mod_cast this

private theorem root_pow (x : c.K) : ((x * x) ^ ((c.fld.pN + 1) / 4)) * ((x * x) ^ ((c.fld.pN + 1) / 4)) = x * x := by
  have h4 : (c.fld.pN + 1) / 4 * 4 = c.fld.pN - 1 + 2 := by cases c <;> decide +kernel
  have e : ((x * x) ^ ((c.fld.pN + 1) / 4)) * ((x * x) ^ ((c.fld.pN + 1) / 4)) = x ^ ((c.fld.pN + 1) / 4 * 4) := by
    rw [← mul_pow, pow_mul', show x * x * (x * x) = x ^ 4 by ring]
  rw [e, h4, pow_add]
  by_cases hx : x = 0
  · simp [hx]
  · rw [ZMod.pow_card_sub_one_eq_one hx, one_mul, pow_two]

/-- The square and its power. -/
private noncomputable def quot (y : c.K) : c.K := (1 - y * y) * (1 - c.d * (y * y))⁻¹

private noncomputable def pw (y : c.K) : c.K := quot c y ^ ((c.fld.pN + 1) / 4)

/-- What the decoding computes (helper lemma). -/
private theorem run_decode (ys : List Int) :
    let t := opsRun c.fld [] (c.decode ys)
    let y := c.received ys
    t.length = c.rootAt + 3 ∧ t.getD 0 0 = y ∧ t.getD 2 0 = 0 ∧ t.getD 3 0 = c.d ∧ t.getD 4 0 = 1 ∧ t.getD c.squareAt 0 = quot c y ∧
      t.getD c.rootAt 0 = pw c y ∧ t.getD (c.rootAt + 1) 0 = pw c y * pw c y ∧ t.getD (c.rootAt + 2) 0 = - pw c y := by
  dsimp only
  unfold Crv.decode
  rw [opsRun_append, opsRun_append, opsRun_append, opsRun_append]
  have h0 : opsRun c.fld [] [.bytes ys, .zero, .zero, .addI 2 c.dInt, .one, .square 0, .mul 3 5, .sub 4 5, .sub 4 6, .one] =
      [c.received ys, 0, 0, c.d, 1, c.received ys * c.received ys, c.d * (c.received ys * c.received ys),
        1 - c.received ys * c.received ys, 1 - c.d * (c.received ys * c.received ys), 1] := by
    simp only [opsRun, List.foldl_cons, List.foldl_nil, Op.ideal, List.nil_append, List.cons_append, List.getD_cons_zero,
      List.getD_cons_succ, zero_add]
    rfl
  rw [h0]
  generalize hy : c.received ys = y
  generalize hd0 : ([y, 0, 0, c.d, 1, y * y, c.d * (y * y), 1 - y * y, 1 - c.d * (y * y), 1] : List c.K) = d0
  have l0 : d0.length = 9 + 1 := by rw [← hd0]; rfl
  have g8 : d0.getD 8 0 = 1 - c.d * (y * y) := by rw [← hd0]; rfl
  have p1 := run_edPower c.inverseBits (m := 0) (z := 8) l0 (by omega) (by omega) (by rw [← hd0]; rfl)
    (by rw [pow_zero, ← hd0]; rfl)
  rw [Crv.inverse_bits, g8, Crv.inverse_pow c (c.den_ne y)] at p1
  have l1 : (opsRun c.fld d0 (edPower 8 c.inverseBits 9)).length = c.squareAt := by
    rw [opsRun_length, l0, edPower_length]; rfl
  have o1 (i : Nat) (hi : i < 10) : (opsRun c.fld d0 (edPower 8 c.inverseBits 9)).getD i 0 = d0.getD i 0 :=
    opsRun_old _ _ _ (by omega)
  have hsq : c.squareAt = 9 + 2 * c.inverseBits.length + 1 := by unfold Crv.squareAt; omega
  have hsq' : c.squareAt - 1 = 9 + 2 * c.inverseBits.length := by omega
  rw [← hsq'] at p1
  generalize opsRun c.fld d0 (edPower 8 c.inverseBits 9) = d1 at *
  have hrt : c.rootAt = c.squareAt + 1 + 2 * c.rootBits.length := rfl
  generalize c.squareAt = i at *
  have l2 : (opsRun c.fld d1 [.mul 7 (i - 1), .one]).length = i + 1 + 1 := by rw [opsRun_length, l1]; rfl
  have o2 (j : Nat) (hj : j < i) : (opsRun c.fld d1 [.mul 7 (i - 1), .one]).getD j 0 = d1.getD j 0 := opsRun_old _ _ _ (by omega)
  have n2 : (opsRun c.fld d1 [.mul 7 (i - 1), .one]).getD i 0 = quot c y ∧ (opsRun c.fld d1 [.mul 7 (i - 1), .one]).getD (i + 1) 0 = 1 := by
    subst l1
    simp only [opsRun, List.foldl_cons, List.foldl_nil, Op.ideal, List.append_assoc, List.cons_append, List.nil_append, p1,
      o1 7 (by omega), ← hd0]
    constructor
    · simp [List.getD_eq_getElem?_getD, quot]
    · simp [List.getD_eq_getElem?_getD]
  generalize opsRun c.fld d1 [.mul 7 (i - 1), .one] = d2 at *
  have p3 := run_edPower c.rootBits (m := 0) (z := i) l2 (by omega) (by omega) (by rw [o2 4 (by omega), o1 4 (by omega), ← hd0]; rfl)
    (by rw [n2.2, pow_zero])
  rw [root_bits, n2.1, ← hrt] at p3
  have l3 : (opsRun c.fld d2 (edPower i c.rootBits (i + 1))).length = c.rootAt + 1 := by
    rw [opsRun_length, l2, edPower_length]; omega
  have o3 (j : Nat) (hj : j < i + 2) : (opsRun c.fld d2 (edPower i c.rootBits (i + 1))).getD j 0 = d2.getD j 0 :=
    opsRun_old _ _ _ (by omega)
  generalize opsRun c.fld d2 (edPower i c.rootBits (i + 1)) = d3 at *
  have hr : i + 1 ≤ c.rootAt := by omega
  generalize c.rootAt = r at *
  have o4 (j : Nat) (hj : j < r + 1) : (opsRun c.fld d3 [.square r, .sub 2 r]).getD j 0 = d3.getD j 0 := opsRun_old _ _ _ (by omega)
  have f (j : Nat) (hj : j < 10) : (opsRun c.fld d3 [.square r, .sub 2 r]).getD j 0 = d0.getD j 0 := by
    rw [o4 j (by omega), o3 j (by omega), o2 j (by omega), o1 j hj]
  have h2 : d3.getD 2 0 = 0 := by rw [o3 2 (by omega), o2 2 (by omega), o1 2 (by omega), ← hd0]; rfl
  have new (j : Nat) (l : List c.K) : (d3 ++ l).getD (r + 1 + j) 0 = l.getD j 0 := by
    rw [← l3]; simp [List.getD_eq_getElem?_getD, List.getElem?_append_right]
  have old {j : Nat} (hj : j < r + 1) (l : List c.K) : (d3 ++ l).getD j 0 = d3.getD j 0 := by
    simp [List.getD_eq_getElem?_getD, List.getElem?_append_left (show j < d3.length by omega)]
  refine ⟨by rw [opsRun_length, l3]; rfl, by rw [f 0 (by omega), ← hd0]; rfl, by rw [f 2 (by omega), ← hd0]; rfl,
    by rw [f 3 (by omega), ← hd0]; rfl, by rw [f 4 (by omega), ← hd0]; rfl, by rw [o4 i (by omega), o3 i (by omega), n2.1],
    by rw [o4 r (by omega), p3]; rfl, ?_, ?_⟩ <;>
    simp only [opsRun, List.foldl_cons, List.foldl_nil, Op.ideal, List.append_assoc, List.cons_append, List.nil_append]
  · refine (new 0 _).trans ?_
    rw [List.getD_cons_zero, p3]; rfl
  · refine (new 1 _).trans ?_
    rw [List.getD_cons_succ, List.getD_cons_zero, old (by omega), old (by omega), p3, h2, zero_sub]; rfl

/-- The `x` that is tried. -/
private noncomputable def tried (sg : Bool) (y : c.K) : c.K := if (pw c y).val.testBit 0 = sg then pw c y else - pw c y

private theorem tried_eq {sg : Bool} {P : c.Point} (h : P.x.val.testBit 0 = sg ∨ P.x = 0) : tried c sg P.y = P.x := by
  have e : quot c P.y = P.x * P.x := by
    unfold quot
    rw [mul_inv_eq_iff_eq_mul₀ (c.den_ne P.y)]
    linear_combination -P.on
  have hr : pw c P.y * pw c P.y = P.x * P.x := by unfold pw; rw [e, root_pow]
  unfold tried
  generalize pw c P.y = x at *
  by_cases hx : P.x = 0
  · have : x = 0 := by
      rw [hx, mul_zero] at hr
      exact mul_self_eq_zero.1 hr
    rw [hx, this]
    split
    · rfl
    · exact neg_zero
  · have h := h.resolve_right hx
    rcases mul_self_eq_mul_self_iff.1 hr with h1 | h1
    · rw [h1, if_pos h]
    · rw [h1, if_neg, neg_neg]
      rw [c.neg_bit hx, h]
      cases sg <;> decide

private theorem tried_on (sg : Bool) (y : c.K) : pw c y * pw c y = quot c y ↔
    tried c sg y ^ 2 + y ^ 2 = 1 + c.d * tried c sg y ^ 2 * y ^ 2 := by
  have h2 : tried c sg y ^ 2 = pw c y * pw c y := by unfold tried; split <;> ring
  have hq : quot c y * (1 - c.d * (y * y)) = 1 - y * y := by unfold quot; rw [inv_mul_cancel_right₀ (c.den_ne y)]
  rw [h2]
  constructor
  · intro h
    rw [h]
    linear_combination hq
  · intro h
    exact mul_right_cancel₀ (c.den_ne y) (by rw [hq]; linear_combination h)

open Classical in
private theorem ideal_packed {s : List Int} (hs : IsBytes s) (ys : List Int) (sg : Bool) :
    (c.packedProgram s ys sg).ideal c.fld [] =
      if h : tried c sg (c.received ys) ^ 2 + c.received ys ^ 2 = 1 + c.d * tried c sg (c.received ys) ^ 2 * c.received ys ^ 2 then
        if (⟨_, _, h⟩ : c.Point) ∈ AddSubgroup.zmultiples c.base then
          some (leBytes c.fld.nbytes ((leVal s).toNat • (⟨_, _, h⟩ : c.Point)).y.val,
            ((leVal s).toNat • (⟨_, _, h⟩ : c.Point)).x.val.testBit 0)
        else none
      else none := by
  obtain ⟨l, t0, t2, t3, t4, t5, t6, t7, t8⟩ := run_decode c ys
  have hr : 5 ≤ c.squareAt ∧ c.squareAt < c.rootAt := by unfold Crv.rootAt Crv.squareAt; omega
  simp only [Crv.packedProgram, ideal_ops, Client.ideal, opsRun_append]
  generalize opsRun c.fld [] (c.decode ys) = d0 at *
  rw [t6]
  have hx : (opsRun c.fld d0 [.select ((pw c (c.received ys)).val.testBit 0 == sg) c.rootAt (c.rootAt + 2)]) =
      d0 ++ [tried c sg (c.received ys)] := by
    simp only [opsRun, List.foldl_cons, List.foldl_nil, Op.ideal, t6, t8, beq_iff_eq]
    rfl
  rw [hx]
  generalize hd : d0 ++ [tried c sg (c.received ys)] = ds
  have hl : ds.length = c.rootAt + 4 := by rw [← hd, List.length_append, l]; rfl
  have old {j : Nat} (hj : j < c.rootAt + 3) : ds.getD j 0 = d0.getD j 0 := by
    rw [← hd]; simp [List.getD_eq_getElem?_getD, List.getElem?_append_left (show j < d0.length by omega)]
  have gx : ds.getD (c.rootAt + 3) 0 = tried c sg (c.received ys) := by
    rw [← hd, ← l]; simp [List.getD_eq_getElem?_getD]
  rw [opsRun_old _ _ _ (by omega : c.rootAt + 1 < ds.length), opsRun_old _ _ _ (by omega : c.squareAt < ds.length),
    opsRun_old _ _ _ (by omega : 2 < ds.length), old (by omega), old (by omega), old (by omega), t7, t5, t2]
  by_cases h : tried c sg (c.received ys) ^ 2 + c.received ys ^ 2 = 1 + c.d * tried c sg (c.received ys) ^ 2 * c.received ys ^ 2
  · rw [dif_pos h]
    generalize hP : (⟨_, _, h⟩ : c.Point) = P
    have hb : EdBase ds (c.rootAt + 3) 0 P := by
      refine ⟨by omega, by omega, by omega, by rw [old (by omega), t3], by rw [old (by omega), t4], ?_, ?_, ?_⟩
      · rw [gx, old (by omega), t4, ← hP]; exact (mul_one _).symm
      · rw [old (by omega), old (by omega), t0, t4, ← hP]; exact (mul_one _).symm
      · rw [old (by omega), t4]; exact one_ne_zero
    obtain ⟨e0, e1, e2⟩ := c.run_multiply hs hl hb
    dsimp only at e0 e1 e2
    rw [e1, e2, decide_eq_true ((tried_on c sg _).2 h), Bool.true_and, ← Bool.decide_and]
    simp only [e0, decide_eq_true_eq]
  · rw [dif_neg h]
    simp only [decide_eq_false (mt (tried_on c sg _).1 h), Bool.false_and, Bool.false_eq_true, if_false]

private theorem plain_start (r : Nat) (b : Bool) : ∀ o ∈ [Op.select b r (r + 2)], o.Plain := by simp [Op.Plain]

theorem Crv.uses_packed {ys : List Int} (s : List Int) (hy : IsBytes ys ∧ c.fld.nbytes ≤ ys.length) (sg : Bool) :
    (c.packedProgram s ys sg).Uses c.fld fun o => c.fld = .e251_9 → o.NotPow := by
  have h : c.fld ≠ .e383_187 := by cases c <;> decide
  have hd : IsI32 c.dInt := by cases c <;> exact ⟨by decide, by decide⟩
  unfold Crv.packedProgram
  dsimp only
  refine Client.uses_ops (fun o ho => ?_) ⟨?_, fun b => Client.uses_ops (fun o ho => ?_) fun _ _ _ _ _ _ _ => ⟨?_, fun _ => trivial⟩⟩
  · simp only [Crv.decode, List.mem_append] at ho
    rcases ho with (((ho | ho) | ho) | ho) | ho
    · revert o; simp [Op.NotPow, Op.Valid, hy.1, hy.2, h, hd]
    · exact (edPower_plain _ _ _ o ho).ok _
    · refine Op.Plain.ok ?_ _
      revert o; simp [Op.Plain]
    · exact (edPower_plain _ _ _ o ho).ok _
    · refine Op.Plain.ok ?_ _
      revert o; simp [Op.Plain]
  · cases c <;> decide
  · rw [List.mem_append] at ho
    rcases ho with ho | ho
    · exact (plain_start _ _ o ho).ok _
    · exact (c.multiply_plain _ _ _ _ o ho).ok _
  · cases c <;> decide

variable (w : World)

/-- C83: what is made of any byte string and sign that are received, in all builds.  If the subgroup of the base point has a point with this
`y` and this lowest bit of `x` (or with `x = 0`), the compressed multiple of it; without a point in the subgroup that has this `y`, they are
rejected. -/
theorem C83_shared {s ys : List Int} (hs : IsBytes s) (hy : IsBytes ys ∧ c.fld.nbytes ≤ ys.length) (sg : Bool) :
    (∀ P ∈ AddSubgroup.zmultiples c.base, P.y = c.received ys → (P.x.val.testBit 0 = sg ∨ P.x = 0) →
      (c.packedProgram s ys sg).text (src c.fld) w 12 c.fld true =
        .ok (some (leBytes c.fld.nbytes ((leVal s).toNat • P).y.val, ((leVal s).toNat • P).x.val.testBit 0))) ∧
    ((¬ ∃ P ∈ AddSubgroup.zmultiples c.base, P.y = c.received ys) →
      (c.packedProgram s ys sg).text (src c.fld) w 12 c.fld true = .ok none) := by
  have h := C59_client_normalizing c.fld w _ (c.uses_packed s hy sg)
  rw [ideal_packed c hs] at h
  refine ⟨fun P hP ey ex => ?_, fun hn => ?_⟩
  · have h0 := tried_eq c ex
    have h1 := P.on
    rw [← h0, ey] at h1
    have h2 : (⟨_, _, h1⟩ : c.Point) = P := EdPoint.ext (ey ▸ h0 : tried c sg (c.received ys) = P.x) ey.symm
    rw [h, dif_pos h1, h2, if_pos hP]
  · rw [h]
    split
    · next h1 => rw [if_neg fun h2 => hn ⟨⟨_, _, h1⟩, h2, rfl⟩]
    · rfl

/-- The bytes of `y` and the lowest bit of `x`. -/
def Crv.compressed (P : c.Point) : List Int × Bool := (leBytes c.fld.nbytes P.y.val, P.x.val.testBit 0)

private theorem of_compressed {s : List Int} (hs : IsBytes s) {P : c.Point} (hP : P ∈ AddSubgroup.zmultiples c.base) :
    (c.packedProgram s (c.compressed P).1 (c.compressed P).2).text (src c.fld) w 12 c.fld true =
      .ok (some (c.compressed ((leVal s).toNat • P))) :=
  (C83_shared c w hs (c.bytes_ok _) _).1 P hP (Crv.coord_leBytes c _).symm (.inl rfl)

/-- C83: two clients, with any builds, make public keys of the base point and get the same secret from each other's. -/
theorem C83_agree (w' : World) {s t : List Int} (hs : IsBytes s) (ht : IsBytes t) :
    ∃ a b z, (c.packedProgram s (c.compressed c.base).1 (c.compressed c.base).2).text (src c.fld) w 12 c.fld true = .ok (some a) ∧
      (c.packedProgram t (c.compressed c.base).1 (c.compressed c.base).2).text (src c.fld) w' 12 c.fld true = .ok (some b) ∧
      (c.packedProgram s b.1 b.2).text (src c.fld) w 12 c.fld true = .ok (some z) ∧
      (c.packedProgram t a.1 a.2).text (src c.fld) w' 12 c.fld true = .ok (some z) := by
  refine ⟨_, _, _, of_compressed c w hs (AddSubgroup.mem_zmultiples _), of_compressed c w' ht (AddSubgroup.mem_zmultiples _),
    of_compressed c w hs (c.mem_sub _), ?_⟩
  rw [of_compressed c w' ht (c.mem_sub _), smul_comm]

/-- C83: scalars give the same result with a point of the subgroup, the neutral one excepted, only if they are congruent modulo its
order. -/
theorem C83_distinct {s t : List Int} (hs : IsBytes s) (ht : IsBytes t) {P : c.Point} (hP : P ∈ AddSubgroup.zmultiples c.base)
    (h0 : P ≠ 0) :
    (c.packedProgram s (c.compressed P).1 (c.compressed P).2).text (src c.fld) w 12 c.fld true =
      (c.packedProgram t (c.compressed P).1 (c.compressed P).2).text (src c.fld) w 12 c.fld true ↔
    (leVal s).toNat ≡ (leVal t).toNat [MOD (c.fld.V c.order).toNat] := by
  have : Fact (c.fld.V c.order).toNat.Prime := ⟨C39_order_prime c⟩
  have ho : addOrderOf P = (c.fld.V c.order).toNat := addOrderOf_eq_prime ((C49_edwards_subgroup c P).1 hP) h0
  rw [of_compressed c w hs hP, of_compressed c w ht hP, Except.ok.injEq, Option.some.injEq, ← ho, ← nsmul_eq_nsmul_iff_modEq]
  refine ⟨fun h => ?_, fun h => by rw [h]⟩
  obtain ⟨h1, h2⟩ := Prod.mk.inj h
  exact C75_injective c (by rw [← Crv.coord_leBytes c (_ : c.Point).y, h1, Crv.coord_leBytes]) h2

end

/-! ### The same for all secrets -/

private theorem alike_list : ∀ os : List Op, List.Forall₂ Op.Alike os os
  | [] => .nil
  | o :: os => .cons (.refl o) (alike_list os)

/-- C83: clients with scalars of the same length, and strings of the same lengths, differ in secrets only. -/
theorem C83_alike (c : Crv) {s s' ys ys' : List Int} (sg sg' : Bool) (hs : s.length = s'.length) (hy : ys.length = ys'.length) :
    (c.packedProgram s ys sg).Alike (c.packedProgram s' ys' sg') := by
  unfold Crv.packedProgram
  dsimp only
  rw [(c.multiply_alike hs _ 0 0).2]
  refine Client.Alike.ops (.bit _ _ fun _ _ => Client.Alike.ops (.eq _ _ fun _ _ => .eq _ _ fun _ _ => .eq _ _ fun _ _ =>
    .packed _ fun _ _ _ => .bit _ _ fun _ _ => .done _ _) ?_) ?_
  · exact List.rel_append (.cons (.select _ _ _ _) .nil) (c.multiply_alike hs _ _ _).1
  · exact List.rel_append (List.rel_append (List.rel_append (List.rel_append (.cons (.bytes hy) (alike_list _)) (alike_list _))
      (alike_list _)) (alike_list _)) (alike_list _)

/-- The scalars `1` and `200`, the base point and a string that need not be the encoding of a point. -/
example (c : Crv) (y : c.K) : (c.packedProgram [1] (leBytes c.fld.nbytes c.base.y.val) true).Alike
    (c.packedProgram [200] (leBytes c.fld.nbytes y.val) false) :=
  C83_alike c _ _ rfl (by rw [leBytes_length, leBytes_length])

/-- C83: they have the same record (C56, C80), in all builds, also when one of them rejects what it receives. -/
theorem C83_record (c : Crv) (pr : Profile) (curve : Id) (rng rng' : Nat → Int → Int) {s s' ys ys' : List Int} (sg sg' : Bool)
    (hs : s.length = s'.length) (ly : ys.length = ys'.length) (hy : IsBytes ys ∧ c.fld.nbytes ≤ ys.length) (hy' : IsBytes ys') :
    ((c.packedProgram s ys sg).textT (src c.fld) ⟨pr, curve, rng⟩ 12 c.fld true).trace =
      ((c.packedProgram s' ys' sg').textT (src c.fld) ⟨pr, curve, rng'⟩ 12 c.fld true).trace :=
  C80_success _ _ _ _ _ _ _ _ (C83_alike c sg sg' hs ly) (C59_client_normalizing c.fld _ _ (c.uses_packed s hy sg))
    (C59_client_normalizing c.fld _ _ (c.uses_packed s' ⟨hy', ly ▸ hy.2⟩ sg'))

/-! ### Cases -/

private theorem base_ne (c : Crv) : c.base ≠ 0 := by
  intro h
  have h1 := (C39_base_order c).1
  rw [h, addOrderOf_zero] at h1
  exact (C39_order_prime c).one_lt.ne h1

/-- The scalar 1 returns the base point, and its negative with the other sign, … -/
example (c : Crv) (w : World) : (c.packedProgram [1] (c.compressed c.base).1 (c.compressed c.base).2).text (src c.fld) w 12 c.fld true =
    .ok (some (c.compressed c.base)) := by
  have h := of_compressed c w (s := [1]) (by simp [IsBytes]) (P := c.base) (AddSubgroup.mem_zmultiples _)
  have h1 : (leVal [1]).toNat = 1 := by decide
  rwa [h1, one_nsmul] at h

example (c : Crv) (w : World) :
    (c.packedProgram [1] (c.compressed c.base).1 ((-c.base).x.val.testBit 0)).text (src c.fld) w 12 c.fld true =
      .ok (some (c.compressed (-c.base))) := by
  have h := (C83_shared c w (s := [1]) (by simp [IsBytes]) (c.bytes_ok c.base.y) ((-c.base).x.val.testBit 0)).1 (-c.base)
    (neg_mem (AddSubgroup.mem_zmultiples _)) (Crv.coord_leBytes c _).symm (.inl rfl)
  have h1 : (leVal [1]).toNat = 1 := by decide
  rwa [h1, one_nsmul] at h

/-- … and `y = 0`, of the two points of order four, is rejected with both signs. -/
example (c : Crv) (w : World) (sg : Bool) :
    (c.packedProgram [9, 7] (leBytes c.fld.nbytes (0 : c.K).val) sg).text (src c.fld) w 12 c.fld true = .ok none := by
  refine (C83_shared c w (by simp [IsBytes]) (c.bytes_ok _) sg).2 ?_
  rintro ⟨P, hP, hy⟩
  have hy : P.y = 0 := hy.trans (Crv.coord_leBytes c _)
  have h4 : 4 • P = 0 := by
    have h2 : P + P = EdPoint.two := by
      have h := P.on
      rw [hy] at h
      refine EdPoint.ext ?_ ?_
      · rw [EdPoint.add_x, hy]; simp [EdPoint.two]
      · rw [EdPoint.add_y, hy]; simp [EdPoint.two]; linear_combination h
    have h3 : (EdPoint.two : c.Point) + EdPoint.two = 0 := by
      refine EdPoint.ext ?_ ?_
      · rw [EdPoint.add_x]; simp [EdPoint.two]
      · rw [EdPoint.add_y]; simp [EdPoint.two]
    rw [show 4 • P = (P + P) + (P + P) by abel, h2, h3]
  have h1 := (C49_edwards_subgroup c P).1 hP
  have hc : Nat.Coprime (c.fld.V c.order).toNat 4 := by cases c <;> decide +kernel
  have h5 : P = 0 := by
    have := Nat.dvd_gcd (addOrderOf_dvd_of_nsmul_eq_zero h1) (addOrderOf_dvd_of_nsmul_eq_zero h4)
    rw [hc] at this
    exact AddMonoid.addOrderOf_eq_one_iff.1 (Nat.dvd_one.1 this)
  rw [h5, EdPoint.zero_y] at hy
  exact one_ne_zero hy

example (c : Crv) (w w' : World) := C83_agree c w w' (s := [255, 3, 128]) (t := [77]) (by simp [IsBytes]) (by simp [IsBytes])

/-- Two scalars with different results. -/
example (c : Crv) (w : World) :
    (c.packedProgram [255, 3, 128] (c.compressed c.base).1 (c.compressed c.base).2).text (src c.fld) w 12 c.fld true ≠
      (c.packedProgram [77] (c.compressed c.base).1 (c.compressed c.base).2).text (src c.fld) w 12 c.fld true := by
  rw [Ne, C83_distinct c w (by simp [IsBytes]) (by simp [IsBytes]) (AddSubgroup.mem_zmultiples _) (base_ne c)]
  cases c <;> decide +kernel

/-- A scalar with many bits and the base point, a scalar with few and a string that is rejected. -/
example (c : Crv) (pr : Profile) :
    ((c.packedProgram [255, 255, 127] (c.compressed c.base).1 true).textT (src c.fld) ⟨pr, 0, fun _ _ => 0⟩ 12 c.fld true).trace =
      ((c.packedProgram [0, 0, 1] (leBytes c.fld.nbytes (0 : c.K).val) false).textT (src c.fld)
        ⟨pr, 0, fun _ _ => 0⟩ 12 c.fld true).trace :=
  C83_record c pr 0 _ _ _ _ rfl (by rw [Crv.compressed, leBytes_length, leBytes_length]) (c.bytes_ok _) (c.bytes_ok _).1

end Verif

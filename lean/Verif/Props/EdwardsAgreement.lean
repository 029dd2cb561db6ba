import Verif.Curve.EdProgram
import Verif.Props.RepairedCurve
import Verif.Props.ObliviousClients

/-!
# Property C81: key agreement on the Edwards curves with the field types as they are

C31 and C63 show that `/repo/src/curve/edwards.rs` cannot be used for key agreement.  The text of the field files can: `Crv.program`
(`Verif/Curve/EdProgram.lean`), a client of the field type that normalizes every new element, accepts exactly the coordinates of the
points of the subgroup of the base point and returns the coordinates of the multiple by the scalar.  It does the same for all scalars and
all strings it receives.
-/

namespace Verif
open Fld FieldCode Rust

section
variable (c : Crv)

/-- The element a byte string stands for. -/
def Crv.received (bs : List Int) : c.K := ((leVal (bs.take c.fld.nbytes) % 2 ^ c.fld.n : Int) : c.K)

theorem Crv.order_bits : Mont.bitsVal c.orderBits 0 = (c.fld.V c.order).toNat := by
  have h : (c.fld.V c.order).toNat < 2 ^ (8 * c.fld.nbytes) := by cases c <;> decide +kernel
  have := bitsVal_scalar (leBytes_isBytes c.fld.nbytes (c.fld.V c.order).toNat)
  rw [leVal_leBytes _ _ h] at this
  exact_mod_cast this

theorem Crv.inverse_bits : Mont.bitsVal c.inverseBits 0 = c.fld.pN - 2 := by
  have h : c.fld.pN - 2 < 2 ^ (8 * c.fld.nbytes) := by cases c <;> decide +kernel
  have := bitsVal_scalar (leBytes_isBytes c.fld.nbytes (c.fld.pN - 2))
  rw [leVal_leBytes _ _ h] at this
  exact_mod_cast this

theorem Crv.inverse_pow {z : c.K} (hz : z ≠ 0) : z ^ (c.fld.pN - 2) = z⁻¹ := by
  have h2 : 2 ≤ c.fld.pN := (C36_moduli_prime c.fld).two_le
  have h : z ^ (c.fld.pN - 2) * z = 1 := by
    rw [← pow_succ, show c.fld.pN - 2 + 1 = c.fld.pN - 1 by omega, ZMod.pow_card_sub_one_eq_one hz]
  exact eq_inv_of_mul_eq_one_left h

/-- The start of the program. -/
private theorem start_eq (xs ys : List Int) :
    let X := c.received xs
    let Y := c.received ys
    opsRun c.fld [] [.bytes xs, .bytes ys, .zero, .addI 2 c.dInt, .one, .square 0, .square 1, .add 5 6, .mul 5 6, .mul 3 8, .add 4 9] =
      [X, Y, 0, c.d, 1, X * X, Y * Y, X * X + Y * Y, X * X * (Y * Y), c.d * (X * X * (Y * Y)), 1 + c.d * (X * X * (Y * Y))] := by
  simp only [opsRun, List.foldl_cons, List.foldl_nil, Op.ideal, List.nil_append, List.cons_append, List.getD_cons_zero,
    List.getD_cons_succ, zero_add]
  rfl

/-- What the multiples are (helper lemma). -/
theorem Crv.run_multiply {s : List Int} (hs : IsBytes s) {ds : List c.K} {n x y : Nat} (hl : ds.length = n) {P : c.Point}
    (hb : EdBase ds x y P) :
    let t := fun i => (opsRun c.fld ds (c.multiply s n x y)).getD i 0
    let m := n + 37 * c.orderBits.length
    (t m = 0 ∧ t (m + 1) = t (m + 2) ↔ P ∈ AddSubgroup.zmultiples c.base) ∧
      t (c.multiplied s n) = ((leVal s).toNat • P).x ∧ t (c.multiplied s n + 1) = ((leVal s).toNat • P).y := by
  dsimp only
  unfold Crv.multiply Crv.multiplied
  dsimp only
  rw [opsRun_append, opsRun_append, opsRun_append, opsRun_append]
  have r1 := rep_edMul c.orderBits hl hb
  have hl1 : (opsRun c.fld ds (edMul c.orderBits n x y)).length = n + 37 * c.orderBits.length + 3 := by
    rw [opsRun_length, hl, edMul_length]; omega
  have hb1 := hb.mono (edMul c.orderBits n x y)
  rw [Crv.order_bits] at r1
  generalize opsRun c.fld ds (edMul c.orderBits n x y) = ds1 at *
  generalize n + 37 * c.orderBits.length = m at *
  have r2 := rep_edMul (scalarBits s) hl1 hb1
  have r12 := r1.mono (edMul (scalarBits s) (m + 3) x y) (by omega) (by omega) (by omega)
  have hl2 : (opsRun c.fld ds1 (edMul (scalarBits s) (m + 3) x y)).length = m + 3 + 37 * (scalarBits s).length + 3 := by
    rw [opsRun_length, hl1, edMul_length]; omega
  have hb2 := hb1.mono (edMul (scalarBits s) (m + 3) x y)
  have e : Mont.bitsVal (scalarBits s) 0 = (leVal s).toNat := by rw [← bitsVal_scalar hs, Int.toNat_natCast]
  rw [e] at r2
  generalize opsRun c.fld ds1 (edMul (scalarBits s) (m + 3) x y) = ds2 at *
  have hmk : m + 3 ≤ m + 3 + 37 * (scalarBits s).length := by omega
  generalize m + 3 + 37 * (scalarBits s).length = k at *
  have hk : 5 ≤ k + 3 := by have := hb2.len; omega
  have hl3 : (opsRun c.fld ds2 [.one]).length = k + 3 + 1 := by rw [opsRun_length, hl2]; rfl
  have r13 := r12.mono [.one] (by omega) (by omega) (by omega)
  have r3 := r2.mono [.one] (by omega) (by omega) (by omega)
  have hb3 := hb2.mono [.one]
  have h3 : (opsRun c.fld ds2 [.one]).getD (k + 3) 0 = (opsRun c.fld ds2 [.one]).getD (k + 2) 0 ^ 0 := by
    rw [pow_zero, ← hl2]
    simp [opsRun, Op.ideal, List.getD_eq_getElem?_getD]
  generalize opsRun c.fld ds2 [.one] = ds3 at *
  have h4 := run_edPower c.inverseBits hl3 (z := k + 2) (by omega) (by omega) hb3.one h3
  rw [Crv.inverse_bits, Crv.inverse_pow c r3.2.2] at h4
  have r14 := r13.mono (edPower (k + 2) c.inverseBits (k + 3)) (by omega) (by omega) (by omega)
  have r4 := r3.mono (edPower (k + 2) c.inverseBits (k + 3)) (by omega) (by omega) (by omega)
  have hz : (opsRun c.fld ds3 (edPower (k + 2) c.inverseBits (k + 3))).getD (k + 2) 0 = ds3.getD (k + 2) 0 :=
    opsRun_old _ _ _ (by omega)
  have hl4 : (opsRun c.fld ds3 (edPower (k + 2) c.inverseBits (k + 3))).length = k + 3 + 2 * c.inverseBits.length + 1 := by
    rw [opsRun_length, hl3, edPower_length]; omega
  generalize opsRun c.fld ds3 (edPower (k + 2) c.inverseBits (k + 3)) = ds4 at *
  have hi : k + 2 < k + 3 + 2 * c.inverseBits.length + 1 := by omega
  generalize k + 3 + 2 * c.inverseBits.length = i at *
  have r15 := r14.mono [.mul k i, .mul (k + 1) i] (by omega) (by omega) (by omega)
  obtain ⟨x1, y1, z1⟩ := r4
  have new (j : Nat) (l : List c.K) : (ds4 ++ l).getD (i + 1 + j) 0 = l.getD j 0 := by
    rw [← hl4]; simp [List.getD_eq_getElem?_getD, List.getElem?_append_right]
  have old {j : Nat} (hj : j < i + 1) (l : List c.K) : (ds4 ++ l).getD j 0 = ds4.getD j 0 := by
    simp [List.getD_eq_getElem?_getD, List.getElem?_append_left (show j < ds4.length by omega)]
  rw [hz] at x1 y1 z1
  refine ⟨by rw [C49_edwards_subgroup, r15.zero_iff], ?_, ?_⟩ <;>
    simp only [opsRun, List.foldl_cons, List.foldl_nil, Op.ideal, List.append_assoc, List.cons_append, List.nil_append]
  · refine (new 0 _).trans ?_
    rw [List.getD_cons_zero, x1, h4, mul_assoc, mul_inv_cancel₀ z1, mul_one]
  · refine (new 1 _).trans ?_
    rw [List.getD_cons_succ, List.getD_cons_zero, old (by omega), old (by omega), y1, h4, mul_assoc, mul_inv_cancel₀ z1, mul_one]

open Classical in
/-- In `ℤ / p` (helper lemma). -/
theorem Crv.ideal_program {s : List Int} (hs : IsBytes s) (xs ys : List Int) :
    (c.program s xs ys).ideal c.fld [] =
      if h : c.received xs ^ 2 + c.received ys ^ 2 = 1 + c.d * c.received xs ^ 2 * c.received ys ^ 2 then
        if (⟨_, _, h⟩ : c.Point) ∈ AddSubgroup.zmultiples c.base then
          some (leBytes c.fld.nbytes ((leVal s).toNat • (⟨_, _, h⟩ : c.Point)).x.val,
            leBytes c.fld.nbytes ((leVal s).toNat • (⟨_, _, h⟩ : c.Point)).y.val)
        else none
      else none := by
  simp only [Crv.program, ideal_ops, Client.ideal, opsRun_append, start_eq]
  generalize hds : ([c.received xs, c.received ys, 0, c.d, 1, c.received xs * c.received xs, c.received ys * c.received ys,
    c.received xs * c.received xs + c.received ys * c.received ys, c.received xs * c.received xs * (c.received ys * c.received ys),
    c.d * (c.received xs * c.received xs * (c.received ys * c.received ys)),
    1 + c.d * (c.received xs * c.received xs * (c.received ys * c.received ys))] : List c.K) = ds
  have hl : ds.length = 11 := by rw [← hds]; rfl
  have h7 : ds.getD 7 0 = ds.getD 10 0 ↔
      c.received xs ^ 2 + c.received ys ^ 2 = 1 + c.d * c.received xs ^ 2 * c.received ys ^ 2 := by
    rw [← hds]
    simp only [List.getD_cons_zero, List.getD_cons_succ]
    constructor <;> intro h <;> linear_combination h
  rw [opsRun_old _ _ _ (by omega : 7 < ds.length), opsRun_old _ _ _ (by omega : 10 < ds.length),
    opsRun_old _ _ _ (by omega : 2 < ds.length), show ds.getD 2 0 = 0 by rw [← hds]; rfl]
  by_cases h : c.received xs ^ 2 + c.received ys ^ 2 = 1 + c.d * c.received xs ^ 2 * c.received ys ^ 2
  · rw [dif_pos h]
    generalize hP : (⟨_, _, h⟩ : c.Point) = P
    have hb : EdBase ds 0 1 P := by
      refine ⟨by omega, by omega, by omega, by rw [← hds]; rfl, by rw [← hds]; rfl, ?_, ?_, ?_⟩
      · rw [← hds, ← hP]; exact (mul_one _).symm
      · rw [← hds, ← hP]; exact (mul_one _).symm
      · rw [← hds]; exact one_ne_zero
    obtain ⟨e0, e1, e2⟩ := c.run_multiply hs hl hb
    dsimp only at e0 e1 e2
    rw [e1, e2, decide_eq_true (h7.2 h), Bool.true_and, ← Bool.decide_and]
    simp only [e0, decide_eq_true_eq]
  · rw [dif_neg h]
    simp only [decide_eq_false (mt h7.1 h), Bool.false_and, Bool.false_eq_true, if_false]

end

theorem Client.uses_ops {f : Fld} {P : Op → Prop} {α : Type} {os : List Op} {k : Client α} (h : ∀ o ∈ os, P o ∧ o.Valid f)
    (hk : k.Uses f P) : (Client.ops os k).Uses f P := by
  induction os with
  | nil => exact hk
  | cons o os ih => exact ⟨(h o (by simp)).1, (h o (by simp)).2, ih fun o ho => h o (by simp [ho])⟩

/-- The instructions of the rounds (helper). -/
def Op.Plain : Op → Prop
  | zero | one | add _ _ | sub _ _ | mul _ _ | square _ | select _ _ _ => True
  | _ => False

theorem Op.Plain.ok {o : Op} (h : o.Plain) (f : Fld) : (f = .e251_9 → o.NotPow) ∧ o.Valid f := by
  cases o <;> first | exact ⟨fun _ => trivial, trivial⟩ | exact h.elim

theorem edAdd_plain (n x y z x' y' z' : Nat) : ∀ o ∈ edAdd n x y z x' y' z', o.Plain := by
  simp [edAdd, Op.Plain]

theorem edRounds_plain (l : List Bool) (n x y : Nat) : ∀ o ∈ edRounds l n x y, o.Plain := by
  induction l generalizing n with
  | nil => simp [edRounds]
  | cons b l ih =>
    intro o ho
    rw [edRounds, edRound, List.mem_append, List.mem_append, List.mem_append] at ho
    rcases ho with ((ho | ho) | ho) | ho
    · exact edAdd_plain _ _ _ _ _ _ _ o ho
    · exact edAdd_plain _ _ _ _ _ _ _ o ho
    · revert o; simp [Op.Plain]
    · exact ih _ o ho

theorem edMul_plain (l : List Bool) (n x y : Nat) : ∀ o ∈ edMul l n x y, o.Plain := by
  intro o ho
  rw [edMul, List.mem_append] at ho
  rcases ho with ho | ho
  · revert o; simp [Op.Plain]
  · exact edRounds_plain l n x y o ho

theorem edPower_plain (z : Nat) (l : List Bool) (n : Nat) : ∀ o ∈ edPower z l n, o.Plain := by
  induction l generalizing n with
  | nil => simp [edPower]
  | cons b l ih =>
    intro o ho
    rw [edPower, List.mem_append] at ho
    rcases ho with ho | ho
    · revert o; cases b <;> simp [Op.Plain]
    · exact ih _ o ho

theorem Crv.multiply_plain (c : Crv) (s : List Int) (n x y : Nat) : ∀ o ∈ c.multiply s n x y, o.Plain := by
  intro o ho
  simp only [Crv.multiply, List.mem_append] at ho
  rcases ho with (((ho | ho) | ho) | ho) | ho
  · exact edMul_plain _ _ _ _ o ho
  · exact edMul_plain _ _ _ _ o ho
  · revert o; simp [Op.Plain]
  · exact edPower_plain _ _ _ o ho
  · revert o; simp [Op.Plain]

theorem Crv.uses_program (c : Crv) {xs ys : List Int} (s : List Int) (hx : IsBytes xs ∧ c.fld.nbytes ≤ xs.length)
    (hy : IsBytes ys ∧ c.fld.nbytes ≤ ys.length) : (c.program s xs ys).Uses c.fld fun o => c.fld = .e251_9 → o.NotPow := by
  have h : c.fld ≠ .e383_187 := by cases c <;> decide
  have hd : IsI32 c.dInt := by cases c <;> exact ⟨by decide, by decide⟩
  refine Client.uses_ops (fun o ho => ?_) fun _ _ _ _ _ _ _ _ _ _ _ => trivial
  rw [List.mem_append] at ho
  rcases ho with ho | ho
  · revert o; simp [Op.NotPow, Op.Valid, hx.1, hx.2, hy.1, hy.2, h, hd]
  · exact (c.multiply_plain _ _ _ _ o ho).ok _

section
variable (c : Crv) (w : World)

/-- C81: what is made of any two byte strings that are received, in all builds.  If they are the coordinates of a point of the subgroup of
the base point, the coordinates of the multiple of that point by the scalar; otherwise they are rejected. -/
theorem C81_shared {s xs ys : List Int} (hs : IsBytes s) (hx : IsBytes xs ∧ c.fld.nbytes ≤ xs.length)
    (hy : IsBytes ys ∧ c.fld.nbytes ≤ ys.length) :
    (∀ P ∈ AddSubgroup.zmultiples c.base, P.x = c.received xs → P.y = c.received ys →
      (c.program s xs ys).text (src c.fld) w 12 c.fld true =
        .ok (some (leBytes c.fld.nbytes ((leVal s).toNat • P).x.val, leBytes c.fld.nbytes ((leVal s).toNat • P).y.val))) ∧
    ((¬ ∃ P ∈ AddSubgroup.zmultiples c.base, P.x = c.received xs ∧ P.y = c.received ys) →
      (c.program s xs ys).text (src c.fld) w 12 c.fld true = .ok none) := by
  have h := C59_client_normalizing c.fld w _ (c.uses_program s hx hy)
  rw [c.ideal_program hs] at h
  refine ⟨fun P hP ex ey => ?_, fun hn => ?_⟩
  · have h1 := P.on
    rw [ex, ey] at h1
    have h2 : (⟨_, _, h1⟩ : c.Point) = P := EdPoint.ext ex.symm ey.symm
    rw [h, dif_pos h1, h2, if_pos hP]
  · rw [h]
    split
    · next h1 => rw [if_neg fun h2 => hn ⟨⟨_, _, h1⟩, h2, rfl, rfl⟩]
    · rfl

theorem Crv.bytes_ok (x : c.K) : IsBytes (leBytes c.fld.nbytes x.val) ∧ c.fld.nbytes ≤ (leBytes c.fld.nbytes x.val).length :=
  ⟨leBytes_isBytes _ _, (leBytes_length _ _).ge⟩

theorem Crv.of_point {s : List Int} (hs : IsBytes s) {P : c.Point} (hP : P ∈ AddSubgroup.zmultiples c.base) :
    (c.program s (leBytes c.fld.nbytes P.x.val) (leBytes c.fld.nbytes P.y.val)).text (src c.fld) w 12 c.fld true =
      .ok (some (leBytes c.fld.nbytes ((leVal s).toNat • P).x.val, leBytes c.fld.nbytes ((leVal s).toNat • P).y.val)) :=
  (C81_shared c w hs (Crv.bytes_ok c _) (Crv.bytes_ok c _)).1 P hP (Crv.coord_leBytes c _).symm (Crv.coord_leBytes c _).symm

theorem Crv.mem_sub (k : Nat) : k • c.base ∈ AddSubgroup.zmultiples c.base :=
  AddSubgroup.nsmul_mem _ (AddSubgroup.mem_zmultiples _) k

/-- C81: two clients, with any builds, make public keys of the exported base point and get the same secret from each other's. -/
theorem C81_agree (w' : World) {s t : List Int} (hs : IsBytes s) (ht : IsBytes t) :
    ∃ a b z, (c.program s c.baseBytes.1 c.baseBytes.2).text (src c.fld) w 12 c.fld true = .ok (some a) ∧
      (c.program t c.baseBytes.1 c.baseBytes.2).text (src c.fld) w' 12 c.fld true = .ok (some b) ∧
      (c.program s b.1 b.2).text (src c.fld) w 12 c.fld true = .ok (some z) ∧
      (c.program t a.1 a.2).text (src c.fld) w' 12 c.fld true = .ok (some z) := by
  refine ⟨_, _, _, Crv.of_point c w hs (AddSubgroup.mem_zmultiples _), Crv.of_point c w' ht (AddSubgroup.mem_zmultiples _),
    Crv.of_point c w hs (Crv.mem_sub c _), ?_⟩
  rw [Crv.of_point c w' ht (Crv.mem_sub c _), smul_comm]

/-- C81: scalars give the same result with a point of the subgroup, the neutral one excepted, only if they are congruent modulo its
order. -/
theorem C81_distinct {s t : List Int} (hs : IsBytes s) (ht : IsBytes t) {P : c.Point} (hP : P ∈ AddSubgroup.zmultiples c.base)
    (h0 : P ≠ 0) :
    (c.program s (leBytes c.fld.nbytes P.x.val) (leBytes c.fld.nbytes P.y.val)).text (src c.fld) w 12 c.fld true =
      (c.program t (leBytes c.fld.nbytes P.x.val) (leBytes c.fld.nbytes P.y.val)).text (src c.fld) w 12 c.fld true ↔
    (leVal s).toNat ≡ (leVal t).toNat [MOD (c.fld.V c.order).toNat] := by
  have : Fact (c.fld.V c.order).toNat.Prime := ⟨C39_order_prime c⟩
  have ho : addOrderOf P = (c.fld.V c.order).toNat := addOrderOf_eq_prime ((C49_edwards_subgroup c P).1 hP) h0
  rw [Crv.of_point c w hs hP, Crv.of_point c w ht hP, Except.ok.injEq, Option.some.injEq, ← ho, ← nsmul_eq_nsmul_iff_modEq]
  refine ⟨fun h => ?_, fun h => by rw [h]⟩
  obtain ⟨h1, h2⟩ := Prod.mk.inj h
  exact EdPoint.ext (by rw [← Crv.coord_leBytes c (_ : c.Point).x, h1, Crv.coord_leBytes])
    (by rw [← Crv.coord_leBytes c (_ : c.Point).y, h2, Crv.coord_leBytes])

end

/-! ### The same for all secrets -/

private theorem alike_list : ∀ os : List Op, List.Forall₂ Op.Alike os os
  | [] => .nil
  | o :: os => .cons (.refl o) (alike_list os)

private theorem alike_rounds : ∀ {l l' : List Bool} (n x y : Nat), l.length = l'.length →
    List.Forall₂ Op.Alike (edRounds l n x y) (edRounds l' n x y)
  | [], [], _, _, _, _ => .nil
  | b :: l, b' :: l', n, x, y, h => by
    refine List.rel_append (List.rel_append (alike_list _) ?_) (alike_rounds _ _ _ (Nat.succ.inj h))
    exact .cons (.select _ _ _ _) (.cons (.select _ _ _ _) (.cons (.select _ _ _ _) .nil))

theorem Crv.multiply_alike (c : Crv) {s s' : List Int} (hs : s.length = s'.length) (n x y : Nat) :
    List.Forall₂ Op.Alike (c.multiply s n x y) (c.multiply s' n x y) ∧ c.multiplied s n = c.multiplied s' n := by
  have hl : (scalarBits s).length = (scalarBits s').length := by rw [scalarBits_length, scalarBits_length, hs]
  unfold Crv.multiply Crv.multiplied
  rw [hl]
  exact ⟨List.rel_append (List.rel_append (List.rel_append (List.rel_append (alike_list _)
    (List.rel_append (alike_list _) (alike_rounds _ _ _ hl))) (alike_list _)) (alike_list _)) (alike_list _), rfl⟩

/-- C81: clients with scalars of the same length, and strings of the same lengths, differ in secrets only. -/
theorem C81_alike (c : Crv) {s s' xs xs' ys ys' : List Int} (hs : s.length = s'.length) (hx : xs.length = xs'.length)
    (hy : ys.length = ys'.length) : (c.program s xs ys).Alike (c.program s' xs' ys') := by
  unfold Crv.program
  dsimp only
  rw [(c.multiply_alike hs 11 0 1).2]
  refine Client.Alike.ops (.eq _ _ fun _ _ => .eq _ _ fun _ _ => .eq _ _ fun _ _ => .packed _ fun _ _ _ => .packed _ fun _ _ _ =>
    .done _ _) ?_
  exact List.rel_append (.cons (.bytes hx) (.cons (.bytes hy) (alike_list _))) (c.multiply_alike hs 11 0 1).1

/-- The scalars `1` and `200`, with the base point and with its coordinates exchanged. -/
example (c : Crv) : (c.program [1] (leBytes c.fld.nbytes c.base.x.val) (leBytes c.fld.nbytes c.base.y.val)).Alike
    (c.program [200] (leBytes c.fld.nbytes c.base.y.val) (leBytes c.fld.nbytes c.base.x.val)) :=
  C81_alike c rfl (by rw [leBytes_length, leBytes_length]) (by rw [leBytes_length, leBytes_length])

/-- C81: they have the same record (C56, C80), in all builds, also when one of them rejects what it receives. -/
theorem C81_record (c : Crv) (pr : Profile) (curve : Id) (rng rng' : Nat → Int → Int) {s s' xs xs' ys ys' : List Int}
    (hs : s.length = s'.length) (lx : xs.length = xs'.length) (ly : ys.length = ys'.length)
    (hx : IsBytes xs ∧ c.fld.nbytes ≤ xs.length) (hy : IsBytes ys ∧ c.fld.nbytes ≤ ys.length)
    (hx' : IsBytes xs') (hy' : IsBytes ys') :
    ((c.program s xs ys).textT (src c.fld) ⟨pr, curve, rng⟩ 12 c.fld true).trace =
      ((c.program s' xs' ys').textT (src c.fld) ⟨pr, curve, rng'⟩ 12 c.fld true).trace :=
  C80_success _ _ _ _ _ _ _ _ (C81_alike c hs lx ly) (C59_client_normalizing c.fld _ _ (c.uses_program s hx hy))
    (C59_client_normalizing c.fld _ _ (c.uses_program s' ⟨hx', lx ▸ hx.2⟩ ⟨hy', ly ▸ hy.2⟩))

/-! ### Cases -/

private theorem base_ne (c : Crv) : c.base ≠ 0 := by
  intro h
  have h1 := (C39_base_order c).1
  rw [h, addOrderOf_zero] at h1
  exact (C39_order_prime c).one_lt.ne h1

/-- The scalar 1 returns the base point, … -/
example (c : Crv) (w : World) :
    (c.program [1] c.baseBytes.1 c.baseBytes.2).text (src c.fld) w 12 c.fld true = .ok (some c.baseBytes) := by
  have h := Crv.of_point c w (s := [1]) (by simp [IsBytes]) (P := c.base) (AddSubgroup.mem_zmultiples _)
  have h1 : (leVal [1]).toNat = 1 := by decide
  rwa [h1, one_nsmul] at h

/-- … the point `(1, 0)` of order four is rejected, … -/
example (c : Crv) (w : World) :
    (c.program [9, 7] (leBytes c.fld.nbytes (1 : c.K).val) (leBytes c.fld.nbytes (0 : c.K).val)).text (src c.fld) w 12 c.fld true =
      .ok none := by
  refine (C81_shared c w (by simp [IsBytes]) (Crv.bytes_ok c _) (Crv.bytes_ok c _)).2 ?_
  rintro ⟨P, hP, hx, hy⟩
  have h4 : P = EdPoint.four := EdPoint.ext (hx.trans (Crv.coord_leBytes c _)) (hy.trans (Crv.coord_leBytes c _))
  have h1 := (C49_edwards_subgroup c P).1 hP
  have h2 : addOrderOf P = 4 := by
    rw [h4]; exact addOrderOf_eq_prime_pow (p := 2) (n := 1) EdPoint.four_order.2 EdPoint.four_order.1
  have h3 := addOrderOf_dvd_of_nsmul_eq_zero h1
  rw [h2] at h3
  revert h3
  cases c <;> decide +kernel

/-- … and so is `(1, 1)`, which is not on the curve. -/
example (w : World) :
    (Crv.curve1174.program [9, 7] (leBytes 32 1) (leBytes 32 1)).text (src .e251_9) w 12 .e251_9 true = .ok none := by
  refine (C81_shared .curve1174 w (by simp [IsBytes]) (Crv.bytes_ok .curve1174 1) (Crv.bytes_ok .curve1174 1)).2 ?_
  rintro ⟨P, -, hx, hy⟩
  have h := P.on
  rw [hx.trans (Crv.coord_leBytes .curve1174 1), hy.trans (Crv.coord_leBytes .curve1174 1)] at h
  revert h
  decide +kernel

example (c : Crv) (w w' : World) := C81_agree c w w' (s := [255, 3, 128]) (t := [77]) (by simp [IsBytes]) (by simp [IsBytes])

/-- Two scalars with different results. -/
example (c : Crv) (w : World) : (c.program [255, 3, 128] c.baseBytes.1 c.baseBytes.2).text (src c.fld) w 12 c.fld true ≠
    (c.program [77] c.baseBytes.1 c.baseBytes.2).text (src c.fld) w 12 c.fld true := by
  rw [Ne, show c.baseBytes = (leBytes c.fld.nbytes c.base.x.val, leBytes c.fld.nbytes c.base.y.val) from rfl,
    C81_distinct c w (by simp [IsBytes]) (by simp [IsBytes]) (AddSubgroup.mem_zmultiples _) (base_ne c)]
  cases c <;> decide +kernel

/-- A scalar with many bits and the base point, a scalar with few and a point that is rejected. -/
example (c : Crv) (pr : Profile) :
    ((c.program [255, 255, 127] c.baseBytes.1 c.baseBytes.2).textT (src c.fld) ⟨pr, 0, fun _ _ => 0⟩ 12 c.fld true).trace =
      ((c.program [0, 0, 1] (leBytes c.fld.nbytes (1 : c.K).val) (leBytes c.fld.nbytes (0 : c.K).val)).textT (src c.fld)
        ⟨pr, 0, fun _ _ => 0⟩ 12 c.fld true).trace :=
  C81_record c pr 0 _ _ rfl (by rw [Crv.baseBytes, leBytes_length, leBytes_length]) (by rw [Crv.baseBytes, leBytes_length, leBytes_length])
    (Crv.bytes_ok c _) (Crv.bytes_ok c _) (Crv.bytes_ok c _).1 (Crv.bytes_ok c _).1

end Verif

import Verif.Props.RepairedCurve
import Verif.Props.RandKeys

/-!
# Property C76: scalars are numbers modulo `p`, multiples of points depend on them modulo `ORDER`

`scalar_mult` takes its scalar from the field of the coordinates (`type Scalar : PrimeField`, src/curve/point.rs:6-18,
src/curve/edwards.rs:7-11, 86-88, 106-109).  A sum, difference, product or inverse of scalars is therefore reduced modulo
`p`, while the multiples of a point of the subgroup repeat with period `ORDER`, and `ORDER` does not divide `p`.  Even with
all repairs of C57 a program that calculates with scalars gets the expected multiples exactly when nothing was reduced.
-/

namespace Verif
open Fld

/-! ### Programs

They start with scalars and with one point, compute a point in two ways and return whether the results are equal. -/

namespace Repaired

/-- `(a + b) P = a P + b P`? -/
def sumAgrees : CClient Bool :=
  .step (.op (.add 0 1)) <| .mult 0 2 <| .mult 0 0 <| .mult 0 1 <| .point (.add 2 3) <| .same 1 4 .done

/-- `(a - b) P + b P = a P`? -/
def differenceAgrees : CClient Bool :=
  .step (.op (.sub 0 1)) <| .mult 0 2 <| .mult 0 0 <| .mult 0 1 <| .point (.add 1 3) <| .same 4 2 .done

/-- `(-a) P + a P = 0`? -/
def negativeAgrees : CClient Bool :=
  .step (.neg 0) <| .mult 0 1 <| .mult 0 0 <| .point (.add 1 2) <| .point .zero <| .same 3 4 .done

/-- `(a b) P = a (b P)`? -/
def productAgrees : CClient Bool :=
  .step (.op (.mul 0 1)) <| .mult 0 2 <| .mult 0 1 <| .mult 2 0 <| .same 1 3 .done

/-- `a⁻¹ (a P) = P`?  (To blind a point and to unblind the result.) -/
def unblinds : CClient Bool :=
  .step (.op (.invert 0)) <| .mult 0 0 <| .mult 1 1 <| .same 2 0 .done

/-- The equation `s P = R + e A` of Schnorr signatures, for the secret `a`, the nonce `r` and the challenge `e`, with
`s = r + e a`, `R = r P` and `A = a P`. -/
def signatureVerifies : CClient Bool :=
  .step (.op (.mul 2 0)) <| .step (.op (.add 1 3)) <| .mult 0 4 <| .mult 0 1 <| .mult 0 0 <| .mult 3 2 <|
    .point (.add 2 4) <| .same 1 5 .done

end Repaired

section
variable (c : Crv)

/-- The number in `[0, p)` that an element stands for. -/
def Crv.number (a : Elem) : Nat := (c.fld.V a % c.fld.p).toNat

theorem Crv.number_eq (a : Elem) : c.number a = (c.den a).val := by
  have : ((c.den a).val : Int) = c.fld.V a % c.fld.p := by rw [Crv.den, ZMod.val_intCast, ← Fld.p_eq]
  unfold Crv.number
  omega

private theorem ell_facts : 0 < c.ell ∧ 1 < c.fld.pN ∧ Nat.Coprime c.ell c.fld.pN ∧ c.ell < c.fld.pN := by
  cases c <;> decide +kernel

/-- Reduction of a multiple modulo `p` changes nothing exactly when the order divides the quotient. -/
private theorem reduce_iff {P : c.Point} (hP : addOrderOf P = c.ell) (n : Nat) :
    (n % c.fld.pN) • P = n • P ↔ c.ell ∣ n / c.fld.pN := by
  obtain ⟨-, -, hc, -⟩ := ell_facts c
  conv_lhs => rhs; rw [← Nat.mod_add_div n c.fld.pN]
  rw [add_smul, left_eq_add, ← addOrderOf_dvd_iff_nsmul_eq_zero, hP]
  exact hc.dvd_mul_left

private theorem reduce_small {P : c.Point} (hP : addOrderOf P = c.ell) {n : Nat} (hn : n < c.ell * c.fld.pN) :
    (n % c.fld.pN) • P = n • P ↔ n < c.fld.pN := by
  obtain ⟨-, h1, -, -⟩ := ell_facts c
  rw [reduce_iff c hP]
  constructor
  · intro h
    have h2 : n / c.fld.pN < c.ell := Nat.div_lt_of_lt_mul (by rwa [mul_comm])
    exact (Nat.div_eq_zero_iff_lt (by omega)).1 (Nat.eq_zero_of_dvd_of_lt h h2)
  · intro h
    rw [Nat.div_eq_of_lt h]
    exact dvd_zero _

private theorem decide_iff {A B : Prop} [Decidable B] (h : A ↔ B) :
    @decide A (Classical.propDecidable A) = decide B :=
  Bool.eq_iff_iff.2 (by rw [@decide_eq_true_iff _ (Classical.propDecidable A), decide_eq_true_iff, h])

variable (pr : Profile) {a b r e : Elem} {p : EdwardsExtended Elem} {P : c.Point}

/-- C76, sums: `(a + b) P = a P + b P` exactly when the numbers add up to less than `p`. -/
theorem C76_sum (ha : c.fld.Tight a) (hb : c.fld.Tight b) (hp : c.Represents p P) (hP : addOrderOf P = c.ell) :
    Repaired.sumAgrees.run c pr [a, b] [p] = .ok (decide (c.number a + c.number b < c.fld.pN)) := by
  rw [C74_client c pr Repaired.sumAgrees ⟨trivial, fun _ => trivial⟩ (.cons ⟨ha, rfl⟩ (.cons ⟨hb, rfl⟩ .nil)) (.cons hp .nil)]
  refine congrArg Except.ok (decide_iff ?_)
  show (c.den a + c.den b).val • P = (c.den a).val • P + (c.den b).val • P ↔ _
  rw [ZMod.val_add, ← add_smul, ← c.number_eq, ← c.number_eq]
  refine reduce_small c hP ?_
  obtain ⟨-, h1, -, -⟩ := ell_facts c
  have h2 : 2 ≤ c.ell := by cases c <;> decide +kernel
  have h3 : c.number a < c.fld.pN := by rw [c.number_eq]; exact ZMod.val_lt _
  have h4 : c.number b < c.fld.pN := by rw [c.number_eq]; exact ZMod.val_lt _
  nlinarith

/-- C76, differences: `(a - b) P = a P - b P` exactly when `b` is not larger than `a`. -/
theorem C76_difference (ha : c.fld.Tight a) (hb : c.fld.Tight b) (hp : c.Represents p P)
    (hP : addOrderOf P = c.ell) :
    Repaired.differenceAgrees.run c pr [a, b] [p] = .ok (decide (c.number b ≤ c.number a)) := by
  rw [C74_client c pr Repaired.differenceAgrees ⟨trivial, fun _ => trivial⟩ (.cons ⟨ha, rfl⟩ (.cons ⟨hb, rfl⟩ .nil)) (.cons hp .nil)]
  refine congrArg Except.ok (decide_iff ?_)
  show (c.den a - c.den b).val • P + (c.den b).val • P = (c.den a).val • P ↔ _
  obtain ⟨-, h1, -, -⟩ := ell_facts c
  have h2 : 2 ≤ c.ell := by cases c <;> decide +kernel
  have h3 : (c.den a - c.den b).val < c.fld.pN := ZMod.val_lt _
  have h4 : (c.den b).val < c.fld.pN := ZMod.val_lt _
  have h5 : ((c.den a - c.den b).val + (c.den b).val) % c.fld.pN = (c.den a).val := by
    rw [← ZMod.val_add, sub_add_cancel]
  rw [← add_smul, ← h5, eq_comm, reduce_small c hP (by nlinarith), c.number_eq, c.number_eq, ← h5]
  constructor
  · intro h
    rw [Nat.mod_eq_of_lt h]
    omega
  · intro h
    by_contra hn
    rw [Nat.mod_eq_sub_mod (by omega), Nat.mod_eq_of_lt (by omega)] at h
    omega

/-- C76, negatives: `(-a) P = -(a P)` only for `a = 0`. -/
theorem C76_negative (ha : c.fld.Tight a) (hp : c.Represents p P) (hP : addOrderOf P = c.ell) :
    Repaired.negativeAgrees.run c pr [a] [p] = .ok (decide (c.number a = 0)) := by
  rw [C74_client c pr Repaired.negativeAgrees ⟨trivial, fun _ => trivial⟩ (.cons ⟨ha, rfl⟩ .nil) (.cons hp .nil)]
  refine congrArg Except.ok (decide_iff ?_)
  show (-c.den a).val • P + (c.den a).val • P = 0 ↔ _
  obtain ⟨-, h1, -, -⟩ := ell_facts c
  have h2 : 2 ≤ c.ell := by cases c <;> decide +kernel
  have h3 : (-c.den a).val < c.fld.pN := ZMod.val_lt _
  have h4 : (c.den a).val < c.fld.pN := ZMod.val_lt _
  have h5 : ((-c.den a).val + (c.den a).val) % c.fld.pN = 0 := by
    rw [← ZMod.val_add, neg_add_cancel, ZMod.val_zero]
  have h6 : (0 : c.Point) = (((-c.den a).val + (c.den a).val) % c.fld.pN) • P := by rw [h5, zero_smul]
  rw [← add_smul, h6, eq_comm, reduce_small c hP (by nlinarith), c.number_eq]
  constructor
  · intro h
    rw [Nat.mod_eq_of_lt h] at h5
    omega
  · intro h
    rw [h, (ZMod.val_eq_zero _).1 h, neg_zero, ZMod.val_zero]
    omega

/-- C76, products: `(a b) P = a (b P)` exactly when the order divides the quotient of the product by `p`; for factors of
which one is at most the order, exactly when the product is less than `p`. -/
theorem C76_product (ha : c.fld.Tight a) (hb : c.fld.Tight b) (hp : c.Represents p P) (hP : addOrderOf P = c.ell) :
    Repaired.productAgrees.run c pr [a, b] [p] = .ok (decide (c.ell ∣ c.number a * c.number b / c.fld.pN)) ∧
    (c.number a ≤ c.ell ∨ c.number b ≤ c.ell →
      Repaired.productAgrees.run c pr [a, b] [p] = .ok (decide (c.number a * c.number b < c.fld.pN))) := by
  obtain ⟨h0, h1, -, -⟩ := ell_facts c
  have h3 : c.number a < c.fld.pN := by rw [c.number_eq]; exact ZMod.val_lt _
  have h4 : c.number b < c.fld.pN := by rw [c.number_eq]; exact ZMod.val_lt _
  rw [C74_client c pr Repaired.productAgrees ⟨trivial, fun _ => trivial⟩ (.cons ⟨ha, rfl⟩ (.cons ⟨hb, rfl⟩ .nil)) (.cons hp .nil)]
  have key : (c.den a * c.den b).val • P = (c.den a).val • (c.den b).val • P ↔
      (c.number a * c.number b % c.fld.pN) • P = (c.number a * c.number b) • P := by
    rw [ZMod.val_mul, ← mul_smul, ← c.number_eq, ← c.number_eq]
  refine ⟨congrArg Except.ok (decide_iff (key.trans (reduce_iff c hP _))), fun h => ?_⟩
  refine congrArg Except.ok (decide_iff (key.trans (reduce_small c hP ?_)))
  rcases h with h | h
  · exact Nat.mul_lt_mul_of_le_of_lt h h4 h0
  · rw [mul_comm]
    exact Nat.mul_lt_mul_of_le_of_lt h h3 h0

/-- C76, inverses: for scalars up to the order, `a⁻¹ (a P) = P` only for `a = 1`. -/
theorem C76_inverse (ha : c.fld.Tight a) (hp : c.Represents p P) (hP : addOrderOf P = c.ell)
    (hl : c.number a ≤ c.ell) :
    Repaired.unblinds.run c pr [a] [p] = .ok (decide (c.number a = 1)) := by
  rw [C74_client c pr Repaired.unblinds ⟨trivial, fun _ => trivial⟩ (.cons ⟨ha, rfl⟩ .nil) (.cons hp .nil)]
  refine congrArg Except.ok (decide_iff ?_)
  show (c.den a)⁻¹.val • (c.den a).val • P = P ↔ _
  obtain ⟨h0, h1, -, -⟩ := ell_facts c
  have h2 : 2 ≤ c.ell := by cases c <;> decide +kernel
  rw [c.number_eq] at hl ⊢
  by_cases hz : c.den a = 0
  · rw [hz, ZMod.val_zero, zero_smul, smul_zero]
    refine ⟨fun h => ?_, fun h => absurd h (by decide)⟩
    rw [← h, addOrderOf_zero] at hP
    omega
  have h5 : ((c.den a).val * (c.den a)⁻¹.val) % c.fld.pN = 1 := by
    rw [← ZMod.val_mul, mul_inv_cancel₀ hz]
    haveI : Fact (1 < c.fld.pN) := ⟨h1⟩
    exact ZMod.val_one _
  have h6 : P = ((c.den a).val * (c.den a)⁻¹.val % c.fld.pN) • P := by rw [h5, one_smul]
  rw [← mul_smul, mul_comm]
  conv_lhs => rhs; rw [h6]
  rw [eq_comm, reduce_small c hP (Nat.mul_lt_mul_of_le_of_lt hl (ZMod.val_lt _) h0)]
  constructor
  · intro h
    rw [Nat.mod_eq_of_lt h] at h5
    exact Nat.eq_one_of_mul_eq_one_right h5
  · intro h
    rw [h, one_mul]
    exact ZMod.val_lt _

/-- C76, signatures: `s P = R + e A` for `s = r + e a` exactly when `r + e a` is less than `p` as a number, the secret being
at most the order. -/
theorem C76_signature (ha : c.fld.Tight a) (hr : c.fld.Tight r) (he : c.fld.Tight e) (hp : c.Represents p P)
    (hP : addOrderOf P = c.ell) (hl : c.number a < c.ell) :
    Repaired.signatureVerifies.run c pr [a, r, e] [p] =
      .ok (decide (c.number r + c.number e * c.number a < c.fld.pN)) := by
  rw [C74_client c pr Repaired.signatureVerifies ⟨trivial, trivial, fun _ => trivial⟩
    (.cons ⟨ha, rfl⟩ (.cons ⟨hr, rfl⟩ (.cons ⟨he, rfl⟩ .nil))) (.cons hp .nil)]
  refine congrArg Except.ok (decide_iff ?_)
  show (c.den r + c.den e * c.den a).val • P = (c.den r).val • P + (c.den e).val • (c.den a).val • P ↔ _
  have h3 : c.number r < c.fld.pN := by rw [c.number_eq]; exact ZMod.val_lt _
  have h4 : c.number e < c.fld.pN := by rw [c.number_eq]; exact ZMod.val_lt _
  rw [ZMod.val_add, ZMod.val_mul, Nat.add_mod_mod, ← mul_smul, ← add_smul, ← c.number_eq, ← c.number_eq, ← c.number_eq]
  refine reduce_small c hP ?_
  have : c.number e * c.number a ≤ c.fld.pN * (c.ell - 1) := Nat.mul_le_mul h4.le (by omega)
  have h6 : c.fld.pN * (c.ell - 1) + c.fld.pN = c.ell * c.fld.pN := by
    obtain ⟨h0, -⟩ := ell_facts c
    obtain ⟨m, hm⟩ : ∃ m, c.ell = m + 1 := ⟨c.ell - 1, by omega⟩
    rw [hm]; simp; ring
  omega

/-- C76, signatures: for a secret with the number `n` and a random nonce and challenge, the probability that the equation
holds is at most `1 / n + 1 / p`. -/
theorem C76_signature_rare {n : Nat} (hn : 0 < n) :
    prob (fun x : c.K × c.K => x.1.val + x.2.val * n < c.fld.pN) ≤ 1 / n + 1 / c.fld.pN := by
  have hp : 0 < c.fld.pN := by obtain ⟨-, h1, -⟩ := ell_facts c; omega
  have h1 : Nat.card {x : c.K × c.K // x.1.val + x.2.val * n < c.fld.pN} ≤ c.fld.pN * (c.fld.pN / n + 1) := by
    have e : c.fld.pN * (c.fld.pN / n + 1) = Nat.card (Fin c.fld.pN × Fin (c.fld.pN / n + 1)) := by
      rw [Nat.card_prod, Nat.card_fin, Nat.card_fin]
    rw [e]
    refine Nat.card_le_card_of_injective (fun x => (⟨x.1.1.val, ZMod.val_lt _⟩, ⟨x.1.2.val, by
      have h := x.2
      rw [Nat.lt_succ_iff, Nat.le_div_iff_mul_le hn]
      omega⟩)) ?_
    rintro ⟨⟨x, y⟩, _⟩ ⟨⟨x', y'⟩, _⟩ h
    simp only [Prod.mk.injEq, Fin.mk.injEq] at h
    exact Subtype.ext (Prod.ext (ZMod.val_injective _ h.1) (ZMod.val_injective _ h.2))
  have h2 : Nat.card (c.K × c.K) = c.fld.pN * c.fld.pN := by rw [Nat.card_prod, Nat.card_zmod]
  have hp' : (0 : ℚ) < c.fld.pN := by exact_mod_cast hp
  rw [prob, h2, Nat.cast_mul, div_le_iff₀ (by positivity)]
  have h3 : ((c.fld.pN / n : Nat) : ℚ) ≤ c.fld.pN / n := by
    rw [le_div_iff₀ (by exact_mod_cast hn)]
    exact_mod_cast Nat.div_mul_le_self _ _
  calc (_ : ℚ) ≤ ((c.fld.pN * (c.fld.pN / n + 1) : Nat) : ℚ) := by exact_mod_cast h1
    _ = c.fld.pN * (((c.fld.pN / n : Nat) : ℚ) + 1) := by push_cast; rfl
    _ ≤ c.fld.pN * (c.fld.pN / n + 1) := by gcongr
    _ = (1 / n + 1 / c.fld.pN) * (c.fld.pN * c.fld.pN) := by field_simp

/-! ### Cases -/

/-- `1 + (-1)`: the multiples by `ONE` and `M_ONE` of the base point do not add up to the multiple by their sum. -/
example : Repaired.sumAgrees.run c pr [c.fld.code.ONE, c.fld.code.M_ONE] [c.baseCoords 1] = .ok false := by
  rw [C76_sum c pr (one_canon c.fld).tight (m_one_canon c.fld).tight (Crv.base1 c) (C72_base c)]
  cases c <;> decide +kernel

/-- `1 + 1` is right. -/
example : Repaired.sumAgrees.run c pr [c.fld.code.ONE, c.fld.code.ONE] [c.baseCoords 1] = .ok true := by
  rw [C76_sum c pr (one_canon c.fld).tight (one_canon c.fld).tight (Crv.base1 c) (C72_base c)]
  cases c <;> decide +kernel

/-- `0 - 1`. -/
example : Repaired.differenceAgrees.run c pr [c.fld.code.ZERO, c.fld.code.ONE] [c.baseCoords 1] = .ok false := by
  rw [C76_difference c pr (zero_canon c.fld).tight (one_canon c.fld).tight (Crv.base1 c) (C72_base c)]
  cases c <;> decide +kernel

example : Repaired.negativeAgrees.run c pr [c.fld.code.ONE] [c.baseCoords 1] = .ok false := by
  rw [C76_negative c pr (one_canon c.fld).tight (Crv.base1 c) (C72_base c)]
  cases c <;> decide +kernel

/-- `(ORDER ORDER) B` is not `ORDER (ORDER B) = 0`. -/
example : Repaired.productAgrees.run c pr [c.order, c.order] [c.baseCoords 1] = .ok false := by
  rw [(C76_product c pr c.base_canon.2.2.tight c.base_canon.2.2.tight (Crv.base1 c) (C72_base c)).2
    (.inl (by cases c <;> decide +kernel))]
  cases c <;> decide +kernel

/-- `ORDER` has an inverse modulo `p`, but `ORDER B = 0`. -/
example : Repaired.unblinds.run c pr [c.order] [c.baseCoords 1] = .ok false := by
  rw [C76_inverse c pr c.base_canon.2.2.tight (Crv.base1 c) (C72_base c) (by cases c <;> decide +kernel)]
  cases c <;> decide +kernel

/-- A nonce of `-1`, the challenge 1 and the secret 1. -/
example : Repaired.signatureVerifies.run c pr [c.fld.code.ONE, c.fld.code.M_ONE, c.fld.code.ONE] [c.baseCoords 1] =
    .ok false := by
  rw [C76_signature c pr (one_canon c.fld).tight (m_one_canon c.fld).tight (one_canon c.fld).tight (Crv.base1 c)
    (C72_base c) (by cases c <;> decide +kernel)]
  cases c <;> decide +kernel

/-- Secrets of 2^128 or more: fewer than one signature in 2^127 is accepted. -/
example {n : Nat} (h : 2 ^ 128 ≤ n) :
    prob (fun x : c.K × c.K => x.1.val + x.2.val * n < c.fld.pN) ≤ 1 / 2 ^ 127 := by
  refine (C76_signature_rare c (lt_of_lt_of_le (by positivity) h)).trans ?_
  have h1 : (2 ^ 128 : ℚ) ≤ n := by exact_mod_cast h
  have h2 : (2 ^ 128 : ℚ) ≤ c.fld.pN := by
    have : 2 ^ 128 ≤ c.fld.pN := by cases c <;> decide +kernel
    exact_mod_cast this
  have h3 : (1 : ℚ) / n ≤ 1 / 2 ^ 128 := one_div_le_one_div_of_le (by positivity) h1
  have h4 : (1 : ℚ) / c.fld.pN ≤ 1 / 2 ^ 128 := one_div_le_one_div_of_le (by positivity) h2
  calc _ ≤ (1 : ℚ) / 2 ^ 128 + 1 / 2 ^ 128 := add_le_add h3 h4
    _ = 1 / 2 ^ 127 := by norm_num

end
end Verif

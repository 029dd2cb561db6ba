import Verif.Props.RepairedCurve
import Verif.Props.RandKeys

/-!
# Property C78: why the check of the order is needed

A party that multiplies its secret with any point of the curve that it receives, as in C74 but without the check that
`order` times the point is zero, tells its secret modulo the cofactor, unless the secret is a multiple of the cofactor.
-/

namespace Verif
open Fld EdwardsExtended

/-- As `Repaired.shared`, without the check of the order; both coordinates of the product are returned. -/
def Repaired.unchecked (bx by' : List Int) : Repaired.CClient (Option (List Int × List Int)) :=
  .step (.op (.bytes bx)) <| .step (.op (.bytes by')) <| .init 4 5 fun on =>
    if on then .mult 0 3 <| .affine 1 <| .packed 6 fun x => .packed 7 fun y => .done (some (x, y)) else .done none

/-- The number that a secret stands for. -/
def Crv.secret (c : Crv) (a : Elem) : Nat := (c.fld.V a % c.fld.p).toNat

/-- The bytes of a point. -/
noncomputable def Crv.bytes (c : Crv) (P : c.Point) : List Int × List Int :=
  (leBytes c.fld.nbytes P.x.val, leBytes c.fld.nbytes P.y.val)

section
variable (c : Crv) (pr : Profile)

/-- Answer to the bytes of the point `P` of a party with the secret `a`. -/
noncomputable def Crv.answer (a : Elem) (P : c.Point) : Res (Option (List Int × List Int)) :=
  (Repaired.unchecked (c.bytes P).1 (c.bytes P).2).run c pr (c.start a) []

theorem Crv.bytes_injective {P Q : c.Point} : c.bytes P = c.bytes Q ↔ P = Q := by
  refine ⟨fun h => ?_, fun h => h ▸ rfl⟩
  have h1 : (c.bytes P).1 = (c.bytes Q).1 := by rw [h]
  have h2 : (c.bytes P).2 = (c.bytes Q).2 := by rw [h]
  simp only [Crv.bytes] at h1 h2
  refine EdPoint.ext ?_ ?_
  · rw [← Crv.coord_leBytes c P.x, h1, Crv.coord_leBytes]
  · rw [← Crv.coord_leBytes c P.y, h2, Crv.coord_leBytes]

/-- C78: for every point of the curve, of whatever order, the answer is the bytes of its multiple by the secret. -/
theorem C78_answer {a : Elem} (ha : c.fld.Tight a) (P : c.Point) :
    c.answer pr a P = .ok (some (c.bytes (c.secret a • P))) := by
  have e : (c.den a).val = c.secret a := by
    have : ((c.den a).val : Int) = c.fld.V a % c.fld.p := by rw [Crv.den, ZMod.val_intCast, ← Fld.p_eq]
    unfold Crv.secret
    omega
  have hv : ∀ x : c.K, IsBytes (leBytes c.fld.nbytes x.val) ∧ c.fld.nbytes ≤ (leBytes c.fld.nbytes x.val).length :=
    fun x => ⟨leBytes_isBytes _ _, (leBytes_length _ _).ge⟩
  unfold Crv.answer
  rw [C74_client c pr _ (by
    refine ⟨hv _, hv _, fun b => ?_⟩
    cases b
    · trivial
    · intro _ _ _ _ _ _; trivial) (Crv.start_inv c ha) .nil, ← e]
  congr 1
  simp only [Repaired.unchecked, Repaired.CClient.ideal]
  have ex := Crv.coord_leBytes c P.x
  have ey := Crv.coord_leBytes c P.y
  have hon := P.on
  rw [← ex, ← ey] at hon
  refine (dif_pos hon).trans ?_
  have hP : (⟨_, _, hon⟩ : c.Point) = P := EdPoint.ext ex ey
  show some (leBytes _ ((c.den a).val • (⟨_, _, hon⟩ : c.Point)).x.val, leBytes _ ((c.den a).val • (⟨_, _, hon⟩ : c.Point)).y.val) = _
  rw [hP]
  rfl

/-- C78: the answer to a point tells the secret modulo the order of the point, and nothing else. -/
theorem C78_tells {a b : Elem} (ha : c.fld.Tight a) (hb : c.fld.Tight b) (P : c.Point) :
    c.answer pr a P = c.answer pr b P ↔ c.secret a ≡ c.secret b [MOD addOrderOf P] := by
  rw [C78_answer c pr ha, C78_answer c pr hb, Except.ok.injEq, Option.some.injEq, Crv.bytes_injective,
    nsmul_eq_nsmul_iff_modEq]

/-- C78: there is a point whose answer tells the secret modulo the cofactor. -/
theorem C78_cofactor : ∃ P : c.Point, ∀ {a b : Elem}, c.fld.Tight a → c.fld.Tight b →
    (c.answer pr a P = c.answer pr b P ↔ c.secret a ≡ c.secret b [MOD c.cofactor]) := by
  obtain ⟨P, hP⟩ := c.exists_order
  exact ⟨P, fun ha hb => by rw [C78_tells c pr ha hb, hP]⟩

private theorem four_smul (k : Nat) : (k • (EdPoint.four : c.Point)) =
    if k % 4 = 0 then 0 else if k % 4 = 1 then EdPoint.four else if k % 4 = 2 then EdPoint.two else -EdPoint.four := by
  have h4 : 4 • (EdPoint.four : c.Point) = 0 := EdPoint.four_order.1
  have h2 : 2 • (EdPoint.four : c.Point) = EdPoint.two := by
    rw [two_nsmul]
    refine EdPoint.ext ?_ ?_
    · rw [EdPoint.add_x]; simp [EdPoint.two, EdPoint.four]
    · rw [EdPoint.add_y]; simp [EdPoint.two, EdPoint.four]
  have h3 : 3 • (EdPoint.four : c.Point) = -EdPoint.four := by
    rw [eq_neg_iff_add_eq_zero, ← h4, show 4 = 3 + 1 from rfl, add_nsmul, one_nsmul]
  have hk : k • (EdPoint.four : c.Point) = (k % 4) • (EdPoint.four : c.Point) := nsmul_eq_mod_nsmul k h4
  rw [hk]
  have hlt : k % 4 < 4 := Nat.mod_lt _ (by norm_num)
  generalize k % 4 = m at *
  interval_cases m
  · simp
  · simp
  · simpa using h2
  · simpa using h3

/-- C78: for instance, `(1, 0)` is answered by `(0, 1)`, `(1, 0)`, `(0, -1)` or `(-1, 0)`, depending on the two lowest bits
of the secret. -/
theorem C78_four {a : Elem} (ha : c.fld.Tight a) :
    c.answer pr a EdPoint.four = .ok (some (
      if c.secret a % 4 = 0 then (leBytes c.fld.nbytes 0, leBytes c.fld.nbytes 1)
      else if c.secret a % 4 = 1 then (leBytes c.fld.nbytes 1, leBytes c.fld.nbytes 0)
      else if c.secret a % 4 = 2 then (leBytes c.fld.nbytes 0, leBytes c.fld.nbytes (c.fld.pN - 1))
      else (leBytes c.fld.nbytes (c.fld.pN - 1), leBytes c.fld.nbytes 0))) := by
  have : Fact (1 < c.fld.pN) := ⟨by cases c <;> decide +kernel⟩
  have e0 : (0 : c.K).val = 0 := ZMod.val_zero
  have e1 : (1 : c.K).val = 1 := ZMod.val_one _
  rw [C78_answer c pr ha, four_smul, ← c.val_neg_one]
  congr 2
  split
  · exact Prod.ext (congrArg (leBytes c.fld.nbytes) e0) (congrArg (leBytes c.fld.nbytes) e1)
  · split
    · exact Prod.ext (congrArg (leBytes c.fld.nbytes) e1) (congrArg (leBytes c.fld.nbytes) e0)
    · split
      · exact Prod.ext (congrArg (leBytes c.fld.nbytes) e0) rfl
      · exact Prod.ext rfl (congrArg (leBytes c.fld.nbytes) e0)

/-- C78: secrets that are multiples of the cofactor are safe.  All answers are points of the subgroup of the base point, the
answers to points of an order that divides the cofactor are the neutral element, and answers tell at most the secret modulo
`order`. -/
theorem C78_clamped {a : Elem} (ha : c.fld.Tight a) (h : c.cofactor ∣ c.secret a) (P : c.Point) :
    (∃ Q ∈ AddSubgroup.zmultiples c.base, c.answer pr a P = .ok (some (c.bytes Q))) ∧
    (c.cofactor • P = 0 → c.answer pr a P = .ok (some (c.bytes 0))) ∧
    ∀ {b : Elem}, c.fld.Tight b → c.cofactor ∣ c.secret b → c.secret a ≡ c.secret b [MOD c.ell] →
      c.answer pr a P = c.answer pr b P := by
  obtain ⟨m, hm⟩ := h
  have hcard : (c.cofactor * c.ell) • P = 0 := by
    have := C46_edwards_card c
    rw [show c.cofactor * c.ell = Nat.card c.Point from this.symm]
    exact card_nsmul_eq_zero'
  refine ⟨⟨c.secret a • P, (C49_edwards_subgroup c _).2 ?_, C78_answer c pr ha P⟩, fun h0 => ?_, fun {b} hb hb' hab => ?_⟩
  · show c.ell • _ = 0
    rw [smul_smul, hm, show c.ell * (c.cofactor * m) = m * (c.cofactor * c.ell) by ring, ← smul_smul, hcard, smul_zero]
  · rw [C78_answer c pr ha, hm, mul_comm, ← smul_smul, h0, smul_zero]
  · rw [C78_tells c pr ha hb]
    have hcop : Nat.Coprime c.cofactor c.ell := by
      have h2 : c.cofactor ∣ 8 := by cases c <;> decide
      have h3 : Nat.Coprime 8 c.ell := by cases c <;> decide +kernel
      exact Nat.Coprime.coprime_dvd_left h2 h3
    have : c.secret a ≡ c.secret b [MOD c.cofactor * c.ell] :=
      (Nat.modEq_and_modEq_iff_modEq_mul hcop).1 ⟨(Nat.modEq_zero_iff_dvd.2 ⟨m, hm⟩).trans (Nat.modEq_zero_iff_dvd.2 hb').symm, hab⟩
    exact this.of_dvd (addOrderOf_dvd_of_nsmul_eq_zero hcard)

end

/-! ## Cases -/

/-- On Curve41417 one answer tells the secret modulo eight. -/
example (pr : Profile) : ∃ P : Crv.curve41417.Point,
    Crv.curve41417.answer pr Crv.curve41417.baseX P ≠ Crv.curve41417.answer pr Crv.curve41417.order P := by
  obtain ⟨P, h⟩ := C78_cofactor .curve41417 pr
  refine ⟨P, fun e => ?_⟩
  rw [h Crv.curve41417.base_canon.1.tight Crv.curve41417.base_canon.2.2.tight] at e
  revert e
  decide +kernel

/-- Two secrets that `(1, 0)` tells apart, … -/
example (pr : Profile) : Crv.e222.answer pr Crv.e222.baseX EdPoint.four ≠ Crv.e222.answer pr Crv.e222.order EdPoint.four := by
  rw [Ne, C78_tells _ pr Crv.e222.base_canon.1.tight Crv.e222.base_canon.2.2.tight, addOrderOf_eq_prime_pow (p := 2) (n := 1)
    EdPoint.four_order.2 EdPoint.four_order.1]
  decide +kernel

/-- … the answer of one of them, … -/
example (pr : Profile) : Crv.e521.answer pr Crv.e521.order EdPoint.four =
    .ok (some (leBytes Crv.e521.fld.nbytes (Crv.e521.fld.pN - 1), leBytes Crv.e521.fld.nbytes 0)) := by
  rw [C78_four _ pr Crv.e521.base_canon.2.2.tight, if_neg (by decide +kernel), if_neg (by decide +kernel),
    if_neg (by decide +kernel)]

/-- … the answer to the base point, and a secret that is a multiple of the cofactor. -/
example (pr : Profile) := C78_answer .curve41417 pr Crv.curve41417.base_canon.2.1.tight Crv.curve41417.base

example (pr : Profile) : Crv.curve1174.answer pr [20, 7, 0, 0, 0] EdPoint.four = .ok (some (Crv.curve1174.bytes 0)) :=
  (C78_clamped .curve1174 pr ⟨[20, 7, 0, 0], 0, rfl, rfl, by decide +kernel, by decide +kernel, by decide +kernel⟩
    (by decide +kernel) EdPoint.four).2.1 EdPoint.four_order.1

end Verif

import Verif.Props.ScalarMult
import Verif.Props.Products
import Verif.Props.SmallMul
import Verif.Props.Orders

/-!
# Property C47: the point code over a normalizing scalar type

`/repo/src/curve/edwards.rs` is generic in the scalar type.  Over the field types of the repository
point addition and doubling go wrong, because results with carries are fed to `-` (C26, C27).
`Scalar.normalizing` is the same field type with a call of its own `normalize` after every
operation.  It is a correct scalar type, for all five curves, so over it the unchanged generic
code of addition and doubling implements the group law.
-/

namespace Verif
open EdwardsExtended

/-- The scalar type that calls `normalize` after every arithmetic operation. -/
def Scalar.normalizing {S : Type} (C : Scalar S) : Scalar S :=
  { C with
    add := fun a b => do C.normalize (← C.add a b)
    sub := fun a b => do C.normalize (← C.sub a b)
    mul := fun a b => do C.normalize (← C.mul a b)
    squared := fun a => do C.normalize (← C.squared a)
    smallMul := fun a n => do C.normalize (← C.smallMul a n) }

namespace Crv
variable (c : Crv) (pr : Profile)

/-- Canonical words. -/
def Canonical (a : Elem) : Prop := c.fld.Canon (c.fld.V a) a

/-- Extended coordinates of `P` made of canonical words. -/
def RepresentsCanonically (p : EdwardsExtended Elem) (P : c.Point) : Prop :=
  p.Repr c.Canonical c.den P

variable {c} in
theorem _root_.Verif.Fld.Canon.canonical {x : Int} {a : Elem} (h : c.fld.Canon x a) :
    c.Canonical a := by
  unfold Canonical; rw [h.2.1]; exact h

variable {c} in
theorem normalize_step {a : Elem} (ha : c.fld.Tight a) (hv : -c.fld.p ≤ c.fld.V a) :
    ∃ r, (c.scalar pr).normalize a = .ok r ∧ c.Canonical r ∧ c.den r = c.den a := by
  obtain ⟨r, h1, h2⟩ := C09_normalize_partial c.fld pr ha.rep hv
  refine ⟨r, by rw [scalar_eq]; exact h1, h2.canonical, ?_⟩
  rw [den, h2.2.1, den, ← Fld.modEq_iff]
  exact Int.mod_modEq _ _

theorem mul_low {a b : Elem} (ha : c.Canonical a) (hb : c.Canonical b) :
    ∃ r, c.fld.code.mul pr a b = .ok r ∧ c.fld.Tight r ∧ 0 ≤ c.fld.V r ∧
      c.fld.Denotes r (c.fld.V a * c.fld.V b) := by
  obtain ⟨r, h1, h2, h3⟩ := C04_mul_carry_free c.fld pr ha.1 hb.1
  obtain ⟨s, h4, h5, -⟩ := C41_mul_nonneg c.fld pr ha.tight.loose hb.tight.loose
    (mul_nonneg ha.2.2.1 hb.2.2.1)
  cases ok_unique h1 h4
  exact ⟨r, h1, h2, h5, h3⟩

theorem div_eq_zero {a : Elem} (ha : c.Canonical a) : c.fld.V a / 2 ^ c.fld.n = 0 :=
  Int.ediv_eq_zero_of_lt ha.2.2.1 (ha.2.2.2.trans c.fld.p_lt)

theorem add_step {a b : Elem} (ha : c.Canonical a) (hb : c.Canonical b) :
    ∃ r, (c.scalar pr).normalizing.add a b = .ok r ∧ c.Canonical r ∧
      c.den r = c.den a + c.den b := by
  obtain ⟨r, h1, h2, h3⟩ := C01_add c.fld pr ha.tight.rep hb.tight.rep
  obtain ⟨s, h4, -, h5⟩ := Fld.add_exact pr ha.tight.rep hb.tight.rep
  cases ok_unique h1 h4
  rw [c.div_eq_zero ha, c.div_eq_zero hb] at h5
  obtain ⟨u, h6, h7, h8⟩ := normalize_step pr h2 (by
    have := c.fld.p_pos; have := ha.2.2.1; have := hb.2.2.1; linarith)
  refine ⟨u, ?_, h7, ?_⟩
  · have e : (c.scalar pr).add a b = .ok r := by rw [scalar_eq]; exact h1
    simp only [Scalar.normalizing, e, bind, Except.bind]; exact h6
  · rw [den_eq] at h3; rw [h8, h3]; push_cast; rfl

theorem sub_step {a b : Elem} (ha : c.Canonical a) (hb : c.Canonical b) :
    ∃ r, (c.scalar pr).normalizing.sub a b = .ok r ∧ c.Canonical r ∧
      c.den r = c.den a - c.den b := by
  obtain ⟨r, h1, h2, h3⟩ := C02_sub_partial c.fld pr ha.tight.rep hb.1
  obtain ⟨s, h4, -, h5⟩ := Fld.sub_exact pr ha.tight.rep hb.tight.rep
  cases ok_unique h1 h4
  rw [c.div_eq_zero ha, c.div_eq_zero hb] at h5
  obtain ⟨u, h6, h7, h8⟩ := normalize_step pr h2 (by
    have := hb.2.2.2; have := ha.2.2.1; linarith)
  refine ⟨u, ?_, h7, ?_⟩
  · have e : (c.scalar pr).sub a b = .ok r := by rw [scalar_eq]; exact h1
    simp only [Scalar.normalizing, e, bind, Except.bind]; exact h6
  · rw [den_eq] at h3; rw [h8, h3]; push_cast; rfl

theorem mul_step {a b : Elem} (ha : c.Canonical a) (hb : c.Canonical b) :
    ∃ r, (c.scalar pr).normalizing.mul a b = .ok r ∧ c.Canonical r ∧
      c.den r = c.den a * c.den b := by
  obtain ⟨r, h1, h2, h3, h4⟩ := c.mul_low pr ha hb
  obtain ⟨u, h6, h7, h8⟩ := normalize_step pr h2 (by have := c.fld.p_pos; linarith)
  refine ⟨u, ?_, h7, ?_⟩
  · have e : (c.scalar pr).mul a b = .ok r := by rw [scalar_eq]; exact h1
    simp only [Scalar.normalizing, e, bind, Except.bind]; exact h6
  · rw [den_eq] at h4; rw [h8, h4]; push_cast; rfl

theorem squared_step {a : Elem} (ha : c.Canonical a) :
    ∃ r, (c.scalar pr).normalizing.squared a = .ok r ∧ c.Canonical r ∧
      c.den r = c.den a ^ 2 := by
  obtain ⟨r, h1, h2, h3, h4⟩ := c.mul_low pr ha ha
  have hs : c.fld.code.square pr a = .ok r := by
    rw [(C41_square_eq_mul c.fld pr ha.tight).2 ?_, h1]
    intro hf
    rw [abs_of_nonneg ha.2.2.1]
    have := ha.2.2.2.trans c.fld.p_lt
    rw [hf] at this ⊢
    exact this.trans_le (by decide)
  obtain ⟨u, h6, h7, h8⟩ := normalize_step pr h2 (by have := c.fld.p_pos; linarith)
  refine ⟨u, ?_, h7, ?_⟩
  · have e : (c.scalar pr).squared a = .ok r := by rw [scalar_eq]; exact hs
    simp only [Scalar.normalizing, e, bind, Except.bind]; exact h6
  · rw [den_eq] at h4; rw [h8, h4, pow_two]; push_cast; rfl

theorem double_step {a : Elem} (ha : c.Canonical a) :
    ∃ r, (c.scalar pr).normalizing.smallMul a 2 = .ok r ∧ c.Canonical r ∧
      c.den r = c.den a * (2 : Nat) := by
  obtain ⟨r, h1, h2, h3⟩ := C07_small_mul_two pr c.fld ha.tight
    ⟨ha.2.2.1, ha.2.2.2.trans c.fld.p_lt⟩
  obtain ⟨u, h6, h7, h8⟩ := normalize_step pr h2 (by
    have := c.fld.p_pos; have := ha.2.2.1; linarith)
  refine ⟨u, ?_, h7, ?_⟩
  · have e : (c.scalar pr).smallMul a 2 = .ok r := by rw [scalar_eq]; exact h1
    simp only [Scalar.normalizing, e, bind, Except.bind]; exact h6
  · rw [h8, den, h3, den]; push_cast; ring

/-- The normalizing field types are correct scalar types. -/
theorem normalizing_lawful :
    (c.scalar pr).normalizing.Lawful c.fld.pN c.d c.Canonical c.den where
  exact := by
    constructor
    · have h := Fld.zero_canon c.fld
      refine ⟨?_, ?_⟩ <;> simp only [Scalar.normalizing, scalar_eq, FieldCode.scalar]
      · exact h.canonical
      · rw [den, h.2.1, Int.cast_zero]
    · have h := Fld.one_canon c.fld
      refine ⟨?_, ?_⟩ <;> simp only [Scalar.normalizing, scalar_eq, FieldCode.scalar]
      · exact h.canonical
      · rw [den, h.2.1, Int.cast_one]
    · have h := dVal_canon c
      refine ⟨?_, ?_⟩ <;> simp only [Scalar.normalizing, scalar_eq, FieldCode.scalar]
      · exact h.canonical
      · exact dVal_den c
    · exact fun ha hb => c.add_step pr ha hb
    · exact fun ha hb _ => c.sub_step pr ha hb
    · exact fun ha hb _ => c.mul_step pr ha hb
    · exact fun ha => c.squared_step pr ha
    · rintro a n ha rfl; exact c.double_step pr ha
  selects := by
    intro x y hx hy b
    exact c.tight_selects pr hx.tight hy.tight b
  le := by
    have : (c.scalar pr).normalizing.nbits = c.fld.n := by
      simp only [Scalar.normalizing, scalar_eq, FieldCode.scalar]
      exact (C20_nbits c.fld).1
    rw [this]; exact c.pN_le
  normalize := by
    intro a ha
    obtain ⟨r, h1, h2, h3⟩ := normalize_step pr (c := c) ha.tight (by
      have := c.fld.p_pos; have := ha.2.2.1; linarith)
    refine ⟨r, h1, h2, h3, ?_⟩
    intro i hi
    have := c.bit_canon pr h2 (i := i) hi
    refine this.trans ?_
    have e : ((c.den r).val : Int) = c.fld.V r := by
      rw [den, ZMod.val_intCast, ← Fld.p_eq, Int.emod_eq_of_lt h2.2.2.1 h2.2.2.2]
    rw [← e, Nat.testBit_eq_decide_div_mod_eq]
    congr 1
    norm_cast

end Crv

variable (c : Crv) (pr : Profile)

/-- Over the normalizing type, `+` and `+=` represent the sum, for all points and all canonical
extended coordinates, on the five curves. -/
theorem C47_add {p q : EdwardsExtended Elem} {P Q : c.Point} (hp : c.RepresentsCanonically p P)
    (hq : c.RepresentsCanonically q Q) :
    ∃ r, p.addAssign (c.scalar pr).normalizing q = .ok r ∧
      p.add (c.scalar pr).normalizing q = .ok r ∧ c.RepresentsCanonically r (P + Q) :=
  C26_add_exact_partial (c.normalizing_lawful pr) hp hq

/-- Over the normalizing type, `double` and `doubled` represent `P + P`. -/
theorem C47_double {p : EdwardsExtended Elem} {P : c.Point}
    (hp : p.ReprXYZ c.Canonical c.den P) :
    ∃ r, p.double (c.scalar pr).normalizing = .ok r ∧
      p.doubled (c.scalar pr).normalizing = .ok r ∧ c.RepresentsCanonically r (P + P) :=
  C27_double_exact_partial (c.normalizing_lawful pr) hp

/-- Over the normalizing type the remaining defects of the ladder are its start value and its
swapped bits: started with coordinates of the neutral element it computes
`(2 ^ nbits - 1 - k) P` for every canonical scalar `k` and every point. -/
theorem C47_ladder {k : Elem} (hk : c.Canonical k) {s : Ladder Elem} {P : c.Point}
    (h0 : c.RepresentsCanonically s.r0 (0 : c.Point)) (h1 : c.RepresentsCanonically s.r1 P) :
    ∃ k' s' ev, (c.scalar pr).normalize k = .ok k' ∧
      Ladder.loop (c.scalar pr).normalizing k' Ladder.body c.fld.n 0 s = .ok (s', ev) ∧
      c.RepresentsCanonically s'.r0 ((2 ^ c.fld.n - 1 - (c.fld.V k).toNat) • P) := by
  obtain ⟨k', s', ev, e1, e2, e3⟩ := C31_ladder_exact (c.normalizing_lawful pr) hk h0 h1
  have hn : (c.scalar pr).normalizing.nbits = c.fld.n := by
    simp only [Scalar.normalizing, Crv.scalar_eq, FieldCode.scalar]
    exact (C20_nbits c.fld).1
  have e : (c.den k).val = (c.fld.V k).toNat := by
    have : ((c.den k).val : Int) = c.fld.V k := by
      rw [Crv.den, ZMod.val_intCast, ← Fld.p_eq, Int.emod_eq_of_lt hk.2.2.1 hk.2.2.2]
    omega
  rw [hn] at e2 e3
  rw [e] at e3
  exact ⟨k', s', ev, e1, e2, e3⟩

/-- The base point has canonical extended coordinates, and its double is not the neutral
element. -/
example : ∃ p, c.RepresentsCanonically p c.base ∧ c.base + c.base ≠ 0 := by
  obtain ⟨h1, h2, -⟩ := c.base_canon
  have ho := Fld.one_canon c.fld
  obtain ⟨t, -, h4, h5⟩ := c.mul_step .debug h1.canonical h2.canonical
  refine ⟨⟨c.baseX, c.baseY, c.fld.code.ONE, t⟩, ⟨⟨⟨h1.canonical, h2.canonical, ho.canonical,
    h4⟩, ?_, ?_, ?_⟩, ?_⟩, ?_⟩
  all_goals try simp only [Crv.den, ho.2.1, Int.cast_one, mul_one]
  · exact one_ne_zero
  · rfl
  · rfl
  · exact h5
  · intro h
    have h3 := (C39_base_order c).2.1 2
    rw [two_nsmul] at h3
    have h5 := Nat.le_of_dvd (by norm_num) (h3.1 h)
    revert h5
    cases c <;> decide +kernel

end Verif

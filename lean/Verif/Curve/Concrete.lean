import Verif.Curve.Curves
import Verif.Field.SmallMul521
import Verif.Field.ChainEval

/-!
# The five curves: the code's scalars (helper lemmas)

The field types implement the operations of the field under the exact conditions of C02, C04 and
C07 (`Scalar.Impl`), and an evaluator by which the kernel can run the point formulas on
concrete words.
-/

namespace Verif
namespace Crv
variable (c : Crv) (pr : Profile)

/-- `-` is right (C02). -/
def SubOk (_ b : Elem) : Prop := 0 ≤ c.fld.V b ∧ c.fld.V b < 2 ^ c.fld.n

/-- `*` is right (C04). -/
def MulOk (a b : Elem) : Prop := c.fld.MulDomain (c.fld.V a * c.fld.V b)

/-- `small_mul(2)` is right (C07). -/
def SmOk (a : Elem) (n : Nat) : Prop := n = 2 ∧ 0 ≤ c.fld.V a ∧ c.fld.V a < 2 ^ c.fld.n

variable {c} in
theorem den_eq {a : Elem} {x : Int} : c.fld.Denotes a x ↔ c.den a = (x : c.K) := by
  rw [Fld.Denotes, Fld.modEq_iff]; rfl

theorem impl : (c.scalar pr).Impl c.K c.d c.fld.Tight c.den c.SubOk c.MulOk c.SmOk := by
  rw [scalar_eq]
  constructor
  · refine ⟨(Fld.zero_canon _).tight, ?_⟩
    simp only [FieldCode.scalar, den, (Fld.zero_canon _).2.1, Int.cast_zero]
  · refine ⟨(Fld.one_canon _).tight, ?_⟩
    simp only [FieldCode.scalar, den, (Fld.one_canon _).2.1, Int.cast_one]
  · exact ⟨(dVal_canon c).tight, dVal_den c⟩
  · intro a b ha hb
    obtain ⟨r, h1, h2, h3⟩ := C01_add c.fld pr ha.rep hb.rep
    exact ⟨r, h1, h2, by rw [den_eq] at h3; rw [h3]; push_cast; rfl⟩
  · intro a b ha hb hs
    obtain ⟨r, h1, h2, h3⟩ := C02_sub_correct_iff c.fld pr ha.rep hb.rep
    exact ⟨r, h1, h2, by have := h3.2 hs; rw [den_eq] at this; rw [this]; push_cast; rfl⟩
  · intro a b ha hb hs
    obtain ⟨r, h1, h2, h3⟩ := C04_mul_correct_iff c.fld pr ha.loose hb.loose
    exact ⟨r, h1, h2, by have := h3.2 hs; rw [den_eq] at this; rw [this]; push_cast; rfl⟩
  · intro a ha
    obtain ⟨r, h1, h2, h3⟩ := C05_square c.fld pr ha
    exact ⟨r, h1, h2, by rw [den_eq] at h3; rw [h3, pow_two]; push_cast; rfl⟩
  · rintro a n ha ⟨rfl, hs⟩
    obtain ⟨r, h1, h2, h3⟩ := Fld.smallMul_two c.fld pr ha hs
    exact ⟨r, h1, h2, by rw [den, h3, den]; push_cast; ring⟩

end Crv

/-! ### An evaluator -/

open FieldCode in
/-- Evaluate an expression, checking conditions on the way. -/
def PExpr.evalK (C : Scalar Elem) (sB mB : Elem → Elem → Bool) (nB : Elem → Nat → Bool)
    (ρ : Tree Elem) : PExpr → (Elem → Bool) → Bool
  | .get r, k => match ρ.get r with
    | some v => k v
    | none => false
  | .dval, k => forceList C.dVal k
  | .add a b, k => a.evalK C sB mB nB ρ fun u => b.evalK C sB mB nB ρ fun v =>
    match C.add u v with
    | .ok w => forceList w k
    | .error _ => false
  | .sub a b, k => a.evalK C sB mB nB ρ fun u => b.evalK C sB mB nB ρ fun v =>
    sB u v && match C.sub u v with
    | .ok w => forceList w k
    | .error _ => false
  | .mul a b, k => a.evalK C sB mB nB ρ fun u => b.evalK C sB mB nB ρ fun v =>
    mB u v && match C.mul u v with
    | .ok w => forceList w k
    | .error _ => false
  | .squared a, k => a.evalK C sB mB nB ρ fun u =>
    match C.squared u with
    | .ok w => forceList w k
    | .error _ => false
  | .smallMul a n, k => a.evalK C sB mB nB ρ fun u =>
    nB u n && match C.smallMul u n with
    | .ok w => forceList w k
    | .error _ => false

/-- Run a program, checking conditions on the way. -/
def runK (C : Scalar Elem) (sB mB : Elem → Elem → Bool) (nB : Elem → Nat → Bool) :
    PProg → Tree Elem → (Tree Elem → Bool) → Bool
  | [], ρ, k => k ρ
  | .set r e :: rest, ρ, k => e.evalK C sB mB nB ρ fun v => runK C sB mB nB rest (ρ.set r v) k

section
variable {C : Scalar Elem} {sB mB : Elem → Elem → Bool} {nB : Elem → Nat → Bool}
  {subOk mulOk : Elem → Elem → Prop} {smOk : Elem → Nat → Prop}
  (hs : ∀ a b, sB a b = true → subOk a b) (hm : ∀ a b, mB a b = true → mulOk a b)
  (hn : ∀ a n, nB a n = true → smOk a n)
include hs hm hn

theorem evalK_sound (ρ : Tree Elem) : ∀ (e : PExpr) (k : Elem → Bool),
    e.evalK C sB mB nB ρ k = true →
    ∃ v, e.eval C ρ = .ok v ∧ e.Safe C subOk mulOk smOk ρ ∧ k v = true := by
  intro e
  induction e with
  | get r =>
    intro k h
    simp only [PExpr.evalK] at h
    cases h1 : ρ.get r with
    | none => simp [h1] at h
    | some v => rw [h1] at h; exact ⟨v, by simp [PExpr.eval, h1], trivial, h⟩
  | dval =>
    intro k h
    simp only [PExpr.evalK, FieldCode.forceList_eq] at h
    exact ⟨_, rfl, trivial, h⟩
  | add a b iha ihb =>
    intro k h
    obtain ⟨u, h1, h2, h3⟩ := iha _ h
    obtain ⟨v, h4, h5, h6⟩ := ihb _ h3
    cases h7 : C.add u v with
    | error e => simp [h7] at h6
    | ok w =>
      simp only [h7, FieldCode.forceList_eq] at h6
      exact ⟨w, by simp [PExpr.eval, h1, h4, h7, bind, Except.bind], ⟨h2, h5⟩, h6⟩
  | sub a b iha ihb =>
    intro k h
    obtain ⟨u, h1, h2, h3⟩ := iha _ h
    obtain ⟨v, h4, h5, h6⟩ := ihb _ h3
    rw [Bool.and_eq_true] at h6
    cases h7 : C.sub u v with
    | error e => simp [h7] at h6
    | ok w =>
      simp only [h7, FieldCode.forceList_eq] at h6
      refine ⟨w, by simp [PExpr.eval, h1, h4, h7, bind, Except.bind], ⟨h2, h5, ?_⟩, h6.2⟩
      intro u' v' e1 e2
      rw [h1] at e1; rw [h4] at e2; cases e1; cases e2
      exact hs _ _ h6.1
  | mul a b iha ihb =>
    intro k h
    obtain ⟨u, h1, h2, h3⟩ := iha _ h
    obtain ⟨v, h4, h5, h6⟩ := ihb _ h3
    rw [Bool.and_eq_true] at h6
    cases h7 : C.mul u v with
    | error e => simp [h7] at h6
    | ok w =>
      simp only [h7, FieldCode.forceList_eq] at h6
      refine ⟨w, by simp [PExpr.eval, h1, h4, h7, bind, Except.bind], ⟨h2, h5, ?_⟩, h6.2⟩
      intro u' v' e1 e2
      rw [h1] at e1; rw [h4] at e2; cases e1; cases e2
      exact hm _ _ h6.1
  | squared a iha =>
    intro k h
    obtain ⟨u, h1, h2, h3⟩ := iha _ h
    cases h7 : C.squared u with
    | error e => simp [h7] at h3
    | ok w =>
      simp only [h7, FieldCode.forceList_eq] at h3
      exact ⟨w, by simp [PExpr.eval, h1, h7, bind, Except.bind], h2, h3⟩
  | smallMul a n iha =>
    intro k h
    obtain ⟨u, h1, h2, h3⟩ := iha _ h
    rw [Bool.and_eq_true] at h3
    cases h7 : C.smallMul u n with
    | error e => simp [h7] at h3
    | ok w =>
      simp only [h7, FieldCode.forceList_eq] at h3
      refine ⟨w, by simp [PExpr.eval, h1, h7, bind, Except.bind], ⟨h2, ?_⟩, h3.2⟩
      intro u' e1
      rw [h1] at e1; cases e1
      exact hn _ _ h3.1

theorem runK_sound : ∀ (p : PProg) (ρ : Tree Elem) (k : Tree Elem → Bool),
    runK C sB mB nB p ρ k = true →
    ∃ ρ', runPoint C p ρ = .ok ρ' ∧ SafeProg C subOk mulOk smOk p ρ ∧ k ρ' = true := by
  intro p
  induction p with
  | nil => intro ρ k h; exact ⟨ρ, rfl, trivial, h⟩
  | cons s p ih =>
    intro ρ k h
    obtain ⟨r, e⟩ := s
    obtain ⟨v, h1, h2, h3⟩ := evalK_sound hs hm hn ρ e _ h
    obtain ⟨ρ', h4, h5, h6⟩ := ih _ _ h3
    refine ⟨ρ', by simp [runPoint, h1, h4, bind, Except.bind], ⟨h2, ?_⟩, h6⟩
    intro v' e1
    rw [h1] at e1; cases e1
    exact h5

end

namespace EdwardsExtended

/-- Call a function, checking conditions on the way. -/
def callK (C : Scalar Elem) (sB mB : Elem → Elem → Bool) (nB : Elem → Nat → Bool) (b : PProg)
    (p q : EdwardsExtended Elem) (k : EdwardsExtended Elem → Bool) : Bool :=
  runK C sB mB nB b (regs p q) fun ρ => match ofRegs ρ with
    | .ok r => k r
    | .error _ => false

theorem callK_sound {C : Scalar Elem} {sB mB : Elem → Elem → Bool} {nB : Elem → Nat → Bool}
    {subOk mulOk : Elem → Elem → Prop} {smOk : Elem → Nat → Prop}
    (hs : ∀ a b, sB a b = true → subOk a b) (hm : ∀ a b, mB a b = true → mulOk a b)
    (hn : ∀ a n, nB a n = true → smOk a n) {b : PProg} {p q : EdwardsExtended Elem}
    {k : EdwardsExtended Elem → Bool} (h : callK C sB mB nB b p q k = true) :
    ∃ r, call C b p q = .ok r ∧ SafeProg C subOk mulOk smOk b (regs p q) ∧ k r = true := by
  obtain ⟨ρ', h1, h2, h3⟩ := runK_sound hs hm hn _ _ _ h
  cases h4 : ofRegs ρ' with
  | error e => simp [h4] at h3
  | ok r =>
    rw [h4] at h3
    exact ⟨r, by simp [call, h1, h4, bind, Except.bind], h2, h3⟩

/-- The same without conditions. -/
theorem callK_run {C : Scalar Elem} {b : PProg} {p q : EdwardsExtended Elem}
    {k : EdwardsExtended Elem → Bool}
    (h : callK C (fun _ _ => true) (fun _ _ => true) (fun _ _ => true) b p q k = true) :
    ∃ r, call C b p q = .ok r ∧ k r = true := by
  obtain ⟨r, h1, -, h2⟩ := callK_sound (subOk := fun _ _ => True) (mulOk := fun _ _ => True)
    (smOk := fun _ _ => True) (fun _ _ _ => trivial) (fun _ _ _ => trivial)
    (fun _ _ _ => trivial) h
  exact ⟨r, h1, h2⟩

end EdwardsExtended

namespace Crv
variable (c : Crv)

/-- Decides `SubOk`. -/
def subB (_ b : Elem) : Bool := decide (0 ≤ c.fld.V b) && decide (c.fld.V b < 2 ^ c.fld.n)

/-- Decides `MulOk`. -/
def mulB (a b : Elem) : Bool := match c with
  | curve1174 => decide (0 ≤ c.fld.V a * c.fld.V b) && decide (c.fld.V a * c.fld.V b < 2 ^ 504)
  | e222 => decide (0 ≤ c.fld.V a * c.fld.V b) &&
      decide (c.fld.V a * c.fld.V b < 4588641 * 2 ^ 425)
  | _ => true

/-- Decides `SmOk`. -/
def smB (a : Elem) (n : Nat) : Bool :=
  Nat.beq n 2 && decide (0 ≤ c.fld.V a) && decide (c.fld.V a < 2 ^ c.fld.n)

theorem subB_ok (a b : Elem) (h : c.subB a b = true) : c.SubOk a b := by
  simpa [subB, SubOk] using h

theorem mulB_ok (a b : Elem) (h : c.mulB a b = true) : c.MulOk a b := by
  cases c
  · simp only [mulB, Bool.and_eq_true] at h
    exact ⟨of_decide_eq_true h.1, of_decide_eq_true h.2⟩
  · simp only [mulB, Bool.and_eq_true] at h
    exact ⟨of_decide_eq_true h.1, of_decide_eq_true h.2⟩
  all_goals trivial

theorem smB_ok (a : Elem) (n : Nat) (h : c.smB a n = true) : c.SmOk a n := by
  simp only [smB, Bool.and_eq_true, decide_eq_true_eq] at h
  exact ⟨Nat.eq_of_beq_eq_true h.1.1, h.1.2, h.2⟩

end Crv
end Verif

import Verif.Curve.Repaired
import Verif.Props.SqrtValue

/-!
# The exponentiations over the repaired types (helper lemmas for C57 and C58)

The chains are unchanged; with a right `*` and `-` they are right for all operands.
-/

namespace Verif
open Check FieldCode

namespace Repaired
variable (f : Fld) (pr : Profile)

theorem square_eq (a : Elem) : (code f).square pr a = f.code.square pr a := by cases f <;> rfl
theorem add_eq (a b : Elem) : (code f).addAssign pr a b = f.code.addAssign pr a b := by
  cases f <;> rfl
theorem initRegs_eq (a : Elem) : (code f).initRegs a = f.code.initRegs a := by cases f <;> rfl
theorem invertC_eq : (code f).invertC = f.code.invertC := by cases f <;> rfl
theorem legendreC_eq : (code f).legendreC = f.code.legendreC := by cases f <;> rfl
theorem sqrtC_eq : (code f).sqrtC = f.code.sqrtC := by cases f <;> rfl
theorem quarticC_eq : (code f).quarticC = f.code.quarticC := by cases f <;> rfl

variable {f}

/-- The element denotes this polynomial in `X`. -/
def PolyR (f : Fld) (X : Int) (s : Fld.Sym) (v : Elem) : Prop :=
  f.Tight v ∧ f.V v ≡ Fld.polyVal X s.poly [ZMOD f.p]

theorem poly_sound (X : Int) (o : Option Nat) (q : Elem → Res Elem)
    (hq : ∀ e, o = some e → ∀ v, f.Tight v → f.V v ≡ X [ZMOD f.p] →
      ∃ r, q v = .ok r ∧ f.Tight r ∧ f.V r ≡ X ^ e [ZMOD f.p]) :
    Sound (code f) pr q (Fld.symOps f o) (fun _ _ => True) (PolyR f X) where
  sq := by
    intro a b v h hr
    simp only [Fld.symOps, Option.some.injEq] at h
    subst h
    obtain ⟨r, h1, h2, h3⟩ := C05_square f pr hr.1
    exact ⟨r, (square_eq f pr v).trans h1, h2, by
      rw [Fld.polyVal_mul]; exact h3.trans (hr.2.mul hr.2)⟩
  mul := by
    intro a a' b v w h hr hr' _
    simp only [Fld.symOps] at h
    split at h
    · simp only [Option.some.injEq] at h
      subst h
      obtain ⟨r, h1, h2, h3⟩ := mul_ok f pr hr.1.loose hr'.1.loose
      exact ⟨r, h1, h2, by rw [Fld.polyVal_mul]; exact h3.trans (hr.2.mul hr'.2)⟩
    · cases h
  sub := by
    intro a a' b v w h hr hr'
    simp only [Fld.symOps] at h
    split at h
    · simp only [Option.some.injEq] at h
      subst h
      obtain ⟨r, h1, h2, h3⟩ := sub_exact f pr hr.1.rep hr'.1.rep
      refine ⟨r, h1, sub_tight f h2, ?_⟩
      rw [Fld.polyVal_append, Fld.polyVal_neg, ← sub_eq_add_neg, h3]
      exact ((Fld.fold_modEq f _).trans hr.2).sub ((Fld.fold_modEq f _).trans hr'.2)
    · cases h
  add := by
    intro a a' b v w h hr hr'
    simp only [Fld.symOps] at h
    split at h
    · simp only [Option.some.injEq] at h
      subst h
      obtain ⟨r, h1, h2, h3⟩ := C01_add f pr hr.1.rep hr'.1.rep
      refine ⟨r, (add_eq f pr v w).trans h1, h2, ?_⟩
      rw [Fld.polyVal_append]
      exact h3.trans (hr.2.add hr'.2)
    · cases h
  quart := by
    intro a b v h hr
    simp only [Fld.symOps, Option.bind_eq_some_iff] at h
    obtain ⟨e, he, h⟩ := h
    split at h
    · next hc =>
      simp only [Option.some.injEq] at h
      subst h
      have hv := hr.2
      rw [hc.1] at hv
      obtain ⟨r, h1, h2, h3⟩ := hq e he v hr.1 (by simpa [Fld.polyVal] using hv)
      exact ⟨r, h1, h2, by simpa [Fld.polyVal] using h3⟩
    · cases h

theorem polyInit {a : Elem} {pos : Bool} (ha : f.Tight a) :
    FieldCode.Rel (PolyR f (f.V a)) (f.symInit pos) (f.code.initRegs a) := by
  have h0 : FieldCode.Rel (PolyR f (f.V a)) (Tree.leaf : Tree Fld.Sym) (Tree.leaf : Regs) := by
    intro i b hb
    rw [Tree.get_leaf] at hb
    cases hb
  have h1 := h0.set 0 (a := (⟨[(1, 1)], false, pos⟩ : Fld.Sym)) (v := a)
    ⟨ha, by simp [Fld.polyVal, Int.ModEq]⟩
  have ho := Fld.one_canon f
  have h2 := h1.set 1 (a := (⟨[(1, 0)], true, true⟩ : Fld.Sym)) (v := f.code.ONE)
    ⟨ho.tight, by rw [ho.2.1]; simp [Fld.polyVal, Int.ModEq]⟩
  have hm := Fld.m_half_shapeB f
  have hc := Fld.coeff_shapeB f
  simp only [Fld.symInit, initRegs]
  have key : ∀ c, f.optShapeB (some c) = true → PolyR f (f.V a) ⟨[(f.V c, 0)], true, true⟩ c := by
    intro c h
    simp only [Fld.optShapeB, p2_eq] at h
    exact ⟨Fld.word_tight (Fld.shape_of_shapeB h), by simp [Fld.polyVal, Int.ModEq]⟩
  cases hmh : f.code.M_HALF with
  | none =>
    cases hcf : f.code.COEFF with
    | none => exact h2
    | some c => rw [hcf] at hc; exact h2.set 3 (key c hc)
  | some d =>
    rw [hmh] at hm
    have h3 := h2.set 2 (key d hm)
    cases hcf : f.code.COEFF with
    | none => exact h3
    | some c => rw [hcf] at hc; exact h3.set 3 (key c hc)

/-- What the symbolic run says about a chain is what the repaired code computes. -/
theorem chain_poly {o : Option Nat} {q : Elem → Res Elem} {c : Chain} {a : Elem} {pos : Bool}
    (ha : f.Tight a)
    (hq : ∀ e, o = some e → ∀ v, f.Tight v → f.V v ≡ f.V a [ZMOD f.p] →
      ∃ r, q v = .ok r ∧ f.Tight r ∧ f.V r ≡ f.V a ^ e [ZMOD f.p])
    {P : Fld.Sym} (hP : f.symRun pos o c = some P) :
    ∃ r, (code f).runChain pr q c a = .ok r ∧ f.Tight r ∧
      f.V r ≡ Fld.polyVal (f.V a) P.poly [ZMOD f.p] := by
  simp only [Fld.symRun, Option.bind_eq_some_iff] at hP
  obtain ⟨A, h1, h2⟩ := hP
  obtain ⟨ρ, h3, h4⟩ := sim (poly_sound pr (f.V a) o q hq) _ (polyInit ha) h1
    (SafeSteps.of_forall (fun _ _ => trivial) _ _)
  obtain ⟨v, h5, h6⟩ := h4 0 P h2
  refine ⟨v, ?_, h6⟩
  simp only [runChain, execChain_eq, initRegs_eq, h3, bind, Except.bind, reg, h5]

variable (f)

theorem inverted_ok {a : Elem} (ha : f.Tight a) :
    ∃ r, (code f).inverted pr a = .ok r ∧ f.Tight r ∧
      ((f.V r : Int) : ZMod f.pN) = ((f.V a : Int) : ZMod f.pN)⁻¹ := by
  obtain ⟨r, h1, h2, h3⟩ := chain_poly (o := none) (q := noQuartic) pr ha nofun (Fld.invert_sym f)
  refine ⟨r, ?_, h2, ?_⟩
  · rw [inverted, invert, invertC_eq]; exact h1
  · rw [Fld.polyVal_single, Fld.modEq_iff] at h3
    push_cast at h3
    rw [h3]
    obtain ⟨hp, -⟩ := Fld.pN_facts f
    by_cases h0 : ((f.V a : Int) : ZMod f.pN) = 0
    · rw [h0, zero_pow (by omega), inv_zero]
    · refine eq_inv_of_mul_eq_one_left ?_
      rw [← pow_succ, show f.pN - 2 + 1 = f.pN - 1 by omega, ZMod.pow_card_sub_one_eq_one h0]

theorem div_ok {a b : Elem} (ha : f.Tight a) (hb : f.Tight b) :
    ∃ r, (code f).div pr a b = .ok r ∧ f.Tight r ∧
      ((f.V r : Int) : ZMod f.pN) = (f.V a : Int) * ((f.V b : Int) : ZMod f.pN)⁻¹ := by
  obtain ⟨i, h1, h2, h3⟩ := inverted_ok f pr hb
  obtain ⟨r, h4, h5, h6⟩ := mul_ok f pr ha.loose h2.loose
  refine ⟨r, ?_, h5, ?_⟩
  · simp only [FieldCode.div, divAssign, h1, bind, Except.bind]; exact h4
  · rw [Fld.Denotes, Fld.modEq_iff] at h6
    rw [h6, Int.cast_mul, h3]

open Classical in
theorem legendre_ok {a : Elem} (ha : f.Tight a) :
    ∃ r, (code f).legendre pr a = .ok r ∧ f.Tight r ∧
      ((f.V r : Int) : ZMod f.pN) = if ((f.V a : Int) : ZMod f.pN) = 0 then 0 else
        if IsSquare ((f.V a : Int) : ZMod f.pN) then 1 else -1 := by
  obtain ⟨r, h1, h2, h3⟩ := chain_poly (o := none) (q := noQuartic) pr ha nofun (Fld.legendre_sym f)
  refine ⟨r, ?_, h2, ?_⟩
  · rw [legendre, legendreC_eq]; exact h1
  · obtain ⟨hp, hodd, -⟩ := Fld.pN_facts f
    rw [Fld.polyVal_single, show (f.pN - 1) / 2 = f.pN / 2 by omega, Fld.modEq_iff] at h3
    push_cast at h3
    rw [h3]
    by_cases h0 : ((f.V a : Int) : ZMod f.pN) = 0
    · rw [if_pos h0, h0, zero_pow (by omega)]
    · rw [if_neg h0]
      split
      · next hs => exact (ZMod.euler_criterion _ h0).mp hs
      · next hs =>
        exact (ZMod.pow_div_two_eq_neg_one_or_one _ h0).resolve_left fun h =>
          hs ((ZMod.euler_criterion _ h0).mpr h)

theorem quartic_ok (hf : f.Five) {v : Elem} (hv : f.Tight v) :
    ∃ r, (code f).quarticLegendre pr v = .ok r ∧ f.Tight r ∧
      f.V r ≡ f.V v ^ ((f.pN - 1) / 4) [ZMOD f.p] := by
  have hs := Fld.quartic_sym f hf
  simp only [quarticLegendre, quarticC_eq]
  cases hc : f.code.quarticC with
  | none => rw [hc] at hs; cases hs
  | some c =>
    rw [hc] at hs
    obtain ⟨r, h1, h2, h3⟩ := chain_poly (o := none) (q := noQuartic) pr hv nofun hs
    exact ⟨r, h1, h2, by rwa [Fld.polyVal_single] at h3⟩

theorem sqrt_ok {a : Elem} (ha : f.Tight a) :
    ∃ r, (code f).sqrt pr a = .ok r ∧ f.Tight r ∧
      ((f.V r : Int) : ZMod f.pN) = f.root (f.V a : Int) := by
  by_cases hf : f.Five
  · obtain ⟨r, h1, h2, h4⟩ := chain_poly (o := some ((f.pN - 1) / 4)) (pos := false)
      (q := (code f).quarticLegendre pr) pr ha (by
        intro e he v hv hva
        cases he
        obtain ⟨r, g1, g2, g3⟩ := quartic_ok f pr hf hv
        exact ⟨r, g1, g2, g3.trans (hva.pow _)⟩) (Fld.sqrt5_sym f hf)
    refine ⟨r, ?_, h2, ?_⟩
    · rw [FieldCode.sqrt, sqrtC_eq]; exact h1
    obtain ⟨c1, -⟩ := Fld.sqrt5_consts f hf
    have c2 := coeff_eq f hf
    rw [← Int.dvd_iff_emod_eq_zero, Fld.dvd_iff] at c1
    rw [Fld.modEq_iff] at h4
    push_cast [Fld.polyVal] at *
    rw [h4, Fld.root, if_pos hf, ← c2, pow_add]
    have h2 := two_ne_zero_pN f
    field_simp
    generalize ((f.V a : Int) : ZMod f.pN) ^ ((f.pN - 1) / 4) = q
    generalize ((f.V a : Int) : ZMod f.pN) ^ ((f.pN + 3) / 8) = u
    linear_combination u * ((f.optV f.code.COEFF : Int) : ZMod f.pN) * (q - 1) * c1
  · obtain ⟨r, h1, h2, h4⟩ := chain_poly (o := none) (q := (code f).quarticLegendre pr) pr ha nofun
      (Fld.sqrt_sym f hf)
    refine ⟨r, ?_, h2, ?_⟩
    · rw [FieldCode.sqrt, sqrtC_eq]; exact h1
    rw [Fld.polyVal_single] at h4
    rw [Fld.modEq_iff] at h4
    push_cast at h4
    rw [h4, Fld.root, if_neg hf]

end Repaired
end Verif

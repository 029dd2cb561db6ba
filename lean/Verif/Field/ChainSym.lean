import Verif.Field.Chain

/-!
# Exponentiation chains denote polynomials in their argument (helper lemmas)
-/

namespace Verif
open Check FieldCode
namespace Fld

/-- Symbolic value: a sum of terms `c · x ^ e`, whether the element is known to be
carry-free, and whether its value is known to be at least `lowB`. -/
structure Sym where
  poly : List (Int × Nat)
  red : Bool
  pos : Bool
  deriving DecidableEq, Repr

/-- Value of a list of terms. -/
def polyVal (X : Int) : List (Int × Nat) → Int
  | [] => 0
  | t :: ts => t.1 * X ^ t.2 + polyVal X ts

def polyMul1 (t : Int × Nat) : List (Int × Nat) → List (Int × Nat)
  | [] => []
  | u :: us => (t.1 * u.1, t.2 + u.2) :: polyMul1 t us

def polyMul : List (Int × Nat) → List (Int × Nat) → List (Int × Nat)
  | [], _ => []
  | t :: ts, us => polyMul1 t us ++ polyMul ts us

def polyNeg : List (Int × Nat) → List (Int × Nat)
  | [] => []
  | t :: ts => (-t.1, t.2) :: polyNeg ts

theorem polyVal_append (X : Int) (a b : List (Int × Nat)) :
    polyVal X (a ++ b) = polyVal X a + polyVal X b := by
  induction a with
  | nil => simp [polyVal]
  | cons t ts ih => simp only [List.cons_append, polyVal, ih]; ring

theorem polyVal_neg (X : Int) (a : List (Int × Nat)) : polyVal X (polyNeg a) = - polyVal X a := by
  induction a with
  | nil => simp [polyVal, polyNeg]
  | cons t ts ih => simp only [polyNeg, polyVal, ih]; ring

theorem polyVal_mul1 (X : Int) (t : Int × Nat) (b : List (Int × Nat)) :
    polyVal X (polyMul1 t b) = t.1 * X ^ t.2 * polyVal X b := by
  induction b with
  | nil => simp [polyVal, polyMul1]
  | cons u us ih => simp only [polyMul1, polyVal, ih]; ring

theorem polyVal_mul (X : Int) (a b : List (Int × Nat)) :
    polyVal X (polyMul a b) = polyVal X a * polyVal X b := by
  induction a with
  | nil => simp [polyVal, polyMul]
  | cons t ts ih => simp only [polyMul, polyVal_append, polyVal, ih, polyVal_mul1]; ring

/-- Abstract operations.  Addition and subtraction only in the types other than
`Mod_e222_117`; `e` is the exponent computed by `quartic_legendre`, if there is one. -/
def symOps (f : Fld) (e : Option Nat) : AbsOps Sym where
  sq a := some ⟨polyMul a.poly a.poly, false, true⟩
  mul a b := if f = .e222_117 → (a.pos && b.pos) = true then
    some ⟨polyMul a.poly b.poly, false, true⟩ else none
  sub a b := if b.red ∧ f ≠ .e222_117 then some ⟨a.poly ++ polyNeg b.poly, false, false⟩ else none
  add a b := if f ≠ .e222_117 then some ⟨a.poly ++ b.poly, false, false⟩ else none
  quart a := e.bind fun e =>
    if a.poly = [(1, 1)] ∧ f ≠ .e222_117 then some ⟨[(1, e)], false, false⟩ else none

/-- Lower bound of products: zero for `Mod_e222_117`, whose `*` needs that. -/
def lowB (f : Fld) : Int := if f = .e222_117 then 0 else -2 ^ (f.L * (f.k - 1))

theorem lowB_le (f : Fld) : f.lowB ≤ 0 := by
  unfold lowB
  split
  · exact le_rfl
  · exact neg_nonpos.mpr (by positivity)

theorem lowB_nonneg {f : Fld} (hf : f = .e222_117) {v : Int} (h : f.lowB ≤ v) : 0 ≤ v := by
  rwa [lowB, if_pos hf] at h

theorem lowB_foldable {f : Fld} {v : Int} (h : f.lowB ≤ v) : f.Foldable v := by
  apply Foldable.of_gt
  have h1 : f.L * (f.k - 1) ≤ f.n - 1 := by cases f <;> decide
  have h2 : (2 : Int) ^ (f.L * (f.k - 1)) ≤ 2 ^ (f.n - 1) := pow_le_pow_right₀ (by norm_num) h1
  have h3 : -2 ^ (f.L * (f.k - 1)) ≤ f.lowB := by
    unfold lowB
    split
    · exact neg_nonpos.mpr (by positivity)
    · exact le_rfl
  have h4 : (2 : Int) ^ f.n = 2 ^ (f.n - 1) + 2 ^ (f.n - 1) := by
    have : f.n = (f.n - 1) + 1 := by cases f <;> rfl
    conv_lhs => rw [this, pow_succ]
    ring
  have h5 : (256 : Int) < 2 ^ (f.n - 1) := by
    calc (256 : Int) < 2 ^ 199 := by norm_num
      _ ≤ 2 ^ (f.n - 1) := pow_le_pow_right₀ (by norm_num) (by cases f <;> decide)
  have hc : (f.c : Int) < 256 := by exact_mod_cast f.c_lt
  simp only [p]
  linarith

/-- Relation between symbolic and real values. -/
def symR (f : Fld) (X : Int) (s : Sym) (v : Elem) : Prop :=
  f.Tight v ∧ (s.pos = true → f.lowB ≤ f.V v) ∧
  (s.red = true → f.Shape 0 (2 ^ f.tb - 1) v) ∧ f.V v ≡ polyVal X s.poly [ZMOD f.p]

/-- Multiplications of `Mod_e251_9` must be in the domain where they are right. -/
def symM (f : Fld) (a b : Elem) : Prop := f = .e251_9 → f.MulDomain (f.V a * f.V b)

theorem lowB_of_lo {f : Fld} {lo hi : Int} {a : Elem} (h : f.Shape lo hi a) (h0 : -1 ≤ lo)
    (h1 : f = .e222_117 → 0 ≤ lo) : f.lowB ≤ f.V a := by
  have := Shape.lo_le h
  have hp : (0 : Int) ≤ 2 ^ (f.L * (f.k - 1)) := by positivity
  unfold lowB
  split
  · next hf =>
    have := mul_nonneg hp (h1 hf)
    linarith
  · nlinarith

theorem e222_domain {a b : Elem} (ha : Fld.e222_117.Tight a) (hb : Fld.e222_117.Tight b)
    (h0 : 0 ≤ Fld.e222_117.V a) (h1 : 0 ≤ Fld.e222_117.V b) :
    Fld.e222_117.MulDomain (Fld.e222_117.V a * Fld.e222_117.V b) := by
  refine ⟨mul_nonneg h0 h1, ?_⟩
  have hhi := Shape.lt_hi ha
  have hhi' := Shape.lt_hi hb
  have e1 : e222_117.L * (e222_117.k - 1) = 174 := rfl
  have e2 : e222_117.tb = 48 := rfl
  have e3 : e222_117.c = 117 := rfl
  rw [e1, e2, e3] at hhi hhi'
  have := mul_lt_mul'' hhi hhi' h0 h1
  exact this.trans_le (by decide +kernel)

theorem sym_domain {f : Fld} {a b : Elem} (ha : f.Tight a) (hb : f.Tight b)
    (hp : f = .e222_117 → 0 ≤ f.V a ∧ 0 ≤ f.V b) (hM : f.symM a b) :
    f.MulDomain (f.V a * f.V b) := by
  cases f with
  | e222_117 => exact e222_domain ha hb (hp rfl).1 (hp rfl).2
  | e251_9 => exact hM rfl
  | _ => trivial

theorem sym_mul {f : Fld} (pr : Profile) {a b : Elem} (ha : f.Tight a) (hb : f.Tight b)
    (hp : f = .e222_117 → 0 ≤ f.V a ∧ 0 ≤ f.V b) (hM : f.symM a b) :
    ∃ r, f.code.mulAssign pr a b = .ok r ∧ f.Tight r ∧ f.lowB ≤ f.V r ∧
      f.V r ≡ f.V a * f.V b [ZMOD f.p] := by
  obtain ⟨r, h1, h2, h3⟩ := C04_mul_correct_iff f pr (Tight.loose ha) (Tight.loose hb)
  obtain ⟨r', h1', h2', -⟩ := mul_exact pr (Tight.loose ha) (Tight.loose hb)
  have : r = r' := by
    have e : (Except.ok r : Res Elem) = .ok r' := h1.symm.trans h1'
    cases e; rfl
  subst this
  exact ⟨r, h1, h2, lowB_of_lo h2' (by cases f <;> decide) (fun hf => by subst hf; decide),
    h3.mpr (sym_domain ha hb hp hM)⟩

theorem sym_square {f : Fld} (pr : Profile) {a : Elem} (ha : f.Tight a) :
    ∃ r, f.code.square pr a = .ok r ∧ f.Tight r ∧ f.lowB ≤ f.V r ∧
      f.V r ≡ f.V a * f.V a [ZMOD f.p] := by
  obtain ⟨r, h1, h2, h3⟩ := C05_square f pr ha
  obtain ⟨r', h1', h2', -⟩ := square_exact pr (Tight.loose ha)
  have : r = r' := by
    have e : (Except.ok r : Res Elem) = .ok r' := h1.symm.trans h1'
    cases e; rfl
  subst this
  exact ⟨r, h1, h2, lowB_of_lo h2' (by cases f <;> decide) (fun hf => by subst hf; decide), h3⟩

theorem sym_sound {f : Fld} (pr : Profile) (X : Int) (o : Option Nat) (q : Elem → Res Elem)
    (hq : ∀ e, o = some e → f ≠ .e222_117 → ∀ v, f.Tight v → f.V v ≡ X [ZMOD f.p] →
      ∃ r, q v = .ok r ∧ f.Tight r ∧ f.V r ≡ X ^ e [ZMOD f.p]) :
    Sound f.code pr q (symOps f o) f.symM (f.symR X) where
  sq := by
    intro a b v h hr
    simp only [symOps, Option.some.injEq] at h
    subst h
    obtain ⟨r, h1, h2, h3, h4⟩ := sym_square pr hr.1
    exact ⟨r, h1, h2, fun _ => h3, by simp, by
      rw [polyVal_mul]; exact h4.trans (hr.2.2.2.mul hr.2.2.2)⟩
  mul := by
    intro a a' b v w h hr hr' hM
    simp only [symOps] at h
    split at h
    · next hc =>
      simp only [Option.some.injEq] at h
      subst h
      have hp : f = .e222_117 → 0 ≤ f.V v ∧ 0 ≤ f.V w := by
        intro hf
        have := hc hf
        simp only [Bool.and_eq_true] at this
        exact ⟨lowB_nonneg hf (hr.2.1 this.1), lowB_nonneg hf (hr'.2.1 this.2)⟩
      obtain ⟨r, h1, h2, h3, h4⟩ := sym_mul pr hr.1 hr'.1 hp hM
      exact ⟨r, h1, h2, fun _ => h3, by simp, by
        rw [polyVal_mul]; exact h4.trans (hr.2.2.2.mul hr'.2.2.2)⟩
    · cases h
  sub := by
    intro a a' b v w h hr hr'
    simp only [symOps] at h
    split at h
    · next hc =>
      simp only [Option.some.injEq] at h
      subst h
      obtain ⟨r, h1, h2, h3⟩ := C02_sub_partial f pr (Tight.rep hr.1) (hr'.2.2.1 hc.1)
      refine ⟨r, h1, h2, by simp, by simp, ?_⟩
      rw [polyVal_append, polyVal_neg, ← sub_eq_add_neg]
      exact h3.trans (hr.2.2.2.sub hr'.2.2.2)
    · cases h
  add := by
    intro a a' b v w h hr hr'
    simp only [symOps] at h
    split at h
    · next hc =>
      simp only [Option.some.injEq] at h
      subst h
      obtain ⟨r, h1, h2, h3⟩ := C01_add f pr (Tight.rep hr.1) (Tight.rep hr'.1)
      refine ⟨r, h1, h2, by simp, by simp, ?_⟩
      rw [polyVal_append]
      exact h3.trans (hr.2.2.2.add hr'.2.2.2)
    · cases h
  quart := by
    intro a b v h hr
    simp only [symOps, Option.bind_eq_some_iff] at h
    obtain ⟨e, he, h⟩ := h
    split at h
    · next hc =>
      simp only [Option.some.injEq] at h
      subst h
      have hv := hr.2.2.2
      rw [hc.1] at hv
      obtain ⟨r, h1, h2, h3⟩ := hq e he hc.2 v hr.1 (by simpa [polyVal] using hv)
      exact ⟨r, h1, h2, by simp, by simp, by simpa [polyVal] using h3⟩
    · cases h

/-- Initial symbolic registers; `pos`: is the argument known to be at least `lowB`? -/
def symInit (f : Fld) (pos : Bool) : Tree Sym :=
  let A := ((Tree.leaf : Tree Sym).set 0 ⟨[(1, 1)], false, pos⟩).set 1 ⟨[(1, 0)], true, true⟩
  let A := match f.code.M_HALF with
    | some c => A.set 2 ⟨[(f.V c, 0)], true, true⟩
    | none => A
  match f.code.COEFF with
  | some c => A.set 3 ⟨[(f.V c, 0)], true, true⟩
  | none => A

/-- An optional constant is carry-free. -/
def optShapeB (f : Fld) : Option Elem → Bool
  | some c => f.shapeB 0 (p2 f.tb - 1) c
  | none => true

set_option maxRecDepth 100000 in
theorem m_half_shapeB (f : Fld) : f.optShapeB f.code.M_HALF = true := by
  cases f <;> decide +kernel

set_option maxRecDepth 100000 in
theorem coeff_shapeB (f : Fld) : f.optShapeB f.code.COEFF = true := by
  cases f <;> decide +kernel

theorem symR_const {f : Fld} (X : Int) {c : Elem} (h : f.Shape 0 (2 ^ f.tb - 1) c) :
    f.symR X ⟨[(f.V c, 0)], true, true⟩ c :=
  ⟨word_tight h, fun _ => f.lowB_le.trans (word_V h).1, fun _ => h, by simp [polyVal, Int.ModEq]⟩

theorem symInit_rel {f : Fld} {a : Elem} {pos : Bool} (ha : f.Tight a)
    (hp : pos = true → f.lowB ≤ f.V a) :
    Rel (f.symR (f.V a)) (f.symInit pos) (f.code.initRegs a) := by
  have h0 : Rel (f.symR (f.V a)) (Tree.leaf : Tree Sym) (Tree.leaf : Regs) := by
    intro i b hb
    rw [Tree.get_leaf] at hb
    cases hb
  have h1 := h0.set 0 (a := (⟨[(1, 1)], false, pos⟩ : Sym)) (v := a)
    ⟨ha, hp, by simp, by simp [polyVal, Int.ModEq]⟩
  have ho := one_canon f
  have h2 := h1.set 1 (a := (⟨[(1, 0)], true, true⟩ : Sym)) (v := f.code.ONE)
    ⟨ho.tight, fun _ => by rw [ho.2.1]; linarith [f.lowB_le], fun _ => ho.1, by
      rw [ho.2.1]; simp [polyVal, Int.ModEq]⟩
  have hm := m_half_shapeB f
  have hc := coeff_shapeB f
  simp only [symInit, initRegs]
  have key : ∀ c, f.optShapeB (some c) = true → f.Shape 0 (2 ^ f.tb - 1) c := by
    intro c h
    simp only [optShapeB, p2_eq] at h
    exact shape_of_shapeB h
  cases hmh : f.code.M_HALF with
  | none =>
    cases hcf : f.code.COEFF with
    | none => exact h2
    | some c => rw [hcf] at hc; exact h2.set 3 (symR_const _ (key c hc))
  | some d =>
    rw [hmh] at hm
    have h3 := h2.set 2 (symR_const (f.V a) (key d hm))
    cases hcf : f.code.COEFF with
    | none => exact h3
    | some c => rw [hcf] at hc; exact h3.set 3 (symR_const _ (key c hc))

/-- The polynomial a chain computes, according to the symbolic run. -/
def symRun (f : Fld) (pos : Bool) (e : Option Nat) (c : Chain) : Option Sym :=
  (absSteps (symOps f e) (flatten c) (f.symInit pos)).bind fun A => A.get 0

/-- Every multiplication a chain performs is one that `Mod_e251_9` gets right. -/
def SafeChain (f : Fld) (c : Chain) (a : Elem) : Prop :=
  SafeSteps f.code .debug noQuartic f.symM (flatten c) (f.code.initRegs a)

theorem safe_of_ne {f : Fld} (hf : f ≠ .e251_9) (q : Elem → Res Elem) (pr : Profile) (c : Chain)
    (ρ : Regs) : SafeSteps f.code pr q f.symM (flatten c) ρ :=
  SafeSteps.of_forall (fun _ _ h => absurd h hf) _ _

theorem chain_poly {f : Fld} (pr : Profile) {o : Option Nat} {q : Elem → Res Elem} {c : Chain} {a : Elem}
    {pos : Bool} (ha : f.Tight a) (hp : pos = true → f.lowB ≤ f.V a)
    (hq : ∀ e, o = some e → f ≠ .e222_117 → ∀ v, f.Tight v → f.V v ≡ f.V a [ZMOD f.p] → ∃ r, q v = .ok r ∧
      f.Tight r ∧ f.V r ≡ f.V a ^ e [ZMOD f.p])
    {P : Sym} (hP : f.symRun pos o c = some P)
    (hsafe : SafeSteps f.code pr q f.symM (flatten c) (f.code.initRegs a)) :
    ∃ r, f.code.runChain pr q c a = .ok r ∧ f.Tight r ∧ f.V r ≡ polyVal (f.V a) P.poly [ZMOD f.p] ∧
      (P.pos = true → f.lowB ≤ f.V r) := by
  simp only [symRun, Option.bind_eq_some_iff] at hP
  obtain ⟨A, h1, h2⟩ := hP
  obtain ⟨ρ, h3, h4⟩ := sim (sym_sound pr (f.V a) o q hq) _ (symInit_rel ha hp) h1 hsafe
  obtain ⟨v, h5, h6⟩ := h4 0 P h2
  refine ⟨v, ?_, h6.1, h6.2.2.2, h6.2.1⟩
  simp only [runChain, execChain_eq, h3, bind, Except.bind, reg, h5]

/-- For the chains that do not call `quartic_legendre`. -/
theorem chain_poly' {f : Fld} (pr : Profile) {c : Chain} {a : Elem}
    (ha : f.Tight a) (hp : f = .e222_117 → 0 ≤ f.V a)
    {P : Sym} (hP : f.symRun (decide (f = .e222_117)) none c = some P) (hsafe : f.SafeChain c a) :
    ∃ r, f.code.runChain pr noQuartic c a = .ok r ∧ f.Tight r ∧
      f.V r ≡ polyVal (f.V a) P.poly [ZMOD f.p] ∧
      (P.pos = true → f.lowB ≤ f.V r) := by
  obtain ⟨r, h1, h2⟩ := chain_poly .debug ha (fun h => f.lowB_le.trans (hp (of_decide_eq_true h)))
    (fun e he => by cases he) hP hsafe
  exact ⟨r, runChain_mono _ pr _ (fun _ _ h => h) h1, h2⟩

/-! ### Chains never panic on `Tight` arguments -/

/-- Abstract operations that only track "is `Tight`". -/
def unitOps : AbsOps Unit where
  sq _ := some ()
  mul _ _ := some ()
  sub _ _ := some ()
  add _ _ := some ()
  quart _ := some ()

def unitInit (f : Fld) : Tree Unit :=
  let A := ((Tree.leaf : Tree Unit).set 0 ()).set 1 ()
  let A := match f.code.M_HALF with
    | some _ => A.set 2 ()
    | none => A
  match f.code.COEFF with
  | some _ => A.set 3 ()
  | none => A

theorem unit_sound {f : Fld} (pr : Profile) (q : Elem → Res Elem)
    (hq : ∀ v, f.Tight v → ∃ r, q v = .ok r ∧ f.Tight r) :
    Sound f.code pr q unitOps (fun _ _ => True) (fun _ v => f.Tight v) where
  sq := by
    intro a b v _ h
    obtain ⟨r, h1, h2, -⟩ := C05_square f pr h
    exact ⟨r, h1, h2⟩
  mul := by
    intro a a' b v w _ h h' _
    obtain ⟨r, h1, h2, -⟩ := C04_mul_correct_iff f pr (Tight.loose h) (Tight.loose h')
    exact ⟨r, h1, h2⟩
  sub := by
    intro a a' b v w _ h h'
    obtain ⟨r, h1, h2, -⟩ := C02_sub_correct_iff f pr (Tight.rep h) (Tight.rep h')
    exact ⟨r, h1, h2⟩
  add := by
    intro a a' b v w _ h h'
    obtain ⟨r, h1, h2, -⟩ := C01_add f pr (Tight.rep h) (Tight.rep h')
    exact ⟨r, h1, h2⟩
  quart := by
    intro a b v _ h
    exact hq v h

theorem unitInit_rel {f : Fld} {a : Elem} (ha : f.Tight a) :
    Rel (fun (_ : Unit) v => f.Tight v) f.unitInit (f.code.initRegs a) := by
  have h0 : Rel (fun (_ : Unit) v => f.Tight v) (Tree.leaf : Tree Unit) (Tree.leaf : Regs) := by
    intro i b hb
    rw [Tree.get_leaf] at hb
    cases hb
  have h2 := (h0.set 0 (a := ()) ha).set 1 (a := ()) (one_canon f).tight
  have hm := m_half_shapeB f
  have hc := coeff_shapeB f
  simp only [unitInit, initRegs]
  have key : ∀ c, f.optShapeB (some c) = true → f.Tight c := by
    intro c h
    simp only [optShapeB, p2_eq] at h
    exact word_tight (shape_of_shapeB h)
  cases hmh : f.code.M_HALF with
  | none =>
    cases hcf : f.code.COEFF with
    | none => exact h2
    | some c => rw [hcf] at hc; exact h2.set 3 (key c hc)
  | some d =>
    rw [hmh] at hm
    have h3 := h2.set 2 (a := ()) (key d hm)
    cases hcf : f.code.COEFF with
    | none => exact h3
    | some c => rw [hcf] at hc; exact h3.set 3 (key c hc)

/-- The chain uses no unassigned register. -/
def chainOkB (f : Fld) (c : Chain) : Bool :=
  ((absSteps unitOps (flatten c) f.unitInit).bind fun A => A.get 0).isSome

theorem chain_tight {f : Fld} (pr : Profile) {q : Elem → Res Elem}
    (hq : ∀ v, f.Tight v → ∃ r, q v = .ok r ∧ f.Tight r) {c : Chain}
    (hc : f.chainOkB c = true) {a : Elem} (ha : f.Tight a) :
    ∃ r, f.code.runChain pr q c a = .ok r ∧ f.Tight r := by
  obtain ⟨u, hu⟩ := Option.isSome_iff_exists.mp hc
  obtain ⟨A, h1, h2⟩ := Option.bind_eq_some_iff.mp hu
  obtain ⟨ρ, h3, h4⟩ := sim (unit_sound pr q hq) _ (unitInit_rel ha) h1
    (SafeSteps.of_forall (fun _ _ => trivial) _ _)
  obtain ⟨v, h5, h6⟩ := h4 0 u h2
  exact ⟨v, by simp only [runChain, execChain_eq, h3, bind, Except.bind, reg, h5], h6⟩

/-! ### What the chains compute -/

def pN (f : Fld) : Nat := 2 ^ f.n - f.c

/-- The four moduli congruent to 5 modulo 8. -/
def Five (f : Fld) : Prop := f = .e221_3 ∨ f = .e255_19 ∨ f = .e383_187 ∨ f = .e511_187

instance (f : Fld) : Decidable f.Five := by unfold Five; infer_instance

set_option maxRecDepth 100000 in
theorem invert_sym (f : Fld) : f.symRun (decide (f = .e222_117)) none f.code.invertC = some ⟨[(1, f.pN - 2)], false, true⟩ := by
  cases f <;> decide +kernel

set_option maxRecDepth 100000 in
theorem legendre_sym (f : Fld) : f.symRun (decide (f = .e222_117)) none f.code.legendreC = some ⟨[(1, (f.pN - 1) / 2)], false, true⟩ := by
  cases f <;> decide +kernel

set_option maxRecDepth 100000 in
theorem quartic_sym (f : Fld) (hf : f.Five) :
    (f.code.quarticC.bind fun c => f.symRun (decide (f = .e222_117)) none c) = some ⟨[(1, (f.pN - 1) / 4)], false, true⟩ := by
  rcases hf with rfl | rfl | rfl | rfl <;> decide +kernel

set_option maxRecDepth 100000 in
theorem sqrt_sym (f : Fld) (hf : ¬ f.Five) :
    f.symRun (decide (f = .e222_117)) none f.code.sqrtC = some ⟨[(1, (f.pN + 1) / 4)], false, true⟩ := by
  revert hf
  cases f <;> decide +kernel

/-- Value of an optional constant. -/
def optV (f : Fld) : Option Elem → Int
  | some c => f.V c
  | none => 0

set_option maxRecDepth 100000 in
theorem sqrt5_sym (f : Fld) (hf : f.Five) :
    f.symRun false (some ((f.pN - 1) / 4)) f.code.sqrtC = some
      ⟨[(f.optV f.code.M_HALF * f.optV f.code.COEFF, (f.pN + 3) / 8 + (f.pN - 1) / 4),
       (-(f.optV f.code.M_HALF * f.optV f.code.COEFF), (f.pN + 3) / 8), (1, (f.pN + 3) / 8)], false, true⟩ := by
  rcases hf with rfl | rfl | rfl | rfl <;> decide +kernel

set_option maxRecDepth 100000 in
/-- `M_HALF` denotes `-1/2` and `COEFF + 1` is a square root of `-1`. -/
theorem sqrt5_consts (f : Fld) (hf : f.Five) :
    (2 * f.optV f.code.M_HALF + 1) % f.p = 0 ∧ ((f.optV f.code.COEFF + 1) ^ 2 + 1) % f.p = 0 := by
  rcases hf with rfl | rfl | rfl | rfl <;> decide +kernel

/-- A `quartic_legendre` that answers everything (to run chains that do not call it). -/
def anyQ : Elem → Res Elem := fun v => .ok v

theorem noQ {f : Fld} (pr : Profile) {c : Chain} {a : Elem} (hc : f.chainOkB c = true)
    (hn : (flatten c).all (fun s => match s with | .quartic _ _ => false | _ => true) = true)
    (ha : f.Tight a) (q : Elem → Res Elem) :
    ∃ r, f.code.runChain pr q c a = .ok r ∧ f.Tight r := by
  obtain ⟨r, h1, h2⟩ := chain_tight pr (q := anyQ) (fun v hv => ⟨v, rfl, hv⟩) hc ha
  refine ⟨r, ?_, h2⟩
  have : ∀ (s : List CStep), (s.all fun s => match s with | .quartic _ _ => false | _ => true) = true →
      ∀ ρ, f.code.execSteps pr anyQ s ρ = f.code.execSteps pr q s ρ := by
    intro s
    induction s with
    | nil => intro _ ρ; rfl
    | cons x s ih =>
      intro h ρ
      simp only [List.all_cons, Bool.and_eq_true] at h
      have hx : f.code.execStep pr anyQ ρ x = f.code.execStep pr q ρ x := by
        cases x <;> first | rfl | cases h.1
      simp only [execSteps, hx, bind, Except.bind]
      cases f.code.execStep pr q ρ x with
      | error e => rfl
      | ok ρ' => exact ih h.2 ρ'
  simp only [runChain, execChain_eq] at h1 ⊢
  rw [← this _ hn]
  exact h1

set_option maxRecDepth 100000 in
theorem invert_tight (f : Fld) (pr : Profile) {a : Elem} (ha : f.Tight a) :
    ∃ r, f.code.inverted pr a = .ok r ∧ f.Tight r :=
  noQ pr (by clear ha; cases f <;> decide +kernel) (by clear ha; cases f <;> decide +kernel) ha _

set_option maxRecDepth 100000 in
theorem legendre_tight (f : Fld) (pr : Profile) {a : Elem} (ha : f.Tight a) :
    ∃ r, f.code.legendre pr a = .ok r ∧ f.Tight r :=
  noQ pr (by clear ha; cases f <;> decide +kernel) (by clear ha; cases f <;> decide +kernel) ha _

set_option maxRecDepth 100000 in
theorem quartic_tight (f : Fld) (hf : f.Five) (pr : Profile) {a : Elem} (ha : f.Tight a) :
    ∃ r, f.code.quarticLegendre pr a = .ok r ∧ f.Tight r := by
  have h1 : (f.code.quarticC.map fun c => f.chainOkB c && (flatten c).all
      (fun s => match s with | .quartic _ _ => false | _ => true)) = some true := by
    clear ha; rcases hf with rfl | rfl | rfl | rfl <;> decide +kernel
  obtain ⟨c, h2, h3⟩ := Option.map_eq_some_iff.mp h1
  simp only [Bool.and_eq_true] at h3
  simp only [quarticLegendre, h2]
  exact noQ pr h3.1 h3.2 ha _

set_option maxRecDepth 100000 in
theorem sqrt_tight (f : Fld) (pr : Profile) {a : Elem} (ha : f.Tight a) :
    ∃ r, f.code.sqrt pr a = .ok r ∧ f.Tight r := by
  have hc : f.chainOkB f.code.sqrtC = true := by clear ha; cases f <;> decide +kernel
  by_cases hf : f.Five
  · exact chain_tight pr (fun v hv => quartic_tight f hf pr hv) hc ha
  · refine noQ pr hc ?_ ha _
    clear ha hc; revert hf; cases f <;> decide +kernel

end Fld
end Verif

import Verif.Model.Edwards
import Verif.Curve.Law

/-!
# Point formulas over scalars that implement a field (helper lemmas)

`Scalar.Impl` says that the methods of a scalar type compute in a field `K`; sums and squares
always, differences, products and small multiples under given conditions.  A run of a straight-line
point program all of whose steps meet their conditions (`SafeProg`) computes in `K` what the
formulas say.
-/

namespace Verif

/-- The methods of `C` implement the operations of the field `K` on the elements with `ok`, for
operands with `subOk`, `mulOk`, `smOk`. -/
structure Scalar.Impl {S : Type} (C : Scalar S) (K : Type) [Field K] (d : K) (ok : S → Prop)
    (den : S → K) (subOk mulOk : S → S → Prop) (smOk : S → Nat → Prop) : Prop where
  zero : ok C.zero ∧ den C.zero = 0
  one : ok C.one ∧ den C.one = 1
  dVal : ok C.dVal ∧ den C.dVal = d
  add : ∀ {a b}, ok a → ok b → ∃ r, C.add a b = .ok r ∧ ok r ∧ den r = den a + den b
  sub : ∀ {a b}, ok a → ok b → subOk a b → ∃ r, C.sub a b = .ok r ∧ ok r ∧ den r = den a - den b
  mul : ∀ {a b}, ok a → ok b → mulOk a b → ∃ r, C.mul a b = .ok r ∧ ok r ∧ den r = den a * den b
  squared : ∀ {a}, ok a → ∃ r, C.squared a = .ok r ∧ ok r ∧ den r = den a ^ 2
  smallMul : ∀ {a n}, ok a → smOk a n →
    ∃ r, C.smallMul a n = .ok r ∧ ok r ∧ den r = den a * n

variable {S : Type} (C : Scalar S) (subOk mulOk : S → S → Prop) (smOk : S → Nat → Prop)

/-- All the steps of an evaluation meet their conditions. -/
def PExpr.Safe (ρ : Tree S) : PExpr → Prop
  | .get _ => True
  | .dval => True
  | .add a b => a.Safe ρ ∧ b.Safe ρ
  | .sub a b => a.Safe ρ ∧ b.Safe ρ ∧
      ∀ u v, a.eval C ρ = .ok u → b.eval C ρ = .ok v → subOk u v
  | .mul a b => a.Safe ρ ∧ b.Safe ρ ∧
      ∀ u v, a.eval C ρ = .ok u → b.eval C ρ = .ok v → mulOk u v
  | .squared a => a.Safe ρ
  | .smallMul a n => a.Safe ρ ∧ ∀ u, a.eval C ρ = .ok u → smOk u n

/-- All the steps of a run meet their conditions. -/
def SafeProg : PProg → Tree S → Prop
  | [], _ => True
  | .set r e :: rest, ρ => e.Safe C subOk mulOk smOk ρ ∧
      ∀ v, e.eval C ρ = .ok v → SafeProg rest (ρ.set r v)

/-! ### What the formulas say -/

section Den
variable {K : Type} [Field K] (d : K)

/-- Value of an expression in the field. -/
def PExpr.den (σ : Nat → K) : PExpr → K
  | .get r => σ r
  | .dval => d
  | .add a b => a.den σ + b.den σ
  | .sub a b => a.den σ - b.den σ
  | .mul a b => a.den σ * b.den σ
  | .squared a => a.den σ ^ 2
  | .smallMul a n => a.den σ * n

/-- Values of the registers after a program. -/
def denProg : PProg → (Nat → K) → (Nat → K)
  | [], σ => σ
  | .set r e :: rest, σ =>
    denProg rest fun i => if i = r then e.den d σ else σ i

/-- Registers holding two points. -/
def denRegs (x1 y1 z1 t1 x2 y2 z2 t2 : K) : Nat → K
  | 0 => x1 | 1 => y1 | 2 => z1 | 3 => t1 | 4 => x2 | 5 => y2 | 6 => z2 | 7 => t2 | _ => 0

end Den

/-- The registers a program reads have been written (`dom` lists the written ones). -/
def PExpr.reads (dom : List Nat) : PExpr → Bool
  | .get r => dom.contains r
  | .dval => true
  | .add a b => a.reads dom && b.reads dom
  | .sub a b => a.reads dom && b.reads dom
  | .mul a b => a.reads dom && b.reads dom
  | .squared a => a.reads dom
  | .smallMul a _ => a.reads dom

def wellFormed : PProg → List Nat → Bool
  | [], _ => true
  | .set r e :: rest, dom => e.reads dom && wellFormed rest (r :: dom)

section Sim
variable {C subOk mulOk smOk} {K : Type} [Field K] {d : K} {ok : S → Prop} {den : S → K}

/-- Registers related to field values. -/
def Rel (ok : S → Prop) (den : S → K) (dom : List Nat) (ρ : Tree S) (σ : Nat → K) : Prop :=
  ∀ r ∈ dom, ∃ v, ρ.get r = some v ∧ ok v ∧ den v = σ r

theorem Rel.set {dom : List Nat} {ρ : Tree S} {σ : Nat → K} (h : Rel ok den dom ρ σ) {r : Nat}
    {v : S} {k : K} (hv : ok v) (hk : den v = k) :
    Rel ok den (r :: dom) (ρ.set r v) fun i => if i = r then k else σ i := by
  intro i hi
  by_cases h' : i = r
  · subst h'
    exact ⟨v, by simp [Tree.get_set], hv, by simp [hk]⟩
  · obtain ⟨w, h1, h2, h3⟩ := h i ((List.mem_cons.1 hi).resolve_left h')
    exact ⟨w, by simp [Tree.get_set, h', h1], h2, by simp [h', h3]⟩

variable (I : C.Impl K d ok den subOk mulOk smOk)
include I

theorem eval_sim {dom : List Nat} {ρ : Tree S} {σ : Nat → K} (h : Rel ok den dom ρ σ)
    (e : PExpr) (hr : e.reads dom = true) (hs : e.Safe C subOk mulOk smOk ρ) :
    ∃ v, e.eval C ρ = .ok v ∧ ok v ∧ den v = e.den d σ := by
  induction e with
  | get r =>
    obtain ⟨v, h1, h2, h3⟩ := h r (List.contains_iff_mem.1 hr)
    exact ⟨v, by simp [PExpr.eval, h1], h2, h3⟩
  | dval => exact ⟨_, rfl, I.dVal.1, I.dVal.2⟩
  | add a b iha ihb =>
    simp only [PExpr.reads, Bool.and_eq_true] at hr
    obtain ⟨u, h1, h2, h3⟩ := iha hr.1 hs.1
    obtain ⟨v, h4, h5, h6⟩ := ihb hr.2 hs.2
    obtain ⟨r, h7, h8, h9⟩ := I.add h2 h5
    exact ⟨r, by simp [PExpr.eval, h1, h4, h7, bind, Except.bind], h8, by
      rw [h9, h3, h6, PExpr.den]⟩
  | sub a b iha ihb =>
    simp only [PExpr.reads, Bool.and_eq_true] at hr
    obtain ⟨u, h1, h2, h3⟩ := iha hr.1 hs.1
    obtain ⟨v, h4, h5, h6⟩ := ihb hr.2 hs.2.1
    obtain ⟨r, h7, h8, h9⟩ := I.sub h2 h5 (hs.2.2 _ _ h1 h4)
    exact ⟨r, by simp [PExpr.eval, h1, h4, h7, bind, Except.bind], h8, by
      rw [h9, h3, h6, PExpr.den]⟩
  | mul a b iha ihb =>
    simp only [PExpr.reads, Bool.and_eq_true] at hr
    obtain ⟨u, h1, h2, h3⟩ := iha hr.1 hs.1
    obtain ⟨v, h4, h5, h6⟩ := ihb hr.2 hs.2.1
    obtain ⟨r, h7, h8, h9⟩ := I.mul h2 h5 (hs.2.2 _ _ h1 h4)
    exact ⟨r, by simp [PExpr.eval, h1, h4, h7, bind, Except.bind], h8, by
      rw [h9, h3, h6, PExpr.den]⟩
  | squared a iha =>
    obtain ⟨u, h1, h2, h3⟩ := iha hr hs
    obtain ⟨r, h7, h8, h9⟩ := I.squared h2
    exact ⟨r, by simp [PExpr.eval, h1, h7, bind, Except.bind], h8, by rw [h9, h3, PExpr.den]⟩
  | smallMul a n iha =>
    obtain ⟨u, h1, h2, h3⟩ := iha hr hs.1
    obtain ⟨r, h7, h8, h9⟩ := I.smallMul h2 (hs.2 _ h1)
    exact ⟨r, by simp [PExpr.eval, h1, h7, bind, Except.bind], h8, by rw [h9, h3, PExpr.den]⟩

theorem run_sim (p : PProg) : ∀ {dom : List Nat} {ρ : Tree S} {σ : Nat → K},
    Rel ok den dom ρ σ → wellFormed p dom = true → SafeProg C subOk mulOk smOk p ρ →
    ∃ ρ', runPoint C p ρ = .ok ρ' ∧ Rel ok den dom ρ' (denProg d p σ) := by
  induction p with
  | nil => intro dom ρ σ h _ _; exact ⟨ρ, rfl, h⟩
  | cons s p ih =>
    intro dom ρ σ h hw hs
    obtain ⟨r, e⟩ := s
    simp only [wellFormed, Bool.and_eq_true] at hw
    obtain ⟨v, h1, h2, h3⟩ := eval_sim I h e hw.1 hs.1
    obtain ⟨ρ', h4, h5⟩ := ih (h.set (r := r) h2 h3) hw.2 (hs.2 v h1)
    exact ⟨ρ', by simp [runPoint, h1, h4, bind, Except.bind], fun i hi =>
      h5 i (List.mem_cons_of_mem _ hi)⟩

end Sim

/-! ### Calls -/

namespace EdwardsExtended

/-- All coordinates are `ok`. -/
def Ok (ok : S → Prop) (p : EdwardsExtended S) : Prop := ok p.x ∧ ok p.y ∧ ok p.z ∧ ok p.t

section
variable {C subOk mulOk smOk} {K : Type} [Field K] {d : K} {ok : S → Prop} {den : S → K}

theorem call_sim (I : C.Impl K d ok den subOk mulOk smOk) {b : PProg}
    (hw : wellFormed b [0, 1, 2, 3, 4, 5, 6, 7] = true) {p q : EdwardsExtended S}
    (hp : p.Ok ok) (hq : q.Ok ok) (hs : SafeProg C subOk mulOk smOk b (regs p q)) :
    ∃ r, call C b p q = .ok r ∧ r.Ok ok ∧
      den r.x = denProg d b (denRegs (den p.x) (den p.y) (den p.z) (den p.t)
        (den q.x) (den q.y) (den q.z) (den q.t)) 0 ∧
      den r.y = denProg d b (denRegs (den p.x) (den p.y) (den p.z) (den p.t)
        (den q.x) (den q.y) (den q.z) (den q.t)) 1 ∧
      den r.z = denProg d b (denRegs (den p.x) (den p.y) (den p.z) (den p.t)
        (den q.x) (den q.y) (den q.z) (den q.t)) 2 ∧
      den r.t = denProg d b (denRegs (den p.x) (den p.y) (den p.z) (den p.t)
        (den q.x) (den q.y) (den q.z) (den q.t)) 3 := by
  have h0 : Rel ok den [0, 1, 2, 3, 4, 5, 6, 7] (regs p q)
      (denRegs (den p.x) (den p.y) (den p.z) (den p.t)
        (den q.x) (den q.y) (den q.z) (den q.t)) := by
    obtain ⟨a1, a2, a3, a4⟩ := hp
    obtain ⟨b1, b2, b3, b4⟩ := hq
    intro r hr
    simp only [List.mem_cons, List.not_mem_nil, or_false] at hr
    rcases hr with rfl | rfl | rfl | rfl | rfl | rfl | rfl | rfl
    · exact ⟨p.x, rfl, a1, rfl⟩
    · exact ⟨p.y, rfl, a2, rfl⟩
    · exact ⟨p.z, rfl, a3, rfl⟩
    · exact ⟨p.t, rfl, a4, rfl⟩
    · exact ⟨q.x, rfl, b1, rfl⟩
    · exact ⟨q.y, rfl, b2, rfl⟩
    · exact ⟨q.z, rfl, b3, rfl⟩
    · exact ⟨q.t, rfl, b4, rfl⟩
  obtain ⟨ρ', h1, h2⟩ := run_sim I b h0 hw hs
  obtain ⟨x, x1, x2, x3⟩ := h2 0 (by simp)
  obtain ⟨y, y1, y2, y3⟩ := h2 1 (by simp)
  obtain ⟨z, z1, z2, z3⟩ := h2 2 (by simp)
  obtain ⟨t, t1, t2, t3⟩ := h2 3 (by simp)
  exact ⟨⟨x, y, z, t⟩, by simp [call, h1, bind, Except.bind, ofRegs, x1, y1, z1, t1],
    ⟨x2, y2, z2, t2⟩, x3, y3, z3, t3⟩

/-- The formulas of `add_assign`. -/
theorem add_sim (I : C.Impl K d ok den subOk mulOk smOk) {p q : EdwardsExtended S}
    (hp : p.Ok ok) (hq : q.Ok ok) (hs : SafeProg C subOk mulOk smOk addP (regs p q)) :
    ∃ r, p.addAssign C q = .ok r ∧ r.Ok ok ∧
      den r.x = (den p.x * den q.y + den p.y * den q.x) *
        (den p.z * den q.z - d * den p.t * den q.t) ∧
      den r.y = (den p.z * den q.z + d * den p.t * den q.t) *
        (den p.y * den q.y - den p.x * den q.x) ∧
      den r.z = (den p.z * den q.z - d * den p.t * den q.t) *
        (den p.z * den q.z + d * den p.t * den q.t) ∧
      den r.t = (den p.x * den q.y + den p.y * den q.x) *
        (den p.y * den q.y - den p.x * den q.x) := by
  obtain ⟨r, h1, h2, hx, hy, hz, ht⟩ := call_sim I (b := addP) (by decide) hp hq hs
  refine ⟨r, h1, h2, ?_, ?_, ?_, ?_⟩
  · rw [hx]; simp only [addP, denProg, PExpr.den, denRegs]; simp [-mul_eq_mul_left_iff, -mul_eq_mul_right_iff]; ring
  · rw [hy]; simp only [addP, denProg, PExpr.den, denRegs]; simp [-mul_eq_mul_left_iff, -mul_eq_mul_right_iff]; ring
  · rw [hz]; simp only [addP, denProg, PExpr.den, denRegs]; simp [-mul_eq_mul_left_iff, -mul_eq_mul_right_iff]; ring
  · rw [ht]; simp only [addP, denProg, PExpr.den, denRegs]; simp [-mul_eq_mul_left_iff, -mul_eq_mul_right_iff]; ring

/-- The formulas of `double`. -/
theorem double_sim (I : C.Impl K d ok den subOk mulOk smOk) {p : EdwardsExtended S}
    (hp : p.Ok ok) (hs : SafeProg C subOk mulOk smOk doubleP (regs p p)) :
    ∃ r, p.double C = .ok r ∧ r.Ok ok ∧
      den r.x = 2 * den p.x * den p.y * (den p.x ^ 2 + den p.y ^ 2 - 2 * den p.z ^ 2) ∧
      den r.y = (den p.x ^ 2 + den p.y ^ 2) * (den p.x ^ 2 - den p.y ^ 2) ∧
      den r.z = (den p.x ^ 2 + den p.y ^ 2 - 2 * den p.z ^ 2) * (den p.x ^ 2 + den p.y ^ 2) ∧
      den r.t = 2 * den p.x * den p.y * (den p.x ^ 2 - den p.y ^ 2) := by
  obtain ⟨r, h1, h2, hx, hy, hz, ht⟩ := call_sim I (b := doubleP) (by decide) hp hp hs
  refine ⟨r, h1, h2, ?_, ?_, ?_, ?_⟩
  · rw [hx]; simp only [doubleP, denProg, PExpr.den, denRegs]; simp [-mul_eq_mul_left_iff, -mul_eq_mul_right_iff]; ring
  · rw [hy]; simp only [doubleP, denProg, PExpr.den, denRegs]; simp [-mul_eq_mul_left_iff, -mul_eq_mul_right_iff]
  · rw [hz]; simp only [doubleP, denProg, PExpr.den, denRegs]; simp [-mul_eq_mul_left_iff, -mul_eq_mul_right_iff]; ring
  · rw [ht]; simp only [doubleP, denProg, PExpr.den, denRegs]; simp [-mul_eq_mul_left_iff, -mul_eq_mul_right_iff]; ring

/-- The formulas of `triple`, with `a = x² + y²`, `b = 2 (2 z² - a)`, `e = a (y² - x²)`. -/
theorem triple_sim (I : C.Impl K d ok den subOk mulOk smOk) {p : EdwardsExtended S}
    (hp : p.Ok ok) (hs : SafeProg C subOk mulOk smOk tripleP (regs p p)) :
    ∃ r, p.triple C = .ok r ∧ r.Ok ok ∧ ∃ a b e, a = den p.y ^ 2 + den p.x ^ 2 ∧
      b = 2 * (2 * den p.z ^ 2 - a) ∧ e = a * (den p.y ^ 2 - den p.x ^ 2) ∧
      den r.x = den p.x * (den p.y ^ 2 * b + e) * (den p.z * (e - den p.y ^ 2 * b)) ∧
      den r.y = den p.y * (den p.x ^ 2 * b - e) * (den p.z * (e - den p.x ^ 2 * b)) ∧
      den r.z = den p.z * (e - den p.y ^ 2 * b) * (den p.z * (e - den p.x ^ 2 * b)) ∧
      den r.t = den p.x * (den p.y ^ 2 * b + e) * (den p.y * (den p.x ^ 2 * b - e)) := by
  obtain ⟨r, h1, h2, hx, hy, hz, ht⟩ := call_sim I (b := tripleP) (by decide) hp hp hs
  refine ⟨r, h1, h2, _, _, _, rfl, rfl, rfl, ?_, ?_, ?_, ?_⟩
  · rw [hx]; simp only [tripleP, denProg, PExpr.den, denRegs]; simp [-mul_eq_mul_left_iff, -mul_eq_mul_right_iff]; ring
  · rw [hy]; simp only [tripleP, denProg, PExpr.den, denRegs]; simp [-mul_eq_mul_left_iff, -mul_eq_mul_right_iff]; ring
  · rw [hz]; simp only [tripleP, denProg, PExpr.den, denRegs]; simp [-mul_eq_mul_left_iff, -mul_eq_mul_right_iff]; ring
  · rw [ht]; simp only [tripleP, denProg, PExpr.den, denRegs]; simp [-mul_eq_mul_left_iff, -mul_eq_mul_right_iff]; ring

end
end EdwardsExtended
end Verif

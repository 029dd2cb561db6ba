import Verif.Curve.Concrete

/-!
# The point formulas never panic (helper lemmas)

The results of `+ - *` and `squared` are `Tight`; `small_mul(2)` of a `Tight` element is `Loose`.
-/

namespace Verif

namespace Fld

theorem loose_of_V {f : Fld} {r : Elem} (h : f.Rep r)
    (hV : -2 ^ (f.n + 4) ≤ f.V r ∧ f.V r < 2 ^ (f.n + 4)) : f.Loose r := by
  obtain ⟨low, top, rfl, hl, hd, -, -⟩ := h
  refine ⟨low, top, rfl, hl, hd, ?_⟩
  have e1 := digitsVal_nonneg _ _ hd
  have e2 := digitsVal_lt _ _ hd
  simp only [V, digitsVal_append, digitsVal, hl, mul_zero, add_zero] at hV e2
  rw [pow_add, pow_n] at hV
  have hpos : (0 : Int) < 2 ^ (f.L * (f.k - 1)) := by positivity
  rw [pow_add]
  generalize (2 : Int) ^ (f.L * (f.k - 1)) = N at *
  generalize (2 : Int) ^ f.tb = T at *
  have t0 : -(T * 2 ^ 4) - 1 < top := by
    by_contra hc
    nlinarith
  have t1 : top < T * 2 ^ 4 := by
    by_contra hc
    nlinarith
  omega

theorem Tight.V_bounds {f : Fld} {a : Elem} (h : f.Tight a) :
    -2 ^ (f.n + 1) ≤ f.V a ∧ f.V a < 2 ^ (f.n + 2) := by
  have h1 := h.lo_le
  have h2 := h.lt_hi
  have h0 := f.tb_ge
  have hc : (f.c : Int) < 256 := by exact_mod_cast f.c_lt
  rw [pow_add, pow_add, pow_n]
  have hpos : (0 : Int) < 2 ^ (f.L * (f.k - 1)) := by positivity
  rw [pow_succ] at h2
  generalize (2 : Int) ^ (f.L * (f.k - 1)) = N at *
  generalize (2 : Int) ^ f.tb = T at *
  constructor <;> nlinarith

theorem smallMul_two_loose (f : Fld) (pr : Profile) {a : Elem} (ha : f.Tight a) :
    ∃ r, f.code.smallMulAssign pr a 2 = .ok r ∧ f.Loose r := by
  have hV := ha.V_bounds
  have hq : -2 ≤ f.V a / 2 ^ f.n ∧ f.V a / 2 ^ f.n ≤ 4 := by
    have hp : (0 : Int) < 2 ^ f.n := by positivity
    rw [pow_add, pow_add] at hV
    constructor
    · rw [Int.le_ediv_iff_mul_le hp]; linarith
    · have : f.V a / 2 ^ f.n < 5 := by rw [Int.ediv_lt_iff_lt_mul hp]; linarith
      omega
  have hn : (2 : Int) ^ 200 ≤ 2 ^ f.n :=
    pow_le_pow_right₀ (by norm_num) (by clear ha hV hq; cases f <;> decide)
  by_cases hf : f = e521_1
  · subst hf
    obtain ⟨r, c5, c6, c7, c8, h1, h2, k5, k6, k7, k8, h3, -⟩ :=
      smallMul521 pr (b := 2) ha (by norm_num)
    refine ⟨r, h1, loose_of_V h2 ?_⟩
    rw [h3]
    have hq' : -2 ≤ e521_1.V a / 2 ^ 521 ∧ e521_1.V a / 2 ^ 521 ≤ 4 := hq
    have hV' : -2 ^ 522 ≤ e521_1.V a ∧ e521_1.V a < 2 ^ 523 := hV
    show -2 ^ 525 ≤ _ ∧ _ < 2 ^ 525
    clear h3 hq hV
    generalize e521_1.V a / 2 ^ 521 = q at *
    generalize e521_1.V a = v at *
    have e : (2 : Int) ^ 522 = 2 ^ 378 * 2 ^ 144 ∧ (2 : Int) ^ 523 = 2 ^ 378 * 2 ^ 145 ∧
      (2 : Int) ^ 525 = 2 ^ 378 * 2 ^ 147 ∧ (2 : Int) ^ 432 = 2 ^ 378 * 2 ^ 54 ∧
      (2 : Int) ^ 486 = 2 ^ 378 * 2 ^ 108 := by
      refine ⟨?_, ?_, ?_, ?_, ?_⟩ <;> rw [← pow_add]
    obtain ⟨a1, a2, a3, a4, a5⟩ := e
    have hN : (1 : Int) ≤ 2 ^ 378 := one_le_pow₀ (by norm_num)
    rw [a4, a5, a3]
    rw [a1, a2] at hV'
    clear a1 a2 a3 a4 a5 hn ha h1 h2
    generalize (2 : Int) ^ 378 = N at *
    norm_num at hV' ⊢
    constructor <;> nlinarith
  · obtain ⟨r, h1, h2, h3⟩ := smallMul_tight hf pr (b := 2) ha (by
      clear ha hV hq hn
      cases f <;> first | exact absurd rfl hf | (constructor <;> decide))
    refine ⟨r, h1, loose_of_V h2 ?_⟩
    have hc : (f.c : Int) < 256 := by exact_mod_cast f.c_lt
    have hc' : (0 : Int) ≤ f.c := by positivity
    rw [h3, pow_add]
    rw [pow_add, pow_add] at hV
    generalize f.V a / 2 ^ f.n = q at *
    generalize (2 : Int) ^ f.n = N at *
    norm_num at hV hn ⊢
    constructor <;> nlinarith

end Fld

/-- Static classification of expressions: `some true` if the value is `Tight`, `some false` if it
is `Loose`; `loose` lists the registers not known to be `Tight`. -/
def PExpr.ty (loose : List Nat) : PExpr → Option Bool
  | .get r => some (!loose.contains r)
  | .dval => some true
  | .add a b => do
    let _ ← a.ty loose
    let _ ← b.ty loose
    some true
  | .sub a b => do
    let _ ← a.ty loose
    let _ ← b.ty loose
    some true
  | .mul a b => do
    let _ ← a.ty loose
    let _ ← b.ty loose
    some true
  | .squared a => do
    let _ ← a.ty loose
    some true
  | .smallMul a n => match a.ty loose with
    | some true => if n = 2 then some false else none
    | _ => none

/-- Classification of programs; the final list of `Loose` registers. -/
def tyProg : PProg → List Nat → Option (List Nat)
  | [], loose => some loose
  | .set r e :: rest, loose => match e.ty loose with
    | some true => tyProg rest (loose.filter (· != r))
    | some false => tyProg rest (r :: loose)
    | none => none

namespace Crv
variable (c : Crv) (pr : Profile)

/-- Registers as classified. -/
def Typed (loose dom : List Nat) (ρ : Tree Elem) : Prop :=
  ∀ r ∈ dom, ∃ v, ρ.get r = some v ∧ c.fld.Loose v ∧ (r ∉ loose → c.fld.Tight v)

theorem eval_total {loose dom : List Nat} {ρ : Tree Elem} (h : c.Typed loose dom ρ) :
    ∀ (e : PExpr) (b : Bool), e.ty loose = some b → e.reads dom = true →
    ∃ v, e.eval (c.scalar pr) ρ = .ok v ∧ c.fld.Loose v ∧ (b = true → c.fld.Tight v) := by
  intro e
  rw [scalar_eq]
  have bindSome : ∀ {α : Type} {o : Option Bool} {k : Bool → Option α} {x : α},
      (o >>= k) = some x → ∃ y, o = some y ∧ k y = some x := by
    intro α o k x h
    cases o with
    | none => cases h
    | some y => exact ⟨y, rfl, h⟩
  induction e with
  | get r =>
    intro b hb hr
    obtain ⟨v, h1, h2, h3⟩ := h r (List.contains_iff_mem.1 hr)
    refine ⟨v, by simp [PExpr.eval, h1], h2, ?_⟩
    rintro rfl
    simp only [PExpr.ty, Option.some.injEq, Bool.not_eq_true'] at hb
    exact h3 fun hm => by rw [List.contains_iff_mem.2 hm] at hb; cases hb
  | dval =>
    intro b _ _
    exact ⟨_, rfl, (dVal_canon c).tight.loose, fun _ => (dVal_canon c).tight⟩
  | add x y ihx ihy =>
    intro b hb hr
    obtain ⟨bx, hx, hb⟩ := bindSome hb
    obtain ⟨by', hy, hb⟩ := bindSome hb
    simp only [PExpr.reads, Bool.and_eq_true] at hr
    obtain ⟨u, h1, h2, -⟩ := ihx _ hx hr.1
    obtain ⟨v, h3, h4, -⟩ := ihy _ hy hr.2
    obtain ⟨r, h5, h6, -⟩ := C01_add c.fld pr h2.rep h4.rep
    exact ⟨r, by simp only [PExpr.eval, h1, h3, bind, Except.bind]; exact h5,
      h6.loose, fun _ => h6⟩
  | sub x y ihx ihy =>
    intro b hb hr
    obtain ⟨bx, hx, hb⟩ := bindSome hb
    obtain ⟨by', hy, hb⟩ := bindSome hb
    simp only [PExpr.reads, Bool.and_eq_true] at hr
    obtain ⟨u, h1, h2, -⟩ := ihx _ hx hr.1
    obtain ⟨v, h3, h4, -⟩ := ihy _ hy hr.2
    obtain ⟨r, h5, h6, -⟩ := C02_sub_correct_iff c.fld pr h2.rep h4.rep
    exact ⟨r, by simp only [PExpr.eval, h1, h3, bind, Except.bind]; exact h5,
      h6.loose, fun _ => h6⟩
  | mul x y ihx ihy =>
    intro b hb hr
    obtain ⟨bx, hx, hb⟩ := bindSome hb
    obtain ⟨by', hy, hb⟩ := bindSome hb
    simp only [PExpr.reads, Bool.and_eq_true] at hr
    obtain ⟨u, h1, h2, -⟩ := ihx _ hx hr.1
    obtain ⟨v, h3, h4, -⟩ := ihy _ hy hr.2
    obtain ⟨r, h5, h6, -⟩ := C04_mul_correct_iff c.fld pr h2 h4
    exact ⟨r, by simp only [PExpr.eval, h1, h3, bind, Except.bind]; exact h5,
      h6.loose, fun _ => h6⟩
  | squared x ihx =>
    intro b hb hr
    obtain ⟨bx, hx, hb⟩ := bindSome hb
    obtain ⟨u, h1, h2, -⟩ := ihx _ hx hr
    obtain ⟨r, h5, h6, -⟩ := Fld.square_exact pr h2
    have h6 : c.fld.Tight r := by
      have h0 : (0 : Int) ≤ 2 ^ c.fld.tb := by positivity
      have hlo : -1 ≤ c.fld.sqLo := by cases c.fld <;> decide
      exact Fld.Shape.mono h6 (by linarith) le_rfl
    exact ⟨r, by simp only [PExpr.eval, h1, bind, Except.bind]; exact h5, h6.loose, fun _ => h6⟩
  | smallMul x n ihx =>
    intro b hb hr
    simp only [PExpr.ty] at hb
    split at hb
    · next hx =>
      split at hb
      · next hn =>
        subst hn
        cases hb
        obtain ⟨u, h1, -, h2⟩ := ihx _ hx hr
        obtain ⟨r, h5, h6⟩ := Fld.smallMul_two_loose c.fld pr (h2 rfl)
        exact ⟨r, by simp only [PExpr.eval, h1, bind, Except.bind]; exact h5, h6, fun h => by cases h⟩
      · cases hb
    · cases hb

variable {c} in
theorem Typed.set {loose loose' dom : List Nat} {ρ : Tree Elem} (h : c.Typed loose dom ρ) {r : Nat}
    {v : Elem} (hv : c.fld.Loose v) (ht : r ∉ loose' → c.fld.Tight v)
    (hl : ∀ i ∈ loose, i ≠ r → i ∈ loose') : c.Typed loose' (r :: dom) (ρ.set r v) := by
  intro i hi
  by_cases h' : i = r
  · subst h'
    exact ⟨v, by simp [Tree.get_set], hv, ht⟩
  · obtain ⟨w, h1, h2, h3⟩ := h i ((List.mem_cons.1 hi).resolve_left h')
    exact ⟨w, by simp [Tree.get_set, h', h1], h2, fun hn => h3 fun hm => hn (hl i hm h')⟩

theorem run_total (p : PProg) : ∀ {loose loose' dom : List Nat} {ρ : Tree Elem},
    c.Typed loose dom ρ → wellFormed p dom = true → tyProg p loose = some loose' →
    ∃ ρ', runPoint (c.scalar pr) p ρ = .ok ρ' ∧ c.Typed loose' dom ρ' := by
  induction p with
  | nil =>
    intro loose loose' dom ρ h _ ht
    cases ht
    exact ⟨ρ, rfl, h⟩
  | cons s p ih =>
    intro loose loose' dom ρ h hw ht
    obtain ⟨r, e⟩ := s
    simp only [wellFormed, Bool.and_eq_true] at hw
    simp only [tyProg] at ht
    split at ht
    · next he =>
      obtain ⟨v, h1, h2, h3⟩ := c.eval_total pr h e _ he hw.1
      obtain ⟨ρ', h4, h5⟩ := ih (h.set (r := r) (loose' := loose.filter (· != r)) h2
        (fun _ => h3 rfl) (fun i hi hne => by simp [hi, hne])) hw.2 ht
      exact ⟨ρ', by simp [runPoint, h1, h4, bind, Except.bind], fun i hi =>
        h5 i (List.mem_cons_of_mem _ hi)⟩
    · next he =>
      obtain ⟨v, h1, h2, -⟩ := c.eval_total pr h e _ he hw.1
      obtain ⟨ρ', h4, h5⟩ := ih (h.set (r := r) (loose' := r :: loose) h2
        (fun hn => absurd (List.mem_cons_self) hn)
        (fun i hi _ => List.mem_cons_of_mem _ hi)) hw.2 ht
      exact ⟨ρ', by simp [runPoint, h1, h4, bind, Except.bind], fun i hi =>
        h5 i (List.mem_cons_of_mem _ hi)⟩
    · cases ht

theorem call_total {b : PProg} {loose' : List Nat}
    (hw : wellFormed b [0, 1, 2, 3, 4, 5, 6, 7] = true) (ht : tyProg b [] = some loose')
    (h0 : 0 ∉ loose' ∧ 1 ∉ loose' ∧ 2 ∉ loose' ∧ 3 ∉ loose') {p q : EdwardsExtended Elem}
    (hp : p.Ok c.fld.Tight) (hq : q.Ok c.fld.Tight) :
    ∃ r, EdwardsExtended.call (c.scalar pr) b p q = .ok r ∧ r.Ok c.fld.Tight := by
  have hT : c.Typed [] [0, 1, 2, 3, 4, 5, 6, 7] (EdwardsExtended.regs p q) := by
    obtain ⟨a1, a2, a3, a4⟩ := hp
    obtain ⟨b1, b2, b3, b4⟩ := hq
    intro r hr
    simp only [List.mem_cons, List.not_mem_nil, or_false] at hr
    rcases hr with rfl | rfl | rfl | rfl | rfl | rfl | rfl | rfl
    · exact ⟨p.x, rfl, a1.loose, fun _ => a1⟩
    · exact ⟨p.y, rfl, a2.loose, fun _ => a2⟩
    · exact ⟨p.z, rfl, a3.loose, fun _ => a3⟩
    · exact ⟨p.t, rfl, a4.loose, fun _ => a4⟩
    · exact ⟨q.x, rfl, b1.loose, fun _ => b1⟩
    · exact ⟨q.y, rfl, b2.loose, fun _ => b2⟩
    · exact ⟨q.z, rfl, b3.loose, fun _ => b3⟩
    · exact ⟨q.t, rfl, b4.loose, fun _ => b4⟩
  obtain ⟨ρ', h1, h2⟩ := c.run_total pr b hT hw ht
  obtain ⟨x, x1, -, x2⟩ := h2 0 (by simp)
  obtain ⟨y, y1, -, y2⟩ := h2 1 (by simp)
  obtain ⟨z, z1, -, z2⟩ := h2 2 (by simp)
  obtain ⟨t, t1, -, t2⟩ := h2 3 (by simp)
  exact ⟨⟨x, y, z, t⟩, by
    simp [EdwardsExtended.call, h1, bind, Except.bind, EdwardsExtended.ofRegs, x1, y1, z1, t1],
    x2 h0.1, y2 h0.2.1, z2 h0.2.2.1, t2 h0.2.2.2⟩

theorem add_total {p q : EdwardsExtended Elem} (hp : p.Ok c.fld.Tight) (hq : q.Ok c.fld.Tight) :
    ∃ r, p.addAssign (c.scalar pr) q = .ok r ∧ r.Ok c.fld.Tight :=
  c.call_total pr (b := EdwardsExtended.addP) (loose' := []) (by decide) (by decide) (by decide)
    hp hq

theorem double_total {p : EdwardsExtended Elem} (hp : p.Ok c.fld.Tight) :
    ∃ r, p.double (c.scalar pr) = .ok r ∧ r.Ok c.fld.Tight :=
  c.call_total pr (b := EdwardsExtended.doubleP) (loose' := [10]) (by decide) (by decide)
    (by decide) hp hp

theorem triple_total {p : EdwardsExtended Elem} (hp : p.Ok c.fld.Tight) :
    ∃ r, p.triple (c.scalar pr) = .ok r ∧ r.Ok c.fld.Tight :=
  c.call_total pr (b := EdwardsExtended.tripleP) (loose' := [11]) (by decide) (by decide)
    (by decide) hp hp

end Crv
end Verif

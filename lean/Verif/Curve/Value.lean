import Verif.Curve.Total
import Verif.Curve.Witness
import Verif.Field.Value

/-!
# The point formulas on integers (helper lemmas)

All field operations are functions of the integers their operands stand for (`Fld.mul_value`,
`Fld.square_value`, `Fld.add_exact`, `Fld.sub_exact`, `Fld.smallMul_tight`, `Fld.smallMul521`).  So
the point formulas can be evaluated on integers instead of words, which is much faster in the kernel.
-/

namespace Verif
open FieldCode Check

namespace Crv
variable (c : Crv)

/-- The integer that `+` returns. -/
def addI (x y : Int) : Int :=
  x + y - c.fld.pK * (x / p2 c.fld.n + y / p2 c.fld.n)

/-- The integer that `-` returns. -/
def subI (x y : Int) : Int :=
  x - y - c.fld.pK * (x / p2 c.fld.n) + (p2 c.fld.n + c.fld.c) * (y / p2 c.fld.n)

/-- The integer that `*` returns, given the product. -/
def mulI (x : Int) : Int := match c with
  | e222 =>
    let q := x / p2 222
    let d := p2 232 * (117 * (x / p2 425) / p2 29)
    x - d - c.fld.pK * (q + (117 * q - d) / p2 222)
  | curve1174 =>
    let y := x % p2 504
    let q := y / p2 251
    y - c.fld.pK * (q + 9 * (q / p2 224) / p2 27)
  | _ =>
    let q := x / p2 c.fld.n
    x - c.fld.pK * (q + c.fld.c * (q / p2 (c.fld.L * (c.fld.k - 1))) / p2 c.fld.tb)

/-- The integer that `squared` returns, given the square. -/
def sqI (x : Int) : Int := match c with
  | curve1174 =>
    let q := x / p2 251
    x - c.fld.pK * (q + 9 * (q / p2 224) / p2 27)
  | _ => c.mulI x

/-- `Fld.mulCarry`. -/
def carryI (x b e : Int) (i : Nat) : Int :=
  (b * (x % p2 (54 * (i + 1))) + e) / p2 (54 * (i + 1)) -
    (b * (x % p2 (54 * (i + 1)) / p2 (54 * i + 27))) / p2 27

/-- The integer that `small_mul(2)` returns. -/
def twiceI (x : Int) : Int :=
  match c with
  | e521 =>
    let q := x / p2 521
    let c5 := carryI x 2 q 5
    let c6 := carryI x 2 q 6
    let c7 := carryI x 2 (q + p2 378 * (c5 - c6)) 7
    let c8 := carryI x 2 (q + p2 378 * (c5 - c6) + p2 432 * (c6 - c7)) 8
    x * 2 + q + p2 378 * (c5 - c6) + p2 432 * (c6 - c7) + p2 486 * (c7 - c8)
  | _ => x * 2 + c.fld.c * (x / p2 c.fld.n)

/-- No carry. -/
def freeB (x : Int) : Bool := decide (0 ≤ x) && decide (x < p2 c.fld.n)

/-- A product in the domain of C04. -/
def prodB (x : Int) : Bool := match c with
  | curve1174 => decide (0 ≤ x) && decide (x < p2 504)
  | e222 => decide (0 ≤ x) && decide (x < 4588641 * p2 425)
  | _ => true

theorem mulI_eq (x : Int) : c.mulI x = c.fld.mulVal x := by
  cases c <;> simp only [mulI, Fld.mulVal, p2_eq, Fld.pK_eq] <;> rfl

theorem sqI_eq (x : Int) : c.sqI x = c.fld.sqVal x := by
  cases c <;> simp only [sqI, mulI, Fld.sqVal, Fld.mulVal, p2_eq, Fld.pK_eq] <;> rfl

theorem addI_eq (x y : Int) :
    c.addI x y = x + y - c.fld.p * (x / 2 ^ c.fld.n) - c.fld.p * (y / 2 ^ c.fld.n) := by
  simp only [addI, p2_eq, Fld.pK_eq]; ring

theorem subI_eq (x y : Int) : c.subI x y =
    x - y - c.fld.p * (x / 2 ^ c.fld.n) + (2 ^ c.fld.n + c.fld.c) * (y / 2 ^ c.fld.n) := by
  simp only [subI, p2_eq, Fld.pK_eq]

theorem carryI_eq (x b e : Int) (i : Nat) : carryI x b e i = Fld.mulCarry x b e i := by
  simp only [carryI, Fld.mulCarry, p2_eq]

end Crv

/-- Evaluate an expression on integers and continue with the value; if `chk`, check on the way that
all operations are in the domains where they are right. -/
def PExpr.evalI (c : Crv) (chk : Bool) (ρ : Tree Int) : PExpr → (Int → Bool) → Bool
  | .get r, k => match ρ.get r with
    | some v => k v
    | none => false
  | .dval, k => forceInt (c.fld.V c.dElem) k
  | .add a b, k => a.evalI c chk ρ fun u => b.evalI c chk ρ fun v => forceInt (c.addI u v) k
  | .sub a b, k => a.evalI c chk ρ fun u => b.evalI c chk ρ fun v =>
    (!chk || c.freeB v) && forceInt (c.subI u v) k
  | .mul a b, k => a.evalI c chk ρ fun u => b.evalI c chk ρ fun v => forceInt (u * v) fun x =>
    (!chk || c.prodB x) && forceInt (c.mulI x) k
  | .squared a, k => a.evalI c chk ρ fun u => forceInt (u * u) fun x => forceInt (c.sqI x) k
  | .smallMul a _, k => a.evalI c chk ρ fun u => (!chk || c.freeB u) && forceInt (c.twiceI u) k

/-- Run a program on integers. -/
def runI (c : Crv) (chk : Bool) : PProg → Tree Int → (Tree Int → Bool) → Bool
  | [], ρ, k => k ρ
  | .set r e :: rest, ρ, k => e.evalI c chk ρ fun v => runI c chk rest (ρ.set r v) k

namespace EdwardsExtended

/-- Call a function on integers. -/
def callI (c : Crv) (chk : Bool) (b : PProg) (p q : EdwardsExtended Int)
    (k : EdwardsExtended Int → Bool) : Bool :=
  runI c chk b (regs p q) fun ρ => match ofRegs ρ with
    | .ok r => k r
    | .error _ => false

/-- The integers of the coordinates. -/
def ints (c : Crv) (p : EdwardsExtended Elem) : EdwardsExtended Int :=
  ⟨c.fld.V p.x, c.fld.V p.y, c.fld.V p.z, c.fld.V p.t⟩

end EdwardsExtended

namespace Crv
variable (c : Crv) (pr : Profile)

theorem twice_value {a : Elem} (ha : c.fld.Tight a) :
    ∃ r, c.fld.code.smallMulAssign pr a 2 = .ok r ∧ c.fld.Loose r ∧
      c.fld.V r = c.twiceI (c.fld.V a) := by
  obtain ⟨r, h1, h2⟩ := Fld.smallMul_two_loose c.fld pr ha
  refine ⟨r, h1, h2, ?_⟩
  by_cases hc : c = e521
  · subst hc
    obtain ⟨r', c5, c6, c7, c8, h1', -, -, -, -, -, h3, e5, e6, e7, e8⟩ :=
      Fld.smallMul521 pr (b := 2) ha (by norm_num)
    cases h1.symm.trans h1'
    subst e5 e6
    subst e7
    subst e8
    exact h3
  · have hf : c.fld ≠ .e521_1 := by cases c <;> first | exact absurd rfl hc | (intro h; cases h)
    obtain ⟨r', h1', -, h3⟩ := Fld.smallMul_tight hf pr (b := 2) ha (by
      clear ha h1
      cases c <;> first | exact absurd rfl hc | (constructor <;> decide))
    cases h1.symm.trans h1'
    rw [h3]
    cases c <;> first | exact absurd rfl hc | rfl

theorem prodB_ok {x : Int} (h : c.prodB x = true) : c.fld.MulDomain x := by
  cases c
  · simp only [prodB, Bool.and_eq_true] at h
    exact ⟨of_decide_eq_true h.1, of_decide_eq_true h.2⟩
  · simp only [prodB, Bool.and_eq_true] at h
    exact ⟨of_decide_eq_true h.1, of_decide_eq_true h.2⟩
  all_goals trivial

theorem evalI_sound {loose dom : List Nat} {ρ : Tree Elem} {ρi : Tree Int}
    (h : c.Typed loose dom ρ) (hV : ∀ r, ρi.get r = (ρ.get r).map c.fld.V) {chk : Bool} :
    ∀ (e : PExpr) (b : Bool), e.ty loose = some b → e.reads dom = true →
    ∀ k, e.evalI c chk ρi k = true →
    ∃ v, e.eval (c.scalar pr) ρ = .ok v ∧ c.fld.Loose v ∧ (b = true → c.fld.Tight v) ∧
      (chk = true → e.Safe (c.scalar pr) c.SubOk c.MulOk c.SmOk ρ) ∧ k (c.fld.V v) = true := by
  intro e
  rw [scalar_eq]
  have bindSome : ∀ {α : Type} {o : Option Bool} {k : Bool → Option α} {x : α},
      (o >>= k) = some x → ∃ y, o = some y ∧ k y = some x := by
    intro α o k x h
    cases o with
    | none => cases h
    | some y => exact ⟨y, rfl, h⟩
  induction e with
  | get r =>
    intro b hb hr k hk
    obtain ⟨v, h1, h2, h3⟩ := h r (List.contains_iff_mem.1 hr)
    simp only [PExpr.evalI, hV, h1, Option.map_some] at hk
    refine ⟨v, by simp [PExpr.eval, h1], h2, ?_, fun _ => trivial, hk⟩
    rintro rfl
    simp only [PExpr.ty, Option.some.injEq, Bool.not_eq_true'] at hb
    exact h3 fun hm => by rw [List.contains_iff_mem.2 hm] at hb; cases hb
  | dval =>
    intro b _ _ k hk
    simp only [PExpr.evalI, forceInt_eq] at hk
    exact ⟨_, rfl, (dVal_canon c).tight.loose, fun _ => (dVal_canon c).tight, fun _ => trivial, hk⟩
  | add x y ihx ihy =>
    intro b hb hr k hk
    obtain ⟨bx, hx, hb⟩ := bindSome hb
    obtain ⟨by', hy, hb⟩ := bindSome hb
    simp only [PExpr.reads, Bool.and_eq_true] at hr
    obtain ⟨u, h1, h2, -, s1, k1⟩ := ihx _ hx hr.1 _ hk
    obtain ⟨v, h3, h4, -, s2, k2⟩ := ihy _ hy hr.2 _ k1
    rw [forceInt_eq] at k2
    obtain ⟨r, h5, h6, h7⟩ := Fld.add_exact (f := c.fld) pr h2.rep h4.rep
    have h6 : c.fld.Tight r := Fld.Shape.mono h6
      (by have : (0 : Int) ≤ 2 ^ c.fld.tb := by positivity
          linarith) (by linarith [Int.natCast_nonneg c.fld.c])
    exact ⟨r, by simp only [PExpr.eval, h1, h3, bind, Except.bind]; exact h5,
      h6.loose, fun _ => h6, fun hc => ⟨s1 hc, s2 hc⟩, by rw [h7, ← addI_eq]; exact k2⟩
  | sub x y ihx ihy =>
    intro b hb hr k hk
    obtain ⟨bx, hx, hb⟩ := bindSome hb
    obtain ⟨by', hy, hb⟩ := bindSome hb
    simp only [PExpr.reads, Bool.and_eq_true] at hr
    obtain ⟨u, h1, h2, -, s1, k1⟩ := ihx _ hx hr.1 _ hk
    obtain ⟨v, h3, h4, -, s2, k2⟩ := ihy _ hy hr.2 _ k1
    rw [forceInt_eq, Bool.and_eq_true] at k2
    obtain ⟨r, h5, h6, h7⟩ := Fld.sub_exact (f := c.fld) pr h2.rep h4.rep
    have h6 : c.fld.Tight r := Fld.Shape.mono h6 le_rfl
      (by have : (0 : Int) ≤ 2 ^ c.fld.tb := by positivity
          rw [pow_succ]
          linarith [Int.natCast_nonneg c.fld.c])
    refine ⟨r, by simp only [PExpr.eval, h1, h3, bind, Except.bind]; exact h5,
      h6.loose, fun _ => h6, fun hc => ⟨s1 hc, s2 hc, ?_⟩, by rw [h7, ← subI_eq]; exact k2.2⟩
    intro u' v' e1 e2
    rw [h3] at e2; cases e2
    have := k2.1
    simp only [hc, Bool.not_true, Bool.false_or, freeB, Bool.and_eq_true, decide_eq_true_eq] at this
    exact this
  | mul x y ihx ihy =>
    intro b hb hr k hk
    obtain ⟨bx, hx, hb⟩ := bindSome hb
    obtain ⟨by', hy, hb⟩ := bindSome hb
    simp only [PExpr.reads, Bool.and_eq_true] at hr
    obtain ⟨u, h1, h2, -, s1, k1⟩ := ihx _ hx hr.1 _ hk
    obtain ⟨v, h3, h4, -, s2, k2⟩ := ihy _ hy hr.2 _ k1
    rw [forceInt_eq, forceInt_eq, Bool.and_eq_true] at k2
    obtain ⟨r, h5, h6, h7⟩ := Fld.mul_value (f := c.fld) pr h2 h4
    refine ⟨r, by simp only [PExpr.eval, h1, h3, bind, Except.bind]; exact h5,
      h6.loose, fun _ => h6, fun hc => ⟨s1 hc, s2 hc, ?_⟩, by rw [h7, ← mulI_eq]; exact k2.2⟩
    intro u' v' e1 e2
    rw [h1] at e1; cases e1
    rw [h3] at e2; cases e2
    have := k2.1
    simp only [hc, Bool.not_true, Bool.false_or] at this
    exact c.prodB_ok this
  | squared x ihx =>
    intro b hb hr k hk
    obtain ⟨bx, hx, hb⟩ := bindSome hb
    obtain ⟨u, h1, h2, -, s1, k1⟩ := ihx _ hx hr _ hk
    rw [forceInt_eq, forceInt_eq] at k1
    obtain ⟨r, h5, h6, h7⟩ := Fld.square_value (f := c.fld) pr h2
    exact ⟨r, by simp only [PExpr.eval, h1, bind, Except.bind]; exact h5, h6.loose, fun _ => h6,
      s1, by rw [h7, ← sqI_eq]; exact k1⟩
  | smallMul x n ihx =>
    intro b hb hr k hk
    simp only [PExpr.ty] at hb
    split at hb
    · next hx =>
      split at hb
      · next hn =>
        subst hn
        cases hb
        obtain ⟨u, h1, -, h2, s1, k1⟩ := ihx _ hx hr _ hk
        rw [forceInt_eq, Bool.and_eq_true] at k1
        obtain ⟨r, h5, h6, h7⟩ := c.twice_value pr (h2 rfl)
        refine ⟨r, by simp only [PExpr.eval, h1, bind, Except.bind]; exact h5, h6,
          fun h => (by cases h), fun hc => ⟨s1 hc, ?_⟩, by rw [h7]; exact k1.2⟩
        intro u' e1
        rw [h1] at e1; cases e1
        have := k1.1
        simp only [hc, Bool.not_true, Bool.false_or, freeB, Bool.and_eq_true,
          decide_eq_true_eq] at this
        exact ⟨rfl, this⟩
      · cases hb
    · cases hb

theorem runI_sound {chk : Bool} (p : PProg) :
    ∀ {loose loose' dom : List Nat} {ρ : Tree Elem} {ρi : Tree Int},
    c.Typed loose dom ρ → (∀ r, ρi.get r = (ρ.get r).map c.fld.V) → wellFormed p dom = true →
    tyProg p loose = some loose' → ∀ k, runI c chk p ρi k = true →
    ∃ ρ' ρi', runPoint (c.scalar pr) p ρ = .ok ρ' ∧ c.Typed loose' dom ρ' ∧
      (∀ r, ρi'.get r = (ρ'.get r).map c.fld.V) ∧
      (chk = true → SafeProg (c.scalar pr) c.SubOk c.MulOk c.SmOk p ρ) ∧ k ρi' = true := by
  induction p with
  | nil =>
    intro loose loose' dom ρ ρi h hV _ ht k hk
    cases ht
    exact ⟨ρ, ρi, rfl, h, hV, fun _ => trivial, hk⟩
  | cons s p ih =>
    intro loose loose' dom ρ ρi h hV hw ht k hk
    obtain ⟨r, e⟩ := s
    simp only [wellFormed, Bool.and_eq_true] at hw
    simp only [tyProg] at ht
    have hset : ∀ (v : Elem) i, (ρi.set r (c.fld.V v)).get i = ((ρ.set r v).get i).map c.fld.V := by
      intro v i
      rw [Tree.get_set, Tree.get_set]
      split
      · rfl
      · exact hV i
    have safe : ∀ {v}, e.eval (c.scalar pr) ρ = .ok v →
        (chk = true → e.Safe (c.scalar pr) c.SubOk c.MulOk c.SmOk ρ) →
        (chk = true → SafeProg (c.scalar pr) c.SubOk c.MulOk c.SmOk p (ρ.set r v)) →
        chk = true → SafeProg (c.scalar pr) c.SubOk c.MulOk c.SmOk (.set r e :: p) ρ := by
      intro v h1 h2 h3 hc
      refine ⟨h2 hc, ?_⟩
      intro v' e1
      rw [h1] at e1; cases e1
      exact h3 hc
    split at ht
    · next he =>
      obtain ⟨v, h1, h2, h3, h4, h5⟩ := c.evalI_sound pr h hV e _ he hw.1 _ hk
      obtain ⟨ρ', ρi', a1, a2, a3, a4, a5⟩ := ih (h.set (r := r)
        (loose' := loose.filter (· != r)) h2
        (fun _ => h3 rfl) (fun i hi hne => by simp [hi, hne])) (hset v) hw.2 ht _ h5
      exact ⟨ρ', ρi', by simp [runPoint, h1, a1, bind, Except.bind], fun i hi =>
        a2 i (List.mem_cons_of_mem _ hi), a3, safe h1 h4 a4, a5⟩
    · next he =>
      obtain ⟨v, h1, h2, -, h4, h5⟩ := c.evalI_sound pr h hV e _ he hw.1 _ hk
      obtain ⟨ρ', ρi', a1, a2, a3, a4, a5⟩ := ih (h.set (r := r) (loose' := r :: loose) h2
        (fun hn => absurd (List.mem_cons_self) hn)
        (fun i hi _ => List.mem_cons_of_mem _ hi)) (hset v) hw.2 ht _ h5
      exact ⟨ρ', ρi', by simp [runPoint, h1, a1, bind, Except.bind], fun i hi =>
        a2 i (List.mem_cons_of_mem _ hi), a3, safe h1 h4 a4, a5⟩
    · cases ht

open EdwardsExtended

theorem callI_sound {chk : Bool} {b : PProg} {loose' : List Nat}
    (hw : wellFormed b [0, 1, 2, 3, 4, 5, 6, 7] = true) (ht : tyProg b [] = some loose')
    (h0 : 0 ∉ loose' ∧ 1 ∉ loose' ∧ 2 ∉ loose' ∧ 3 ∉ loose') {p q : EdwardsExtended Elem}
    (hp : p.Ok c.fld.Tight) (hq : q.Ok c.fld.Tight) {k : EdwardsExtended Int → Bool}
    (hk : callI c chk b (p.ints c) (q.ints c) k = true) :
    ∃ r, call (c.scalar pr) b p q = .ok r ∧ r.Ok c.fld.Tight ∧
      (chk = true → c.RunsRight pr b p q) ∧ k (r.ints c) = true := by
  have hT : c.Typed [] [0, 1, 2, 3, 4, 5, 6, 7] (regs p q) := by
    obtain ⟨a1, a2, a3, a4⟩ := hp
    obtain ⟨b1, b2, b3, b4⟩ := hq
    intro r hr
    simp only [List.mem_cons, List.not_mem_nil, or_false] at hr
    rcases hr with rfl | rfl | rfl | rfl | rfl | rfl | rfl | rfl
    · exact ⟨p.x, rfl, a1.loose, fun _ => a1⟩
    · exact ⟨p.y, rfl, a2.loose, fun _ => a2⟩
    · exact ⟨p.z, rfl, a3.loose, fun _ => a3⟩
    · exact ⟨p.t, rfl, a4.loose, fun _ => a4⟩
    · exact ⟨q.x, rfl, b1.loose, fun _ => b1⟩
    · exact ⟨q.y, rfl, b2.loose, fun _ => b2⟩
    · exact ⟨q.z, rfl, b3.loose, fun _ => b3⟩
    · exact ⟨q.t, rfl, b4.loose, fun _ => b4⟩
  have hV : ∀ r, (regs (p.ints c) (q.ints c)).get r = ((regs p q).get r).map c.fld.V := by
    have key : ∀ {S T : Type} (g : S → T) (l : List S) (base : Nat) (t : Tree S) (t' : Tree T),
        (∀ r, t'.get r = (t.get r).map g) →
        ∀ r, (t'.setList base (l.map g)).get r = ((t.setList base l).get r).map g := by
      intro S T g l
      induction l with
      | nil => intro base t t' h r; exact h r
      | cons x l ih =>
        intro base t t' h r
        simp only [List.map_cons, Tree.setList]
        apply ih
        intro r
        rw [Tree.get_set, Tree.get_set]
        split
        · rfl
        · exact h r
    exact key c.fld.V [p.x, p.y, p.z, p.t, q.x, q.y, q.z, q.t] 0 .leaf .leaf
      (fun r => by simp [Tree.get])
  obtain ⟨ρ', ρi', h1, h2, h3, h4, h5⟩ := c.runI_sound pr b hT hV hw ht _ hk
  obtain ⟨x, x1, -, x2⟩ := h2 0 (by simp)
  obtain ⟨y, y1, -, y2⟩ := h2 1 (by simp)
  obtain ⟨z, z1, -, z2⟩ := h2 2 (by simp)
  obtain ⟨t, t1, -, t2⟩ := h2 3 (by simp)
  simp only [ofRegs, h3, x1, y1, z1, t1, Option.map_some] at h5
  exact ⟨⟨x, y, z, t⟩, by
    simp [call, h1, bind, Except.bind, ofRegs, x1, y1, z1, t1],
    ⟨x2 h0.1, y2 h0.2.1, z2 h0.2.2.1, t2 h0.2.2.2⟩, h4, h5⟩

theorem addI_sound {chk : Bool} {p q : EdwardsExtended Elem} (hp : p.Ok c.fld.Tight)
    (hq : q.Ok c.fld.Tight) {k : EdwardsExtended Int → Bool}
    (hk : callI c chk addP (p.ints c) (q.ints c) k = true) :
    ∃ r, p.addAssign (c.scalar pr) q = .ok r ∧ r.Ok c.fld.Tight ∧
      (chk = true → c.RunsRight pr addP p q) ∧ k (r.ints c) = true :=
  c.callI_sound pr (loose' := []) (by decide) (by decide) (by decide) hp hq hk

theorem doubleI_sound {chk : Bool} {p : EdwardsExtended Elem} (hp : p.Ok c.fld.Tight)
    {k : EdwardsExtended Int → Bool}
    (hk : callI c chk doubleP (p.ints c) (p.ints c) k = true) :
    ∃ r, p.double (c.scalar pr) = .ok r ∧ r.Ok c.fld.Tight ∧
      (chk = true → c.RunsRight pr doubleP p p) ∧ k (r.ints c) = true :=
  c.callI_sound pr (loose' := [10]) (by decide) (by decide) (by decide) hp hp hk

theorem tripleI_sound {chk : Bool} {p : EdwardsExtended Elem} (hp : p.Ok c.fld.Tight)
    {k : EdwardsExtended Int → Bool}
    (hk : callI c chk tripleP (p.ints c) (p.ints c) k = true) :
    ∃ r, p.triple (c.scalar pr) = .ok r ∧ r.Ok c.fld.Tight ∧
      (chk = true → c.RunsRight pr tripleP p p) ∧ k (r.ints c) = true :=
  c.callI_sound pr (loose' := [11]) (by decide) (by decide) (by decide) hp hp hk

end Crv

/-! ### Unfolded -/

namespace EdwardsExtended
variable (c : Crv) (chk : Bool)

/-- `callI` of `addP`, unfolded. -/
def addF (p q : EdwardsExtended Int) (k : EdwardsExtended Int → Bool) : Bool :=
  let mul := fun (u v : Int) (k : Int → Bool) => forceInt (u * v) fun x =>
    (!chk || c.prodB x) && forceInt (c.mulI x) k
  let add := fun (u v : Int) (k : Int → Bool) => forceInt (c.addI u v) k
  let sub := fun (u v : Int) (k : Int → Bool) => (!chk || c.freeB v) && forceInt (c.subI u v) k
  mul p.x q.x fun a => mul p.y q.y fun b =>
  forceInt (c.fld.V c.dElem) fun d => mul p.t d fun t => mul t q.t fun cc =>
  mul p.z q.z fun d =>
  add p.x p.y fun u => add q.x q.y fun v => mul u v fun w => sub w a fun w => sub w b fun e =>
  sub d cc fun f => add d cc fun g => sub b a fun h =>
  mul e f fun x => mul g h fun y => mul f g fun z => mul e h fun t => k ⟨x, y, z, t⟩

/-- `callI` of `doubleP`, unfolded. -/
def doubleF (p : EdwardsExtended Int) (k : EdwardsExtended Int → Bool) : Bool :=
  let mul := fun (u v : Int) (k : Int → Bool) => forceInt (u * v) fun x =>
    (!chk || c.prodB x) && forceInt (c.mulI x) k
  let sq := fun (u : Int) (k : Int → Bool) => forceInt (u * u) fun x => forceInt (c.sqI x) k
  let add := fun (u v : Int) (k : Int → Bool) => forceInt (c.addI u v) k
  let sub := fun (u v : Int) (k : Int → Bool) => (!chk || c.freeB v) && forceInt (c.subI u v) k
  let twice := fun (u : Int) (k : Int → Bool) => (!chk || c.freeB u) && forceInt (c.twiceI u) k
  sq p.x fun a => sq p.y fun b => sq p.z fun z => twice z fun cc =>
  add p.x p.y fun u => sq u fun w => sub w a fun w => sub w b fun e =>
  add a b fun g => sub g cc fun f => sub a b fun h =>
  mul e f fun x => mul g h fun y => mul f g fun z => mul e h fun t => k ⟨x, y, z, t⟩

attribute [local irreducible] Crv.addI Crv.subI Crv.mulI Crv.sqI Crv.twiceI Crv.freeB Crv.prodB
  Fld.V FieldCode.forceInt Crv.dElem

theorem addF_eq (p q : EdwardsExtended Int) (k : EdwardsExtended Int → Bool) :
    callI c chk addP p q k = addF c chk p q k := rfl

theorem doubleF_eq (p : EdwardsExtended Int) (k : EdwardsExtended Int → Bool) :
    callI c chk doubleP p p k = doubleF c chk p k := rfl

end EdwardsExtended

namespace Crv
variable (c : Crv) (pr : Profile)
open EdwardsExtended

theorem addF_sound {chk : Bool} {p q : EdwardsExtended Elem} (hp : p.Ok c.fld.Tight)
    (hq : q.Ok c.fld.Tight) {k : EdwardsExtended Int → Bool}
    (hk : addF c chk (p.ints c) (q.ints c) k = true) :
    ∃ r, p.addAssign (c.scalar pr) q = .ok r ∧ r.Ok c.fld.Tight ∧
      (chk = true → c.RunsRight pr addP p q) ∧ k (r.ints c) = true :=
  c.addI_sound pr hp hq (by rw [addF_eq]; exact hk)

theorem doubleF_sound {chk : Bool} {p : EdwardsExtended Elem} (hp : p.Ok c.fld.Tight)
    {k : EdwardsExtended Int → Bool} (hk : doubleF c chk (p.ints c) k = true) :
    ∃ r, p.double (c.scalar pr) = .ok r ∧ r.Ok c.fld.Tight ∧
      (chk = true → c.RunsRight pr doubleP p p) ∧ k (r.ints c) = true :=
  c.doubleI_sound pr hp (by rw [doubleF_eq]; exact hk)

/-! ### Deciding what is represented -/

/-- The projective coordinates do not satisfy the curve equation. -/
def offI (r : EdwardsExtended Int) : Bool :=
  forceInt (r.x % c.fld.pK) fun x => forceInt (r.y % c.fld.pK) fun y =>
  forceInt (r.z % c.fld.pK) fun z => forceInt (x * x % c.fld.pK) fun xx =>
  forceInt (y * y % c.fld.pK) fun yy => forceInt (z * z % c.fld.pK) fun zz =>
  !decide ((xx * zz + yy * zz - zz * zz - c.dInt * (xx * yy)) % c.fld.pK = 0)

theorem not_repr_of_offI {r : EdwardsExtended Elem} (h : c.offI (r.ints c) = true) (P : c.Point) :
    ¬ r.ReprXYZ c.fld.Tight c.den P := by
  rintro ⟨-, -, hx, hy⟩
  simp only [offI, forceInt_eq, ints, Bool.not_eq_true', decide_eq_false_iff_not, Fld.pK_eq] at h
  rw [← cast_eq_zero] at h
  apply h
  simp only [Int.cast_sub, Int.cast_add, Int.cast_mul, emod_cast]
  simp only [den] at hx hy
  have on := P.on
  simp only [Crv.d] at on
  rw [hx, hy]
  linear_combination (c.fld.V r.z : c.K) ^ 4 * on

end Crv
end Verif

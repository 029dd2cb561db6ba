import Verif.Props.RepairedCurve
import Verif.Props.RandKeys

/-!
# Property C75: compressed points with the repaired curves

The usual encoding of a point: the bytes of `y` and the lowest bit of `x`.  Decoding takes a quotient, a square root and a sign,
and so uses `unpack`, `-`, `*`, `/`, `sqrt`, `bit` and negation of the field and `init` of the curve.  The repository declares a
trait for this, `Compressed` (src/curve/point.rs:33-38), and has no implementation of it; encoder and decoder here are clients as
in C74.
-/

namespace Verif
open Fld EdwardsExtended

/-- The constants of a curve, `d` included, and a secret scalar. -/
def Crv.begin (c : Crv) (a : Elem) : List Elem := c.start a ++ [c.dElem]

/-- Make the point with a given `y` and lowest bit of `x`, if there is one, and go on with `k`. -/
def Repaired.decode {α : Type} (ys : List Int) (s : Bool) (k : Repaired.CClient (Option α)) : Repaired.CClient (Option α) :=
  .step (.op (.bytes ys)) <| .step (.op (.square 5)) <| .step (.op (.mul 4 6)) <| .step (.op .one) <|
  .step (.op (.sub 8 6)) <| .step (.op (.sub 8 7)) <| .step (.op (.div 9 10)) <| .step (.op (.sqrt 11)) <|
  .bit 12 0 fun b => .step (.neg 12) <| .init (if b = s then 12 else 13) 5 fun on => if on then k else .done none

section
variable (c : Crv)

theorem Crv.begin_inv {a : Elem} (ha : c.fld.Tight a) :
    List.Forall₂ (Repaired.Inv c.fld) [c.base.x, c.base.y, c.den c.order, c.den a, c.d] (c.begin a) :=
  List.rel_append (c.start_inv ha) (.cons ⟨c.dVal_canon.tight, c.dVal_den⟩ .nil)

/-- On the curve, `x² (1 - d y²) = 1 - y²`, and the factor is not zero. -/
theorem Crv.den_ne (y : c.K) : 1 - c.d * (y * y) ≠ 0 := by
  intro h
  have hy : y ≠ 0 := by rintro rfl; simp at h
  refine c.d_nonsquare ⟨y⁻¹, ?_⟩
  field_simp
  linear_combination -h

theorem Crv.neg_bit {x : c.K} (hx : x ≠ 0) : (-x).val.testBit 0 = !x.val.testBit 0 := by
  have h : (-x).val = c.fld.pN - x.val := by rw [ZMod.neg_val, if_neg hx]
  have h1 : x.val < c.fld.pN := ZMod.val_lt x
  have h2 : c.fld.pN % 2 = 1 := by cases c <;> decide +kernel
  rw [h, Nat.testBit_zero, Nat.testBit_zero]
  rcases Nat.mod_two_eq_zero_or_one x.val with e | e
  · rw [show (c.fld.pN - x.val) % 2 = 1 by omega, e]; rfl
  · rw [show (c.fld.pN - x.val) % 2 = 0 by omega, e]; rfl

theorem decode_valid {α : Type} {ys : List Int} {s : Bool} {k : Repaired.CClient (Option α)} (hy : IsBytes ys ∧ c.fld.nbytes ≤ ys.length)
    (hk : k.Valid c) : (Repaired.decode ys s k).Valid c := by
  refine ⟨hy, trivial, trivial, trivial, trivial, trivial, trivial, trivial, ?_, fun b => ⟨trivial, fun b => ?_⟩⟩
  · cases c <;> decide
  · cases b
    · trivial
    · exact hk

/-- The `x` that is tried. -/
private noncomputable def tried (s : Bool) (y : c.K) : c.K :=
  let x : c.K := c.fld.root ((1 - y * y) * (1 - c.d * (y * y))⁻¹)
  if x.val.testBit 0 = s then x else -x

private theorem ideal_init {α : Type} {i j : Nat} {k : Bool → Repaired.CClient α} {ds : List c.K} {Ps : List c.Point} {x y : c.K}
    (hx : ds.getD i 0 = x) (hy : ds.getD j 0 = y) :
    (∀ h : x ^ 2 + y ^ 2 = 1 + c.d * x ^ 2 * y ^ 2,
      (Repaired.CClient.init i j k).ideal c ds Ps = (k true).ideal c ds (Ps ++ [⟨x, y, h⟩])) ∧
    (¬ x ^ 2 + y ^ 2 = 1 + c.d * x ^ 2 * y ^ 2 → (Repaired.CClient.init i j k).ideal c ds Ps = (k false).ideal c ds Ps) := by
  subst hx hy
  exact ⟨fun h => dif_pos h, fun h => dif_neg h⟩

/-- What the decoder computes before it makes the point. -/
private noncomputable def regs (b0 b1 b2 b3 y : c.K) : List c.K :=
  [b0, b1, b2, b3, c.d, y, y * y, c.d * (y * y), 1, 1 - y * y, 1 - c.d * (y * y), (1 - y * y) * (1 - c.d * (y * y))⁻¹,
    c.fld.root ((1 - y * y) * (1 - c.d * (y * y))⁻¹), -c.fld.root ((1 - y * y) * (1 - c.d * (y * y))⁻¹)]

private theorem decode_ideal {α : Type} {ys : List Int} {s : Bool} {k : Repaired.CClient (Option α)} (b0 b1 b2 b3 : c.K) {y : c.K}
    (hy : ((leVal (ys.take c.fld.nbytes) % 2 ^ c.fld.n : Int) : c.K) = y) :
    (Repaired.decode ys s k).ideal c [b0, b1, b2, b3, c.d] [] =
    (Repaired.CClient.init (if (c.fld.root ((1 - y * y) * (1 - c.d * (y * y))⁻¹) : c.K).val.testBit 0 = s then 12 else 13) 5
      fun on => if on then k else .done none).ideal c (regs c b0 b1 b2 b3 y) [] := by
  subst hy
  rfl

private theorem regs_x (s : Bool) (b0 b1 b2 b3 y : c.K) :
    (regs c b0 b1 b2 b3 y).getD
      (if (c.fld.root ((1 - y * y) * (1 - c.d * (y * y))⁻¹) : c.K).val.testBit 0 = s then 12 else 13) 0 = tried c s y := by
  unfold tried
  dsimp only
  split <;> rfl

private theorem tried_eq {s : Bool} {P : c.Point} (h : P.x.val.testBit 0 = s ∨ P.x = 0) : tried c s P.y = P.x := by
  have e : (1 - P.y * P.y) * (1 - c.d * (P.y * P.y))⁻¹ = P.x * P.x := by
    rw [mul_inv_eq_iff_eq_mul₀ (Crv.den_ne c P.y)]
    linear_combination -P.on
  have hr : c.fld.root (P.x * P.x) * c.fld.root (P.x * P.x) = P.x * P.x := (C45_root c.fld ⟨_, rfl⟩).1
  unfold tried
  dsimp only
  rw [e]
  generalize c.fld.root (P.x * P.x) = x at *
  by_cases hx : P.x = 0
  · have : x = 0 := by
      rw [hx, mul_zero] at hr
      exact mul_self_eq_zero.1 hr
    rw [hx, this]
    split
    · rfl
    · exact neg_zero
  · have h := h.resolve_right hx
    rcases mul_self_eq_mul_self_iff.1 hr with h1 | h1
    · rw [h1, if_pos h]
    · rw [h1, if_neg, neg_neg]
      rw [Crv.neg_bit c hx, h]
      cases s <;> decide

/-- C75, decoding: with a point that has this `y` and this lowest bit of `x` (or `x = 0`) the client goes on; without a point that
has this `y` the bytes are rejected. -/
theorem C75_decode (pr : Profile) {a : Elem} (ha : c.fld.Tight a) {α : Type} {ys : List Int} (s : Bool)
    {k : Repaired.CClient (Option α)} (hy : IsBytes ys ∧ c.fld.nbytes ≤ ys.length) (hk : k.Valid c) :
    (∀ P : c.Point, P.y = ((leVal (ys.take c.fld.nbytes) % 2 ^ c.fld.n : Int) : c.K) → (P.x.val.testBit 0 = s ∨ P.x = 0) →
      ∃ more : List c.K, more.length = 9 ∧ (Repaired.decode ys s k).run c pr (c.begin a) [] =
        .ok (k.ideal c ([c.base.x, c.base.y, c.den c.order, c.den a, c.d] ++ more) [P])) ∧
    ((¬ ∃ P : c.Point, P.y = ((leVal (ys.take c.fld.nbytes) % 2 ^ c.fld.n : Int) : c.K)) →
      (Repaired.decode ys s k).run c pr (c.begin a) [] = .ok none) := by
  rw [C74_client c pr _ (decode_valid c hy hk) (c.begin_inv ha) .nil]
  constructor
  · intro P h1 h2
    rw [decode_ideal c _ _ _ _ h1.symm]
    refine ⟨(regs c c.base.x c.base.y (c.den c.order) (c.den a) P.y).drop 5, rfl, congrArg _ ?_⟩
    exact ((ideal_init c (y := P.y) ((regs_x c s _ _ _ _ _).trans (tried_eq c h2)) rfl).1 P.on).trans rfl
  · intro h
    rw [decode_ideal c _ _ _ _ rfl]
    rw [(ideal_init c (regs_x c s _ _ _ _ _) rfl).2 fun h1 => h ⟨⟨_, _, h1⟩, rfl⟩]
    rfl

/-! ## Key agreement with compressed points -/

/-- The secret times the base point, compressed. -/
def Repaired.publicPacked : Repaired.CClient (List Int × Bool) :=
  .init 0 1 fun _ => .mult 0 3 <| .affine 1 <| .packed 6 fun y => .bit 5 0 fun b => .done (y, b)

/-- What follows the decoding: check that the point is in the subgroup of the base point, and return the bytes of `x` of the
product with the secret. -/
def Repaired.finish : Repaired.CClient (Option (List Int)) :=
  .mult 0 2 <| .point .zero <| .same 1 2 fun ok =>
    if ok then .mult 0 3 <| .affine 3 <| .packed 14 fun s => .done (some s) else .done none

/-- The secret times a point that is received in compressed form. -/
def Repaired.sharedPacked (ys : List Int) (s : Bool) : Repaired.CClient (Option (List Int)) :=
  Repaired.decode ys s Repaired.finish

private theorem finish_valid : Repaired.finish.Valid c := by
  intro b
  cases b
  · trivial
  · intro _ _ _; trivial

private theorem secret_val (a : Elem) : (c.den a).val = (c.fld.V a % c.fld.p).toNat := by
  have : ((c.den a).val : Int) = c.fld.V a % c.fld.p := by rw [Crv.den, ZMod.val_intCast, ← Fld.p_eq]
  omega

open Classical in
private theorem finish_ideal (P : c.Point) (a : Elem) {more : List c.K} (hm : more.length = 9) :
    Repaired.finish.ideal c ([c.base.x, c.base.y, c.den c.order, c.den a, c.d] ++ more) [P] =
      if (c.fld.V c.order).toNat • P = 0 then some (leBytes c.fld.nbytes ((c.fld.V a % c.fld.p).toNat • P).x.val) else none := by
  have hpos : ∀ {b : Bool} {A B : Repaired.CClient (Option (List Int))} {ds : List c.K} {Ps : List c.Point} {r : Option (List Int)},
      b = true → A.ideal c ds Ps = r → (if b then A else B).ideal c ds Ps = r := by rintro _ A B ds Ps r rfl h; exact h
  have hneg : ∀ {b : Bool} {A B : Repaired.CClient (Option (List Int))} {ds : List c.K} {Ps : List c.Point} {r : Option (List Int)},
      b = false → B.ideal c ds Ps = r → (if b then A else B).ideal c ds Ps = r := by rintro _ A B ds Ps r rfl h; exact h
  rw [← secret_val, ← c.order_val]
  match more, hm with
  | [_, _, _, _, _, _, _, _, _], _ =>
    by_cases h : (c.den c.order).val • P = 0
    · rw [if_pos h]
      exact hpos (@decide_eq_true _ (Classical.propDecidable _) h) rfl
    · rw [if_neg h]
      exact hneg (@decide_eq_false _ (Classical.propDecidable _) h) rfl

/-- C75: what is made of any bytes and sign that are received.  The point with this `y` and sign is multiplied by the secret if it
is in the subgroup of the base point; if the subgroup has no point with this `y`, the bytes are rejected. -/
theorem C75_shared (pr : Profile) {a : Elem} (ha : c.fld.Tight a) {ys : List Int} (s : Bool)
    (hy : IsBytes ys ∧ c.fld.nbytes ≤ ys.length) :
    (∀ P ∈ AddSubgroup.zmultiples c.base, P.y = ((leVal (ys.take c.fld.nbytes) % 2 ^ c.fld.n : Int) : c.K) →
      (P.x.val.testBit 0 = s ∨ P.x = 0) → (Repaired.sharedPacked ys s).run c pr (c.begin a) [] =
        .ok (some (leBytes c.fld.nbytes ((c.fld.V a % c.fld.p).toNat • P).x.val))) ∧
    ((¬ ∃ P ∈ AddSubgroup.zmultiples c.base, P.y = ((leVal (ys.take c.fld.nbytes) % 2 ^ c.fld.n : Int) : c.K)) →
      (Repaired.sharedPacked ys s).run c pr (c.begin a) [] = .ok none) := by
  obtain ⟨h1, h2⟩ := C75_decode c pr ha s hy (finish_valid c)
  constructor
  · intro P hP ey hs
    obtain ⟨more, hm, h⟩ := h1 P ey hs
    rw [Repaired.sharedPacked, h, finish_ideal c P a hm, if_pos ((C49_edwards_subgroup c P).1 hP)]
  · intro hn
    by_cases he : ∃ P : c.Point, P.y = ((leVal (ys.take c.fld.nbytes) % 2 ^ c.fld.n : Int) : c.K)
    · obtain ⟨P, hP⟩ := he
      have : ∃ Q : c.Point, Q.y = P.y ∧ (Q.x.val.testBit 0 = s ∨ Q.x = 0) := by
        by_cases hx : P.x = 0
        · exact ⟨P, rfl, .inr hx⟩
        by_cases hb : P.x.val.testBit 0 = s
        · exact ⟨P, rfl, .inl hb⟩
        · refine ⟨-P, rfl, .inl ?_⟩
          show (-P.x).val.testBit 0 = s
          rw [Crv.neg_bit c hx]
          revert hb
          cases P.x.val.testBit 0 <;> cases s <;> decide
      obtain ⟨Q, hQ, hs⟩ := this
      obtain ⟨more, hm, h⟩ := h1 Q (hQ.trans hP) hs
      rw [Repaired.sharedPacked, h, finish_ideal c Q a hm,
        if_neg fun h0 => hn ⟨Q, (C49_edwards_subgroup c Q).2 h0, hQ.trans hP⟩]
    · exact h2 he

/-- C75: the compressed public key. -/
theorem C75_public (pr : Profile) {a : Elem} (ha : c.fld.Tight a) :
    Repaired.publicPacked.run c pr (c.begin a) [] =
      .ok (leBytes c.fld.nbytes ((c.fld.V a % c.fld.p).toNat • c.base).y.val,
        ((c.fld.V a % c.fld.p).toNat • c.base).x.val.testBit 0) := by
  rw [C74_client c pr Repaired.publicPacked (by
    intro _ y _ _
    exact ⟨by cases c <;> decide, fun _ => trivial⟩) (c.begin_inv ha) .nil, ← secret_val]
  refine congrArg _ (((ideal_init c (x := c.base.x) (y := c.base.y) rfl rfl).1 c.base.on).trans rfl)

/-- C75, key agreement over compressed points: each party accepts what the other one sends, and both end up with the same
bytes, those of `x` of the product of both secrets with the base point. -/
theorem C75_agreement (pr : Profile) {a b : Elem} (ha : c.fld.Tight a) (hb : c.fld.Tight b) :
    ∃ ay as by' bs, Repaired.publicPacked.run c pr (c.begin a) [] = .ok (ay, as) ∧
      Repaired.publicPacked.run c pr (c.begin b) [] = .ok (by', bs) ∧
      (Repaired.sharedPacked by' bs).run c pr (c.begin a) [] = .ok (some (leBytes c.fld.nbytes
        (((c.fld.V a % c.fld.p).toNat * (c.fld.V b % c.fld.p).toNat) • c.base).x.val)) ∧
      (Repaired.sharedPacked ay as).run c pr (c.begin b) [] = .ok (some (leBytes c.fld.nbytes
        (((c.fld.V a % c.fld.p).toNat * (c.fld.V b % c.fld.p).toNat) • c.base).x.val)) := by
  have hv : ∀ x : c.K, IsBytes (leBytes c.fld.nbytes x.val) ∧ c.fld.nbytes ≤ (leBytes c.fld.nbytes x.val).length :=
    fun x => ⟨leBytes_isBytes _ _, (leBytes_length _ _).ge⟩
  have hm : ∀ k : Nat, k • c.base ∈ AddSubgroup.zmultiples c.base :=
    fun k => AddSubgroup.nsmul_mem _ (AddSubgroup.mem_zmultiples _) k
  refine ⟨_, _, _, _, C75_public c pr ha, C75_public c pr hb, ?_, ?_⟩
  · rw [(C75_shared c pr ha _ (hv _)).1 _ (hm _) (Crv.coord_leBytes c _).symm (.inl rfl), smul_smul]
  · rw [(C75_shared c pr hb _ (hv _)).1 _ (hm _) (Crv.coord_leBytes c _).symm (.inl rfl), smul_smul, mul_comm]

/-- C75: with a secret from `rand` and a point `P` of the order of the base point, received in compressed form, the probability
that the bytes that are returned are in a set `T` differs by at most `1 / 2 ^ 20` from the one for the bytes of `x` of uniform
points of the subgroup. -/
theorem C75_random (pr : Profile) {P : c.Point} (hP : addOrderOf P = c.ell) (T : Set (List Int)) :
    |prob (fun ω : Answers c.fld => ∃ out ∈ T,
        (Repaired.sharedPacked (leBytes c.fld.nbytes P.y.val) (P.x.val.testBit 0)).run c pr (c.begin (c.fld.code.rand ω.rng)) [] =
          .ok (some out)) -
      prob (fun Q : AddSubgroup.zmultiples P => leBytes c.fld.nbytes (Q : c.Point).x.val ∈ T)| ≤ 1 / 2 ^ 20 := by
  have hm : P ∈ AddSubgroup.zmultiples c.base :=
    (C49_edwards_subgroup c P).2 (by
      have := addOrderOf_nsmul_eq_zero P
      rwa [hP] at this)
  have h := C72_distance c hP {Q : c.Point | leBytes c.fld.nbytes Q.x.val ∈ T}
  refine le_of_eq_of_le ?_ h
  congr 3
  funext ω
  refine propext ?_
  have hc := C24_rand_canonical c.fld ω.isRng
  have e : (ω.drawn.val : Int) = c.fld.V (c.fld.code.rand ω.rng) % c.fld.p := by
    haveI : NeZero c.fld.pN := ⟨by cases c <;> decide +kernel⟩
    rw [Answers.drawn, ZMod.val_intCast, ← Fld.p_eq]
  have e' : (c.fld.V (c.fld.code.rand ω.rng) % c.fld.p).toNat = ω.drawn.val := by omega
  rw [(C75_shared c pr hc.tight _ ⟨leBytes_isBytes _ _, (leBytes_length _ _).ge⟩).1 P hm (Crv.coord_leBytes c _).symm (.inl rfl), e']
  constructor
  · rintro ⟨out, h1, h2⟩
    cases h2
    exact h1
  · exact fun h1 => ⟨_, h1, rfl⟩

/-- C75: `y = -1`, of the point of order two only, is rejected with either sign. -/
theorem C75_rejects (pr : Profile) {a : Elem} (ha : c.fld.Tight a) (s : Bool) :
    (Repaired.sharedPacked (leBytes c.fld.nbytes (c.fld.pN - 1)) s).run c pr (c.begin a) [] = .ok none := by
  refine (C75_shared c pr ha s ⟨leBytes_isBytes _ _, (leBytes_length _ _).ge⟩).2 ?_
  rintro ⟨P, hP, hy⟩
  rw [← c.val_neg_one, Crv.coord_leBytes] at hy
  have h := P.on
  rw [hy] at h
  have hx : P.x * P.x = 0 := by
    have h1 : (1 - c.d * (1 * 1)) * (P.x * P.x) = 0 := by linear_combination h
    exact (mul_eq_zero.1 h1).resolve_left (Crv.den_ne c 1)
  have hP2 : P = EdPoint.two := EdPoint.ext (mul_self_eq_zero.1 hx) hy
  exact c.two_not_mem (hP2 ▸ hP)

/-- C75: a point is determined by its compressed form. -/
theorem C75_injective {P Q : c.Point} (hy : P.y = Q.y) (hx : P.x.val.testBit 0 = Q.x.val.testBit 0) : P = Q := by
  have h := tried_eq c (P := P) (.inl rfl)
  rw [hy, hx, tried_eq c (P := Q) (.inl rfl)] at h
  exact EdPoint.ext h.symm hy

end

/-! ## Cases -/

/-- Two parties whose secrets are the coordinates of the base point. -/
example := C75_agreement .e222 .debug (a := Crv.e222.baseX) (b := Crv.e222.baseY) Crv.e222.base_canon.1.tight
  Crv.e222.base_canon.2.1.tight

example := C75_public .e382 .release (a := Crv.e382.baseY) Crv.e382.base_canon.2.1.tight

/-- A client that decodes the base point and doubles it. -/
example (c : Crv) := (C75_decode c .debug c.base_canon.1.tight (c.base.x.val.testBit 0) (ys := leBytes c.fld.nbytes c.base.y.val)
  (k := .point (.double 0) <| .affine 1 <| .packed 14 fun x => .done (some x))
  ⟨leBytes_isBytes _ _, (leBytes_length _ _).ge⟩ (fun _ _ _ => trivial)).1 c.base (Crv.coord_leBytes c _).symm (.inl rfl)

/-- A random secret and the base point. -/
example (T : Set (List Int)) := C75_random .curve41417 .debug (C72_base .curve41417) T

/-- The base point itself is received, by a party with the secret `x` of it. -/
example (c : Crv) : ∃ b, (Repaired.sharedPacked (leBytes c.fld.nbytes c.base.y.val) b).run c .release (c.begin c.baseX) [] =
    .ok (some (leBytes c.fld.nbytes ((c.fld.V c.baseX % c.fld.p).toNat • c.base).x.val)) :=
  ⟨_, (C75_shared c .release c.base_canon.1.tight _ ⟨leBytes_isBytes _ _, (leBytes_length _ _).ge⟩).1 c.base
    (AddSubgroup.mem_zmultiples _) (Crv.coord_leBytes c _).symm (.inl rfl)⟩

/-- The point of order two is received. -/
example := C75_rejects .curve1174 .debug (a := Crv.curve1174.baseY) Crv.curve1174.base_canon.2.1.tight true

/-- The base point and its negative differ in the sign. -/
example (c : Crv) : c.base.x.val.testBit 0 ≠ (-c.base).x.val.testBit 0 := by
  intro h
  have e := C75_injective c (P := c.base) (Q := -c.base) rfl h
  have hx : c.base.x = -c.base.x := congrArg EdPoint.x e
  have h0 : c.base.x = 0 := by
    have : 2 * c.base.x = 0 := by linear_combination hx
    exact (mul_eq_zero.1 this).resolve_left (NeZero.ne (2 : c.K))
  have h1 : ((c.fld.pN : Int)) ∣ c.fld.V c.baseX := (ZMod.intCast_zmod_eq_zero_iff_dvd _ _).1 h0
  revert h1
  cases c <;> decide +kernel

end Verif

import Verif.Curve.RepairedClients
import Verif.Props.Cyclic
import Verif.Props.ScalarMult
import Verif.Props.Encodings

/-!
# Property C74: protocols with the repaired curves

With the repairs of C57, a client that has elements and points cannot tell the code from the field and the group of the
curve.  As an instance: key agreement over byte strings, with the usual checks of what is received.
-/

namespace Verif
open Fld EdwardsExtended

section
variable {c : Crv}

private theorem pt_getD {z : EdwardsExtended Elem} (hz : c.Represents z 0) {Ps : List c.Point}
    {ps : List (EdwardsExtended Elem)} (h : List.Forall₂ (fun P p => c.Represents p P) Ps ps) (i : Nat) :
    c.Represents (ps.getD i z) (Ps.getD i 0) := by
  induction h generalizing i with
  | nil => exact hz
  | cons h1 _ ih =>
    cases i with
    | zero => exact h1
    | succ i => exact ih i

private theorem pt_snoc {Ps : List c.Point} {ps : List (EdwardsExtended Elem)}
    (h : List.Forall₂ (fun P p => c.Represents p P) Ps ps) {P : c.Point} {p : EdwardsExtended Elem}
    (hp : c.Represents p P) : List.Forall₂ (fun P p => c.Represents p P) (Ps ++ [P]) (ps ++ [p]) := by
  induction h with
  | nil => exact .cons hp .nil
  | cons h1 _ ih => exact .cons h1 ih

end

/-- C74, clients: a client of a repaired curve gets the answers and returns the result of the same client computing in
`ℤ / p` and in the group of the curve, and does not panic. -/
theorem C74_client (c : Crv) (pr : Profile) {α : Type} (k : Repaired.CClient α) :
    ∀ {ds : List c.K} {rs : List Elem} {Ps : List c.Point} {ps : List (EdwardsExtended Elem)}, k.Valid c →
      List.Forall₂ (Repaired.Inv c.fld) ds rs → List.Forall₂ (fun P p => c.Represents p P) Ps ps →
      k.run c pr rs ps = .ok (k.ideal c ds Ps) := by
  have hz : Repaired.Inv c.fld 0 c.fld.code.ZERO :=
    ⟨(zero_canon c.fld).tight, by rw [(zero_canon c.fld).2.1, Int.cast_zero]⟩
  have hzp : c.Represents (Repaired.zero (Repaired.scalar c pr)) 0 := Repaired.zero_repr (Repaired.lawful c pr)
  induction k with
  | done x => intro ds rs Ps ps _ _ _; rfl
  | step o k ih =>
    intro ds rs Ps ps hu h hp
    obtain ⟨x, h1, h2⟩ := Repaired.Instr.step (pr := pr) h hu.1
    simp only [Repaired.CClient.run, Repaired.CClient.ideal, h1, bind, Except.bind]
    exact ih hu.2 (forall₂_snoc h h2) hp
  | normalize i k ih =>
    intro ds rs Ps ps hu h hp
    have hi := forall₂_getD hz h i
    obtain ⟨r, h1, h2⟩ := Repaired.normalize_ok c.fld pr hi.1.rep
    simp only [Repaired.CClient.run, Repaired.CClient.ideal, h1, bind, Except.bind]
    exact ih hu (forall₂_set h i (hi.of_canon h2)) hp
  | eq i j k ih =>
    intro ds rs Ps ps hu h hp
    have hi := forall₂_getD hz h i
    have hj := forall₂_getD hz h j
    obtain ⟨x, y, b, h1, h2, h3, h4⟩ := C58_normalize_eq c.fld pr hi.1.rep hj.1.rep
    have hb : b = decide (ds.getD i 0 = ds.getD j 0) := by
      rw [modEq_iff, hi.2, hj.2] at h4
      rw [Bool.eq_iff_iff, h4, decide_eq_true_eq]
    simp only [Repaired.CClient.run, Repaired.CClient.ideal, h1, bind, Except.bind]
    convert ih b (hu b) (forall₂_set (forall₂_set h i (hi.of_canon h2)) j (hj.of_canon h3)) hp using 4
    rw [hb]
  | bit i idx k ih =>
    intro ds rs Ps ps hu h hp
    have hi := forall₂_getD hz h i
    obtain ⟨x, h1, h2⟩ := (C58_bit c.fld pr hi.1.rep idx).1 hu.1
    have hb : decide ((c.fld.V (rs.getD i c.fld.code.ZERO) % c.fld.p) / 2 ^ idx % 2 = 1) =
        (ds.getD i 0).val.testBit idx := by
      rw [val_cast hi.2, Nat.testBit_eq_decide_div_mod_eq]
      exact decide_eq_decide.mpr (by norm_cast)
    rw [hb] at h1
    simp only [Repaired.CClient.run, Repaired.CClient.ideal, h1, bind, Except.bind]
    exact ih _ (hu.2 _) (forall₂_set h i (hi.of_canon h2)) hp
  | packed i k ih =>
    intro ds rs Ps ps hu h hp
    have hi := forall₂_getD hz h i
    obtain ⟨x, out, h1, h2, h3, -⟩ := C58_packed c.fld pr hi.1.rep false
    rw [val_cast hi.2, Int.toNat_natCast] at h3
    subst h3
    simp only [Repaired.CClient.run, Repaired.CClient.ideal, h1, bind, Except.bind]
    exact ih _ (hu _ (leBytes_length _ _) (leBytes_isBytes _ _)) (forall₂_set h i (hi.of_canon h2)) hp
  | hex upper i k ih =>
    intro ds rs Ps ps hu h hp
    have hi := forall₂_getD hz h i
    obtain ⟨x, out, -, -, -, h1⟩ := C58_packed c.fld pr hi.1.rep upper
    rw [val_cast hi.2, Int.toNat_natCast] at h1
    simp only [Repaired.CClient.run, Repaired.CClient.ideal, h1, bind, Except.bind]
    exact ih _ (hu _) h hp
  | point o k ih =>
    intro ds rs Ps ps hu h hp
    have g := pt_getD hzp hp
    have : ∃ q, o.exec c pr ps = .ok q ∧ c.Represents q (o.ideal c Ps) := by
      cases o with
      | zero => exact ⟨_, rfl, hzp⟩
      | add i j => exact (C57_points c pr (g i) (g j)).1
      | double i =>
        obtain ⟨q, h1, h2⟩ := (C57_points c pr (g i) (g i)).2.1
        exact ⟨q, h1, by rw [Repaired.PtInstr.ideal, two_nsmul]; exact h2⟩
      | triple i =>
        obtain ⟨q, h1, h2⟩ := (C57_points c pr (g i) (g i)).2.2.1
        refine ⟨q, h1, ?_⟩
        rw [Repaired.PtInstr.ideal, show (3 : Nat) = 2 + 1 from rfl, add_nsmul, two_nsmul, one_nsmul]
        exact h2
    obtain ⟨q, h1, h2⟩ := this
    simp only [Repaired.CClient.run, Repaired.CClient.ideal, h1, bind, Except.bind]
    exact ih hu h (pt_snoc hp h2)
  | mult p i k ih =>
    intro ds rs Ps ps hu h hp
    have hi := forall₂_getD hz h i
    obtain ⟨q, x, h1, h2, h3⟩ := C57_scalar_mult c pr (pt_getD hzp hp p) hi.1
    rw [val_cast hi.2, Int.toNat_natCast] at h2
    simp only [Repaired.CClient.run, Repaired.CClient.ideal, h1, bind, Except.bind]
    exact ih hu (forall₂_set h i (hi.of_canon h3)) (pt_snoc hp h2)
  | init i j k ih =>
    intro ds rs Ps ps hu h hp
    have hi := forall₂_getD hz h i
    have hj := forall₂_getD hz h j
    obtain ⟨b, h1, h2⟩ := Repaired.onCurve_ok pr hi.1 hj.1
    have e1 : c.den (rs.getD i c.fld.code.ZERO) = ds.getD i 0 := hi.2
    have e2 : c.den (rs.getD j c.fld.code.ZERO) = ds.getD j 0 := hj.2
    rw [e1, e2] at h2
    simp only [Repaired.CClient.run, Repaired.CClient.ideal, h1, bind, Except.bind]
    by_cases hb : ds.getD i 0 ^ 2 + ds.getD j 0 ^ 2 = 1 + c.d * ds.getD i 0 ^ 2 * ds.getD j 0 ^ 2
    · obtain ⟨q, h3, h4⟩ := Repaired.init_ok pr hi.1 hj.1 (P := ⟨ds.getD i 0, ds.getD j 0, hb⟩) e1 e2
      simp only [h2.mpr hb, if_pos hb, h3, dif_pos hb]
      exact ih _ (hu _) h (pt_snoc hp h4)
    · have hf : b = false := Bool.eq_false_iff.mpr fun h => hb (h2.mp h)
      simp only [hf, dif_neg hb]
      exact ih _ (hu _) h hp
  | affine p k ih =>
    intro ds rs Ps ps hu h hp
    obtain ⟨x, y, h1, h2, h3⟩ := Repaired.affine_ok pr (pt_getD hzp hp p)
    simp only [Repaired.CClient.run, Repaired.CClient.ideal, h1, bind, Except.bind]
    refine ih hu ?_ hp
    have := forall₂_snoc (forall₂_snoc h h2) h3
    rwa [List.append_assoc, List.append_assoc] at this
  | same p q k ih =>
    intro ds rs Ps ps hu h hp
    obtain ⟨b, h1, h2⟩ := Repaired.samePoint_ok pr (pt_getD hzp hp p) (pt_getD hzp hp q)
    simp only [Repaired.CClient.run, Repaired.CClient.ideal, h1, bind, Except.bind]
    have hb : b = @decide (Ps.getD p 0 = Ps.getD q 0) (Classical.propDecidable _) := by
      rw [Bool.eq_iff_iff, h2]
      exact (@decide_eq_true_iff _ (Classical.propDecidable _)).symm
    rw [← hb]
    exact ih b (hu b) h hp

/-! ## Key agreement -/

/-- The constants of a curve and a secret scalar, which the programs below start with. -/
def Crv.start (c : Crv) (a : Elem) : List Elem := [c.baseX, c.baseY, c.order, a]

/-- The affine coordinates of the secret times the base point, as bytes. -/
def Repaired.publicKey : Repaired.CClient (List Int × List Int) :=
  .init 0 1 fun _ => .mult 0 3 <| .affine 1 <| .packed 4 fun x => .packed 5 fun y => .done (x, y)

/-- The secret times a point that is received as the bytes of its affine coordinates: check that it is on the curve and in
the subgroup of the base point, and return the bytes of `x` of the product. -/
def Repaired.shared (bx by' : List Int) : Repaired.CClient (Option (List Int)) :=
  .step (.op (.bytes bx)) <| .step (.op (.bytes by')) <| .init 4 5 fun on =>
    if on then
      .mult 0 2 <| .point .zero <| .same 1 2 fun ok =>
        if ok then .mult 0 3 <| .affine 3 <| .packed 6 fun s => .done (some s) else .done none
    else .done none

section
variable (c : Crv) (pr : Profile)

theorem Crv.start_inv {a : Elem} (ha : c.fld.Tight a) :
    List.Forall₂ (Repaired.Inv c.fld) [c.base.x, c.base.y, c.den c.order, c.den a] (c.start a) := by
  obtain ⟨h1, h2, h3⟩ := c.base_canon
  exact .cons ⟨h1.tight, rfl⟩ (.cons ⟨h2.tight, rfl⟩ (.cons ⟨h3.tight, rfl⟩ (.cons ⟨ha, rfl⟩ .nil)))

theorem Crv.order_val : (c.den c.order).val = (c.fld.V c.order).toNat := by
  have h := c.base_canon.2.2
  have : ((c.den c.order).val : Int) = c.fld.V c.order := by
    rw [Crv.den, ZMod.val_intCast, ← Fld.p_eq, Int.emod_eq_of_lt h.2.2.1 h.2.2.2]
  omega

/-- C74: the public key of the secret `a` is the affine coordinates of `a` times the base point. -/
theorem C74_public {a : Elem} (ha : c.fld.Tight a) :
    Repaired.publicKey.run c pr (c.start a) [] =
      .ok (leBytes c.fld.nbytes ((c.fld.V a % c.fld.p).toNat • c.base).x.val,
        leBytes c.fld.nbytes ((c.fld.V a % c.fld.p).toNat • c.base).y.val) := by
  have e : (c.den a).val = (c.fld.V a % c.fld.p).toNat := by
    have : ((c.den a).val : Int) = c.fld.V a % c.fld.p := by rw [Crv.den, ZMod.val_intCast, ← Fld.p_eq]
    omega
  rw [C74_client c pr Repaired.publicKey (by
    intro _ x _ _ y _ _; trivial) (Crv.start_inv c ha) .nil, ← e]
  simp only [Repaired.publicKey, Repaired.CClient.ideal, List.getD_cons_zero, List.getD_cons_succ, List.nil_append]
  rw [dif_pos c.base.on]
  rfl

/-- The coordinate that is read from bytes. -/
private noncomputable abbrev coord (bs : List Int) : c.K := ((leVal (bs.take c.fld.nbytes) % 2 ^ c.fld.n : Int) : c.K)

private theorem shared_valid {bx by' : List Int} (hx : IsBytes bx ∧ c.fld.nbytes ≤ bx.length)
    (hy : IsBytes by' ∧ c.fld.nbytes ≤ by'.length) : (Repaired.shared bx by').Valid c := by
  refine ⟨hx, hy, fun b => ?_⟩
  cases b
  · trivial
  · intro b
    cases b
    · trivial
    · intro _ _ _; trivial

open Classical in
private theorem shared_run {a : Elem} (ha : c.fld.Tight a) {bx by' : List Int} (hx : IsBytes bx ∧ c.fld.nbytes ≤ bx.length)
    (hy : IsBytes by' ∧ c.fld.nbytes ≤ by'.length) :
    (Repaired.shared bx by').run c pr (c.start a) [] = .ok
      (if h : coord c bx ^ 2 + coord c by' ^ 2 = 1 + c.d * coord c bx ^ 2 * coord c by' ^ 2 then
        if (c.fld.V c.order).toNat • (⟨coord c bx, coord c by', h⟩ : c.Point) = 0 then
          some (leBytes c.fld.nbytes ((c.fld.V a % c.fld.p).toNat • (⟨coord c bx, coord c by', h⟩ : c.Point)).x.val)
        else none
      else none) := by
  have e : (c.den a).val = (c.fld.V a % c.fld.p).toNat := by
    have : ((c.den a).val : Int) = c.fld.V a % c.fld.p := by rw [Crv.den, ZMod.val_intCast, ← Fld.p_eq]
    omega
  rw [C74_client c pr _ (shared_valid c hx hy) (Crv.start_inv c ha) .nil, ← e, ← Crv.order_val]
  have hpos : ∀ {b : Bool} {A B : Repaired.CClient (Option (List Int))} {ds : List c.K} {Ps : List c.Point} {r : Option (List Int)},
      b = true → A.ideal c ds Ps = r → (if b then A else B).ideal c ds Ps = r := by rintro _ A B ds Ps r rfl h; exact h
  have hneg : ∀ {b : Bool} {A B : Repaired.CClient (Option (List Int))} {ds : List c.K} {Ps : List c.Point} {r : Option (List Int)},
      b = false → B.ideal c ds Ps = r → (if b then A else B).ideal c ds Ps = r := by rintro _ A B ds Ps r rfl h; exact h
  simp only [Repaired.shared, Repaired.CClient.ideal]
  congr 1
  by_cases h : coord c bx ^ 2 + coord c by' ^ 2 = 1 + c.d * coord c bx ^ 2 * coord c by' ^ 2
  · rw [dif_pos h]
    refine (dif_pos h).trans ?_
    simp only [if_true, Repaired.CClient.ideal]
    by_cases h2 : (c.den c.order).val • (⟨coord c bx, coord c by', h⟩ : c.Point) = 0
    · rw [if_pos h2]
      exact hpos (@decide_eq_true _ (Classical.propDecidable _) h2) rfl
    · rw [if_neg h2]
      exact hneg (@decide_eq_false _ (Classical.propDecidable _) h2) rfl
  · rw [dif_neg h]
    exact dif_neg h

/-- C74: what is made of any two byte strings that are received.  If they are the coordinates of a point of the subgroup of
the base point, the bytes of `x` of the multiple of that point by the secret; otherwise they are rejected. -/
theorem C74_shared {a : Elem} (ha : c.fld.Tight a) {bx by' : List Int} (hx : IsBytes bx ∧ c.fld.nbytes ≤ bx.length)
    (hy : IsBytes by' ∧ c.fld.nbytes ≤ by'.length) :
    (∀ P ∈ AddSubgroup.zmultiples c.base, P.x = ((leVal (bx.take c.fld.nbytes) % 2 ^ c.fld.n : Int) : c.K) →
      P.y = ((leVal (by'.take c.fld.nbytes) % 2 ^ c.fld.n : Int) : c.K) →
      (Repaired.shared bx by').run c pr (c.start a) [] =
        .ok (some (leBytes c.fld.nbytes ((c.fld.V a % c.fld.p).toNat • P).x.val))) ∧
    ((¬ ∃ P ∈ AddSubgroup.zmultiples c.base, P.x = ((leVal (bx.take c.fld.nbytes) % 2 ^ c.fld.n : Int) : c.K) ∧
      P.y = ((leVal (by'.take c.fld.nbytes) % 2 ^ c.fld.n : Int) : c.K)) →
      (Repaired.shared bx by').run c pr (c.start a) [] = .ok none) := by
  have h := shared_run c pr ha hx hy
  refine ⟨fun P hP ex ey => ?_, fun hn => ?_⟩
  · have h1 := P.on
    rw [ex, ey] at h1
    have h2 : (⟨_, _, h1⟩ : c.Point) = P := EdPoint.ext ex.symm ey.symm
    rw [h, dif_pos h1, h2, if_pos ((C49_edwards_subgroup c P).1 hP)]
  · rw [h]
    split
    · next h1 =>
      rw [if_neg fun h2 => hn ⟨⟨_, _, h1⟩, (C49_edwards_subgroup c _).2 h2, rfl, rfl⟩]
    · rfl

theorem Crv.coord_leBytes (x : c.K) :
    ((leVal ((leBytes c.fld.nbytes x.val).take c.fld.nbytes) % 2 ^ c.fld.n : Int) : c.K) = x := by
  have h1 : x.val < c.fld.pN := ZMod.val_lt x
  have h2 : c.fld.pN < 2 ^ c.fld.n := by cases c <;> decide +kernel
  have h3 : c.fld.pN < 2 ^ (8 * c.fld.nbytes) := by cases c <;> decide +kernel
  rw [List.take_of_length_le (leBytes_length _ _).le, leVal_leBytes _ _ (h1.trans h3),
    Int.emod_eq_of_lt (by positivity) (by exact_mod_cast h1.trans h2), Int.cast_natCast, ZMod.natCast_zmod_val]

/-- C74, key agreement over bytes: each party accepts what the other one sends, and both end up with the same bytes, those
of `x` of the product of both secrets with the base point. -/
theorem C74_agreement {a b : Elem} (ha : c.fld.Tight a) (hb : c.fld.Tight b) :
    ∃ ax ay bx by', Repaired.publicKey.run c pr (c.start a) [] = .ok (ax, ay) ∧
      Repaired.publicKey.run c pr (c.start b) [] = .ok (bx, by') ∧
      (Repaired.shared bx by').run c pr (c.start a) [] = .ok (some (leBytes c.fld.nbytes
        (((c.fld.V a % c.fld.p).toNat * (c.fld.V b % c.fld.p).toNat) • c.base).x.val)) ∧
      (Repaired.shared ax ay).run c pr (c.start b) [] = .ok (some (leBytes c.fld.nbytes
        (((c.fld.V a % c.fld.p).toNat * (c.fld.V b % c.fld.p).toNat) • c.base).x.val)) := by
  have hv : ∀ x : c.K, IsBytes (leBytes c.fld.nbytes x.val) ∧ c.fld.nbytes ≤ (leBytes c.fld.nbytes x.val).length :=
    fun x => ⟨leBytes_isBytes _ _, (leBytes_length _ _).ge⟩
  have hm : ∀ k : Nat, k • c.base ∈ AddSubgroup.zmultiples c.base :=
    fun k => AddSubgroup.nsmul_mem _ (AddSubgroup.mem_zmultiples _) k
  refine ⟨_, _, _, _, C74_public c pr ha, C74_public c pr hb, ?_, ?_⟩
  · rw [(C74_shared c pr ha (hv _) (hv _)).1 _ (hm _) (Crv.coord_leBytes c _).symm (Crv.coord_leBytes c _).symm, smul_smul]
  · rw [(C74_shared c pr hb (hv _) (hv _)).1 _ (hm _) (Crv.coord_leBytes c _).symm (Crv.coord_leBytes c _).symm, smul_smul,
      mul_comm]

end

/-- The point of order two is not in the subgroup of the base point. -/
theorem Crv.two_not_mem (c : Crv) : (EdPoint.two : c.Point) ∉ AddSubgroup.zmultiples c.base := by
  intro hP
  have hk := (C49_edwards_subgroup c _).1 hP
  have ho : (c.fld.V c.order).toNat = 2 * ((c.fld.V c.order).toNat / 2) + 1 := by cases c <;> decide +kernel
  have hd : 2 • (EdPoint.two : c.Point) = 0 := by
    rw [two_nsmul]
    refine EdPoint.ext ?_ ?_
    · rw [EdPoint.add_x]; simp [EdPoint.two]
    · rw [EdPoint.add_y]; simp [EdPoint.two]
  rw [ho, add_nsmul, mul_comm, mul_nsmul', hd, smul_zero, zero_add, one_nsmul] at hk
  exact EdPoint.two_ne_zero' hk

theorem Crv.val_neg_one (c : Crv) : (-1 : c.K).val = c.fld.pN - 1 := by
  haveI : Fact (1 < c.fld.pN) := ⟨by cases c <;> decide +kernel⟩
  rw [ZMod.neg_val, if_neg one_ne_zero, ZMod.val_one]

/-- C74: the point `(0, -1)` of order two is rejected, so that it reveals nothing about the secret. -/
theorem C74_rejects (c : Crv) (pr : Profile) {a : Elem} (ha : c.fld.Tight a) :
    (Repaired.shared (leBytes c.fld.nbytes 0) (leBytes c.fld.nbytes (c.fld.pN - 1))).run c pr (c.start a) [] = .ok none := by
  have hv : ∀ v, IsBytes (leBytes c.fld.nbytes v) ∧ c.fld.nbytes ≤ (leBytes c.fld.nbytes v).length :=
    fun v => ⟨leBytes_isBytes _ _, (leBytes_length _ _).ge⟩
  refine (C74_shared c pr ha (hv _) (hv _)).2 ?_
  rintro ⟨P, hP, hx, hy⟩
  have e0 : ((0 : c.K)).val = 0 := ZMod.val_zero
  rw [← e0, Crv.coord_leBytes] at hx
  rw [← c.val_neg_one, Crv.coord_leBytes] at hy
  have hP2 : P = EdPoint.two := EdPoint.ext hx hy
  exact c.two_not_mem (hP2 ▸ hP)

open Ladder in
/-- C74: the repaired ladder executes the same statements in the same order with the same loop indices, whatever the points
and scalars, for any scalar type (C32). -/
theorem C74_trace {S : Type} (C : Scalar S) {k k' : S} {s s' t t' : Ladder S} {ev ev' : List Event}
    (h : Ladder.loop C k Repaired.ladder C.nbits 0 s = .ok (t, ev))
    (h' : Ladder.loop C k' Repaired.ladder C.nbits 0 s' = .ok (t', ev')) : ev = ev' := by
  have key : ∀ (k : S) (n i : Nat) {s s' : Ladder S} {ev}, Ladder.loop C k Repaired.ladder n i s = .ok (s', ev) →
      ev = (List.range' i n).flatMap fun i => Repaired.ladder.map fun a => ⟨i, a⟩ := by
    intro k n
    induction n with
    | zero => intro i s s' ev h; cases h; rfl
    | succ n ih =>
      intro i s s' ev h
      simp only [loop, bind, Except.bind, pure, Except.pure] at h
      split at h
      · cases h
      · next r h1 =>
        split at h
        · cases h
        · next r' h2 =>
          cases h
          rw [ih _ h2, execAll_events Repaired.ladder (by decide) h1, List.range'_succ, List.flatMap_cons]
  rw [key _ _ _ h, key _ _ _ h']

/-! ## Cases -/

/-- Two parties whose secrets are the coordinates of the base point. -/
example := C74_agreement .e521 .debug (a := Crv.e521.baseX) (b := Crv.e521.baseY) Crv.e521.base_canon.1.tight
  Crv.e521.base_canon.2.1.tight

example := C74_public .curve1174 .release (a := Crv.curve1174.order) Crv.curve1174.base_canon.2.2.tight

/-- `order` as a secret: the public key is the neutral element. -/
example : ∃ x y, Repaired.publicKey.run .curve1174 .release (Crv.curve1174.start Crv.curve1174.order) [] = .ok (x, y) ∧
    x = leBytes 32 0 ∧ y = leBytes 32 1 := by
  have h := C74_public .curve1174 .release (a := Crv.curve1174.order) Crv.curve1174.base_canon.2.2.tight
  have e : (Crv.curve1174.fld.V Crv.curve1174.order % Crv.curve1174.fld.p).toNat =
      (Crv.curve1174.fld.V Crv.curve1174.order).toNat := by decide +kernel
  rw [e, (C49_edwards_subgroup .curve1174 Crv.curve1174.base).1 (AddSubgroup.mem_zmultiples _)] at h
  exact ⟨_, _, h, rfl, rfl⟩

/-- The point of order two is received. -/
example := C74_rejects .e382 .release (a := Crv.e382.baseX) Crv.e382.base_canon.1.tight

/-- Bytes that are not the coordinates of a point: `x = y = 0`. -/
example : (Repaired.shared (leBytes 28 0) (leBytes 28 0)).run .e222 .debug (Crv.e222.start Crv.e222.baseY) [] = .ok none := by
  refine (C74_shared .e222 .debug Crv.e222.base_canon.2.1.tight (bx := leBytes 28 0) (by' := leBytes 28 0)
    ⟨leBytes_isBytes _ _, (leBytes_length _ _).ge⟩ ⟨leBytes_isBytes _ _, (leBytes_length _ _).ge⟩).2 ?_
  rintro ⟨P, -, hx, hy⟩
  have e : leVal ((leBytes 28 0).take Crv.e222.fld.nbytes) % 2 ^ Crv.e222.fld.n = 0 := by decide +kernel
  rw [e, Int.cast_zero] at hx hy
  have h := P.on
  rw [hx, hy] at h
  exact one_ne_zero (α := Crv.e222.K) (by linear_combination -h)

/-- A client that makes the base point, its double and its triple and compares the sum of the former with the latter. -/
example : (Repaired.CClient.init 0 1 fun _ => .point (.double 0) <| .point (.add 0 1) <| .point (.triple 0) <|
      .same 2 3 fun b => .done b).run .curve41417 .debug (Crv.curve41417.start Crv.curve41417.order) [] = .ok true := by
  rw [C74_client .curve41417 .debug _ (by intro _ _; trivial) (Crv.start_inv _ Crv.curve41417.base_canon.2.2.tight) .nil]
  simp only [Repaired.CClient.ideal, Repaired.PtInstr.ideal, List.getD_cons_zero, List.getD_cons_succ]
  rw [dif_pos Crv.curve41417.base.on]
  refine congrArg _ (@decide_eq_true _ (Classical.propDecidable _) ?_)
  show Crv.curve41417.base + 2 • Crv.curve41417.base = 3 • Crv.curve41417.base
  rw [show (3 : Nat) = 1 + 2 from rfl, add_nsmul, one_nsmul]

/-- Two scalars on one curve, for any point. -/
example {p : EdwardsExtended Elem} {P : Crv.e521.Point} (hp : Crv.e521.Represents p P) : ∃ k k' t t' ev ev' s,
    Ladder.loop (Repaired.scalar .e521 .debug) k Repaired.ladder 521 0 s = .ok (t, ev) ∧
    Ladder.loop (Repaired.scalar .e521 .debug) k' Repaired.ladder 521 0 s = .ok (t', ev') ∧ s.r1 = p ∧ k ≠ k' ∧ ev = ev' := by
  have key : ∀ {k : Elem}, Crv.e521.fld.Canon (Crv.e521.fld.V k) k → ∃ t ev, Ladder.loop (Repaired.scalar .e521 .debug) k Repaired.ladder 521 0
      ⟨Repaired.zero (Repaired.scalar .e521 .debug), p, Repaired.zero (Repaired.scalar .e521 .debug), p, 0, false,
        (Repaired.scalar .e521 .debug).filled false, (Repaired.scalar .e521 .debug).filled false⟩ = .ok (t, ev) := by
    intro k hk
    obtain ⟨q, x, h1, h2, h3⟩ := C57_scalar_mult .e521 .debug hp hk.tight
    have hx : (Repaired.scalar .e521 .debug).normalize k = .ok k := by
      obtain ⟨r, h4, h5⟩ := Repaired.normalize_ok Crv.e521.fld .debug hk.tight.rep
      rw [Int.emod_eq_of_lt hk.2.2.1 hk.2.2.2] at h5
      rw [← C09_canonical_unique _ h5 hk] at h4 ⊢
      exact h4
    simp only [Repaired.scalarMult, hx, bind, Except.bind, Repaired.scalarMultNormalized] at h1
    split at h1
    · cases h1
    · next h =>
      split at h
      · cases h
      · next r h' => exact ⟨r.1, r.2, h'⟩
  obtain ⟨t, ev, h⟩ := key Crv.e521.base_canon.1
  obtain ⟨t', ev', h'⟩ := key Crv.e521.base_canon.2.2
  exact ⟨Crv.e521.baseX, Crv.e521.order, _, _, _, _, _, h, h', rfl, by decide +kernel, C74_trace _ h h'⟩

end Verif

import Verif.Curve.AgreeE222
import Verif.Curve.AgreeCurve1174
import Verif.Curve.AgreeE382
import Verif.Curve.AgreeCurve41417
import Verif.Curve.AgreeE521

/-!
# Property C63: key agreement

Two parties multiply a common point by their secret scalars, exchange the results and multiply
once more.  They agree on the result if multiplication by `a` and then by `b` gives the same point
as by `b` and then by `a`.  This is a weaker demand than C31.
-/

namespace Verif
open EdwardsExtended

/-- Both coordinates of the projective points are the same. -/
def Crv.SamePoint (c : Crv) (r s : EdwardsExtended Elem) : Prop :=
  c.den r.z ≠ 0 ∧ c.den s.z ≠ 0 ∧ c.den r.x * c.den s.z = c.den s.x * c.den r.z ∧
    c.den r.y * c.den s.z = c.den s.y * c.den r.z

/-- C63 in full. -/
def C63_statement : Prop := ∀ (c : Crv) (pr : Profile) (p : EdwardsExtended Elem) (P : c.Point)
  (a b : Elem) (x y : Int), c.Represents p P → c.fld.Canon x a → c.fld.Canon y b →
    ∃ pa pb pab pba a' b' a'' b'', p.scalarMult (c.scalar pr) a = .ok (pa, a') ∧
      p.scalarMult (c.scalar pr) b = .ok (pb, b') ∧
      pa.scalarMult (c.scalar pr) b = .ok (pab, b'') ∧
      pb.scalarMult (c.scalar pr) a = .ok (pba, a'') ∧ c.SamePoint pab pba

section Exact
variable {S : Type} {C : Scalar S} {m : Nat} [Fact m.Prime] {d : ZMod m} [Fact (¬ IsSquare d)]
  [NeZero (2 : ZMod m)] {ok : S → Prop} {den : S → ZMod m}

/-- Over a correct scalar type, the ladder of the code, started with a representation of the neutral
element, makes the two parties agree: what it computes is not `k P`, but a multiple of `P` by a
number that depends only on `k`. -/
theorem C63_ladder_exact_partial (L : C.Lawful m d ok den) {a b : S} (ha : ok a) (hb : ok b)
    {s : Ladder S} {P : EdPoint (ZMod m) d} (h0 : s.r0.Repr ok den (0 : EdPoint (ZMod m) d))
    (h1 : s.r1.Repr ok den P) :
    ∃ a' b' sa ea sb eb, C.normalize a = .ok a' ∧ C.normalize b = .ok b' ∧
      Ladder.loop C a' Ladder.body C.nbits 0 s = .ok (sa, ea) ∧
      Ladder.loop C b' Ladder.body C.nbits 0 s = .ok (sb, eb) ∧
      ∃ sab eab sba eba T,
        Ladder.loop C b' Ladder.body C.nbits 0 { s with r1 := sa.r0 } = .ok (sab, eab) ∧
        Ladder.loop C a' Ladder.body C.nbits 0 { s with r1 := sb.r0 } = .ok (sba, eba) ∧
        sab.r0.Repr ok den T ∧ sba.r0.Repr ok den (T : EdPoint (ZMod m) d) := by
  obtain ⟨a', sa, ea, a1, a2, a3⟩ := C31_ladder_exact L ha h0 h1
  obtain ⟨b', sb, eb, b1, b2, b3⟩ := C31_ladder_exact L hb h0 h1
  obtain ⟨b'', sab, eab, b1', c2, c3⟩ :=
    C31_ladder_exact L hb (s := { s with r1 := sa.r0 }) h0 a3
  obtain ⟨a'', sba, eba, a1', d2, d3⟩ :=
    C31_ladder_exact L ha (s := { s with r1 := sb.r0 }) h0 b3
  obtain rfl : b' = b'' := Except.ok.inj (b1.symm.trans b1')
  obtain rfl : a' = a'' := Except.ok.inj (a1.symm.trans a1')
  refine ⟨a', b', sa, ea, sb, eb, a1, b1, a2, b2, sab, eab, sba, eba, _, c2, d2, c3, ?_⟩
  rw [smul_comm]
  exact d3

/-- Over a correct scalar type, `scalar_mult` as it stands makes the two parties agree for points with
`x y = 0`, for which the wrong `t` of `zero()` does not matter. -/
theorem C63_scalar_mult_exact_partial (L : C.Lawful m d ok den) {a b : S} (ha : ok a) (hb : ok b)
    {p : EdwardsExtended S} {P : EdPoint (ZMod m) d} (hp : p.Repr ok den P) (hxy : P.x * P.y = 0) :
    ∃ pa pb pab pba a' b' a'' b'' T, p.scalarMult C a = .ok (pa, a') ∧
      p.scalarMult C b = .ok (pb, b') ∧ pa.scalarMult C b = .ok (pab, b'') ∧
      pb.scalarMult C a = .ok (pba, a'') ∧ pab.Repr ok den T ∧
      pba.Repr ok den (T : EdPoint (ZMod m) d) := by
  have key : ∀ n : Nat, (n • P).x * (n • P).y = 0 := by
    intro n
    induction n with
    | zero => rw [zero_smul]; simp
    | succ n ih =>
      rw [succ_nsmul, EdPoint.add_x, EdPoint.add_y]
      generalize n • P = Q at *
      rw [div_mul_div_comm, div_eq_zero_iff]
      left
      linear_combination (P.y ^ 2 - P.x ^ 2) * ih + (Q.y ^ 2 - Q.x ^ 2) * hxy
  obtain ⟨pa, a', a1, a2⟩ := C31_scalar_mult_exact L ha hp hxy
  obtain ⟨pb, b', b1, b2⟩ := C31_scalar_mult_exact L hb hp hxy
  obtain ⟨pab, b'', c1, c2⟩ := C31_scalar_mult_exact L hb a2 (key _)
  obtain ⟨pba, a'', d1, d2⟩ := C31_scalar_mult_exact L ha b2 (key _)
  refine ⟨pa, pb, pab, pba, a', b', a'', b'', _, a1, b1, c1, d1, c2, ?_⟩
  rw [smul_comm]
  exact d2

end Exact

/-- A correct scalar type for each of the five curves, a point with `x y = 0` that is not neutral, and
two scalars. -/
example (c : Crv) (i j : c.K) : ∃ pa pb pab pba a' b' a'' b'',
    (⟨.val 0, .val (-1), .val 1, .val 0⟩ : EdwardsExtended (Ideal c.K)).scalarMult c.ideal (.val i) =
      .ok (pa, a') ∧
    (⟨.val 0, .val (-1), .val 1, .val 0⟩ : EdwardsExtended (Ideal c.K)).scalarMult c.ideal (.val j) =
      .ok (pb, b') ∧
    pa.scalarMult c.ideal (.val j) = .ok (pab, b'') ∧
    pb.scalarMult c.ideal (.val i) = .ok (pba, a'') ∧
    ∃ T : c.Point, pab.Repr Ideal.Ok Ideal.den T ∧ pba.Repr Ideal.Ok Ideal.den T := by
  have hp : (⟨.val 0, .val (-1), .val 1, .val 0⟩ : EdwardsExtended (Ideal c.K)).Repr Ideal.Ok
      Ideal.den (halfPoint c.fld.pN c.d) := by
    refine ⟨⟨⟨⟨_, rfl⟩, ⟨_, rfl⟩, ⟨_, rfl⟩, ⟨_, rfl⟩⟩, ?_, ?_, ?_⟩, ?_⟩ <;>
      simp [Ideal.den, halfPoint]
  obtain ⟨pa, pb, pab, pba, a', b', a'', b'', T, h1, h2, h3, h4, h5, h6⟩ :=
    C63_scalar_mult_exact_partial c.ideal_lawful (a := .val i) (b := .val j) ⟨_, rfl⟩ ⟨_, rfl⟩ hp
      (by simp [halfPoint])
  exact ⟨pa, pb, pab, pba, a', b', a'', b'', h1, h2, h3, h4, T, h5, h6⟩

/-! ## The curve types of the repository -/

theorem differI_sound {c : Crv} {r s : EdwardsExtended Elem}
    (h : differI c (r.ints c) (s.ints c) = true) :
    c.den r.x * c.den s.z ≠ c.den s.x * c.den r.z := by
  intro h'
  rw [differI, Bool.not_eq_true', decide_eq_false_iff_not] at h
  apply h
  rw [← Crv.cast_eq_zero]
  simp only [ints]
  push_cast
  simp only [Crv.den] at h'
  rw [h', sub_self]

/-- What the computation on integers says about the types. -/
theorem agreeI_sound (c : Crv) (pr : Profile) {x y : Nat} {k} (h : agreeI c x y k = true)
    {a b : Elem} (ha : c.fld.Canon x a) (hb : c.fld.Canon y b) :
    ∃ pa pb pab pba, (c.baseCoords 1).scalarMult (c.scalar pr) a = .ok (pa, a) ∧
      (c.baseCoords 1).scalarMult (c.scalar pr) b = .ok (pb, b) ∧
      pa.scalarMult (c.scalar pr) b = .ok (pab, b) ∧
      pb.scalarMult (c.scalar pr) a = .ok (pba, a) ∧ k (pab.ints c) (pba.ints c) = true := by
  have hz : zero (c.scalar pr) = zero (c.scalar .debug) := by rw [c.scalar_eq, c.scalar_eq]; rfl
  rw [agreeI, ← hz] at h
  obtain ⟨pa, -, a1, a2, h⟩ := c.ladI_scalarMult pr ha c.base1.1.1 h
  obtain ⟨pab, -, b1, -, h⟩ := c.ladI_scalarMult pr hb a2 h
  obtain ⟨pb, -, c1, c2, h⟩ := c.ladI_scalarMult pr hb c.base1.1.1 h
  obtain ⟨pba, -, d1, -, h⟩ := c.ladI_scalarMult pr ha c2 h
  exact ⟨pa, pb, pab, pba, a1, c1, b1, d1, h⟩

theorem agree_all (c : Crv) : agreeI c 1 2 (differI c) = true := by
  cases c
  exacts [agree_e222, agree_curve1174, agree_e382, agree_curve41417, agree_e521]

/-- On every curve, with the base point and the secrets 1 and 2, the two parties end up with different
`x` coordinates. -/
theorem C63_counterexample (c : Crv) (pr : Profile) (a b : Elem) (ha : c.fld.Canon 1 a) (hb : c.fld.Canon 2 b) :
    c.Represents (c.baseCoords 1) c.base ∧
    ∃ pa pb pab pba a' b' a'' b'',
      (c.baseCoords 1).scalarMult (c.scalar pr) a = .ok (pa, a') ∧
      (c.baseCoords 1).scalarMult (c.scalar pr) b = .ok (pb, b') ∧
      pa.scalarMult (c.scalar pr) b = .ok (pab, b'') ∧
      pb.scalarMult (c.scalar pr) a = .ok (pba, a'') ∧
      c.den pab.x * c.den pba.z ≠ c.den pba.x * c.den pab.z := by
  obtain ⟨pa, pb, pab, pba, a1, b1, c1, d1, h⟩ :=
    agreeI_sound c pr (agree_all c) (by exact_mod_cast ha) (by exact_mod_cast hb)
  refine ⟨Crv.base1 c, pa, pb, pab, pba, _, _, _, _, a1, b1, c1, d1, differI_sound h⟩

/-- C63 fails. -/
theorem C63_statement_false : ¬ C63_statement := by
  intro h
  have h1 : Crv.e222.fld.Canon 1 (Crv.e222.words 1) := Fld.canon_of_canonB (by decide +kernel)
  have h2 : Crv.e222.fld.Canon 2 (Crv.e222.words 2) := Fld.canon_of_canonB (by decide +kernel)
  obtain ⟨hb, pa, pb, pab, pba, a', b', a'', b'', e1, e2, e3, e4, ne⟩ :=
    C63_counterexample .e222 .debug _ _ h1 h2
  obtain ⟨qa, qb, qab, qba, a1, a2, a3, a4, f1, f2, f3, f4, -, -, same, -⟩ :=
    h .e222 .debug _ _ _ _ _ _ hb h1 h2
  cases Except.ok.inj (e1.symm.trans f1)
  cases Except.ok.inj (e2.symm.trans f2)
  cases Except.ok.inj (e3.symm.trans f3)
  cases Except.ok.inj (e4.symm.trans f4)
  exact ne same

/-- With the repairs of C57 the two parties agree, for every point of the five curves, all
representations of it and all scalars. -/
theorem C63_repaired (c : Crv) (pr : Profile) {p : EdwardsExtended Elem} {P : c.Point}
    (hp : c.Represents p P) {a b : Elem} (ha : c.fld.Tight a) (hb : c.fld.Tight b) :
    ∃ pa pb pab pba a' b' a'' b'', Repaired.scalarMult (Repaired.scalar c pr) p a = .ok (pa, a') ∧
      Repaired.scalarMult (Repaired.scalar c pr) p b = .ok (pb, b') ∧
      Repaired.scalarMult (Repaired.scalar c pr) pa b = .ok (pab, b'') ∧
      Repaired.scalarMult (Repaired.scalar c pr) pb a = .ok (pba, a'') ∧ c.SamePoint pab pba := by
  obtain ⟨pa, a', a1, a2, -⟩ := C57_scalar_mult c pr hp ha
  obtain ⟨pb, b', b1, b2, -⟩ := C57_scalar_mult c pr hp hb
  obtain ⟨pab, b'', c1, c2, -⟩ := C57_scalar_mult c pr a2 hb
  obtain ⟨pba, a'', d1, d2, -⟩ := C57_scalar_mult c pr b2 ha
  rw [smul_comm] at c2
  refine ⟨pa, pb, pab, pba, a', b', a'', b'', a1, b1, c1, d1, c2.1.2.1, d2.1.2.1, ?_, ?_⟩
  · rw [c2.1.2.2.1, d2.1.2.2.1]; ring
  · rw [c2.1.2.2.2, d2.1.2.2.2]; ring

/-- The case of the counterexample: with the repairs the secrets 1 and 2 lead to the same point. -/
example (pr : Profile) (a b : Elem) (ha : Crv.e222.fld.Canon 1 a) (hb : Crv.e222.fld.Canon 2 b) :=
  C63_repaired .e222 pr (Crv.base1 .e222) ha.tight hb.tight

end Verif

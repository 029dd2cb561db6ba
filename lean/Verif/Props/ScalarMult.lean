import Verif.Props.Points
import Verif.Curve.EvalLadder

/-!
# Properties C31 and C32: scalar multiplication
-/

namespace Verif
open EdwardsExtended

/-! ## C31: the multiple computed

`_exact_` theorems are about the generic code over a correct scalar type (`Scalar.Lawful`), the
others about the five curve types of the repository. -/

/-- C31 in full. -/
def C31_statement : Prop := ∀ (c : Crv) (pr : Profile) (p : EdwardsExtended Elem) (P : c.Point)
  (k : Elem) (x : Nat), c.Represents p P → c.fld.Canon x k →
    ∃ r k', p.scalarMult (c.scalar pr) k = .ok (r, k') ∧ c.Represents r (x • P)

section Exact
variable {S : Type} {C : Scalar S} {m : Nat} [Fact m.Prime] {d : ZMod m} [Fact (¬ IsSquare d)]
  [NeZero (2 : ZMod m)] {ok : S → Prop} {den : S → ZMod m}

/-- Over a correct scalar type, the ladder started with a representation of the neutral element
computes `(2 ^ nbits - 1 - k) P` instead of `k P`, for every scalar and every point. -/
theorem C31_ladder_exact (L : C.Lawful m d ok den) {k : S} (hk : ok k) {s : Ladder S}
    {P : EdPoint (ZMod m) d} (h0 : s.r0.Repr ok den (0 : EdPoint (ZMod m) d))
    (h1 : s.r1.Repr ok den P) :
    ∃ k' s' ev, C.normalize k = .ok k' ∧ Ladder.loop C k' Ladder.body C.nbits 0 s = .ok (s', ev) ∧
      s'.r0.Repr ok den ((2 ^ C.nbits - 1 - (den k).val) • P) := by
  obtain ⟨k', n1, n2, n3, n4⟩ := L.normalize hk
  have hp : 1 < m := (Fact.out : m.Prime).one_lt
  have hn : 0 < C.nbits := by
    rcases Nat.eq_zero_or_pos C.nbits with h | h
    · have := L.le; rw [h] at this; omega
    · exact h
  rw [n3] at n4
  obtain ⟨s', e1, e2⟩ := ladder_mult L.exact L.selects hn
    (lt_of_lt_of_le (ZMod.val_lt (den k)) L.le) n4 h0 h1
  exact ⟨k', s', _, n1, e1, e2⟩

/-- Over a correct scalar type, `scalar_mult(k)` of a point with `x y = 0` (the points
`(0, ±1)`, `(±1, 0)`, for which the wrong `t` of `zero()` does not matter) represents
`(2 ^ nbits - 1 - k) P`. -/
theorem C31_scalar_mult_exact (L : C.Lawful m d ok den) {k : S} (hk : ok k)
    {p : EdwardsExtended S} {P : EdPoint (ZMod m) d} (hp : p.Repr ok den P)
    (hxy : P.x * P.y = 0) :
    ∃ r k', p.scalarMult C k = .ok (r, k') ∧
      r.Repr ok den ((2 ^ C.nbits - 1 - (den k).val) • P) := by
  obtain ⟨k', n1, n2, n3, n4⟩ := L.normalize hk
  have hp1 : 1 < m := (Fact.out : m.Prime).one_lt
  have hn : 0 < C.nbits := by
    rcases Nat.eq_zero_or_pos C.nbits with h | h
    · have := L.le; rw [h] at this; omega
    · exact h
  rw [n3] at n4
  obtain ⟨r, h1, h2⟩ := C29_zero_add_exact_iff L hp
  have hz : (zero C).ReprXYZ ok den (0 : EdPoint (ZMod m) d) := by
    refine ⟨⟨L.exact.zero.1, L.exact.one.1, L.exact.one.1, L.exact.one.1⟩, ?_, ?_, ?_⟩
    · simp [zero, L.exact.one.2]
    · simp [zero, L.exact.zero.2]
    · simp [zero, L.exact.one.2]
  obtain ⟨s', e1, e2⟩ := ladder_mult' L.exact L.selects hn
    (lt_of_lt_of_le (ZMod.val_lt (den k)) L.le) n4
    (s := ⟨zero C, p, zero C, p, 0, false, C.filled false, C.filled false⟩) hz hp
    ⟨r, h1, h2.2 hxy⟩
  refine ⟨s'.r0, k', ?_, e2⟩
  simp only [scalarMult, scalarMultNormalized, scalarMultNormalizedT, n1, e1, bind, Except.bind,
    pure, Except.pure]

/-- Over a correct scalar type, the ladder started with a representation of the neutral element is
right exactly when `(2 ^ nbits - 1 - k) P = k P`; for `P` of odd prime order that is one residue
class of scalars. -/
theorem C31_ladder_exact_partial (L : C.Lawful m d ok den) {k : S} (hk : ok k) {s : Ladder S}
    {P : EdPoint (ZMod m) d} (h0 : s.r0.Repr ok den (0 : EdPoint (ZMod m) d))
    (h1 : s.r1.Repr ok den P) :
    ∃ k' s' ev, C.normalize k = .ok k' ∧ Ladder.loop C k' Ladder.body C.nbits 0 s = .ok (s', ev) ∧
      (s'.r0.Repr ok den ((den k).val • P) ↔
        (2 ^ C.nbits - 1 - (den k).val) • P = (den k).val • P) := by
  obtain ⟨k', s', ev, e1, e2, e3⟩ := C31_ladder_exact L hk h0 h1
  exact ⟨k', s', ev, e1, e2, fun h => e3.1.unique h.1, fun h => h ▸ e3⟩

/-- Over a correct scalar type and for a point with `x y = 0`, `scalar_mult(k)` represents `k P`
exactly when `P` is the neutral element. -/
theorem C31_scalar_mult_exact_partial (L : C.Lawful m d ok den) (h2 : 2 ≤ C.nbits) {k : S}
    (hk : ok k) {p : EdwardsExtended S} {P : EdPoint (ZMod m) d} (hp : p.Repr ok den P)
    (hxy : P.x * P.y = 0) :
    ∃ r k', p.scalarMult C k = .ok (r, k') ∧ (r.Repr ok den ((den k).val • P) ↔ P = 0) := by
  obtain ⟨r, k', e1, e2⟩ := C31_scalar_mult_exact L hk hp hxy
  refine ⟨r, k', e1, fun h => ?_, ?_⟩
  · have e := e2.1.unique h.1
    have h4 : (4 : Nat) • P = 0 := by
      have e4 : (4 : Nat) • P = (P + P) + (P + P) := by abel
      have hy : (P + P).x = 0 := by
        rw [double_x]; rw [mul_assoc, hxy, mul_zero, zero_div]
      have on := (P + P).on
      rw [e4]
      generalize P + P = Q at *
      have hy2 : Q.y ^ 2 = 1 := by rw [hy] at on; linear_combination on
      ext
      · rw [EdPoint.add_x, hy]; simp
      · rw [EdPoint.add_y, hy]; simp [← sq, hy2]
    have hlt : (den k).val < 2 ^ C.nbits := lt_of_lt_of_le (ZMod.val_lt (den k)) L.le
    obtain ⟨q, hq⟩ : 4 ∣ 2 ^ C.nbits := by
      rw [show 4 = 2 ^ 2 by norm_num]; exact pow_dvd_pow 2 h2
    have e5 : ((2 ^ C.nbits - 1 - (den k).val) + ((den k).val + 1)) • P = 0 := by
      rw [show (2 ^ C.nbits - 1 - (den k).val) + ((den k).val + 1) = q * 4 by omega, mul_smul, h4,
        smul_zero]
    rw [add_smul, e, ← add_smul] at e5
    generalize (den k).val = v at e5
    have e6 : ((2 * v + 1) * (2 * v + 1)) • P = 0 := by
      rw [mul_smul, show 2 * v + 1 = v + (v + 1) by omega, e5, smul_zero]
    rw [show (2 * v + 1) * (2 * v + 1) = (v * v + v) * 4 + 1 by ring, add_smul, mul_smul, h4,
      smul_zero, zero_add, one_smul] at e6
    exact e6
  · rintro rfl
    rw [smul_zero] at e2 ⊢
    exact e2

/-- The point `(0, -1)`. -/
def halfPoint (m : Nat) [Fact m.Prime] (d : ZMod m) : EdPoint (ZMod m) d := ⟨0, -1, by ring⟩

/-- Over a correct scalar type the ladder does not compute `k P`: `0 · (0, -1)` comes out
as `(0, -1)`. -/
theorem C31_exact_counterexample (L : C.Lawful m d ok den) {k : S} (hk : ok k) (hk0 : den k = 0)
    {p : EdwardsExtended S} (hp : p.Repr ok den (halfPoint m d)) :
    ∃ r k', p.scalarMult C k = .ok (r, k') ∧ r.Repr ok den (halfPoint m d) ∧
      ¬ r.Repr ok den ((den k).val • halfPoint m d) := by
  have hxy : (halfPoint m d).x * (halfPoint m d).y = 0 := by simp [halfPoint]
  obtain ⟨r, k', h1, h2⟩ := C31_scalar_mult_exact L hk hp hxy
  have h2P : (2 : Nat) • halfPoint m d = 0 := by
    rw [two_nsmul]
    ext
    · rw [EdPoint.add_x]; simp [halfPoint]
    · rw [EdPoint.add_y]; simp [halfPoint]
  have hp1 : 1 < m := (Fact.out : m.Prime).one_lt
  have e : (2 ^ C.nbits - 1 - (den k).val) • halfPoint m d = halfPoint m d := by
    have hn : 0 < C.nbits := by
      rcases Nat.eq_zero_or_pos C.nbits with h | h
      · have := L.le; rw [h] at this; omega
      · exact h
    have : 2 ^ C.nbits - 1 = 2 * (2 ^ (C.nbits - 1) - 1) + 1 := by
      have h1 : 2 ^ C.nbits = 2 * 2 ^ (C.nbits - 1) := by
        rw [← pow_succ']; congr 1; omega
      have h2 : 0 < 2 ^ (C.nbits - 1) := by positivity
      omega
    rw [hk0, ZMod.val_zero, Nat.sub_zero, this, add_smul, mul_comm, mul_smul, h2P, smul_zero,
      zero_add, one_smul]
  rw [e] at h2
  refine ⟨r, k', h1, h2, ?_⟩
  rw [hk0, ZMod.val_zero, zero_smul]
  intro h3
  have := congrArg EdPoint.y (h2.1.unique h3.1)
  simp only [halfPoint, EdPoint.zero_y] at this
  have h2' : (2 : ZMod m) ≠ 0 := two_ne_zero
  apply h2'
  linear_combination -this

end Exact

/-- There are correct scalar types for all five curves, and points and scalars for the theorems
above. -/
example (c : Crv) : c.ideal.Lawful c.fld.pN c.d Ideal.Ok Ideal.den ∧
    (⟨.val 0, .val (-1), .val 1, .val 0⟩ : EdwardsExtended (Ideal c.K)).Repr Ideal.Ok Ideal.den
      (halfPoint c.fld.pN c.d) := by
  refine ⟨c.ideal_lawful, ⟨⟨⟨_, rfl⟩, ⟨_, rfl⟩, ⟨_, rfl⟩, ⟨_, rfl⟩⟩, ?_, ?_, ?_⟩, ?_⟩ <;>
    simp [Ideal.den, halfPoint]

/-- On all five curve types, `scalar_mult(1)` of the base point does not even give a
point of the curve. -/
theorem C31_counterexample (c : Crv) (pr : Profile) :
    c.Represents (c.baseCoords 1) c.base ∧ c.fld.Canon 1 c.fld.code.ONE ∧
    ∃ r k', (c.baseCoords 1).scalarMult (c.scalar pr) c.fld.code.ONE = .ok (r, k') ∧
      ∀ P : c.Point, ¬ r.ReprXYZ c.fld.Tight c.den P := by
  have e : zero (c.scalar pr) = zero (c.scalar .debug) := by rw [c.scalar_eq, c.scalar_eq]; rfl
  have z1 := ladder_base_off c
  rw [← e] at z1
  have h1 : c.fld.Canon ((1 : Nat) : Int) c.fld.code.ONE := Fld.one_canon _
  obtain ⟨r, -, h2, -, h3⟩ := c.ladI_scalarMult pr h1 c.base1.1.1 z1
  exact ⟨c.base1, h1, r, _, h2, fun P => c.not_repr_of_offI h3 P⟩

theorem C31_statement_false : ¬ C31_statement := by
  intro h
  have (c : Crv) : False := by
    obtain ⟨h1, h1', r, k', h2, h3⟩ := C31_counterexample c .debug
    obtain ⟨r', k'', h4, h5⟩ := h c .debug _ _ _ 1 h1 h1'
    have e := Except.ok.inj (h2.symm.trans h4)
    cases e
    exact h3 _ h5.1
  exact this .e521

/-! ## C32: the sequence of operations -/

open Ladder in
/-- For any scalar type, all successful runs of `scalar_mult_normalized` execute the same
statements in the same order with the same loop indices, whatever the points and scalars. -/
theorem C32_trace {S : Type} (C : Scalar S) {p p' : EdwardsExtended S} {k k' : S}
    {r r' : EdwardsExtended S} {ev ev' : List Event}
    (h : p.scalarMultNormalizedT C k = .ok (r, ev))
    (h' : p'.scalarMultNormalizedT C k' = .ok (r', ev')) : ev = ev' := by
  have key : ∀ {p : EdwardsExtended S} {k : S} {r ev},
      p.scalarMultNormalizedT C k = .ok (r, ev) → ev = events C.nbits 0 := by
    intro p k r ev h
    simp only [scalarMultNormalizedT, bind, Except.bind, pure, Except.pure] at h
    split at h
    · cases h
    · next v hv =>
      cases h
      exact loop_events _ _ hv
  rw [key h, key h']

open Ladder in
/-- Every iteration executes exactly one point addition, one doubling and one bit test; no
statement is a branch, and there are `nbits` iterations. -/
theorem C32_operations {S : Type} (C : Scalar S) {p : EdwardsExtended S} {k : S}
    {r : EdwardsExtended S} {ev : List Event} (h : p.scalarMultNormalizedT C k = .ok (r, ev)) :
    (∀ e ∈ ev, e.iter < C.nbits ∧ ∀ a b, e.stmt ≠ .ifBit a b) ∧
    ∀ i < C.nbits,
      (ev.filter fun e => e.iter == i && e.stmt matches .addAssign _ _).length = 1 ∧
      (ev.filter fun e => e.iter == i && e.stmt matches .double _).length = 1 ∧
      (ev.filter fun e => e.iter == i && e.stmt matches .letBit).length = 1 := by
  have he : ev = events C.nbits 0 := by
    simp only [scalarMultNormalizedT, bind, Except.bind, pure, Except.pure] at h
    split at h
    · cases h
    · next v hv =>
      cases h
      exact loop_events _ _ hv
  subst he
  have hmem : ∀ e ∈ events C.nbits 0, e.iter < C.nbits ∧ e.stmt ∈ body := by
    intro e he
    simp only [events, iterEvents, List.mem_flatMap, List.mem_map, List.mem_range'_1] at he
    obtain ⟨j, hj, a, ha, rfl⟩ := he
    exact ⟨by simpa using hj, ha⟩
  have hcount : ∀ (q : LStmt → Bool) (n i j : Nat), i ≤ j → j < i + n →
      ((events n i).filter fun e => e.iter == j && q e.stmt).length = (body.filter q).length := by
    intro q n
    induction n with
    | zero => intro i j h1 h2; omega
    | succ n ih =>
      intro i j h1 h2
      have h3 : ∀ (m i : Nat) , j < i →
          (events m i).filter (fun e => e.iter == j && q e.stmt) = [] := by
        intro m i hi
        rw [List.filter_eq_nil_iff]
        intro e he
        simp only [events, iterEvents, List.mem_flatMap, List.mem_map, List.mem_range'_1] at he
        obtain ⟨j', hj', a, ha, rfl⟩ := he
        have : j' ≠ j := by omega
        simp [this]
      rw [events_succ, List.filter_append, List.length_append]
      rcases Nat.lt_or_ge i j with h | h
      · rw [ih (i + 1) j (by omega) (by omega)]
        have : (iterEvents i).filter (fun e => e.iter == j && q e.stmt) = [] := by
          rw [List.filter_eq_nil_iff]
          intro e he
          simp only [iterEvents, List.mem_map] at he
          obtain ⟨a, ha, rfl⟩ := he
          have : i ≠ j := by omega
          simp [this]
        rw [this, List.length_nil, Nat.zero_add]
      · have : i = j := by omega
        subst this
        rw [h3 n (i + 1) (by omega), List.length_nil, Nat.add_zero, iterEvents, List.filter_map,
          List.length_map]
        congr 2
        funext a
        simp
  refine ⟨fun e he => ⟨(hmem e he).1, ?_⟩, fun i hi => ⟨?_, ?_, ?_⟩⟩
  · intro a b h
    have := (hmem e he).2
    rw [h] at this
    revert this
    simp [body]
  · exact (hcount (fun a => a matches .addAssign _ _) C.nbits 0 i (by omega) (by omega)).trans rfl
  · exact (hcount (fun a => a matches .double _) C.nbits 0 i (by omega) (by omega)).trans rfl
  · exact (hcount (fun a => a matches .letBit) C.nbits 0 i (by omega) (by omega)).trans rfl

/-- The ladder never panics: for the five curve types, all coordinates and all scalars (any words),
`scalar_mult_normalized` returns. -/
theorem C32_total (c : Crv) (pr : Profile) {p : EdwardsExtended Elem} (hp : p.Ok c.fld.Tight)
    {k : Elem} (hk : k.length = c.fld.k) :
    ∃ r ev, p.scalarMultNormalizedT (c.scalar pr) k = .ok (r, ev) ∧ r.Ok c.fld.Tight := by
  have hn : (c.scalar pr).nbits = c.fld.n := by rw [c.scalar_eq]; exact (C20_nbits c.fld).1
  have hz : (zero (c.scalar pr)).Ok c.fld.Tight := by
    have z := (c.impl pr).zero.1
    have o := (c.impl pr).one.1
    exact ⟨z, o, o, o⟩
  have hbit : ∀ i < (c.scalar pr).nbits, ∃ b, (c.scalar pr).bitNormalized k i = .ok b := by
    intro i hi
    rw [hn] at hi
    have h1 : i / c.fld.L < k.length := by
      rw [hk]
      have : c.fld.n ≤ c.fld.L * c.fld.k := by cases c <;> decide
      exact Nat.div_lt_of_lt_mul (by omega)
    rw [c.scalar_eq]
    simp only [FieldCode.scalar, FieldCode.bitNormalized, Fld.limbBits_eq,
      List.getElem?_eq_getElem h1]
    exact ⟨_, rfl⟩
  obtain ⟨s', e1, e2, -⟩ := Ladder.loop_inv (c.tight_selects pr) (k := k)
    (fun _ r0 r1 => r0.Ok c.fld.Tight ∧ r1.Ok c.fld.Tight) id (N := (c.scalar pr).nbits) (by
      rintro i r0 r1 hi ⟨a, b⟩
      obtain ⟨bit, hb⟩ := hbit ((c.scalar pr).nbits - 1 - i) (by omega)
      obtain ⟨sum, f1, f2⟩ := c.add_total pr a b
      obtain ⟨dbl, g1, g2⟩ := c.double_total pr (p := if bit then r0 else r1)
        (by cases bit <;> assumption)
      refine ⟨bit, sum, dbl, hb, f1, g1, ?_⟩
      cases bit
      · exact ⟨f2, g2⟩
      · exact ⟨g2, f2⟩)
    (c.scalar pr).nbits 0 ⟨zero (c.scalar pr), p, zero (c.scalar pr), p, 0, false,
      (c.scalar pr).filled false, (c.scalar pr).filled false⟩ (by omega) ⟨hz, hp⟩
  refine ⟨s'.r0, Ladder.events (c.scalar pr).nbits 0, ?_, e2⟩
  simp only [scalarMultNormalizedT, e1, bind, Except.bind, pure, Except.pure]

/-- So two scalars give the same sequence of operations. -/
example (pr : Profile) : ∃ r r' ev,
    (Crv.baseCoords .e521 1).scalarMultNormalizedT (Crv.scalar .e521 pr)
      Fields.E521_1.code.ONE = .ok (r, ev) ∧
    (Crv.baseCoords .e521 1).scalarMultNormalizedT (Crv.scalar .e521 pr)
      Fields.E521_1.code.ZERO = .ok (r', ev) := by
  have h := (Crv.base1 .e521).1.1
  obtain ⟨r, ev, h1, -⟩ := C32_total .e521 pr h (k := Fields.E521_1.code.ONE) rfl
  obtain ⟨r', ev', h2, -⟩ := C32_total .e521 pr h (k := Fields.E521_1.code.ZERO) rfl
  cases C32_trace _ h1 h2
  exact ⟨r, r', ev, h1, h2⟩

end Verif

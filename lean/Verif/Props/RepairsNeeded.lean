import Verif.Props.Repairs
import Verif.Props.Orders

/-!
# C66: none of the repairs of C57 can be left out

`Verif/Model/Repaired.lean` changes ten places of the source.  For each of them there is a run of the code with
the other nine changed and this one as it is in the repository that gives a wrong result.
-/

namespace Verif
open EdwardsExtended Fld

section
variable (f : Fld) (pr : Profile)

/-- C66, `sub_assign`: `1 - ((-1) + (-1))`.  No other repaired function occurs. -/
theorem C66_sub : ∃ s r, f.code.add pr f.code.M_ONE f.code.M_ONE = .ok s ∧
    f.code.subAssign pr f.code.ONE s = .ok r ∧ ¬ f.Denotes r (f.V f.code.ONE - f.V s) ∧
    ∃ r', Repaired.subAssign f pr f.code.ONE s = .ok r' ∧ f.Denotes r' (f.V f.code.ONE - f.V s) := by
  obtain ⟨s, r, h1, h2, h3⟩ := C02_counterexample f pr
  obtain ⟨s', h4, h5, -⟩ := C01_add f pr (m_one_canon f).tight.rep (m_one_canon f).tight.rep
  obtain rfl : s = s' := Except.ok.inj (h1.symm.trans h4)
  obtain ⟨r', h6, -, h7⟩ := (C57_sub f pr (one_canon f).tight.rep h5.rep).1
  exact ⟨s, r, h1, h2, h3, r', h6, h7⟩

/-- C66, `neg`: negation of one. -/
theorem C66_neg : ∃ r, f.code.neg pr f.code.ONE = .ok r ∧ ¬ f.Denotes r (-1) ∧
    ∃ r', Repaired.neg f pr f.code.ONE = .ok r' ∧ f.Denotes r' (-1) := by
  obtain ⟨r, h1, h2⟩ := C03_counterexample f pr
  obtain ⟨r', h3, -, h4⟩ := (C57_sub f pr (one_canon f).tight.rep (one_canon f).tight.rep).2
  rw [(one_canon f).2.1] at h4
  exact ⟨r, h1, h2, r', h3, h4⟩

/-- `Normalize::normalize` as in the repository (/repo/src/field/mod_e221_3.rs:848-852 and the same
lines of the other files), over the repaired operators. -/
def Repaired.normalizeOld (a : Elem) : Res Elem := do
  let plusc ← f.code.smallAdd pr a (asI32 f.code.cval)
  let offset ← Repaired.smallMulAssign f pr f.code.MODULUS (asI32 (← f.code.carryOut plusc))
  Repaired.subAssign f pr a offset

/-- C66, `normalize`: `0 - unpacked(2 ^ n - 1)` with the repaired `-`, in the eight types with `c > 1`.  (In
`Mod_e521_1` only values from `-2 ^ 521` down are affected.) -/
theorem C66_normalize (hf : f ≠ .e521_1) : ∃ u m r,
    Repaired.unpacked f pr (maxBytes f) = .ok u ∧
    Repaired.subAssign f pr f.code.ZERO u = .ok m ∧ Repaired.normalizeOld f pr m = .ok r ∧
    ¬ f.Canon (f.V m % f.p) r ∧
    ∃ r', Repaired.normalize f pr m = .ok r' ∧ f.Canon (f.V m % f.p) r' := by
  have hz := zero_canon f
  have ht : (maxBytes f).take f.nbytes = maxBytes f := by
    rw [← maxBytes_length f]; exact List.take_length
  obtain ⟨u, h1, h2, h3⟩ := C57_unpack f pr hz.tight.rep.isWords (maxBytes_isBytes f) (maxBytes_length f).ge
  have hN : (1 : Int) < 2 ^ f.n := one_lt_pow₀ (by norm_num) (by cases f <;> decide)
  rw [ht, maxBytes_val, Int.emod_eq_of_lt (by linarith) (by linarith)] at h3
  obtain ⟨m, h4, h5, h6⟩ := Repaired.sub_exact f pr hz.tight.rep (word_tight h2).rep
  have hm := (Repaired.sub_tight f h5).rep
  rw [hz.2.1, h3, fold_of_lt le_rfl (by linarith), fold_of_lt (by linarith) (by linarith)] at h6
  have hc : asI32 f.code.cval = f.c := by rw [cval_eq]; cases f <;> rfl
  have hc1 : (1 : Int) < f.c := by cases f <;> first | exact absurd rfl hf | decide
  have hcl : (f.c : Int) < 256 := by exact_mod_cast f.c_lt
  have hci : IsI32 f.c := by simp only [IsI32]; norm_num; omega
  have hfold : f.fold (f.V m) = 1 - f.c := by
    have e : f.V m / 2 ^ f.n = -1 := by
      rw [h6, show (0 : Int) - (2 ^ f.n - 1) = 1 + 2 ^ f.n * (-1) by ring,
        Int.add_mul_ediv_left _ _ (by linarith), Int.ediv_eq_zero_of_lt (by norm_num) hN]
      rfl
    rw [fold_eq, e, h6, show f.p = 2 ^ f.n - f.c from rfl]; ring
  obtain ⟨v, u1, u2, u3⟩ := smallAdd_exact pr hm hci
  have uV : f.V v = 1 := by
    have : f.V v = f.fold (f.V m) + f.c := by rw [u3, fold_eq]; ring
    rw [this, hfold]; ring
  obtain ⟨d, top, -, -, -, ht', -, -⟩ := Shape.V_eq u2
  have hq := Shape.top_div u2 ht'
  have hcarry : f.code.carryOut v = .ok 0 := by
    rw [uV, Int.ediv_eq_zero_of_lt (by norm_num) hN] at hq
    simp only [FieldCode.carryOut, carryLimb_eq, ht', carryShift_eq, shr64, hq]
  obtain ⟨r, r1, r2, r3⟩ := Repaired.sub_exact f pr hm
    ((zeros_shape f).rep (by norm_num) (by norm_num))
  rw [hfold, zeros_V, fold_of_lt le_rfl (by linarith)] at r3
  obtain ⟨r', h7, h8⟩ := C57_normalize f pr hm
  refine ⟨u, m, r, by cases f <;> exact h1, h4, ?_, fun h => ?_, r', h7, h8⟩
  · simp only [Repaired.normalizeOld, FieldCode.smallAdd, hc, u1, hcarry, bind, Except.bind,
      show asI32 0 = 0 from rfl, Repaired.smallMul_modulus_zero, r1]
  · have h9 := h.2.1
    have h10 := h.2.2.1
    linarith

/-- C66, `mul_assign` of `Mod_e222_117` and `Mod_e251_9`: `(0 - 1) * 1` with the repaired `-`. -/
theorem C66_mul (hf : f = .e222_117 ∨ f = .e251_9) :
    ∃ m r, Repaired.subAssign f pr f.code.ZERO f.code.ONE = .ok m ∧
      f.code.mulAssign pr m f.code.ONE = .ok r ∧ ¬ f.Denotes r (f.V m * f.V f.code.ONE) ∧
      ∃ r', Repaired.mulAssign f pr m f.code.ONE = .ok r' ∧ f.Denotes r' (f.V m * f.V f.code.ONE) := by
  have hz := (zero_canon f).tight
  have ho := (one_canon f).tight
  obtain ⟨m, h1, h2, h3⟩ := Repaired.sub_exact f pr hz.rep ho.rep
  have hm := Repaired.sub_tight f h2
  have hN : (1 : Int) < 2 ^ f.n := one_lt_pow₀ (by norm_num) (by cases f <;> decide)
  rw [(zero_canon f).2.1, (one_canon f).2.1, fold_of_lt le_rfl (by linarith),
    fold_of_lt (by norm_num) hN] at h3
  obtain ⟨r, h4, -, h5⟩ := C04_mul_correct_iff f pr hm.loose ho.loose
  obtain ⟨r', h6, -, h7⟩ := (C57_mul f pr hm.loose ho.loose (n := 1) (by constructor <;> norm_num)).1
  refine ⟨m, r, h1, h4, fun h => ?_, r', h6, h7⟩
  have h8 := h5.1 h
  rw [h3, (one_canon f).2.1] at h8
  rcases hf with rfl | rfl <;> simp [MulDomain] at h8

/-- C66, `small_mul_assign`: `((-1) + (-1)) * 1`.  No other repaired function occurs. -/
theorem C66_small_mul : ∃ s r, f.code.add pr f.code.M_ONE f.code.M_ONE = .ok s ∧
    f.code.smallMulAssign pr s 1 = .ok r ∧ ¬ f.Denotes r (f.V s * 1) ∧
    ∃ r', Repaired.smallMulAssign f pr s 1 = .ok r' ∧ f.Denotes r' (f.V s * 1) := by
  obtain ⟨s, r, h1, h2, h3⟩ := C07_counterexample_carry f pr
  obtain ⟨s', h4, h5, -⟩ := C01_add f pr (m_one_canon f).tight.rep (m_one_canon f).tight.rep
  obtain rfl : s = s' := Except.ok.inj (h1.symm.trans h4)
  obtain ⟨r', h6, -, h7⟩ := (C57_mul f pr h5.loose h5.loose (n := 1) (by constructor <;> norm_num)).2
  exact ⟨s, r, h1, h2, h3, r', h6, h7⟩

/-- C66, `unpack` of `Mod_e383_187`: 48 bytes `0xff`. -/
theorem C66_unpack : ∃ r, Fld.e383_187.code.unpacked pr (List.replicate 48 255) = .ok r ∧
    ¬ Fld.e383_187.Denotes r (leVal (List.replicate 48 255) % 2 ^ 383) ∧
    ∃ r', Repaired.unpacked .e383_187 pr (List.replicate 48 255) = .ok r' ∧
      Fld.e383_187.Denotes r' (leVal (List.replicate 48 255) % 2 ^ 383) := by
  have hb : IsBytes (List.replicate 48 255) := by
    intro b hb
    obtain ⟨-, rfl⟩ := List.mem_replicate.1 hb
    norm_num
  have hz := (zero_canon .e383_187).tight.rep.isWords
  obtain ⟨r, h1, -, h2⟩ := C12_unpack_e383 pr hz hb (by simp)
  obtain ⟨r', h3, -, h4⟩ := C57_unpack .e383_187 pr hz hb (by decide)
  rw [List.take_of_length_le (by simp)] at h2
  rw [List.take_of_length_le (by decide)] at h4
  refine ⟨r, h1, ?_, r', h3, by rw [Denotes, h4]; rfl⟩
  rw [Denotes, h2, Int.ModEq]
  decide +kernel

end

section
variable (c : Crv) (pr : Profile)

private theorem two_smul_of_x {K : Type} [Field K] [NeZero (2 : K)] {d : K} [Fact (¬ IsSquare d)]
    {P : EdPoint K d} (h : P.x = 0) : 2 • P = 0 := by
  have e : -P = P := EdPoint.ext (by rw [EdPoint.neg_x, h, neg_zero]) rfl
  rw [two_smul]
  nth_rewrite 1 [← e]
  exact neg_add_cancel P

set_option maxRecDepth 100000 in
/-- C66, `triple`: three times the base point, over the repaired field. -/
theorem C66_triple : ∃ r, (c.baseCoords 1).triple (Repaired.scalar c pr) = .ok r ∧
    ¬ c.Represents r (c.base + c.base + c.base) ∧
    ∃ r', Repaired.triple (Repaired.scalar c pr) (c.baseCoords 1) = .ok r' ∧
      c.Represents r' (c.base + c.base + c.base) := by
  have L := Repaired.lawful c pr
  obtain ⟨r, h1, -, h2⟩ := C28_triple_exact_iff L c.base1.1
  obtain ⟨r', h3, h4⟩ := Repaired.triple_repr L c.base1.1
  refine ⟨r, h1, fun h => ?_, r', h3, h4⟩
  have h5 := two_smul_of_x (h2.1 h)
  rw [show c.base + c.base + c.base = 3 • c.base by rw [← two_nsmul, ← succ_nsmul], smul_smul] at h5
  have h6 := ((C39_base_order c).2.1 6).1 h5
  revert h6
  cases c <;> decide +kernel

set_option maxRecDepth 100000 in
/-- C66, `zero`: over the repaired field `zero()` represents no point, and its sum with the base point is
not the base point. -/
theorem C66_zero : (∀ P : c.Point, ¬ c.Represents (zero (Repaired.scalar c pr)) P) ∧
    (∃ r, (zero (Repaired.scalar c pr)).addAssign (Repaired.scalar c pr) (c.baseCoords 1) = .ok r ∧
      ¬ c.Represents r c.base) ∧
    ∃ r', (Repaired.zero (Repaired.scalar c pr)).addAssign (Repaired.scalar c pr) (c.baseCoords 1) = .ok r' ∧
      c.Represents r' c.base := by
  have L := Repaired.lawful c pr
  obtain ⟨r, h1, h2⟩ := C29_zero_add_exact_iff L c.base1
  obtain ⟨r', h3, h4⟩ := (C57_points c pr (Repaired.zero_repr L) c.base1).1
  rw [zero_add] at h4
  refine ⟨fun P => C29_zero_exact L P, ⟨r, h1, fun h => ?_⟩, r', h3, h4⟩
  have h5 := h2.1 h
  rcases mul_eq_zero.1 h5 with h5 | h5
  · have h6 := ((C39_base_order c).2.1 2).1 (two_smul_of_x h5)
    revert h6
    cases c <;> decide +kernel
  · have h6 : ((c.fld.V c.baseY : Int) : c.K) = 0 := h5
    rw [c.cast_eq_zero] at h6
    revert h6
    cases c <;> decide +kernel

set_option maxRecDepth 100000 in
/-- C66, `init`: the coordinates of the base point, over the repaired field. -/
theorem C66_init (self : EdwardsExtended Elem) :
    ¬ c.Represents (init (Repaired.scalar c pr) self c.baseX c.baseY) c.base ∧
    ∃ r', Repaired.init (Repaired.scalar c pr) c.baseX c.baseY = .ok r' ∧ c.Represents r' c.base := by
  have L := Repaired.lawful c pr
  obtain ⟨b1, b2, -⟩ := c.base_canon
  have h := C30_init_exact_iff L self (P := c.base) (x := c.baseX) (y := c.baseY) ⟨b1.tight, rfl⟩ ⟨b2.tight, rfl⟩
  refine ⟨fun h1 => ?_, (C57_points c pr c.base1 c.base1).2.2.2.2 _ _ b1.tight b2.tight rfl rfl⟩
  have h2 := h.2.1 h1
  have h' : ((c.fld.V c.baseX * c.fld.V c.baseY - 1 : Int) : c.K) = 0 := by
    push_cast
    exact sub_eq_zero.2 h2
  rw [c.cast_eq_zero] at h'
  revert h'
  cases c <;> decide +kernel

set_option maxRecDepth 100000 in
/-- C66, the ladder: the loop of `scalar_mult_normalized` as in the repository, over the repaired field and
with the repaired `zero()`, for the base point and the scalar 1. -/
theorem C66_ladder : ∃ k' s ev, (Repaired.scalar c pr).normalize c.fld.code.ONE = .ok k' ∧
    Ladder.loop (Repaired.scalar c pr) k' Ladder.body (Repaired.scalar c pr).nbits 0
      ⟨Repaired.zero (Repaired.scalar c pr), c.baseCoords 1, Repaired.zero (Repaired.scalar c pr),
        c.baseCoords 1, 0, false, (Repaired.scalar c pr).filled false,
        (Repaired.scalar c pr).filled false⟩ = .ok (s, ev) ∧
    ¬ c.Represents s.r0 c.base ∧
    ∃ r, Repaired.scalarMult (Repaired.scalar c pr) (c.baseCoords 1) c.fld.code.ONE = .ok (r, k') ∧
      c.Represents r c.base := by
  have L := Repaired.lawful c pr
  have ho := (one_canon c.fld).tight
  obtain ⟨k', s, ev, h1, h2, h3⟩ := C31_ladder_exact_partial L ho
    (s := ⟨Repaired.zero (Repaired.scalar c pr), c.baseCoords 1, Repaired.zero (Repaired.scalar c pr),
        c.baseCoords 1, 0, false, (Repaired.scalar c pr).filled false,
        (Repaired.scalar c pr).filled false⟩) (Repaired.zero_repr L) c.base1
  obtain ⟨r, k'', h4, h5, h6⟩ := Repaired.scalarMult_repr L ho c.base1
  obtain rfl : k' = k'' := Except.ok.inj (h1.symm.trans h5)
  have e : (c.den c.fld.code.ONE).val = 1 := by
    rw [Crv.den, (one_canon c.fld).2.1, Int.cast_one, ZMod.val_one]
  rw [e, one_smul] at h3 h6
  refine ⟨k', s, ev, h1, h2, fun h => ?_, r, h4, h6⟩
  have h7 := h3.1 h
  have hn : (Repaired.scalar c pr).nbits = c.fld.n := by cases c <;> rfl
  rw [hn] at h7
  have h8 : (2 ^ c.fld.n - 3) • c.base = 0 := by
    have : 2 ^ c.fld.n - 1 - 1 = (2 ^ c.fld.n - 3) + 1 := by
      have : 2 ^ 2 ≤ 2 ^ c.fld.n := Nat.pow_le_pow_right (by norm_num) (by cases c <;> decide)
      omega
    rw [this, succ_nsmul] at h7
    exact add_eq_right.1 h7
  have h9 := ((C39_base_order c).2.1 _).1 h8
  revert h9
  cases c <;> decide +kernel

end

end Verif

import Verif.Model.Repaired
import Verif.Props.Repaired

/-!
# The repaired code (helper lemmas for C57)
-/

namespace Verif
open Check EdwardsExtended

namespace Repaired

/-! ### Fields -/

section
variable (f : Fld) (pr : Profile)

/-- Checker run for the repaired `-`. -/
def subCheck (f : Fld) : Bool :=
  check 0 0 0 (code f).subP (rng 0 f.repR ++ rng 16 f.repR) (vform f.L 0 f.k 1)
    (vform f.L 0 f.k 1 ++ vform f.L 16 f.k (-1) ++
      [(f.k - 1, .fl f.tb, -f.pK), (16 + (f.k - 1), .fl f.tb, f.pK)])
    (rng 0 (f.shapeR (-p2 f.tb - 1) (p2 f.tb)))

set_option maxRecDepth 100000 in
theorem subCheck_ok (f : Fld) : subCheck f = true := by cases f <;> decide +kernel

theorem runLimb_eq (P : Prog) (a b : List Int) : (code f).runLimb pr P a b = f.code.runLimb pr P a b := by
  cases f <;> rfl

theorem sub_exact {a b : Elem} (ha : f.Rep a) (hb : f.Rep b) :
    ∃ r, subAssign f pr a b = .ok r ∧ f.Shape (-2 ^ f.tb - 1) (2 ^ f.tb) r ∧
      f.V r = f.fold (f.V a) - f.fold (f.V b) := by
  obtain ⟨r, h1, h2, h3⟩ := Fld.run_limb (subCheck_ok f) pr ha.inRs hb.inRs (Fld.Shape.length_le ha)
    (by rw [Fld.Shape.length hb]; have := f.k_le; omega)
  rw [p2_eq] at h2
  refine ⟨r, (runLimb_eq f pr _ a b).trans h1, h2, ?_⟩
  have h4 := Int.zero_dvd.mp h3
  simp only [EForm.val_append, EForm.val, vform_val, kv, Fld.Shape.slot_self ha, Fld.Shape.slot_arg hb,
    Fld.Shape.read_self ha, Fld.Shape.read_arg hb, Fld.pK_eq, p2_eq] at h4
  rw [Fld.fold_eq, Fld.fold_eq]
  linarith

theorem sub_tight {r : Elem} (h : f.Shape (-2 ^ f.tb - 1) (2 ^ f.tb) r) : f.Tight r := by
  have : (0 : Int) ≤ 2 ^ f.tb := by positivity
  have : (0 : Int) ≤ f.c := by positivity
  exact Fld.Shape.mono h le_rfl (by rw [pow_succ]; linarith)

theorem denotes_canon {x : Int} {a : Elem} (h : f.Canon (x % f.p) a) : f.Denotes a x := by
  rw [Fld.Denotes, h.2.1]; exact Int.mod_modEq _ _

/-- Checker run for the second phase of the repaired `*`, modulo `p`. -/
def mulCheck (f : Fld) : Bool :=
  check f.pK 128 (128 + 2 * f.nd) ((code f).mulP.drop (2 * f.nd)) f.midMul
    (vform f.L 0 f.k 1) (outer f.w (128 + f.nd) f.nd 128 f.nd 1)
    (rng 0 (f.shapeR (-1) (p2 (f.tb + 1) + f.c)))

set_option maxRecDepth 100000 in
theorem mulCheck_e222 : mulCheck .e222_117 = true := by decide +kernel

set_option maxRecDepth 100000 in
theorem mulCheck_e251 : mulCheck .e251_9 = true := by decide +kernel

set_option maxRecDepth 100000 in
theorem mul_take (f : Fld) : (code f).mulP.take (2 * f.nd) = f.code.mulP.take (2 * f.nd) := by
  cases f <;> rfl

theorem mul_ok {a b : Elem} (ha : f.Loose a) (hb : f.Loose b) :
    ∃ r, mulAssign f pr a b = .ok r ∧ f.Tight r ∧ f.Denotes r (f.V a * f.V b) := by
  by_cases hf : f = .e222_117 ∨ f = .e251_9
  · have hc : mulCheck f = true := by
      rcases hf with rfl | rfl
      · exact mulCheck_e222
      · exact mulCheck_e251
    obtain ⟨ρ, h1, h2, h3⟩ := Fld.mul_phase1 pr ha hb
    obtain ⟨ρ', h4, h5, h6⟩ := check_sound hc pr ρ h2
    have hrun : runProg pr (code f).mulP (initEnv a b) = .ok ρ' := by
      rw [← List.take_append_drop (2 * f.nd) (code f).mulP, runProg_append, mul_take, h1]
      exact h4
    refine ⟨readSlots ρ' 0 f.k, ?_, ?_, ?_⟩
    · rw [mulAssign, FieldCode.mulAssign, runLimb_eq]
      simp [FieldCode.runLimb, hrun, Fld.limbs_eq, bind, Except.bind, pure, Except.pure]
    · have := readSlots_inRs _ _ h5
      rw [Fld.shapeR_length] at this
      rw [p2_eq] at this
      exact Fld.Shape.mono (Fld.shape_of_inRs this) (by have : (0 : Int) ≤ 2 ^ f.tb := by positivity
                                                        linarith) le_rfl
    · rw [h3, vform_val, one_mul, Fld.pK_eq] at h6
      exact (Int.modEq_iff_dvd.mpr h6).symm
  · push Not at hf
    obtain ⟨r, h1, h2⟩ := C04_mul_partial f pr hf ha hb
    refine ⟨r, ?_, h2⟩
    rw [← h1]
    cases f <;> first | exact absurd rfl hf.1 | exact absurd rfl hf.2 | rfl

theorem smallMul_mono {a r : Elem} {n : Int} (h : smallMulAssign f .debug a n = .ok r) :
    smallMulAssign f pr a n = .ok r := by
  simp only [smallMulAssign, bind, Except.bind] at *
  rcases h1 : f.code.smallAdd .debug f.code.ZERO n with e | b
  · rw [h1] at h; cases h
  · rw [h1] at h
    rw [show f.code.smallAdd pr f.code.ZERO n = .ok b from FieldCode.runLimb_mono _ pr h1]
    exact FieldCode.runLimb_mono _ pr h

set_option maxRecDepth 100000 in
theorem smallMul_modulus_zero : smallMulAssign f pr f.code.MODULUS 0 = .ok (List.replicate f.k 0) :=
  smallMul_mono f pr (by cases f <;> decide +kernel)

set_option maxRecDepth 100000 in
theorem smallMul_modulus_one : smallMulAssign f pr f.code.MODULUS 1 = .ok f.code.MODULUS :=
  smallMul_mono f pr (by cases f <;> decide +kernel)

theorem smallMul_ok {a : Elem} {n : Int} (ha : f.Loose a) (hn : IsI32 n) :
    ∃ r, smallMulAssign f pr a n = .ok r ∧ f.Tight r ∧ f.Denotes r (f.V a * n) := by
  have hz := Fld.zero_canon f
  obtain ⟨b, b1, b2, b3⟩ := Fld.smallAdd_exact pr hz.tight.rep hn
  have hb : f.Tight b := by
    have : (0 : Int) ≤ 2 ^ f.tb := by positivity
    have : (0 : Int) ≤ f.c := by positivity
    exact Fld.Shape.mono b2 (by linarith) (by rw [pow_succ]; linarith)
  obtain ⟨r, h1, h2, h3⟩ := mul_ok f pr ha hb.loose
  refine ⟨r, ?_, h2, ?_⟩
  · simp only [smallMulAssign, FieldCode.smallAdd, b1, bind, Except.bind]; exact h1
  · rw [b3, hz.2.1, Int.zero_ediv, mul_zero, sub_zero, zero_add] at h3
    exact h3

theorem normalize_ok {a : Elem} (ha : f.Rep a) :
    ∃ r, normalize f pr a = .ok r ∧ f.Canon (f.V a % f.p) r := by
  have hbig := Fld.big f
  have hcl : (f.c : Int) < 256 := by exact_mod_cast f.c_lt
  have hc0 : (0 : Int) ≤ f.c := by positivity
  have hnum : (2 : Int) ^ 73 < 2 ^ 200 := by norm_num
  have hnum2 : (2 : Int) ^ 73 = 4 * 2 ^ 71 := by norm_num
  have hnum3 : (256 : Int) < 2 ^ 71 := by norm_num
  have hp : (0 : Int) < 2 ^ f.n := by positivity
  have hpe : f.p = 2 ^ f.n - f.c := rfl
  have htb := f.pow_tb_le
  have hM : f.Rep f.code.MODULUS := (Fld.modulus_shape f).rep (by norm_num) (by norm_num at *; linarith)
  obtain ⟨s, s1, s2, s3⟩ := Fld.add_exact pr ha hM
  have hs : f.Rep s := s2.rep (by norm_num) (by rw [pow_succ]; norm_num at *; linarith)
  rw [Fld.modulus_V, Int.ediv_eq_zero_of_lt f.p_pos.le f.p_lt] at s3
  have sV : f.V s = f.fold (f.V a) + f.p := by rw [s3, Fld.fold_eq]; ring
  have s0 : 0 ≤ f.fold (f.V s) := by
    refine Fld.fold_nonneg_of_nonneg ?_
    have := ha.le_fold
    rw [sV]; linarith
  have slt := hs.fold_lt
  have hc : asI32 f.code.cval = f.c := by rw [Fld.cval_eq]; cases f <;> rfl
  have hci : IsI32 f.c := by
    have := f.c_lt
    simp only [IsI32]; norm_num; omega
  obtain ⟨u, u1, u2, u3⟩ := Fld.smallAdd_exact pr hs hci
  have uV : f.V u = f.fold (f.V s) + f.c := by rw [u3, Fld.fold_eq]; ring
  obtain ⟨d, top, -, -, -, ht, -, -⟩ := Fld.Shape.V_eq u2
  have hq := Fld.Shape.top_div u2 ht
  have hcarry : f.code.carryOut u = .ok (f.V u / 2 ^ f.n) := by
    simp only [FieldCode.carryOut, Fld.carryLimb_eq, ht, Fld.carryShift_eq, shr64, hq]
  have key : ∀ (q : Int) (o : Elem), f.V u / 2 ^ f.n = q → asI32 q = q →
      smallMulAssign f pr f.code.MODULUS q = .ok o → f.Rep o →
      ∃ r, normalize f pr a = .ok r ∧ f.Shape (-2 ^ f.tb - 1) (2 ^ f.tb) r ∧
        f.V r = f.fold (f.V s) - f.fold (f.V o) := by
    intro q o h4 h5 h6 h7
    obtain ⟨r, r1, r2, r3⟩ := sub_exact f pr hs h7
    refine ⟨r, ?_, r2, r3⟩
    simp only [normalize, s1, FieldCode.smallAdd, hc, u1, hcarry, h4, h5, h6, r1, bind,
      Except.bind]
  have hm : f.fold (f.V s) % f.p = f.V a % f.p := by
    have h1 := Fld.fold_modEq f (f.V s)
    have h2 := Fld.fold_modEq f (f.V a)
    rw [sV] at h1
    rw [sV]
    exact h1.trans ((by simp [Int.ModEq] : f.fold (f.V a) + f.p ≡ f.fold (f.V a) [ZMOD f.p]).trans h2)
  have hm0 : 0 ≤ f.V a % f.p := Int.emod_nonneg _ f.p_pos.ne'
  have hm1 : f.V a % f.p < f.p := Int.emod_lt_of_pos _ f.p_pos
  have fin : ∀ r, f.Shape (-2 ^ f.tb - 1) (2 ^ f.tb) r → f.V r = f.V a % f.p → f.Canon (f.V a % f.p) r := by
    intro r h2 hV
    refine ⟨Fld.Shape.of_V h2 ?_ ?_, hV, hm0, hm1⟩
    · rw [mul_zero, hV]; exact hm0
    · rw [sub_add_cancel, ← Fld.pow_n, hV]
      exact lt_trans hm1 f.p_lt
  rcases lt_or_ge (f.fold (f.V s)) f.p with hl | hge
  · have e : f.V u / 2 ^ f.n = 0 := by
      rw [uV]
      apply Int.ediv_eq_zero_of_lt <;> linarith
    obtain ⟨r, r1, r2, r3⟩ := key 0 _ e rfl (smallMul_modulus_zero f pr)
      ((Fld.zeros_shape f).rep (by norm_num) (by norm_num))
    refine ⟨r, r1, fin r r2 ?_⟩
    rw [r3, Fld.zeros_V, Fld.fold_of_lt le_rfl hp, sub_zero, ← hm, Int.emod_eq_of_lt s0 hl]
  · have e : f.V u / 2 ^ f.n = 1 := by
      rw [uV, show f.fold (f.V s) + f.c = (f.fold (f.V s) + f.c - 2 ^ f.n) + 2 ^ f.n * 1 by ring,
        Int.add_mul_ediv_left _ _ hp.ne', Int.ediv_eq_zero_of_lt (by linarith) (by linarith)]
      rfl
    obtain ⟨r, r1, r2, r3⟩ := key 1 _ e rfl (smallMul_modulus_one f pr) hM
    refine ⟨r, r1, fin r r2 ?_⟩
    rw [r3, Fld.modulus_V, Fld.fold_of_lt f.p_pos.le f.p_lt, ← hm, ← Int.sub_emod_right,
      Int.emod_eq_of_lt (by linarith) (by linarith)]

theorem neg_ok {a : Elem} (ha : f.Rep a) :
    ∃ r, neg f pr a = .ok r ∧ f.Tight r ∧ f.Denotes r (-f.V a) := by
  have hz := Fld.zero_canon f
  obtain ⟨r, h1, h2, h3⟩ := sub_exact f pr hz.tight.rep ha
  refine ⟨r, h1, sub_tight f h2, ?_⟩
  rw [Fld.Denotes, h3, hz.2.1, Fld.fold_of_lt le_rfl (by positivity), zero_sub]
  exact (Fld.fold_modEq f _).neg

/-- Checker run for the repaired `unpack`. -/
def unpackCheck : Bool :=
  check 0 0 0 unpack_e383_187
    (rng 0 (List.replicate 7 (-9223372036854775808, 9223372036854775807)) ++ rng 16 (byteR 48))
    (vform 56 0 7 1) (vform 8 16 48 1 ++ [(16 + 47, .fl 7, -p2 383)])
    (rng 0 (Fld.e383_187.shapeR 0 (p2 47 - 1)))

set_option maxRecDepth 100000 in
theorem unpackCheck_ok : unpackCheck = true := by decide +kernel

set_option exponentiation.threshold 600 in
theorem unpack_e383 {a : Elem} {bytes : List Int} (ha : Fld.e383_187.IsWords a) (hb : IsBytes bytes)
    (hl : 48 ≤ bytes.length) :
    ∃ r, (code .e383_187).unpack pr a bytes = .ok r ∧ Fld.e383_187.Shape 0 (2 ^ 47 - 1) r ∧
      Fld.e383_187.V r = leVal (bytes.take 48) % 2 ^ 383 := by
  obtain ⟨ρ', h1, h2, h3⟩ := check_sound unpackCheck_ok pr (initEnv a bytes)
    (Fld.slice_ranges ha.inRs (by rw [ha.1]; exact Fld.k_le _) hb hl (by norm_num))
  refine ⟨readSlots ρ' 0 7, ?_, ?_, ?_⟩
  · show (code .e383_187).runLimb pr unpack_e383_187 a bytes = _
    simp only [FieldCode.runLimb, h1, bind, Except.bind, pure, Except.pure]; rfl
  · have := readSlots_inRs _ _ h2
    rw [Fld.shapeR_length] at this
    exact Fld.shape_of_inRs this
  · have h3 := Int.zero_dvd.mp h3
    rw [EForm.val_append, vform_val, vform_val, one_mul, one_mul, Fld.readSlots_slice hl (by norm_num)] at h3
    have hB := hb.take 48
    have hBl : (bytes.take 48).length = 48 := List.length_take_of_le hl
    have htop := leVal_top (m := 47) (j := 7) hB hBl
    rw [List.getElem?_take_of_lt (by omega), ← Fld.get_slice hl (by norm_num) 47 (by norm_num) (a := a)] at htop
    simp only [EForm.val, kv, p2_eq, envF] at h3
    have := Int.emod_add_mul_ediv (leVal (bytes.take 48)) (2 ^ 383)
    rw [htop] at h3
    show digitsVal 56 (readSlots ρ' 0 7) = _
    simp only [leVal] at *
    generalize (2 : Int) ^ 383 = N at *
    linarith

end

/-! ### The ladder -/

section
variable {S : Type} (C : Scalar S)

/-- The type whose bits are complemented. -/
def compl : Scalar S := { C with bitNormalized := fun k i => (C.bitNormalized k i).map not }

theorem eval_compl (ρ : Tree S) (e : PExpr) : e.eval (compl C) ρ = e.eval C ρ := by
  induction e with
  | get r => rfl
  | dval => rfl
  | add a b iha ihb => simp only [PExpr.eval, iha, ihb]; rfl
  | sub a b iha ihb => simp only [PExpr.eval, iha, ihb]; rfl
  | mul a b iha ihb => simp only [PExpr.eval, iha, ihb]; rfl
  | squared a iha => simp only [PExpr.eval, iha]; rfl
  | smallMul a n iha => simp only [PExpr.eval, iha]; rfl

theorem runPoint_compl (b : PProg) : ∀ ρ : Tree S, runPoint (compl C) b ρ = runPoint C b ρ := by
  induction b with
  | nil => intro ρ; rfl
  | cons s b ih =>
    intro ρ
    cases s
    simp only [runPoint, eval_compl, ih]

theorem call_compl (b : PProg) (p q : EdwardsExtended S) : call (compl C) b p q = call C b p q := by
  simp only [call, runPoint_compl]

/-- The state without the bit. -/
def core (s : Ladder S) : Ladder S := { s with bit := false }

/-- An iteration of the repaired body does what the old one does with the complemented bit. -/
theorem iter_compl (k : S) (i : Nat) (s t : Ladder S) (h : core s = core t) :
    (Ladder.execAll C k i ladder s).map (fun x => core x.1) =
      (Ladder.execAll (compl C) k i Ladder.body t).map (fun x => core x.1) := by
  obtain ⟨r0, r1, d0, d1, idx, bit, tm, fm⟩ := s
  obtain ⟨r0', r1', d0', d1', idx', bit', tm', fm'⟩ := t
  simp only [core, Ladder.mk.injEq] at h
  obtain ⟨rfl, rfl, rfl, rfl, rfl, -, rfl, rfl⟩ := h
  simp only [ladder, Ladder.body, Ladder.execAll, Ladder.exec, Ladder.get, Ladder.set, Ladder.mask,
    Ladder.setMask, bind, Except.bind, pure, Except.pure, addAssign, double, call_compl]
  rw [show (compl C).nbits = C.nbits from rfl, show (compl C).bitNormalized k (C.nbits - 1 - i) =
    (C.bitNormalized k (C.nbits - 1 - i)).map not from rfl]
  rcases C.bitNormalized k (C.nbits - 1 - i) with e | b
  · rfl
  · simp only [Except.map, Bool.not_not, if_true, if_false, Bool.false_eq_true]
    rcases call C addP r0 r1 with e | q
    · rfl
    · simp only [show (compl C).filled = C.filled from rfl,
        show @normalizedBitand S (compl C) = normalizedBitand C from rfl,
        show @normalizedBitor S (compl C) = normalizedBitor C from rfl]
      rcases call C doubleP _ _ with e | r <;> rfl

theorem loop_compl (k : S) : ∀ (n i : Nat) (s t : Ladder S), core s = core t →
    (Ladder.loop C k ladder n i s).map (fun x => core x.1) =
      (Ladder.loop (compl C) k Ladder.body n i t).map (fun x => core x.1)
  | 0, _, _, _, h => congrArg Except.ok h
  | n + 1, i, s, t, h => by
    have e := iter_compl C k i s t h
    simp only [Ladder.loop, bind, Except.bind, pure, Except.pure]
    rcases h1 : Ladder.execAll C k i ladder s with x | ⟨s', ev⟩ <;>
      rcases h2 : Ladder.execAll (compl C) k i Ladder.body t with y | ⟨t', ev'⟩ <;> rw [h1, h2] at e
    · exact e
    · cases e
    · cases e
    · have ih := loop_compl k n (i + 1) s' t' (Except.ok.inj e)
      dsimp only
      rcases h3 : Ladder.loop C k ladder n (i + 1) s' with x | ⟨s'', ev⟩ <;>
        rcases h4 : Ladder.loop (compl C) k Ladder.body n (i + 1) t' with y | ⟨t'', ev'⟩ <;> rw [h3, h4] at ih
      · exact ih
      · cases ih
      · cases ih
      · exact ih

end

section
variable {S : Type} {C : Scalar S} {m : Nat} [Fact m.Prime] {d : ZMod m} [Fact (¬ IsSquare d)]
  [NeZero (2 : ZMod m)] {ok : S → Prop} {den : S → ZMod m}

theorem compl_exact {K : Type} [Field K] {d : K} {den : S → K} (h : C.Exact K d ok den) :
    (compl C).Exact K d ok den where
  zero := h.zero
  one := h.one
  dVal := h.dVal
  add := h.add
  sub := h.sub
  mul := h.mul
  squared := h.squared
  smallMul := h.smallMul

omit [Fact (¬ IsSquare d)] [NeZero (2 : ZMod m)] in
theorem zero_repr (L : C.Lawful m d ok den) : (zero C).Repr ok den (0 : EdPoint (ZMod m) d) := by
  obtain ⟨z1, z2⟩ := L.exact.zero
  obtain ⟨o1, o2⟩ := L.exact.one
  refine ⟨⟨⟨z1, o1, o1, z1⟩, ?_, ?_, ?_⟩, ?_⟩
  · rw [zero, o2]; exact one_ne_zero
  · simp [zero, z2]
  · simp [zero]
  · simp [zero, z2]

theorem scalarMult_repr (L : C.Lawful m d ok den) {k : S} (hk : ok k) {p : EdwardsExtended S}
    {P : EdPoint (ZMod m) d} (hp : p.Repr ok den P) :
    ∃ r k', scalarMult C p k = .ok (r, k') ∧ C.normalize k = .ok k' ∧ r.Repr ok den ((den k).val • P) := by
  obtain ⟨k', n1, n2, n3, n4⟩ := L.normalize hk
  have hm : 1 < m := (Fact.out : m.Prime).one_lt
  have hn : 0 < C.nbits := by
    rcases Nat.eq_zero_or_pos C.nbits with h | h
    · have := L.le; rw [h] at this; omega
    · exact h
  have hlt : (den k).val < 2 ^ C.nbits := lt_of_lt_of_le (ZMod.val_lt _) L.le
  rw [n3] at n4
  let s0 : Ladder S := ⟨zero C, p, zero C, p, 0, false, C.filled false, C.filled false⟩
  obtain ⟨s', e1, e2⟩ := ladder_mult (C := compl C) (k := k') (x := 2 ^ C.nbits - ((den k).val + 1)) (s := s0)
    (compl_exact L.exact) L.selects hn (Nat.sub_lt (by positivity) (by omega)) (fun i hi => by
      show (C.bitNormalized k' i).map not = _
      rw [n4 i hi, Nat.testBit_two_pow_sub_succ hlt, decide_eq_true (show i < C.nbits from hi), Bool.true_and]
      rfl) (zero_repr L) hp
  have e3 := loop_compl C k' C.nbits 0 s0 s0 rfl
  rw [show (compl C).nbits = C.nbits from rfl] at e1 e2
  rw [e1] at e3
  rcases h : Ladder.loop C k' ladder C.nbits 0 s0 with x | ⟨t, ev⟩
  · rw [h] at e3; cases e3
  · rw [h] at e3
    have e4 : core t = core s' := Except.ok.inj e3
    have e5 : t.r0 = s'.r0 := by
      have : (core t).r0 = (core s').r0 := by rw [e4]
      exact this
    refine ⟨t.r0, k', ?_, n1, ?_⟩
    · simp only [scalarMult, scalarMultNormalized, n1, bind, Except.bind, pure, Except.pure]
      rw [show Ladder.loop C k' ladder C.nbits 0 ⟨zero C, p, zero C, p, 0, false, C.filled false, C.filled false⟩ =
        .ok (t, ev) from h]
    · rw [e5]
      rwa [show 2 ^ C.nbits - 1 - (2 ^ C.nbits - ((den k).val + 1)) = (den k).val by omega] at e2

/-- The repaired tripling. -/
theorem triple_repr (L : C.Lawful m d ok den) {p : EdwardsExtended S} {P : EdPoint (ZMod m) d}
    (hp : p.ReprXYZ ok den P) : ∃ r, triple C p = .ok r ∧ r.Repr ok den (P + P + P) := by
  obtain ⟨r, h1, h2, hx, hy, hz, ht⟩ := call_sim L.exact (b := tripleP) (by decide) hp.1 hp.1
    (safeProg_true _ _)
  obtain ⟨-, z1, x1, y1⟩ := hp
  refine ⟨r, h1, ?_⟩
  obtain ⟨b0, n1, n2, l1, l2⟩ := triple_law P (a := P.y ^ 2 + P.x ^ 2)
    (b := 2 * (2 - (P.y ^ 2 + P.x ^ 2)))
    (e := (P.y ^ 2 + P.x ^ 2) * (P.y ^ 2 - P.x ^ 2)) rfl rfl rfl
  generalize hB : 2 * (2 - (P.y ^ 2 + P.x ^ 2)) = B at *
  generalize hE : (P.y ^ 2 + P.x ^ 2) * (P.y ^ 2 - P.x ^ 2) = E at *
  simp only [tripleP, denProg, PExpr.den, denRegs] at hx hy hz ht
  simp [-mul_eq_mul_left_iff, -mul_eq_mul_right_iff, x1, y1] at hx hy hz ht
  generalize den p.z = u at *
  have fx : den r.x = u ^ 10 * (P.x * (P.y ^ 2 * B + E) * (E - P.y ^ 2 * B)) := by
    rw [hx, ← hB, ← hE]; ring
  have fy : den r.y = u ^ 10 * (P.y * (P.x ^ 2 * B - E) * (E + P.x ^ 2 * B)) := by
    rw [hy, ← hB, ← hE]; ring
  have fz : den r.z = u ^ 10 * ((E - P.y ^ 2 * B) * (E + P.x ^ 2 * B)) := by
    rw [hz, ← hB, ← hE]; ring
  have ft : den r.t * den r.z = den r.x * den r.y := by rw [hx, hy, hz, ht]; ring
  have u10 : u ^ 10 ≠ 0 := pow_ne_zero _ z1
  refine ⟨⟨h2, ?_, ?_, ?_⟩, ft⟩
  · rw [fz]; exact mul_ne_zero u10 (mul_ne_zero n2 n1)
  · rw [l1, fx, fz]; field_simp
  · rw [l2, fy, fz]; field_simp

end

theorem den_fold (c : Crv) (v : Int) : ((c.fld.fold v : Int) : c.K) = (v : c.K) :=
  Fld.modEq_iff.1 (Fld.fold_modEq c.fld v)

/-- The repaired types are correct scalar types, on everything the operations return. -/
theorem lawful (c : Crv) (pr : Profile) : (scalar c pr).Lawful c.fld.pN c.d c.fld.Tight c.den where
  exact := by
    constructor
    · have h := Fld.zero_canon c.fld
      refine ⟨?_, ?_⟩ <;> simp only [scalar, Crv.scalar_eq, FieldCode.scalar]
      · exact h.tight
      · rw [Crv.den, h.2.1, Int.cast_zero]
    · have h := Fld.one_canon c.fld
      refine ⟨?_, ?_⟩ <;> simp only [scalar, Crv.scalar_eq, FieldCode.scalar]
      · exact h.tight
      · rw [Crv.den, h.2.1, Int.cast_one]
    · have h := Crv.dVal_canon c
      refine ⟨?_, ?_⟩ <;> simp only [scalar, Crv.scalar_eq, FieldCode.scalar]
      · exact h.tight
      · exact Crv.dVal_den c
    · intro a b ha hb
      obtain ⟨r, h1, h2, h3⟩ := C01_add c.fld pr ha.rep hb.rep
      refine ⟨r, ?_, h2, ?_⟩
      · simp only [scalar, Crv.scalar_eq]; exact h1
      · rw [Crv.den_eq] at h3; rw [h3]; push_cast; rfl
    · intro a b ha hb _
      obtain ⟨r, h1, h2, h3⟩ := sub_exact c.fld pr ha.rep hb.rep
      refine ⟨r, h1, sub_tight _ h2, ?_⟩
      rw [Crv.den, h3, Int.cast_sub, den_fold, den_fold]; rfl
    · intro a b ha hb _
      obtain ⟨r, h1, h2, h3⟩ := mul_ok c.fld pr ha.loose hb.loose
      refine ⟨r, h1, h2, ?_⟩
      rw [Crv.den_eq] at h3; rw [h3]; push_cast; rfl
    · intro a ha
      obtain ⟨r, h1, h2, h3⟩ := C05_square c.fld pr ha
      refine ⟨r, ?_, h2, ?_⟩
      · simp only [scalar, Crv.scalar_eq]; exact h1
      · rw [Crv.den_eq] at h3; rw [h3, pow_two]; push_cast; rfl
    · rintro a n ha rfl
      obtain ⟨r, h1, h2, h3⟩ := smallMul_ok c.fld pr ha.loose (n := 2) (by norm_num [IsI32])
      refine ⟨r, h1, h2, ?_⟩
      rw [Crv.den_eq] at h3; rw [h3]; push_cast; rfl
  selects := by
    intro x y hx hy b
    exact c.tight_selects pr hx hy b
  le := by
    have : (scalar c pr).nbits = c.fld.n := by
      simp only [scalar, Crv.scalar_eq, FieldCode.scalar]
      exact (C20_nbits c.fld).1
    rw [this]; exact c.pN_le
  normalize := by
    intro a ha
    obtain ⟨r, h1, h2⟩ := normalize_ok c.fld pr ha.rep
    have h3 : c.den r = c.den a := by
      rw [Crv.den, h2.2.1, Crv.den, ← Fld.modEq_iff]
      exact Int.mod_modEq _ _
    refine ⟨r, h1, h2.tight, h3, ?_⟩
    intro i hi
    have := c.bit_canon pr h2.canonical (i := i) hi
    refine this.trans ?_
    have e : ((c.den r).val : Int) = c.fld.V r := by
      rw [Crv.den, ZMod.val_intCast, ← Fld.p_eq, h2.2.1, Int.emod_emod_of_dvd _ dvd_rfl]
    rw [← e, Nat.testBit_eq_decide_div_mod_eq]
    congr 1
    norm_cast

end Repaired

end Verif

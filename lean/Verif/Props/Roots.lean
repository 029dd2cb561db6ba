import Verif.Props.Power
import Verif.Props.Canon
import Verif.Props.Exceptional

/-!
# Properties C43–C45: Legendre symbols as words, fourth powers, principal roots

C43: after `normalize`, the result of `legendre` is word for word one of the constants
`ZERO`, `ONE`, `M_ONE`.  C44: `quartic_legendre`, which `sqrt` uses in the four modules with
`p ≡ 5 (mod 8)`, classifies fourth powers.  C45: squaring the result of `sqrt` tells squares
from non-squares; for `p ≡ 3 (mod 4)` the root returned is the one that is itself a square.
-/

namespace Verif
open Fld FieldCode

theorem Fld.neg_p_le_lowB (f : Fld) : -f.p ≤ f.lowB := by cases f <;> decide +kernel

variable (f : Fld) (pr : Profile)

/-! ## C43 -/

open Classical in
/-- Full statement of C43 (false where C17 is). -/
def C43_statement : Prop := ∀ (f : Fld) (pr : Profile) (a : Elem), f.Tight a →
  ∃ r, f.code.legendre pr a = .ok r ∧ f.code.normalize pr r = .ok
    (if f.p ∣ f.V a then f.code.ZERO
     else if ∃ y : Int, y * y ≡ f.V a [ZMOD f.p] then f.code.ONE else f.code.M_ONE)

open Classical in
/-- Part of C43: which of the three constants `legendre` returns, after `normalize`.  Missing:
what is missing in `C17_legendre_partial`. -/
theorem C43_legendre_words_partial {a : Elem} (ha : f.ChainArg f.code.legendreC a) :
    ∃ r, f.code.legendre pr a = .ok r ∧ f.code.normalize pr r = .ok
      (if f.p ∣ f.V a then f.code.ZERO
       else if ∃ y : Int, y * y ≡ f.V a [ZMOD f.p] then f.code.ONE else f.code.M_ONE) := by
  obtain ⟨r, h1, h2, h3, h4, h5, h6⟩ := C17_legendre_partial f pr ha
  obtain ⟨n, h7, h8⟩ := C09_normalize_partial f pr (Tight.rep h2) (f.neg_p_le_lowB.trans h3)
  refine ⟨r, h1, ?_⟩
  rw [h7]
  congr 1
  have key : ∀ {x : Int} {e : Elem}, f.Canon x e → f.Denotes r x → n = e := by
    intro x e he hx
    refine C09_canonical_unique f (x := x) ?_ he
    have : f.V r % f.p = x := by
      have h : f.V r % f.p = x % f.p := hx
      rw [h, Int.emod_eq_of_lt he.2.2.1 he.2.2.2]
    rwa [this] at h8
  split_ifs with c1 c2
  · exact key (zero_canon f) (h4 c1)
  · exact key (one_canon f) (h5 c1 c2)
  · refine key (m_one_canon f) ((h6 c2).trans ?_)
    rw [modEq_iff]
    push_cast
    rw [dvd_iff.mp (dvd_refl f.p)]
    simp

/-- In seven types there is no condition on the operand. -/
theorem C43_seven_types_partial (hf : f ≠ .e222_117 ∧ f ≠ .e251_9) {a : Elem} (ha : f.Tight a) :
    ∃ r n, f.code.legendre pr a = .ok r ∧ f.code.normalize pr r = .ok n ∧
      (n = f.code.ZERO ↔ f.p ∣ f.V a) ∧
      (n = f.code.ONE ↔ ¬ f.p ∣ f.V a ∧ ∃ y : Int, y * y ≡ f.V a [ZMOD f.p]) ∧
      (n = f.code.M_ONE ↔ ¬ ∃ y : Int, y * y ≡ f.V a [ZMOD f.p]) := by
  classical
  obtain ⟨r, h1, h2⟩ := C43_legendre_words_partial f pr (ChainArg.of_tight hf ha)
  refine ⟨r, _, h1, h2, ?_⟩
  have d1 : f.code.ZERO ≠ f.code.ONE := by
    clear ha h1 h2; cases f <;> decide +kernel
  have d2 : f.code.ZERO ≠ f.code.M_ONE := by
    clear ha h1 h2; cases f <;> decide +kernel
  have d3 : f.code.ONE ≠ f.code.M_ONE := by
    clear ha h1 h2; cases f <;> decide +kernel
  have hz : f.p ∣ f.V a → ∃ y : Int, y * y ≡ f.V a [ZMOD f.p] := fun h =>
    ⟨0, (Int.modEq_zero_iff_dvd.mpr h).symm⟩
  by_cases c1 : f.p ∣ f.V a
  · simp [c1, d1, d2, hz c1]
  · by_cases c2 : ∃ y : Int, y * y ≡ f.V a [ZMOD f.p]
    · simp [c1, c2, d1.symm, d3]
    · simp [c1, c2, d2.symm, d3.symm]

set_option maxRecDepth 100000 in
theorem C43_statement_false : ¬ C43_statement := by
  classical
  intro h
  have ht : Fld.e222_117.Tight (minusOne .e222_117) := by
    obtain ⟨r, g1, g2, -⟩ := C02_sub_correct_iff .e222_117 .debug (Tight.rep (zero_canon _).tight)
      (Tight.rep (one_canon _).tight)
    rw [(C15_counterexample .e222_117 .debug (.inl rfl)).1] at g1; cases g1; exact g2
  have e : Fld.e222_117.intRun (fun _ => none) Fld.e222_117.code.legendreC
      (Fld.e222_117.V (minusOne .e222_117)) = some 119807 := by decide +kernel
  obtain ⟨r, h1, h2, h3⟩ := intRun_sound' .debug (q := noQuartic) ht e
  obtain ⟨r', g1, g2⟩ := h .e222_117 .debug _ ht
  obtain rfl := ok_unique h1 g1
  obtain ⟨n, k1, k2⟩ := C09_normalize_partial .e222_117 .debug (Tight.rep h2)
    (by rw [h3]; decide +kernel)
  rw [h3] at k2
  have hv := k2.2.1
  obtain rfl := ok_unique g2 k1
  revert hv
  split_ifs <;> decide +kernel

/-! ## C44 -/

/-- C44: in the four modules that define it, `quartic_legendre` returns `a ^ ((p - 1) / 4)`:
`0` for `0`, `1` exactly for the other fourth powers, `-1` exactly for the other squares, and
for non-squares a square root of `-1`. -/
theorem C44_quartic (hf : f.Five) {a : Elem} (ha : f.Tight a) :
    ∃ r, f.code.quarticLegendre pr a = .ok r ∧ f.Tight r ∧
      (f.Denotes r 0 ↔ f.p ∣ f.V a) ∧
      (f.Denotes r 1 ↔ ¬ f.p ∣ f.V a ∧ ∃ y : Int, y ^ 4 ≡ f.V a [ZMOD f.p]) ∧
      (f.Denotes r (-1) ↔ (∃ y : Int, y ^ 2 ≡ f.V a [ZMOD f.p]) ∧
        ¬ ∃ y : Int, y ^ 4 ≡ f.V a [ZMOD f.p]) ∧
      ((¬ ∃ y : Int, y ^ 2 ≡ f.V a [ZMOD f.p]) → f.V r ^ 2 ≡ -1 [ZMOD f.p]) := by
  obtain ⟨r, h1, h2, h3⟩ := quartic_pow f pr hf ha
  obtain ⟨hp, -, h8, -⟩ := pN_facts f
  have h8 := h8 hf
  refine ⟨r, h1, h2, ?_⟩
  have i2 : (∃ y : Int, y ^ 2 ≡ f.V a [ZMOD f.p]) ↔ IsSquare ((f.V a : Int) : ZMod f.pN) := by
    rw [← isSquare_iff]; simp only [pow_two]
  have i4 : (∃ y : Int, y ^ 4 ≡ f.V a [ZMOD f.p]) ↔
      ∃ y : ZMod f.pN, y ^ 4 = ((f.V a : Int) : ZMod f.pN) := by
    constructor
    · rintro ⟨y, hy⟩
      rw [modEq_iff] at hy
      exact ⟨y, by rw [← hy]; push_cast; ring⟩
    · rintro ⟨y, hy⟩
      refine ⟨(y.val : Int), ?_⟩
      rw [modEq_iff, ← hy]
      push_cast
      rw [ZMod.natCast_zmod_val]
  rw [i2, i4]
  simp only [Denotes, modEq_iff, dvd_iff] at *
  push_cast at *
  rw [h3]
  generalize ((f.V a : Int) : ZMod f.pN) = x
  clear h1 h2 h3 ha hf
  have h10 : (1 : ZMod f.pN) ≠ -1 := by
    intro h
    have : ((2 : Nat) : ZMod f.pN) = 0 := by push_cast; linear_combination h
    rw [ZMod.natCast_eq_zero_iff] at this
    exact absurd (Nat.le_of_dvd (by norm_num) this) (by omega)
  by_cases hx : x = 0
  · subst hx
    have e0 : (0 : ZMod f.pN) ^ ((f.pN - 1) / 4) = 0 := zero_pow (by omega)
    rw [e0]
    refine ⟨by simp, by simp, ?_, fun h => absurd IsSquare.zero h⟩
    constructor
    · intro h; exact absurd (neg_eq_zero.mp h.symm) one_ne_zero
    · rintro ⟨-, h⟩; exact absurd ⟨0, by simp⟩ h
  · have e2 : (x ^ ((f.pN - 1) / 4)) ^ 2 = x ^ (f.pN / 2) := by
      rw [← pow_mul]; congr 1; omega
    have q0 : x ^ ((f.pN - 1) / 4) ≠ 0 := pow_ne_zero _ hx
    have f4 : (∃ y, y ^ 4 = x) → x ^ ((f.pN - 1) / 4) = 1 := by
      rintro ⟨y, rfl⟩
      have hy : y ≠ 0 := by rintro rfl; exact hx (by simp)
      rw [← pow_mul, show 4 * ((f.pN - 1) / 4) = f.pN - 1 by omega,
        ZMod.pow_card_sub_one_eq_one hy]
    have b4 : x ^ ((f.pN - 1) / 4) = 1 → ∃ y, y ^ 4 = x := by
      intro h
      rw [h, one_pow] at e2
      obtain ⟨y, hy⟩ := (ZMod.euler_criterion _ hx).mpr e2.symm
      have hy0 : y ≠ 0 := by rintro rfl; exact hx (by simpa using hy)
      have e3 : y ^ (f.pN / 2) = 1 := by
        rw [← h, hy, ← pow_two, ← pow_mul]; congr 1; omega
      obtain ⟨z, hz⟩ := (ZMod.euler_criterion _ hy0).mpr e3
      exact ⟨z, by rw [hy, hz]; ring⟩
    refine ⟨by simp [hx, q0], ⟨fun h => ⟨hx, b4 h⟩, fun h => f4 h.2⟩, ?_, ?_⟩
    · constructor
      · intro h
        refine ⟨(ZMod.euler_criterion _ hx).mpr (by rw [← e2, h]; ring), fun h' => ?_⟩
        exact h10 ((f4 h').symm.trans h)
      · rintro ⟨h, h'⟩
        rw [ZMod.euler_criterion _ hx, ← e2] at h
        have h2 : (x ^ ((f.pN - 1) / 4) - 1) * (x ^ ((f.pN - 1) / 4) + 1) = 0 := by
          linear_combination h
        rcases mul_eq_zero.mp h2 with g | g
        · exact absurd (b4 (by linear_combination g)) h'
        · linear_combination g
    · intro h
      rw [e2]
      exact (ZMod.pow_div_two_eq_neg_one_or_one _ hx).resolve_left
        fun e => h ((ZMod.euler_criterion _ hx).mpr e)

/-- All cases occur in `Mod_e255_19`: `1` is a fourth power, `-1` a square but no fourth power,
`2` is not a square. -/
example : (Fld.e255_19.intRun (fun _ => none) (Fld.e255_19.code.quarticC.getD [])
      (Fld.e255_19.p - 1)).map (· % Fld.e255_19.p) = some (Fld.e255_19.p - 1) ∧
    ((Fld.e255_19.intRun (fun _ => none) (Fld.e255_19.code.quarticC.getD []) 2).map
      fun y => (y * y + 1) % Fld.e255_19.p) = some 0 := by decide +kernel

/-! ## C45 -/

/-- Full statement of C45 (false where C18 is). -/
def C45_statement : Prop := ∀ (f : Fld) (pr : Profile) (a : Elem), f.Tight a →
  ∃ r s, f.code.sqrt pr a = .ok r ∧ f.code.squared pr r = .ok s ∧
    (f.Denotes s (f.V a) ↔ ∃ y : Int, y * y ≡ f.V a [ZMOD f.p]) ∧
    (¬ f.Five → (∃ y : Int, y * y ≡ f.V a [ZMOD f.p]) → ∃ y : Int, y * y ≡ f.V r [ZMOD f.p])

/-- Part of C45: squaring the result of `sqrt` gives the operand back exactly for squares.
Missing: what is missing in `C18_sqrt_partial`. -/
theorem C45_detects_partial {a : Elem} (ha : f.ChainArg f.code.sqrtC a) :
    ∃ r s, f.code.sqrt pr a = .ok r ∧ f.code.squared pr r = .ok s ∧
      (f.Denotes s (f.V a) ↔ ∃ y : Int, y * y ≡ f.V a [ZMOD f.p]) := by
  obtain ⟨r, h1, h2⟩ := sqrt_tight f pr ha.1
  obtain ⟨s, h3, -, h4⟩ := C05_square f pr h2
  refine ⟨r, s, h1, h3, fun h => ⟨f.V r, h4.symm.trans h⟩, fun h => ?_⟩
  obtain ⟨r', s', g1, g2, g3⟩ := C18_sqrt_partial f pr ha h
  obtain rfl := ok_unique h1 g1
  obtain rfl := ok_unique h3 g2
  exact g3

/-- Part of C45, for `p ≡ 3 (mod 4)`: the root of a square is the one that is itself a square
(unique), and the result for a non-square is a square root of its negative. -/
theorem C45_principal_partial (hf : ¬ f.Five) {a : Elem} (ha : f.ChainArg f.code.sqrtC a) :
    ∃ r, f.code.sqrt pr a = .ok r ∧ f.Tight r ∧
      ((∃ y : Int, y * y ≡ f.V a [ZMOD f.p]) →
        (∃ y : Int, y * y ≡ f.V r [ZMOD f.p]) ∧ f.V r * f.V r ≡ f.V a [ZMOD f.p] ∧
        ∀ x : Int, x * x ≡ f.V a [ZMOD f.p] → (∃ y : Int, y * y ≡ x [ZMOD f.p]) →
          f.Denotes r x) ∧
      ((¬ ∃ y : Int, y * y ≡ f.V a [ZMOD f.p]) → f.V r * f.V r ≡ -f.V a [ZMOD f.p]) := by
  obtain ⟨hp, -, -, h3⟩ := pN_facts f
  have h8 := h3 hf
  obtain ⟨r, h1, h2, h4, -⟩ := chain_poly' .debug ha.1 ha.2.1 (sqrt_sym f hf) ha.safe
  refine ⟨r, runChain_mono _ pr _ (fun _ _ h => by cases h) h1, h2, ?_⟩
  rw [polyVal_single] at h4
  simp only [isSquare_iff, Denotes]
  rw [modEq_iff] at h4
  simp only [modEq_iff]
  push_cast at *
  rw [h4]
  generalize ((f.V a : Int) : ZMod f.pN) = x
  clear h1 h2 h4 ha h3 hf
  have e2 : x ^ ((f.pN + 1) / 4) * x ^ ((f.pN + 1) / 4) = x ^ (f.pN / 2) * x := by
    rw [← pow_add, ← pow_succ]; congr 1; omega
  have hneg : ∀ y : ZMod f.pN, y ≠ 0 → IsSquare y → ¬ IsSquare (-y) := by
    intro y hy h h'
    rw [ZMod.euler_criterion _ hy] at h
    rw [ZMod.euler_criterion _ (neg_ne_zero.mpr hy), Odd.neg_pow (by rw [Nat.odd_iff]; omega), h] at h'
    have : ((2 : Nat) : ZMod f.pN) = 0 := by push_cast; linear_combination -h'
    rw [ZMod.natCast_eq_zero_iff] at this
    exact absurd (Nat.le_of_dvd (by norm_num) this) (by omega)
  constructor
  · intro hs
    have e3 : x ^ ((f.pN + 1) / 4) * x ^ ((f.pN + 1) / 4) = x := by
      rw [e2]
      by_cases hx : x = 0
      · rw [hx, mul_zero]
      · rw [(ZMod.euler_criterion _ hx).mp hs, one_mul]
    have e4 : IsSquare (x ^ ((f.pN + 1) / 4)) := IsSquare.pow _ hs
    refine ⟨e4, e3, fun y hy hq => ?_⟩
    generalize x ^ ((f.pN + 1) / 4) = r at *
    have h5 : (r - y) * (r + y) = 0 := by linear_combination e3 - hy
    rcases mul_eq_zero.mp h5 with g | g
    · linear_combination g
    · by_cases hy0 : (y : ZMod f.pN) = 0
      · rw [hy0] at g ⊢; linear_combination g
      · refine absurd ?_ (hneg _ hy0 hq)
        rwa [show -(y : ZMod f.pN) = r by linear_combination -g]
  · intro hs
    have hx : x ≠ 0 := fun h => hs (by rw [h]; exact IsSquare.zero)
    rw [e2, (ZMod.pow_div_two_eq_neg_one_or_one _ hx).resolve_left
      fun e => hs ((ZMod.euler_criterion _ hx).mpr e)]
    ring

/-- Wrong even for canonical operands in `Mod_e251_9`. -/
theorem C45_statement_false : ¬ C45_statement := by
  intro h
  obtain ⟨h1, h2, r, s, h3, h4, h5⟩ := C18_e251_counterexample .debug
  obtain ⟨r', s', g1, g2, g3, -⟩ := h .e251_9 .debug _ h1.tight
  obtain rfl := ok_unique h3 g1
  obtain rfl := ok_unique h4 g2
  exact h5 (g3.mpr ⟨_, h2⟩)

/-- In `Mod_e382_105` every canonical element meets the hypotheses; `4` is a square. -/
example (f : Fld) (hf : f = .e382_105) {a : Elem} (ha : f.Canon 4 a) :
    f.ChainArg f.code.sqrtC a ∧ ¬ f.Five ∧ ∃ y : Int, y * y ≡ f.V a [ZMOD f.p] := by
  subst hf
  exact ⟨ChainArg.of_tight ⟨by decide, by decide⟩ ha.tight, by decide, 2, by rw [ha.2.1]; rfl⟩

end Verif

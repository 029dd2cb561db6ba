import Verif.Field.ChainRare
import Verif.Props.Exceptional
import Verif.Props.Rand

/-!
# Property C84: how often the exponentiations of `Mod_e251_9` can be wrong

`inverted`, `legendre`, `sqrt` and `/` are right for every canonical operand in eight
types.  In `Mod_e251_9` they are wrong for some (C18), but for less than one in `2^13` of
the `2^251 - 9` canonical elements.
-/

namespace Verif
open Fld FieldCode

/-- `inverted`, `legendre`, `sqrt` and the division of canonical elements by `a` have the
results that their names say, in all builds. -/
def Fld.PowersRight (f : Fld) (a : Elem) : Prop := ∀ pr : Profile,
  (∃ r, f.code.inverted pr a = .ok r ∧ (¬ f.p ∣ f.V a → f.V a * f.V r ≡ 1 [ZMOD f.p]) ∧
    (f.p ∣ f.V a → f.Denotes r 0)) ∧
  (∃ r, f.code.legendre pr a = .ok r ∧ (f.p ∣ f.V a → f.Denotes r 0) ∧
    (¬ f.p ∣ f.V a → (∃ y : Int, y * y ≡ f.V a [ZMOD f.p]) → f.Denotes r 1) ∧
    ((¬ ∃ y : Int, y * y ≡ f.V a [ZMOD f.p]) → f.Denotes r (-1))) ∧
  ((∃ y : Int, y * y ≡ f.V a [ZMOD f.p]) →
    ∃ r s, f.code.sqrt pr a = .ok r ∧ f.code.squared pr r = .ok s ∧ f.Denotes s (f.V a)) ∧
  (¬ f.p ∣ f.V a → ∀ x b, f.Canon x b → ∃ q, f.code.div pr b a = .ok q ∧
    f.V q * f.V a ≡ x [ZMOD f.p])

/-- C84, the other types: the four operations are right for every canonical element. -/
theorem C84_others {f : Fld} (hf : f ≠ .e251_9) {x : Int} {a : Elem} (ha : f.Canon x a) :
    f.PowersRight a := by
  intro pr
  have h0 : 0 ≤ f.V a := by rw [ha.2.1]; exact ha.2.2.1
  have hc : ∀ c, f.ChainArg c a := fun c => ⟨ha.tight, fun _ => h0, fun h => absurd h hf⟩
  obtain ⟨r, h1, -, -, h2, h3⟩ := C15_invert_partial f pr (hc _)
  obtain ⟨l, g1, -, -, g2, g3, g4⟩ := C17_legendre_partial f pr (hc _)
  refine ⟨⟨r, h1, h2, h3⟩, ⟨l, g1, g2, g3, g4⟩, C18_sqrt_partial f pr (hc _), ?_⟩
  intro hz y b hb
  obtain ⟨q, k1, -, -, k2⟩ := C16_div_value f pr hb.tight (hc _)
    (fun _ => by rw [hb.2.1]; exact hb.2.2.1) (fun h => absurd h hf) hz
  exact ⟨q, k1, by rwa [hb.2.1] at k2⟩

set_option maxRecDepth 100000 in
theorem Fld.exp_result :
    ((absSteps expOps (flatten e251_9.code.invertC) expInit).bind fun A => A.get 0).isSome =
      true := by
  decide +kernel

theorem Fld.inverted_lt {a : Elem} (ha : Small a) (hr : ¬ Rare (e251_9.V a))
    (pr : Profile) : ∃ r, e251_9.code.inverted pr a = .ok r ∧ e251_9.Tight r ∧
      0 ≤ e251_9.V r ∧ e251_9.V r < 2 ^ 252 + 2 ^ 228 := by
  obtain ⟨e, he⟩ := Option.isSome_iff_exists.mp exp_result
  obtain ⟨A, h1, h2⟩ := Option.bind_eq_some_iff.mp he
  obtain ⟨ρ, h3, h4⟩ := sim (exp_sound .debug (e251_9.V a) noQuartic) _ (expInit_rel ha) h1
    (safe_of_list ha hr seconds_ok.1).safe
  obtain ⟨v, h5, h6⟩ := h4 0 e h2
  refine ⟨v, runChain_mono _ pr (q := noQuartic) (q' := noQuartic) (fun _ _ h => h) ?_,
    h6.1, h6.2.1, h6.2.2.1⟩
  simp only [runChain, execChain_eq, h3, bind, Except.bind, reg, h5]

theorem Fld.lt_domain {x : Int} {b i : Elem} (hb : e251_9.Canon x b) (h0 : 0 ≤ e251_9.V i)
    (h1 : e251_9.V i < 2 ^ 252 + 2 ^ 228) : e251_9.MulDomain (e251_9.V b * e251_9.V i) := by
  have hp : e251_9.p = 2 ^ 251 - 9 := rfl
  rw [hb.2.1]
  refine ⟨mul_nonneg hb.2.2.1 h0, ?_⟩
  have h2 := hb.2.2.2
  rw [hp] at h2
  exact (mul_lt_mul'' h2 h1 hb.2.2.1 h0).trans (by decide +kernel)

theorem Fld.right_of_not_rare {a : Elem} (ha : Small a) (hr : ¬ Rare (e251_9.V a)) :
    e251_9.PowersRight a := by
  intro pr
  obtain ⟨s1, s2, s3⟩ := seconds_ok
  have hi := safe_of_list ha hr s1
  obtain ⟨r, h1, -, -, h2, h3⟩ := C15_invert_partial e251_9 pr hi
  obtain ⟨l, g1, -, -, g2, g3, g4⟩ := C17_legendre_partial e251_9 pr (safe_of_list ha hr s2)
  refine ⟨⟨r, h1, h2, h3⟩, ⟨l, g1, g2, g3, g4⟩,
    C18_sqrt_partial e251_9 pr (safe_of_list ha hr s3), ?_⟩
  intro hz y b hb
  obtain ⟨q, k1, -, -, k2⟩ := C16_div_value e251_9 pr hb.tight hi (fun h => by cases h)
    (fun _ i hi => by
      obtain ⟨i', m1, m2, m3, m4⟩ := inverted_lt ha hr pr
      obtain rfl := ok_unique m1 hi
      exact lt_domain hb m3 m4) hz
  exact ⟨q, k1, by rwa [hb.2.1] at k2⟩

theorem Fld.rare_few :
    Set.ncard {n : Nat | n < e251_9.pN ∧ Rare (n : Int)} * 2 ^ 13 < e251_9.pN :=
  (Nat.mul_le_mul_right _ rare_card).trans_lt (by decide +kernel)

/-- C84: in `Mod_e251_9`, of the canonical elements `0, …, p - 1` less than one in `2^13` has
a wrong result in any of the four operations. -/
theorem C84_few : Set.ncard {n : Nat | n < e251_9.pN ∧ ∃ a, e251_9.Canon n a ∧
    ¬ e251_9.PowersRight a} * 2 ^ 13 < e251_9.pN := by
  refine (Nat.mul_le_mul_right _ (Set.ncard_le_ncard ?_
    ((Set.finite_Iio e251_9.pN).subset fun n hn => hn.1))).trans_lt rare_few
  intro n hn
  obtain ⟨a, ha, hw⟩ := hn.2
  refine ⟨hn.1, ?_⟩
  by_contra h
  exact hw (right_of_not_rare (.of_canon ha) (by rwa [ha.2.1]))

/-- C84: also for elements that are not normalized.  The residues that have a representation
below `2^252 + 2^228`, as results of `*` and `square` are (`C84_range`), with a wrong result are
less than one in `2^13`. -/
theorem C84_unnormalized : Set.ncard {n : Nat | n < e251_9.pN ∧ ∃ a, e251_9.Tight a ∧
    0 ≤ e251_9.V a ∧ e251_9.V a < 2 ^ 252 + 2 ^ 228 ∧ e251_9.Denotes a n ∧
    ¬ e251_9.PowersRight a} * 2 ^ 13 < e251_9.pN := by
  refine (Nat.mul_le_mul_right _ (Set.ncard_le_ncard ?_
    ((Set.finite_Iio e251_9.pN).subset fun n hn => hn.1))).trans_lt rare_few
  intro n hn
  obtain ⟨a, h1, h2, h3, hd, hw⟩ := hn.2
  refine ⟨hn.1, ?_⟩
  by_contra h
  exact hw (right_of_not_rare ⟨h1, h2, h3⟩ fun g => h (g.congr hd))

/-- C84: the range of `*` for operands that are not negative, and of `square` for operands in
this range. -/
theorem C84_range (pr : Profile) {a b : Elem} (ha : e251_9.Tight a) (hb : e251_9.Tight b)
    (ha0 : 0 ≤ e251_9.V a) (hb0 : 0 ≤ e251_9.V b) :
    (∃ r, e251_9.code.mul pr a b = .ok r ∧ e251_9.Tight r ∧ 0 ≤ e251_9.V r ∧
      e251_9.V r < 2 ^ 252 + 2 ^ 228) ∧
    (e251_9.V a < 2 ^ 252 + 2 ^ 228 → ∃ r, e251_9.code.square pr a = .ok r ∧ e251_9.Tight r ∧
      0 ≤ e251_9.V r ∧ e251_9.V r < 2 ^ 252 + 2 ^ 228) := by
  constructor
  · obtain ⟨r, h1, h2, h3⟩ := mul_value pr (Tight.loose ha) (Tight.loose hb)
    exact ⟨r, h1, h2, h3 ▸ mulVal_nonneg _ (mul_nonneg ha0 hb0), h3 ▸ mulVal_e251_lt _⟩
  · intro hlt
    obtain ⟨r, h1, h2, h3⟩ := square_value pr (Tight.loose ha)
    have := mul_lt_mul'' hlt hlt ha0 ha0
    obtain ⟨b1, b2⟩ := sqVal_e251_lt (mul_nonneg ha0 ha0) (this.trans (by decide +kernel))
    exact ⟨r, h1, h2, h3 ▸ b1, h3 ▸ b2⟩

/-- C84: there are such elements. -/
theorem C84_some : 0 < Set.ncard {n : Nat | n < e251_9.pN ∧ ∃ a, e251_9.Canon n a ∧
    ¬ e251_9.PowersRight a} := by
  rw [Set.ncard_pos ((Set.finite_Iio e251_9.pN).subset fun n hn => hn.1)]
  obtain ⟨hc, hy, r, s, h1, h2, h3⟩ := C18_e251_counterexample .debug
  refine ⟨(e251_9.V hardSquare).toNat, ?_, hardSquare, ?_, ?_⟩
  · have := hc.2.2.2
    rw [p_eq] at this
    have h0 := hc.2.2.1
    omega
  · rw [Int.toNat_of_nonneg hc.2.2.1]
    exact hc
  · intro h
    obtain ⟨-, -, hs, -⟩ := h .debug
    obtain ⟨r', s', g1, g2, g3⟩ := hs ⟨_, hy⟩
    obtain rfl := ok_unique g1 h1
    obtain rfl := ok_unique g2 h2
    exact h3 g3

/-- C84: of the elements that `rand()` can return, all of them with the same probability (C48),
less than one in `2^13` has a wrong result. -/
theorem C84_rand :
    Set.ncard {a : Elem | (∃ rng, IsRng rng ∧ e251_9.code.rand rng = a) ∧ ¬ e251_9.PowersRight a} *
      2 ^ 13 < Nat.card {a : Elem // ∃ rng, IsRng rng ∧ e251_9.code.rand rng = a} := by
  rw [C48_rand_card]
  have h1 : 250 * (2 * 2 ^ 229) * 2 ^ 13 < (e251_9.code.MODULUS.map Int.toNat).prod := by
    decide +kernel
  refine lt_of_le_of_lt (Nat.mul_le_mul_right _ (le_trans ?_ rare_card)) h1
  refine Set.ncard_le_ncard_of_injOn (fun a => (e251_9.V a).toNat) ?_ ?_
    ((Set.finite_Iio e251_9.pN).subset fun n hn => hn.1)
  · rintro a ⟨⟨rng, hr, rfl⟩, hw⟩
    have hc := C24_rand_canonical e251_9 hr
    generalize e251_9.code.rand rng = a at *
    have h2 := hc.2.2.2
    rw [p_eq] at h2
    refine ⟨?_, ?_⟩
    · show (e251_9.V a).toNat < e251_9.pN
      have := hc.2.2.1
      omega
    · show Rare (((e251_9.V a).toNat : Nat) : Int)
      rw [Int.toNat_of_nonneg hc.2.2.1]
      by_contra h
      exact hw (right_of_not_rare (.of_canon hc) h)
  · rintro a ⟨⟨rng, hr, rfl⟩, -⟩ b ⟨⟨rng', hr', rfl⟩, -⟩ h
    have hc := C24_rand_canonical e251_9 hr
    have hc' := C24_rand_canonical e251_9 hr'
    generalize e251_9.code.rand rng = a at *
    generalize e251_9.code.rand rng' = b at *
    have h : (e251_9.V a).toNat = (e251_9.V b).toNat := h
    have e : e251_9.V a = e251_9.V b := by
      rw [← Int.toNat_of_nonneg hc.2.2.1, ← Int.toNat_of_nonneg hc'.2.2.1, h]
    rw [← e] at hc'
    exact C09_canonical_unique e251_9 hc hc'

/-- The inverse of `a` by way of the inverse of the normalized product with `r`. -/
def Fld.BlindedRight (f : Fld) (a r : Elem) : Prop := ∀ pr : Profile, ∃ m m' i o,
  f.code.mul pr a r = .ok m ∧ f.code.normalize pr m = .ok m' ∧ f.code.inverted pr m' = .ok i ∧
    f.code.mul pr i r = .ok o ∧ f.V a * f.V o ≡ 1 [ZMOD f.p]

theorem Fld.blinded_of_not_rare {x y : Int} {a r : Elem} (ha : e251_9.Canon x a)
    (hx : x ≠ 0) (hb : e251_9.Canon y r) (hy : y ≠ 0) (hr : ¬ Rare (x * y % e251_9.p)) :
    e251_9.BlindedRight a r := by
  intro pr
  have hp : e251_9.p = 2 ^ 251 - 9 := rfl
  have hx2 := ha.2.2.2
  have hx0 := ha.2.2.1
  have hlt : x < 2 ^ 252 + 2 ^ 228 := by rw [hp] at hx2; exact hx2.trans (by decide +kernel)
  obtain ⟨m, h1, h2, h3, h4⟩ := sym_mul pr ha.tight hb.tight (fun h => by cases h) fun _ => by
    rw [mul_comm]
    exact lt_domain hb (by rw [ha.2.1]; exact hx0) (by rw [ha.2.1]; exact hlt)
  have hl : -e251_9.p ≤ e251_9.V m := by
    refine le_trans ?_ h3
    decide +kernel
  obtain ⟨m', h5, h6⟩ := C09_normalize_partial e251_9 pr (Tight.rep h2) hl
  rw [ha.2.1, hb.2.1] at h4
  rw [h4] at h6
  have hr' : ¬ Rare (e251_9.V m') := by rwa [h6.2.1]
  obtain ⟨i, g1, g2, g3, g4⟩ := inverted_lt (.of_canon h6) hr' pr
  obtain ⟨⟨i', k1, k2, -⟩, -⟩ := right_of_not_rare (.of_canon h6) hr' pr
  obtain rfl := ok_unique g1 k1
  obtain ⟨o, n1, -, -, n2⟩ := sym_mul pr g2 hb.tight (fun h => by cases h) fun _ => by
    rw [mul_comm]
    exact lt_domain hb g3 g4
  refine ⟨m, m', i, o, h1, h5, g1, n1, ?_⟩
  have nd : ∀ z : Int, z ≠ 0 → 0 ≤ z → z < e251_9.p → ¬ e251_9.p ∣ z := fun z h h0 hz hd =>
    absurd (Int.le_of_dvd (lt_of_le_of_ne h0 (Ne.symm h)) hd) (not_le.mpr hz)
  have hz : ¬ e251_9.p ∣ e251_9.V m' := by
    rw [h6.2.1, Int.dvd_iff_emod_eq_zero, Int.emod_emod_of_dvd _ dvd_rfl,
      ← Int.dvd_iff_emod_eq_zero, dvd_iff]
    push_cast
    refine mul_ne_zero ?_ ?_
    · rw [Ne, ← dvd_iff]; exact nd x hx hx0 hx2
    · rw [Ne, ← dvd_iff]; exact nd y hy hb.2.2.1 hb.2.2.2
  have e1 := k2 hz
  rw [h6.2.1] at e1
  have e2 : x * y % e251_9.p * e251_9.V i ≡ x * y * e251_9.V i [ZMOD e251_9.p] :=
    (Int.mod_modEq _ _).mul_right _
  rw [ha.2.1]
  rw [hb.2.1] at n2
  calc x * e251_9.V o ≡ x * (e251_9.V i * y) [ZMOD e251_9.p] := n2.mul_left _
    _ = x * y * e251_9.V i := by ring
    _ ≡ x * y % e251_9.p * e251_9.V i [ZMOD e251_9.p] := e2.symm
    _ ≡ 1 [ZMOD e251_9.p] := e1

/-- C84: for every canonical element other than zero, inversion by way of a product with a
factor `r` is right, except for less than one in `2^13` of the factors. -/
theorem C84_blinded {x : Int} {a : Elem} (ha : e251_9.Canon x a) (hx : x ≠ 0) :
    Set.ncard {n : Nat | n < e251_9.pN ∧ n ≠ 0 ∧ ∃ r, e251_9.Canon n r ∧
      ¬ e251_9.BlindedRight a r} * 2 ^ 13 < e251_9.pN := by
  have hx0 : (x : ZMod e251_9.pN) ≠ 0 := by
    rw [Ne, ← dvd_iff]
    intro hd
    exact absurd (Int.le_of_dvd (lt_of_le_of_ne ha.2.2.1 (Ne.symm hx)) hd) (not_le.mpr ha.2.2.2)
  have hpp : (0 : Int) < e251_9.p := ha.2.2.1.trans_lt ha.2.2.2
  refine (Nat.mul_le_mul_right _ (Set.ncard_le_ncard_of_injOn
    (fun n : Nat => (x * n % e251_9.p).toNat) ?_ ?_
    ((Set.finite_Iio e251_9.pN).subset fun n hn => hn.1))).trans_lt rare_few
  · intro n hn
    obtain ⟨r, hr, hw⟩ := hn.2.2
    have h0 := Int.emod_nonneg (x * n) hpp.ne'
    have h1 := Int.emod_lt_of_pos (x * n) hpp
    refine ⟨?_, ?_⟩
    · rw [p_eq] at h1 h0 ⊢
      show (x * n % (e251_9.pN : Int)).toNat < e251_9.pN
      omega
    · show Rare (((x * n % e251_9.p).toNat : Nat) : Int)
      rw [Int.toNat_of_nonneg h0]
      by_contra h
      exact hw (blinded_of_not_rare ha hx hr (by exact_mod_cast hn.2.1) h)
  · intro n hn k hk h
    have h : (x * n % e251_9.p).toNat = (x * k % e251_9.p).toNat := h
    have h0 := Int.emod_nonneg (x * n) hpp.ne'
    have h0' := Int.emod_nonneg (x * k) hpp.ne'
    have h1 : x * n % e251_9.p = x * k % e251_9.p := by
      rw [← Int.toNat_of_nonneg h0, ← Int.toNat_of_nonneg h0', h]
    have h2 : x * n ≡ x * k [ZMOD e251_9.p] := h1
    rw [modEq_iff] at h2
    push_cast at h2
    have h3 := mul_left_cancel₀ hx0 h2
    have := (ZMod.natCast_eq_natCast_iff' _ _ _).mp h3
    rwa [Nat.mod_eq_of_lt hn.1, Nat.mod_eq_of_lt hk.1] at this

/-! ### Examples -/

/-- `C84_others` for `-1` in `Mod_e222_117`. -/
example : Fld.e222_117.PowersRight Fld.e222_117.code.M_ONE :=
  C84_others (by decide) (m_one_canon _)

/-- The exceptions of `Mod_e251_9` are between `1` and `2^238`. -/
example : 1 ≤ Set.ncard {n : Nat | n < e251_9.pN ∧ ∃ a, e251_9.Canon n a ∧
      ¬ e251_9.PowersRight a} ∧
    Set.ncard {n : Nat | n < e251_9.pN ∧ ∃ a, e251_9.Canon n a ∧
      ¬ e251_9.PowersRight a} < 2 ^ 238 := by
  refine ⟨C84_some, ?_⟩
  have h := C84_few
  have hp : e251_9.pN ≤ 2 ^ 251 := by decide +kernel
  generalize Set.ncard _ = s at *
  by_contra hs
  have : 2 ^ 238 * 2 ^ 13 ≤ s * 2 ^ 13 := Nat.mul_le_mul_right _ (not_lt.mp hs)
  have e : 2 ^ 238 * 2 ^ 13 = 2 ^ 251 := by norm_num
  exact absurd (lt_of_le_of_lt (e ▸ this) h) (not_lt.mpr hp)

/-- The square of `-1`, as `square` returns it, is in the range of `C84_unnormalized`. -/
example (pr : Profile) : ∃ r, e251_9.code.square pr e251_9.code.M_ONE = .ok r ∧ e251_9.Tight r ∧
    0 ≤ e251_9.V r ∧ e251_9.V r < 2 ^ 252 + 2 ^ 228 :=
  have h := m_one_canon e251_9
  (C84_range pr h.tight h.tight (by decide +kernel) (by decide +kernel)).2 (by decide +kernel)

/-- Few factors are wrong for `-1`. -/
example : Set.ncard {n : Nat | n < e251_9.pN ∧ n ≠ 0 ∧ ∃ r, e251_9.Canon n r ∧
      ¬ e251_9.BlindedRight e251_9.code.M_ONE r} * 2 ^ 13 < e251_9.pN :=
  C84_blinded (m_one_canon _) (by decide +kernel)

end Verif

import Verif.Props.Frequency
import Verif.Props.Observed
import Verif.Model.Tests
import Mathlib.Data.List.GetD

/-!
# Property C73: what the round-trip tests test

The test module of each field file has two helpers, `test_pack_unpack` and `test_unpack_pack`, and most of its tests of
`pack` and `unpack` call them.  Here: for which arguments they pass.  The first fails for bytes that are not canonical,
so that it cannot be called with random bytes; the second passes for exactly the elements that `normalize` handles, so
that it would have found the defect of `normalize` (C09) had it been called with the right element.
-/

namespace Verif
open Fld

variable (f : Fld) (pr : Profile)

private theorem all_range_eq {n : Nat} {a b : List Int} (ha : a.length = n) (hb : b.length = n) :
    ((List.range n).all fun i => a.getD i 0 == b.getD i 0) = true ↔ a = b := by
  rw [List.all_eq_true]
  constructor
  · intro h
    refine List.ext_getElem (ha.trans hb.symm) fun i h1 h2 => ?_
    have := h i (List.mem_range.2 (ha ▸ h1))
    rw [beq_iff_eq, List.getD_eq_getElem _ _ h1, List.getD_eq_getElem _ _ h2] at this
    exact this
  · rintro rfl i -
    exact beq_self_eq_true _

private theorem foldable_of_nonneg {v : Int} (h : 0 ≤ v) : f.Foldable v :=
  add_nonneg (Int.emod_nonneg _ (by positivity)) (mul_nonneg (by positivity) (Int.ediv_nonneg h (by positivity)))

private theorem readBits_eq : f.readBits = f.ubits := by cases f <;> rfl

/-- C73: `test_pack_unpack` passes for the canonical bytes and fails for all others. -/
theorem C73_pack_unpack {bytes : List Int} (hb : IsBytes bytes) (hl : bytes.length = f.nbytes) :
    f.code.testPackUnpack pr bytes = if leVal bytes < f.p then .passes else .fails := by
  obtain ⟨u, h1, h2, h3⟩ := unpacked_value f pr hb hl
  obtain ⟨a', out, h4, -, h5, h6, h7⟩ := packed_value f pr h2
  have h0 := leVal_nonneg hb
  have hu : 0 ≤ f.V u := by rw [h3]; exact Int.emod_nonneg _ (by positivity)
  have hf := foldable_of_nonneg f hu
  have h8 := (normVal_ubits f h2).mpr hf
  rw [h8, h3] at h7
  have hp := f.p_pos
  have hlt : f.p < 2 ^ f.readBits := f.p_lt.trans_le (pow_le_pow_right₀ (by norm_num) (by cases f <;> decide))
  have hr := all_range_eq hl h5
  have e : bytes = out ↔ leVal bytes < f.p := by
    constructor
    · rintro rfl
      rw [h7]
      exact Int.emod_lt_of_pos _ hp
    · intro h
      refine leVal_inj hb h6 (hl.trans h5.symm) ?_
      rw [h7, Int.emod_eq_of_lt h0 (h.trans hlt), Int.emod_eq_of_lt h0 h]
  rw [e] at hr
  simp only [FieldCode.testPackUnpack, h1, h4, codeNbytes_eq, bind, Except.bind, pure, Except.pure]
  split
  · next h => rw [hr.mpr h]; rfl
  · next h => rw [Bool.eq_false_iff.mpr (fun h' => h (hr.mp h'))]; rfl

private theorem not_dvd_two_pow (n : Nat) : ¬ f.p ∣ 2 ^ n := by
  intro h
  rw [p_eq] at h
  have h1 : f.pN ∣ 2 ^ n := by exact_mod_cast h
  have h2 := (C36_moduli_prime f).dvd_of_dvd_pow h1
  have h3 := Nat.le_of_dvd (by norm_num) h2
  revert h3
  cases f <;> decide +kernel

/-- What `normalize` leaves of a negative number is closer to zero than `p`. -/
private theorem normVal_gt {a : Elem} (ha : f.Rep a) (hf : ¬ f.Foldable (f.V a)) : -f.p < f.normVal (f.V a) := by
  have e : f.V a % 2 ^ f.n + f.c * (f.V a / 2 ^ f.n) = f.fold (f.V a) := rfl
  have hlo := Shape.lo_le ha
  have hq : -2 ^ 63 ≤ f.V a / 2 ^ f.n := by
    rw [Int.le_ediv_iff_mul_le (by positivity)]
    have : (2 : Int) ^ (f.L * (f.k - 1)) ≤ 2 ^ f.n := by
      exact pow_le_pow_right₀ (by norm_num) (by cases f <;> decide)
    nlinarith
  have hm : 0 ≤ f.V a % 2 ^ f.n := Int.emod_nonneg _ (by positivity)
  have hc0 : (0 : Int) ≤ f.c := by positivity
  have hc : (f.c : Int) < 256 := by exact_mod_cast f.c_lt
  have hw : -2 ^ 71 ≤ f.fold (f.V a) := by rw [← e]; nlinarith
  have hp : (2 : Int) ^ 198 < f.p := by cases f <;> decide +kernel
  simp only [Foldable, e] at hf
  simp only [normVal, e, if_neg hf]
  split <;> linarith

/-- C73: `test_unpack_pack` in terms of the integer of the element. -/
theorem C73_unpack_pack_value {a : Elem} (ha : f.Rep a) :
    (f.Foldable (f.V a) → f.code.testUnpackPack pr a = .passes) ∧
    (¬ f.Foldable (f.V a) → f.code.testUnpackPack pr a = .fails) := by
  obtain ⟨a', out, h1, h2, h3, h4, h5⟩ := packed_value f pr ha
  obtain ⟨a'', h2', h6, h7⟩ := C09_normalize_value f pr ha
  rw [h2] at h2'
  cases h2'
  obtain ⟨u, h8, h9, h10⟩ := unpacked_value f pr h4 h3
  obtain ⟨x, y, r, h11, h12⟩ := C10_normalize_eq_exact f pr (Tight.rep h6) h9
  rw [readBits_eq, h5, Int.emod_emod_of_dvd _ dvd_rfl] at h10
  have hrun : f.code.testUnpackPack pr a = .of (.ok r) := by
    simp only [FieldCode.testUnpackPack, h1, h8, h11, bind, Except.bind, pure, Except.pure]
  have hpos : 0 ≤ f.V u := by rw [h10]; exact Int.emod_nonneg _ (by positivity)
  have hn : f.normVal (f.V u) = f.V u % f.p := if_pos (foldable_of_nonneg f hpos)
  have hp := f.p_pos
  refine ⟨fun hf => ?_, fun hf => ?_⟩
  · have e1 : f.normVal (f.V a) = f.V a % f.p := if_pos hf
    have e2 := (normVal_ubits f ha).mpr hf
    have hr : r = true := by
      rw [h12, hn, h10, e2, h7, e1]
      have h0 : f.Foldable (f.V a % f.p) := foldable_of_nonneg f (Int.emod_nonneg _ hp.ne')
      exact if_pos h0
    rw [hrun, hr]
    rfl
  · obtain ⟨b1, -, b3, -⟩ := normVal_bounds f ha hf
    have b2 := normVal_gt f ha hf
    have hr : r = false := by
      rw [Bool.eq_false_iff]
      intro h
      rw [h12, hn, h7] at h
      have hd : f.normVal (f.V a) / 2 ^ f.n = -1 := by
        rw [Int.ediv_eq_iff_of_pos (by positivity)]
        constructor <;> linarith
      have hm := Int.emod_add_mul_ediv (f.normVal (f.V a)) (2 ^ f.n)
      have hpe : f.p = 2 ^ f.n - f.c := rfl
      have hfold : f.Foldable (f.normVal (f.V a)) := by
        rw [hd] at hm
        rw [Foldable, hd]
        linarith
      have hv : f.normVal (f.normVal (f.V a)) = f.normVal (f.V a) % f.p := if_pos hfold
      rw [hv, h10] at h
      have hw := Int.emod_add_mul_ediv (f.normVal (f.V a)) (2 ^ f.ubits)
      have hq : f.normVal (f.V a) / 2 ^ f.ubits = -1 := by
        have hu : (2 : Int) ^ f.n ≤ 2 ^ f.ubits := pow_le_pow_right₀ (by norm_num) (by cases f <;> decide)
        rw [Int.ediv_eq_iff_of_pos (by positivity)]
        constructor <;> linarith
      rw [hq] at hw
      have h13 : f.p ∣ f.normVal (f.V a) % 2 ^ f.ubits - f.normVal (f.V a) :=
        Int.ModEq.dvd (show f.normVal (f.V a) ≡ _ [ZMOD f.p] from h)
      refine not_dvd_two_pow f f.ubits ?_
      have : f.normVal (f.V a) % 2 ^ f.ubits - f.normVal (f.V a) = 2 ^ f.ubits := by linarith
      rwa [this] at h13
    rw [hrun, hr]
    rfl

/-- C73: `test_unpack_pack` passes for exactly the elements that `normalize` makes canonical; it never panics. -/
theorem C73_unpack_pack {a : Elem} (ha : f.Rep a) :
    (f.code.testUnpackPack pr a = .passes ∨ f.code.testUnpackPack pr a = .fails) ∧
    (f.code.testUnpackPack pr a = .passes ↔ ∃ r, f.code.normalize pr a = .ok r ∧ f.Canon (f.V a % f.p) r) := by
  obtain ⟨h1, h2⟩ := C73_unpack_pack_value f pr ha
  obtain ⟨r, h3, -, h4⟩ := C09_normalize_correct_iff f pr ha
  have h5 : (∃ r, f.code.normalize pr a = .ok r ∧ f.Canon (f.V a % f.p) r) ↔ f.Foldable (f.V a) := by
    rw [← h4]
    constructor
    · rintro ⟨r', h6, h7⟩
      rw [h3] at h6
      cases h6
      exact h7
    · exact fun h => ⟨r, h3, h⟩
  rw [h5]
  by_cases hf : f.Foldable (f.V a)
  · exact ⟨.inl (h1 hf), iff_of_true (h1 hf) hf⟩
  · exact ⟨.inr (h2 hf), iff_of_false (by rw [h2 hf]; decide) hf⟩

/-- C73: `test_pack_unpack` passes for `p` of the `2 ^ (8 * nbytes)` strings of the right length: for one half of them in
`Mod_e383_187` and `Mod_e511_187`, for one of 128 in `Mod_e521_1`. -/
theorem C73_count : Nat.card {bytes : List Int // IsBytes bytes ∧ bytes.length = f.nbytes ∧
    f.code.testPackUnpack pr bytes = .passes} = 2 ^ f.n - f.c := by
  have hp := p_eq f
  have e : Nat.card {bytes : List Int // IsBytes bytes ∧ bytes.length = f.nbytes ∧
      f.code.testPackUnpack pr bytes = .passes} = Nat.card {v : Nat // v < 2 ^ (8 * f.nbytes) ∧ v < f.pN} := by
    rw [← Nat.card_congr (bytesEquiv f.nbytes fun v => v < f.pN)]
    refine Nat.card_congr (Equiv.subtypeEquivRight fun bytes => ?_)
    refine and_congr_right fun hb => and_congr_right fun hl => ?_
    rw [C73_pack_unpack f pr hb hl, Int.toNat_lt (leVal_nonneg hb), ← hp]
    split
    · next h => exact iff_of_true rfl h
    · next h => exact iff_of_false (by decide) h
  rw [e]
  have hlt : f.pN ≤ 2 ^ (8 * f.nbytes) := by cases f <;> decide +kernel
  have e2 : ∀ v : Nat, v < 2 ^ (8 * f.nbytes) ∧ v < f.pN ↔ v ∈ Finset.range f.pN := fun v => by
    rw [Finset.mem_range]; exact ⟨fun h => h.2, fun h => ⟨h.trans_le hlt, h⟩⟩
  rw [Nat.card_congr (Equiv.subtypeEquivRight e2), Nat.card_eq_fintype_card, Fintype.card_coe, Finset.card_range]
  rfl

/-! ## Cases -/

/-- The bytes `ff 00 ff 00 …` of the first call of `test_pack_unpack`. -/
example : Fld.e255_19.code.testPackUnpack .debug (leBytes 32 0x00ff00ff00ff00ff00ff00ff00ff00ff00ff00ff00ff00ff00ff00ff00ff00ff) = .passes :=
  C73_pack_unpack .e255_19 .debug (leBytes_isBytes _ _) (leBytes_length _ _)

/-- The bytes of the modulus itself are not. -/
example : Fld.e255_19.code.testPackUnpack .release (leBytes 32 (2 ^ 255 - 19)) = .fails :=
  C73_pack_unpack .e255_19 .release (leBytes_isBytes _ _) (leBytes_length _ _)

/-- A `test_unpack_pack` that would have found the defect of `normalize`. -/
example : Fld.e255_19.code.testUnpackPack .debug badElem = .fails :=
  (C73_unpack_pack_value .e255_19 .debug badElem_tight.rep).2 (by unfold Fld.Foldable; decide +kernel)

example : Fld.e414_17.code.testUnpackPack .debug Fld.e414_17.code.MODULUS = .passes :=
  (C73_unpack_pack_value .e414_17 .debug (word_tight (modulus_shape .e414_17)).rep).1 (by unfold Fld.Foldable; decide +kernel)

example : ¬ ∃ r, Fld.e255_19.code.normalize .debug badElem = .ok r ∧ Fld.e255_19.Canon (Fld.e255_19.V badElem % Fld.e255_19.p) r :=
  fun h => absurd ((C73_unpack_pack .e255_19 .debug badElem_tight.rep).2.mpr h)
    (by rw [(C73_unpack_pack_value .e255_19 .debug badElem_tight.rep).2 (by unfold Fld.Foldable; decide +kernel)]; decide)

example : Nat.card {bytes : List Int // IsBytes bytes ∧ bytes.length = 28 ∧
    Fld.e221_3.code.testPackUnpack .debug bytes = .passes} = 2 ^ 221 - 3 := C73_count .e221_3 .debug

end Verif

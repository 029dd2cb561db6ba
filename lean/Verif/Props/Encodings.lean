import Verif.Props.RepairedClients
import Mathlib.Data.Int.CardIntervalMod

/-!
# Property C69: how many byte strings stand for a residue

`unpack` accepts every string of `nbytes()` bytes, so that an element has several encodings: the bits above the ones that are read do not
matter, and a residue that is small enough is read from two (in `Mod_e383_187` from two or three) different integers.  Code that compares
or signs byte strings has to know; only one of them is what `pack` writes.
-/

namespace Verif
open Fld

variable (f : Fld) (pr : Profile)

/-- The number of low bits that `unpack` reads. -/
def Fld.readBits : Nat := match f with
  | .e383_187 => 384
  | _ => f.n

/-- The byte strings that are read as the residue of `r`. -/
def Encodes (r : Int) (bytes : List Int) : Prop :=
  IsBytes bytes ∧ bytes.length = f.nbytes ∧ ∃ u, f.code.unpacked pr bytes = .ok u ∧ f.Denotes u r

theorem leVal_leBytes : ∀ (n v : Nat), v < 2 ^ (8 * n) → leVal (leBytes n v) = v := by
  intro n
  induction n with
  | zero => intro v h; have : v = 0 := by simpa using h
            subst this; rfl
  | succ n ih =>
    intro v h
    have h' : v / 256 < 2 ^ (8 * n) := by
      rw [Nat.div_lt_iff_lt_mul (by norm_num)]
      calc v < 2 ^ (8 * (n + 1)) := h
        _ = 2 ^ (8 * n) * 256 := by rw [Nat.mul_add, pow_add]; norm_num
    have e : leVal (leBytes (n + 1) v) = ((v % 256 : Nat) : Int) + 256 * leVal (leBytes n (v / 256)) := by
      simp only [leVal, leBytes, digitsVal]; norm_num
    rw [e, ih _ h']
    omega

/-- Strings and integers. -/
noncomputable def bytesEquiv (n : Nat) (Q : Nat → Prop) :
    {bytes : List Int // IsBytes bytes ∧ bytes.length = n ∧ Q (leVal bytes).toNat} ≃ {v : Nat // v < 2 ^ (8 * n) ∧ Q v} where
  toFun b := ⟨(leVal b.1).toNat, by
    have h1 := leVal_lt b.2.1
    have h0 := leVal_nonneg b.2.1
    rw [b.2.2.1] at h1
    have : ((leVal b.1).toNat : Int) < ((2 ^ (8 * n) : Nat) : Int) := by
      rw [Int.toNat_of_nonneg h0]; push_cast; exact h1
    exact_mod_cast this, b.2.2.2⟩
  invFun v := ⟨leBytes n v.1, leBytes_isBytes _ _, leBytes_length _ _, by
    rw [leVal_leBytes n v.1 v.2.1, Int.toNat_natCast]; exact v.2.2⟩
  left_inv b := Subtype.ext (by
    have h0 := leVal_nonneg b.2.1
    have := eq_leBytes b.2.1 (v := (leVal b.1).toNat) (Int.toNat_of_nonneg h0).symm
    rw [b.2.2.1] at this
    exact this.symm)
  right_inv v := Subtype.ext (by
    show (leVal (leBytes n v.1)).toNat = v.1
    rw [leVal_leBytes n v.1 v.2.1, Int.toNat_natCast])

/-- High and low bits. -/
private def splitEquiv {A B : Nat} (hB : 0 < B) (Q : Nat → Prop) :
    {v : Nat // v < A * B ∧ Q (v % B)} ≃ Fin A × {w : Nat // w < B ∧ Q w} where
  toFun v := (⟨v.1 / B, (Nat.div_lt_iff_lt_mul hB).2 v.2.1⟩, ⟨v.1 % B, Nat.mod_lt _ hB, v.2.2⟩)
  invFun x := ⟨B * x.1.1 + x.2.1, by
      have h1 := x.1.2
      have h2 := x.2.2.1
      calc B * x.1.1 + x.2.1 < B * x.1.1 + B := by omega
        _ = (x.1.1 + 1) * B := by ring
        _ ≤ A * B := Nat.mul_le_mul_right _ h1,
    by rw [Nat.mul_add_mod, Nat.mod_eq_of_lt x.2.2.1]; exact x.2.2.2⟩
  left_inv v := Subtype.ext (Nat.div_add_mod _ _)
  right_inv x := by
    have h2 := x.2.2.1
    ext
    · show (B * x.1.1 + x.2.1) / B = x.1.1
      rw [Nat.mul_add_div hB, Nat.div_eq_of_lt h2, add_zero]
    · show (B * x.1.1 + x.2.1) % B = x.2.1
      rw [Nat.mul_add_mod, Nat.mod_eq_of_lt h2]

private theorem card_mod {p b : Nat} (hp : 0 < p) {r : Nat} (hr : r < p) :
    Nat.card {w : Nat // w < b ∧ w ≡ r [MOD p]} = b / p + if r < b % p then 1 else 0 := by
  have h := Nat.count_modEq_card b hp r
  rw [Nat.mod_eq_of_lt hr] at h
  rw [← h, Nat.count_eq_card_filter_range, ← Fintype.card_coe, ← Nat.card_eq_fintype_card]
  exact Nat.card_congr (Equiv.subtypeEquivRight fun w => by simp)

/-- What `unpacked` reads. -/
theorem unpacked_value {bytes : List Int} (hb : IsBytes bytes) (hl : bytes.length = f.nbytes) :
    ∃ u, f.code.unpacked pr bytes = .ok u ∧ f.Rep u ∧ f.V u = leVal bytes % 2 ^ f.readBits := by
  have hz := Rep.isWords (Tight.rep (zero_canon f).tight)
  have ht : bytes.take f.nbytes = bytes := List.take_of_length_le hl.le
  by_cases hf : f = .e383_187
  · subst hf
    obtain ⟨u, h1, h4, h2⟩ := C12_unpack_e383 pr hz hb hl.ge
    refine ⟨u, h1, h4.rep, ?_⟩
    have h3 := leVal_lt hb
    rw [hl] at h3
    rw [h2, show (48 : Nat) = Fld.e383_187.nbytes from rfl, ht]
    exact (Int.emod_eq_of_lt (leVal_nonneg hb) h3).symm
  · obtain ⟨u, h1, h4, h2⟩ := C12_unpack_partial f pr hf hz hb hl.ge
    refine ⟨u, h1, (word_tight h4).rep, ?_⟩
    rw [h2, ht]
    cases f <;> first | rfl | exact absurd rfl hf

/-- C69: which strings are read as the residue of `r`. -/
theorem C69_encodes_iff {bytes : List Int} (hb : IsBytes bytes) (hl : bytes.length = f.nbytes) (r : Int) :
    Encodes f pr r bytes ↔ leVal bytes % 2 ^ f.readBits ≡ r [ZMOD f.p] := by
  obtain ⟨u, h1, -, h2⟩ := unpacked_value f pr hb hl
  rw [← h2]
  constructor
  · rintro ⟨-, -, u', h3, h4⟩
    rw [h1] at h3
    cases h3
    exact h4
  · intro h
    exact ⟨hb, hl, u, h1, h⟩

/-- C69: how many strings are read as a residue. -/
theorem C69_card {r : Int} (h0 : 0 ≤ r) (h1 : r < f.p) :
    Nat.card {bytes // Encodes f pr r bytes} =
      if f = .e383_187 then (if r < 374 then 3 else 2) else 2 ^ (8 * f.nbytes - f.n) * (if r < f.c then 2 else 1) := by
  obtain ⟨r, rfl⟩ := Int.eq_ofNat_of_zero_le h0
  have hp : (f.pN : Int) = f.p := (p_eq f).symm
  have hpos : 0 < f.pN := by cases f <;> decide +kernel
  have hr : r < f.pN := by rw [← hp] at h1; exact_mod_cast h1
  have hB : 0 < 2 ^ f.readBits := Nat.two_pow_pos _
  have hle : 2 ^ (8 * f.nbytes) = 2 ^ (8 * f.nbytes - f.readBits) * 2 ^ f.readBits := by cases f <;> decide +kernel
  have e1 : Nat.card {bytes // Encodes f pr r bytes} =
      Nat.card {v : Nat // v < 2 ^ (8 * f.nbytes) ∧ v % 2 ^ f.readBits ≡ r [MOD f.pN]} := by
    rw [← Nat.card_congr (bytesEquiv f.nbytes fun v => v % 2 ^ f.readBits ≡ r [MOD f.pN])]
    refine Nat.card_congr (Equiv.subtypeEquivRight fun bytes => ?_)
    have key : ∀ (hb : IsBytes bytes), (leVal bytes % 2 ^ f.readBits ≡ r [ZMOD f.p] ↔
        (leVal bytes).toNat % 2 ^ f.readBits ≡ r [MOD f.pN]) := by
      intro hb
      obtain ⟨v, hv⟩ := Int.eq_ofNat_of_zero_le (leVal_nonneg hb)
      rw [hv, ← hp, Int.toNat_natCast, ← Int.natCast_modEq_iff]
      push_cast
      rfl
    constructor
    · intro h
      exact ⟨h.1, h.2.1, (key h.1).1 ((C69_encodes_iff f pr h.1 h.2.1 r).1 h)⟩
    · rintro ⟨hb, hl, h⟩
      exact (C69_encodes_iff f pr hb hl r).2 ((key hb).2 h)
  rw [e1, hle, Nat.card_congr (splitEquiv hB fun w => w ≡ r [MOD f.pN]), Nat.card_prod, card_mod hpos hr, Nat.card_fin]
  by_cases hf : f = .e383_187
  · subst hf
    rw [if_pos rfl, show 2 ^ Fld.e383_187.readBits / Fld.e383_187.pN = 2 by decide +kernel,
      show 2 ^ Fld.e383_187.readBits % Fld.e383_187.pN = 374 by decide +kernel,
      show 2 ^ (8 * Fld.e383_187.nbytes - Fld.e383_187.readBits) = 1 by decide +kernel]
    by_cases h : r < 374
    · rw [if_pos h, if_pos (by exact_mod_cast h)]
    · rw [if_neg h, if_neg (by exact_mod_cast h)]
  · have e2 : 2 ^ f.readBits / f.pN = 1 ∧ ((2 ^ f.readBits % f.pN : Nat) : Int) = f.c ∧ f.readBits = f.n := by
      cases f <;> first | exact absurd rfl hf | decide +kernel
    rw [if_neg hf, e2.1, e2.2.2]
    rw [e2.2.2] at e2
    by_cases h : r < 2 ^ f.n % f.pN
    · rw [if_pos h, if_pos (by rw [← e2.2.1]; exact_mod_cast h)]
    · rw [if_neg h, if_neg (by rw [← e2.2.1]; exact_mod_cast h)]

/-- C69: one of them is the number below `p` itself, and `packed` turns every other one into it. -/
theorem C69_unique {r : Int} (h0 : 0 ≤ r) (h1 : r < f.p) :
    ∃ bytes, Encodes f pr r bytes ∧ leVal bytes = r ∧
      ∀ bytes', Encodes f pr r bytes' → ∃ u u', f.code.unpacked pr bytes' = .ok u ∧
        f.code.packed pr u = .ok (u', bytes) := by
  have hn : f.p < 2 ^ (8 * f.nbytes) := by cases f <;> decide +kernel
  have hn' : f.p < 2 ^ f.readBits := by cases f <;> decide +kernel
  obtain ⟨m, rfl⟩ := Int.eq_ofNat_of_zero_le h0
  have hm : m < 2 ^ (8 * f.nbytes) := by exact_mod_cast h1.trans hn
  have hv := leVal_leBytes f.nbytes m hm
  have hb := leBytes_isBytes f.nbytes m
  have hl := leBytes_length f.nbytes m
  refine ⟨leBytes f.nbytes m, (C69_encodes_iff f pr hb hl _).2 ?_, hv, ?_⟩
  · rw [hv, Int.emod_eq_of_lt h0 (h1.trans hn')]
  · rintro bytes' ⟨hb', hl', v, h3, h4⟩
    obtain ⟨u, h5, h6, h7⟩ := unpacked_value f pr hb' hl'
    rw [h5] at h3
    cases h3
    obtain ⟨u', out, h8, -, h9, h10, h11⟩ := C11_packed_partial f pr h6
      (Foldable.of_nonneg (by rw [h7]; exact Int.emod_nonneg _ (by positivity)))
    refine ⟨_, u', h5, ?_⟩
    have e : out = leBytes f.nbytes m := by
      refine leVal_inj h10 hb (h9.trans hl.symm) ?_
      rw [h11, hv]
      exact Eq.trans h4 (Int.emod_eq_of_lt h0 h1)
    rw [h8, e]

/-- C69: two strings of `nbytes()` bytes of numbers below `p` are read as the same residue only if they are equal. -/
theorem C69_injective {b b' : List Int} {r : Int} (h : Encodes f pr r b) (h' : Encodes f pr r b')
    (hp : leVal b < f.p) (hp' : leVal b' < f.p) : b = b' := by
  have hn' : f.p < 2 ^ f.readBits := by cases f <;> decide +kernel
  have e := (C69_encodes_iff f pr h.1 h.2.1 r).1 h
  have e' := (C69_encodes_iff f pr h'.1 h'.2.1 r).1 h'
  rw [Int.emod_eq_of_lt (leVal_nonneg h.1) (hp.trans hn')] at e
  rw [Int.emod_eq_of_lt (leVal_nonneg h'.1) (hp'.trans hn')] at e'
  refine leVal_inj h.1 h'.1 (h.2.1.trans h'.2.1.symm) ?_
  have := e.trans e'.symm
  rwa [Int.ModEq, Int.emod_eq_of_lt (leVal_nonneg h.1) hp, Int.emod_eq_of_lt (leVal_nonneg h'.1) hp'] at this

/-- Zero is read from three strings in `Mod_e383_187`, from four in `Mod_e255_19` (the top bit is not read) … -/
example : Nat.card {bytes // Encodes .e383_187 pr 0 bytes} = 3 := by
  rw [C69_card .e383_187 pr (r := 0) le_rfl (by decide +kernel)]; rfl
example : Nat.card {bytes // Encodes .e255_19 pr 0 bytes} = 4 := by
  rw [C69_card .e255_19 pr (r := 0) le_rfl (by decide +kernel)]; decide
/-- … and 1000 from 128 in `Mod_e521_1` (seven bits are not read) … -/
example : Nat.card {bytes // Encodes .e521_1 pr 1000 bytes} = 128 := by
  rw [C69_card .e521_1 pr (r := 1000) (by decide) (by decide +kernel)]; decide

/-- … one of them being the number itself. -/
example : ∃ bytes, Encodes .e521_1 pr 1000 bytes ∧ leVal bytes = 1000 :=
  let ⟨b, h1, h2, _⟩ := C69_unique .e521_1 pr (r := 1000) (by decide) (by decide +kernel)
  ⟨b, h1, h2⟩

private theorem bytes_p {x : Int} (hx : 0 ≤ x ∧ x < 256) : IsBytes (x :: List.replicate 30 255 ++ [127]) := by
  intro b hb
  simp only [List.cons_append, List.mem_cons, List.mem_append, List.mem_replicate, List.not_mem_nil, or_false] at hb
  rcases hb with rfl | hb | rfl
  · exact hx
  · rw [hb.2]; decide
  · decide

/-- The bytes of `p + 5` are read as 5. -/
example : Encodes .e255_19 pr 5 (242 :: List.replicate 30 255 ++ [127]) :=
  (C69_encodes_iff .e255_19 pr (bytes_p (by decide)) rfl 5).2 (by decide +kernel)

/-- The hypotheses of `C69_injective` on the bytes of `p - 1`. -/
example {b' : List Int} (h' : Encodes .e255_19 pr (-1) b') (hp' : leVal b' < Fld.e255_19.p) :
    236 :: List.replicate 30 255 ++ [127] = b' :=
  C69_injective .e255_19 pr ((C69_encodes_iff .e255_19 pr (bytes_p (by decide)) rfl (-1)).2 (by decide +kernel)) h'
    (by decide +kernel) hp'

end Verif

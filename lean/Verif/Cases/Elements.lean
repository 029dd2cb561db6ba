import Verif.Props.Observed
import Verif.Props.Roots
import Verif.Props.SqrtValue
import Verif.Props.SmallMulAll
import Verif.Props.Products
import Verif.Props.Rand
import Verif.Props.Constants

/-!
# Cases of the theorems about single operations

Each theorem about the operations of the field types is applied to elements that meet its hypotheses, in all nine types where it concerns
all of them: to one with a carry, a negative one and canonical ones.  Of every equivalence both sides occur.
-/

namespace Verif
open Fld FieldCode

/-! ### Elements -/

/-- The words of an integer, with everything above the other words in the topmost one. -/
def Fld.make (f : Fld) (x : Int) : Elem :=
  (List.range (f.k - 1)).map (fun i => x / 2 ^ (f.L * i) % 2 ^ f.L) ++ [x / 2 ^ (f.L * (f.k - 1))]

/-- An element with a carry: about `9 / 8` of `2 ^ n`. -/
def up (f : Fld) : Elem := f.make (2 ^ f.n + 2 ^ (f.n - 3) + 12345)

/-- A negative element: about `-1 / 4` of `2 ^ n`. -/
def down (f : Fld) : Elem := f.make (-2 ^ (f.n - 2) - 777)

/-- An element that cannot be normalized: `1 - 2 ^ n`, as by `0 - unpacked(0xff…ff)`. -/
def low (f : Fld) : Elem := f.make (1 - 2 ^ f.n)

/-- A canonical element above `2 ^ (n - 1)`. -/
def can (f : Fld) : Elem := f.make (2 ^ f.n - 2 ^ 100 - 99)

/-- Half the bytes of an element and some more. -/
def someBytes (f : Fld) : List Int := (List.range (f.nbytes + 3)).map fun i => if i < f.nbytes / 2 then (37 * i + 11 : Int) % 256 else 0

/-- A decidable form of `Shape`. -/
theorem shape_make {f : Fld} {lo hi x : Int}
    (h : lo ≤ x / 2 ^ (f.L * (f.k - 1)) ∧ x / 2 ^ (f.L * (f.k - 1)) ≤ hi) : f.Shape lo hi (f.make x) := by
  refine ⟨_, _, rfl, by simp, ?_, h.1, h.2⟩
  intro y hy
  obtain ⟨i, -, rfl⟩ := List.mem_map.1 hy
  exact ⟨Int.emod_nonneg _ (by positivity), Int.emod_lt_of_pos _ (by positivity)⟩

variable (f : Fld) (pr : Profile)

theorem up_tight : f.Tight (up f) := shape_make (by cases f <;> decide +kernel)

theorem down_tight : f.Tight (down f) := shape_make (by cases f <;> decide +kernel)

theorem low_tight : f.Tight (low f) := shape_make (by cases f <;> decide +kernel)

theorem can_free : f.Shape 0 (2 ^ f.tb - 1) (can f) := shape_make (by cases f <;> decide +kernel)

theorem can_tight : f.Tight (can f) := shape_make (by cases f <;> decide +kernel)

theorem up_V : f.V (up f) = 2 ^ f.n + 2 ^ (f.n - 3) + 12345 := by cases f <;> decide +kernel

theorem down_V : f.V (down f) = -2 ^ (f.n - 2) - 777 := by cases f <;> decide +kernel

theorem low_V : f.V (low f) = 1 - 2 ^ f.n := by cases f <;> decide +kernel

theorem can_V : f.V (can f) = 2 ^ f.n - 2 ^ 100 - 99 := by cases f <;> decide +kernel

theorem can_canon : f.Canon (2 ^ f.n - 2 ^ 100 - 99) (can f) :=
  ⟨can_free f, can_V f, by cases f <;> decide +kernel, by cases f <;> decide +kernel⟩

theorem up_fold : f.Foldable (f.V (up f)) := by rw [up_V, Foldable]; cases f <;> decide +kernel

theorem can_fold : f.Foldable (f.V (can f)) := by rw [can_V, Foldable]; cases f <;> decide +kernel

theorem low_fold (hf : f ≠ .e521_1) : ¬ f.Foldable (f.V (low f)) := by
  rw [low_V, Foldable]; cases f <;> first | exact absurd rfl hf | decide +kernel

theorem someBytes_ok : IsBytes (someBytes f) ∧ (someBytes f).length = f.nbytes + 3 := by
  refine ⟨?_, by simp [someBytes]⟩
  intro b hb
  obtain ⟨i, -, rfl⟩ := List.mem_map.1 hb
  split <;> omega

theorem can_words : f.IsWords (can f) := (can_tight f).rep.isWords

theorem up_words : f.IsWords (up f) := (up_tight f).rep.isWords

theorem down_words : f.IsWords (down f) := (down_tight f).rep.isWords

/-- `i32::MIN` and another number. -/
theorem isI32_min : IsI32 (-2147483648) := by simp [IsI32]

theorem isI32_some : IsI32 123456789 := by simp [IsI32]

/-! ### C01 to C03 -/

example := C01_add f pr (up_tight f).rep (down_tight f).rep

/-- Subtracting a negative element is wrong, subtracting a canonical one is right. -/
example : (∃ r, f.code.sub pr (up f) (down f) = .ok r ∧ ¬ f.Denotes r (f.V (up f) - f.V (down f))) ∧
    ∃ r, f.code.sub pr (down f) (can f) = .ok r ∧ f.Denotes r (f.V (down f) - f.V (can f)) := by
  obtain ⟨r, h1, -, h2⟩ := C02_sub_correct_iff f pr (up_tight f).rep (down_tight f).rep
  obtain ⟨s, h3, -, h4⟩ := C02_sub_correct_iff f pr (down_tight f).rep (can_tight f).rep
  refine ⟨⟨r, h1, fun h => absurd (h2.1 h).1 ?_⟩, s, h3, h4.2 ?_⟩
  · rw [down_V]; cases f <;> decide +kernel
  · rw [can_V]; cases f <;> decide +kernel

example := C02_sub_partial f pr (down_tight f).rep (can_free f)

example := C03_neg_is_identity f pr (down_tight f).rep

example := C03_neg_partial f pr (a := f.code.MODULUS) (word_tight (modulus_shape f)).rep
  (by unfold Denotes; rw [modulus_V]; simp [Int.ModEq])

/-! ### C04 and C05 -/

/-- A negative product is wrong in two types, a positive one right. -/
example (hf : f = .e222_117 ∨ f = .e251_9) :
    (∃ r, f.code.mul pr (up f) (down f) = .ok r ∧ ¬ f.Denotes r (f.V (up f) * f.V (down f))) ∧
    ∃ r, f.code.mul pr (up f) (can f) = .ok r ∧ f.Denotes r (f.V (up f) * f.V (can f)) := by
  obtain ⟨r, h1, -, h2⟩ := C04_mul_correct_iff f pr (up_tight f).loose (down_tight f).loose
  obtain ⟨s, h3, -, h4⟩ := C04_mul_correct_iff f pr (up_tight f).loose (can_tight f).loose
  refine ⟨⟨r, h1, fun h => ?_⟩, s, h3, h4.2 ?_⟩
  · have := h2.1 h
    rw [up_V, down_V] at this
    revert this
    rcases hf with rfl | rfl <;> unfold MulDomain <;> decide +kernel
  · rw [up_V, can_V]
    rcases hf with rfl | rfl <;> unfold MulDomain <;> decide +kernel

example := C04_mul_partial .e521_1 pr (by decide) (up_tight .e521_1).loose (down_tight .e521_1).loose

example := C04_mul_carry_free f pr (can_free f) (can_free f)

example := C05_square f pr (down_tight f)

/-- In `Mod_e251_9` the square of the element and its product with itself are the same, those of the largest one `Tight` allows
are not. -/
example : (∃ r s, e251_9.code.square pr (up .e251_9) = .ok r ∧ e251_9.code.mul pr (up .e251_9) (up .e251_9) = .ok s ∧
      e251_9.Denotes r (e251_9.V s)) ∧
    ∃ r s, e251_9.code.square pr (e251_9.make (2 ^ 252 + 2 ^ 226)) = .ok r ∧
      e251_9.code.mul pr (e251_9.make (2 ^ 252 + 2 ^ 226)) (e251_9.make (2 ^ 252 + 2 ^ 226)) = .ok s ∧
      ¬ e251_9.Denotes r (e251_9.V s) := by
  obtain ⟨r, s, h1, h2, h3⟩ := C05_square_agrees_with_mul_iff .e251_9 pr (up_tight .e251_9)
  obtain ⟨r', s', h1', h2', h3'⟩ := C05_square_agrees_with_mul_iff .e251_9 pr (a := e251_9.make (2 ^ 252 + 2 ^ 226))
    (shape_make (by decide +kernel))
  refine ⟨⟨r, s, h1, h2, h3.2 ?_⟩, r', s', h1', h2', fun h => absurd (h3'.1 h) ?_⟩
  · rw [up_V]; unfold MulDomain; decide +kernel
  · unfold MulDomain; decide +kernel

example := C05_domain_partial .e222_117 (down_tight .e222_117) (by decide)

/-! ### C06 and C07 -/

example := C06_small_add f pr (down_tight f).rep isI32_min

example := C06_small_sub f pr (up_tight f).rep isI32_some

/-- The largest factors are right in `Mod_e414_17` and wrong in `Mod_e222_117`. -/
example : (∃ r, e414_17.code.smallMul pr (can .e414_17) (-2147483648) = .ok r ∧
      e414_17.Denotes r (e414_17.V (can .e414_17) * -2147483648)) ∧
    ¬ ∃ r, e222_117.code.smallMul pr (can .e222_117) (-2147483648) = .ok r ∧
      e222_117.Denotes r (e222_117.V (can .e222_117) * -2147483648) := by
  constructor
  · refine (C07_small_mul_i32_correct_iff .e414_17 pr (by decide) (can_tight _) isI32_min).2 ?_
    rw [can_V]; unfold TopFits; decide +kernel
  · rw [C07_small_mul_i32_correct_iff .e222_117 pr (by decide) (can_tight _) isI32_min, can_V]
    unfold TopFits; decide +kernel

/-- In `Mod_e521_1` the product `5 * 7` is right, the product of a large element with `i32::MIN` is wrong. -/
example : (∃ r, e521_1.code.smallMul pr (e521_1.make 5) 7 = .ok r ∧ e521_1.Denotes r (e521_1.V (e521_1.make 5) * 7)) ∧
    ¬ ∃ r, e521_1.code.smallMul pr (can .e521_1) (-2147483648) = .ok r ∧
      e521_1.Denotes r (e521_1.V (can .e521_1) * -2147483648) := by
  constructor
  · exact (C07_small_mul_e521_i32_correct_iff pr (shape_make (by decide +kernel)) (by simp [IsI32])).2 (by decide +kernel)
  · rw [C07_small_mul_e521_i32_correct_iff pr (can_tight _) isI32_min, can_V]
    decide +kernel

example := C07_small_mul_bound .e222_117 pr (by decide) (can_tight _) (b := 16383)
  (by rw [can_V]; decide +kernel) (by simp [IsI32]) (by decide)

example := C07_small_mul_i16 .e383_187 pr (by decide) (can_tight _) (b := -32768) (by rw [can_V]; decide +kernel) (by decide)

/-- An element with a carry is multiplied wrongly by `5`, a canonical one rightly. -/
example (hf : f ≠ .e521_1) : (∃ r, f.code.smallMul pr (up f) 5 = .ok r ∧ ¬ f.Denotes r (f.V (up f) * 5)) ∧
    ∃ r, f.code.smallMul pr (can f) 5 = .ok r ∧ f.Denotes r (f.V (can f) * 5) := by
  have hb : -2 ^ f.smE ≤ (5 : Int) ∧ (5 : Int) ≤ 2 ^ f.smE := by cases f <;> first | exact absurd rfl hf | decide +kernel
  obtain ⟨r, h1, -, h2⟩ := C07_small_mul_correct_iff f pr hf (up_tight f) hb
  obtain ⟨s, h3, -, h4⟩ := C07_small_mul_correct_iff f pr hf (can_tight f) hb
  refine ⟨⟨r, h1, fun h => absurd (h2.1 h).2 ?_⟩, s, h3, h4.2 ?_⟩
  · rw [up_V]; cases f <;> decide +kernel
  · rw [can_V]; cases f <;> decide +kernel

example := C07_small_mul_e521_correct_iff pr (can_tight .e521_1) (b := 67108864) (by decide)

example := C07_small_mul_two pr f (can_tight f) (by rw [can_V]; cases f <;> decide +kernel)

example := C07_small_mul_partial .e255_19 pr (by decide) (can_free _) (b := 121665) (by decide)

example := C07_small_mul_i32_partial .e511_187 pr (by decide) (can_free _) isI32_min

/-! ### C09 to C14 -/

/-- `normalize` of an element with a carry is canonical, that of `1 - 2 ^ n` is not. -/
example (hf : f ≠ .e521_1) : (∃ r, f.code.normalize pr (up f) = .ok r ∧ f.Canon (f.V (up f) % f.p) r) ∧
    ∃ r, f.code.normalize pr (low f) = .ok r ∧ ¬ f.Canon (f.V (low f) % f.p) r := by
  obtain ⟨r, h1, -, h2⟩ := C09_normalize_correct_iff f pr (up_tight f).rep
  obtain ⟨s, h3, -, h4⟩ := C09_normalize_correct_iff f pr (low_tight f).rep
  exact ⟨⟨r, h1, h2.2 (up_fold f)⟩, s, h3, fun h => low_fold f hf (h4.1 h)⟩

example := C09_normalize_value f pr (low_tight f).rep

example := C09_normalize_partial f pr (down_tight f).rep (by rw [down_V]; cases f <;> decide +kernel)

example := C09_canonical_unique f (can_canon f) (can_canon f)

example := C09_normalize_idempotent f pr (up_tight f).rep (up_fold f)

example := C10_normalize_eq_partial f pr (up_tight f).rep (can_tight f).rep (up_fold f) (can_fold f)

example := C10_normalize_eq_exact f pr (low_tight f).rep (can_tight f).rep

/-- `1 - 2 ^ n` is not found equal to the canonical element of the same class. -/
example := C10_false_negative .e255_19 pr (a := e255_19.make (2 ^ 255 - 37)) (shape_make (by decide +kernel)) (low_tight _).rep
  (by unfold Foldable; decide +kernel) (low_fold _ (by decide))

example : e255_19.V (e255_19.make (2 ^ 255 - 37)) ≡ e255_19.V (low .e255_19) [ZMOD e255_19.p] := by
  unfold Int.ModEq; decide +kernel

example := C11_pack_partial f pr (up_tight f).rep (up_fold f) (someBytes_ok f).1 (by rw [(someBytes_ok f).2]; omega)

example := C11_packed_partial f pr (up_tight f).rep (up_fold f)

/-- Packing is right for an element with a carry and wrong for `1 - 2 ^ n`. -/
example (hf : f ≠ .e521_1) : (∃ a out, f.code.packed pr (up f) = .ok (a, out) ∧ leVal out = f.V (up f) % f.p) ∧
    ∃ a out, f.code.packed pr (low f) = .ok (a, out) ∧ leVal out ≠ f.V (low f) % f.p := by
  obtain ⟨a, r, h1, -, -, h2⟩ := C11_packed_correct_iff f pr (up_tight f).rep
  obtain ⟨b, s, h3, -, -, h4⟩ := C11_packed_correct_iff f pr (low_tight f).rep
  exact ⟨⟨a, r, h1, h2.2 (up_fold f)⟩, b, s, h3, fun h => low_fold f hf (h4.1 h)⟩

example (hf : f ≠ .e383_187) := C12_unpack_partial f pr hf (down_words f) (someBytes_ok f).1
  (by rw [(someBytes_ok f).2]; omega)

example := C12_unpack_e383 pr (down_words .e383_187) (bytes := List.replicate 48 255)
  (fun b hb => by rw [List.eq_of_mem_replicate hb]; decide) (by decide)

example := C12_unpack_small f pr (down_words f) (someBytes_ok f).1 (by rw [(someBytes_ok f).2]; omega)
  (by cases f <;> decide +kernel)

example := C13_unpack_packed_partial f pr (up_tight f).rep (up_fold f)

example := C13_unpack_packed_iff f pr (low_tight f).rep

example := C13_packed_unpack f pr (bytes := (someBytes f).take f.nbytes)
  (fun b hb => (someBytes_ok f).1 b (List.mem_of_mem_take hb)) (by rw [List.length_take, (someBytes_ok f).2]; omega)
  (by cases f <;> decide +kernel)

/-- One byte less than needed, and three more. -/
example : (∃ e, f.code.unpack pr (down f) (List.replicate (f.nbytes - 1) 255) = .error e) ∧
    f.code.unpack pr (down f) (someBytes f) = f.code.unpack pr (down f) ((someBytes f).take f.nbytes) := by
  constructor
  · refine (C14_unpack f pr (down_words f) ?_).1.2 ?_
    · intro b hb; rw [List.eq_of_mem_replicate hb]; decide
    · rw [List.length_replicate]; cases f <;> decide
  · exact (C14_unpack f pr (down_words f) (someBytes_ok f).1).2 (by rw [(someBytes_ok f).2]; omega)

example : ∃ e, f.code.pack pr (up f) [] = .error e :=
  (C14_pack f pr (up_tight f).rep (bytes := []) nofun).2 (by cases f <;> decide)

example := C14_pack_tail f pr (low_tight f).rep (someBytes_ok f).1 (by rw [(someBytes_ok f).2]; omega)

/-! ### C15 to C18 and C43 to C45 -/

/-- The element with a carry may be inverted and so on in eight types. -/
theorem up_chain (hf : f ≠ .e251_9) (c : Chain) : f.ChainArg c (up f) :=
  ⟨up_tight f, fun h => by subst h; rw [up_V]; decide +kernel, fun h => absurd h hf⟩

theorem up_unit : ¬ f.p ∣ f.V (up f) := by rw [up_V]; cases f <;> decide +kernel

example (hf : f ≠ .e251_9) := C15_invert_partial f pr (up_chain f hf _)

example (hf : f ≠ .e251_9) := C15_mul_invert_partial f pr hf (up_tight f) (fun h => by subst h; rw [up_V]; decide +kernel)

example (hf : f ≠ .e251_9) := C16_div_value f pr (can_tight f) (up_chain f hf _)
  (fun h => by subst h; rw [can_V]; decide +kernel) (fun h => absurd h hf) (up_unit f)

example (hf : f ≠ .e251_9) := C16_div_mul_partial f pr hf (can_tight f) (up_tight f)
  (fun h => by subst h; rw [can_V]; decide +kernel) (fun h => by subst h; rw [up_V]; decide +kernel) (up_unit f)

example (hf : f ≠ .e251_9) := C17_legendre_partial f pr (up_chain f hf _)

/-- `(2 ^ 100 + 7) ^ 2`, plus `p` so that there is a carry. -/
def square7 (f : Fld) : Elem := f.make ((2 ^ 100 + 7) ^ 2 + f.p)

theorem square7_chain (hf : f ≠ .e251_9) (c : Chain) : f.ChainArg c (square7 f) :=
  ⟨shape_make (by cases f <;> decide +kernel), fun h => by subst h; decide +kernel, fun h => absurd h hf⟩

theorem square7_root : ∃ y : Int, y * y ≡ f.V (square7 f) [ZMOD f.p] :=
  ⟨2 ^ 100 + 7, by unfold Int.ModEq; cases f <;> decide +kernel⟩

example (hf : f ≠ .e251_9) := C18_sqrt_partial f pr (square7_chain f hf _) (square7_root f)

example (hf : f ≠ .e251_9) := C43_legendre_words_partial f pr (up_chain f hf _)

example := C43_seven_types_partial .e521_1 pr (by decide) (down_tight .e521_1)

example := C44_quartic .e383_187 pr (by decide) (down_tight .e383_187)

example (hf : f ≠ .e251_9) := C45_value_partial f pr (up_chain f hf _)

example := C45_root f (x := 4) ⟨2, by norm_num⟩

/-- The root of the square squares to it. -/
example (hf : f ≠ .e251_9) : ∃ r s, f.code.sqrt pr (square7 f) = .ok r ∧ f.code.squared pr r = .ok s ∧ f.Denotes s (f.V (square7 f)) := by
  obtain ⟨r, s, h1, h2, h3⟩ := C45_detects_partial f pr (square7_chain f hf _)
  exact ⟨r, s, h1, h2, h3.2 (square7_root f)⟩

example := C45_principal_partial .e382_105 pr (by decide) (square7_chain .e382_105 (by decide) _)

/-! ### C20 to C24, C37 and C41 -/

example := C20_bit_partial f pr (up_tight f).rep (up_fold f) 77

example := C20_bit_exact f pr (low_tight f).rep (i := 77) (by cases f <;> decide)

/-- All bits of the canonical element are right; some bit of `1 - 2 ^ n` is wrong. -/
example (hf : f ≠ .e521_1) :
    (∀ i < f.n, ∃ a', f.code.bit pr (up f) i = .ok (a', decide (f.V (up f) % f.p / 2 ^ i % 2 = 1))) ∧
    ¬ ∀ i < f.n, ∃ a', f.code.bit pr (low f) i = .ok (a', decide (f.V (low f) % f.p / 2 ^ i % 2 = 1)) :=
  ⟨(C20_bits_correct_iff f pr (up_tight f).rep).2 (up_fold f),
    fun h => low_fold f hf ((C20_bits_correct_iff f pr (low_tight f).rep).1 h)⟩

example := C20_high_bits f (f.V (down f)) (Nat.le_refl f.n)

example := C21_filled f true (up f) (up_words f).1

example := C21_select f true (up_words f) (down_words f)

example := C22_hex_partial f pr true (up_tight f).rep (up_fold f)

/-- Hexadecimal text. -/
example (hf : f ≠ .e521_1) : (∃ s, f.code.fmtHex pr false (up f) = .ok s ∧ hexRead false s = some (f.V (up f) % f.p).toNat) ∧
    ∃ s, f.code.fmtHex pr true (low f) = .ok s ∧ hexRead true s ≠ some (f.V (low f) % f.p).toNat := by
  obtain ⟨r, h1, -, h2⟩ := C22_hex_correct_iff f pr false (up_tight f).rep
  obtain ⟨s, h3, -, h4⟩ := C22_hex_correct_iff f pr true (low_tight f).rep
  exact ⟨⟨r, h1, h2.2 (up_fold f)⟩, s, h3, fun h => low_fold f hf (h4.1 h)⟩

/-- A generator that gives `m / 2` for every bound `m`. -/
theorem half_rng : IsRng fun _ m => m / 2 := by
  intro i m hm
  dsimp only
  constructor <;> omega

example := C24_rand_canonical f half_rng

example := C24_rand_never_m_one f half_rng

/-- It is met by `C24_rand_range` from the other side too. -/
example : ∃ rng, IsRng rng ∧ f.code.rand rng = f.code.MODULUS.map (· - 1) :=
  (C24_rand_range f _).2 (by cases f <;> decide +kernel)

example := C37_normalize_bitand_bitor_partial f pr (up_tight f).rep (can_tight f).rep (up_fold f) (can_fold f)

example := C37_correct_iff f pr (up_tight f).rep (low_tight f).rep

example := C37_normalize_self f pr (can f) (down_tight f).rep

example := C41_mul_value f pr (up_tight f).loose (down_tight f).loose

example := C41_mul_comm f pr (up_tight f).loose (down_tight f).loose

/-- Equal words in eight types, and in `Mod_e251_9` for values below `2 ^ 252`. -/
example : f.code.square pr (up f) = f.code.mul pr (up f) (up f) :=
  (C41_square_eq_mul f pr (up_tight f)).2 fun h => by subst h; rw [up_V]; decide +kernel

example := C41_mul_nonneg f pr (up_tight f).loose (can_tight f).loose (by
  rw [up_V, can_V]; cases f <;> decide +kernel)

example := C41_e251_closed pr (can_tight .e251_9).loose (b := e251_9.make (2 ^ 252 + 2 ^ 226)) (shape_make (by decide +kernel))
  (by rw [can_V]; decide +kernel) (by decide +kernel)

end Verif

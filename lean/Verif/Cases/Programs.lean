import Verif.Cases.Points
import Verif.Props.Scripts
import Verif.Props.Reading
import Verif.Props.Orders
import Verif.Props.Cyclic
import Verif.Props.Embedding
import Verif.Props.Montgomery
import Verif.Props.GroupOrder
import Verif.Props.Total
import Verif.Props.Refine

/-!
# Cases of the theorems about arbitrary words, computations, clients and text

As in `Elements` and `Points`: each theorem applied to arguments that meet its hypotheses.
-/

namespace Verif
open Fld FieldCode EdwardsExtended Rust

variable (f : Fld) (c : Crv) (pr : Profile)

/-! ### C25, C42 and C51: computations -/

/-- Bytes below `2 ^ n` in all nine types. -/
theorem ones_ok : Op.Valid f (.bytes (List.replicate f.nbytes 1)) := by
  refine ⟨fun b hb => by rw [List.eq_of_mem_replicate hb]; decide, by simp, ?_⟩
  rintro rfl
  decide +kernel

/-- `(x - 1) * -x` for unpacked `x`. -/
def comp (f : Fld) : Ex :=
  .mul (.subI (.bytes (List.replicate f.nbytes 1)) 1) (.neg (.bytes (List.replicate f.nbytes 1)))

theorem comp_valid : (comp f).Valid f := ⟨⟨⟨(ones_ok f).1, (ones_ok f).2.1⟩, by simp [IsI32]⟩, (ones_ok f).1, (ones_ok f).2.1⟩

example := C08_never_panics f (comp f) (comp_valid f)

example := C42_normalized_partial f pr (comp f) (comp_valid f) ⟨(ones_ok f).2.2, (ones_ok f).2.2⟩

example := C42_packed_partial f pr (comp f) (comp_valid f) ⟨(ones_ok f).2.2, (ones_ok f).2.2⟩

example (hf : f ≠ .e251_9) := C42_eight_types_partial f hf pr (.sqrt (comp f)) (comp_valid f) ⟨(ones_ok f).2.2, (ones_ok f).2.2⟩

/-- `(x - 1i32) * x + (x - normalize(1 - normalize(x)))`. -/
def comp' (f : Fld) : Ex :=
  .add (.mul (.subI (.bytes (List.replicate f.nbytes 1)) 1) (.bytes (List.replicate f.nbytes 1)))
    (.sub (.bytes (List.replicate f.nbytes 1)) (.normalize (.sub .one (.normalize (.bytes (List.replicate f.nbytes 1))))))

theorem comp'_valid : (comp' f).Valid f :=
  ⟨⟨⟨⟨(ones_ok f).1, (ones_ok f).2.1⟩, by simp [IsI32]⟩, (ones_ok f).1, (ones_ok f).2.1⟩, ⟨(ones_ok f).1, (ones_ok f).2.1⟩, trivial,
    (ones_ok f).1, (ones_ok f).2.1⟩

/-- The bounds of this computation allow all nine types. -/
example : ∃ r a' out, (comp' f).exec f pr = .ok r ∧ f.code.packed pr r = .ok (a', out) ∧ out.length = f.nbytes ∧ IsBytes out ∧
    leVal out = ((comp' f).den f).val := by
  have h : (match (comp' f).bounds f with | some b => decide (-f.p ≤ b.1) | none => false) = true := by cases f <;> decide +kernel
  split at h
  · next b hb => exact C25_refines_partial f pr (comp' f) (comp'_valid f) hb (of_decide_eq_true h)
  · cases h

example : ∃ b r, (comp' f).bounds f = some b ∧ (comp' f).exec f pr = .ok r ∧ f.In b ((comp' f).den f) r := by
  have h : ((comp' f).bounds f).isSome = true := by cases f <;> decide +kernel
  obtain ⟨b, hb⟩ := Option.isSome_iff_exists.1 h
  obtain ⟨r, h1, h2⟩ := C25_value f pr (comp' f) (comp'_valid f) hb
  exact ⟨b, r, hb, h1, h2⟩

/-- `sqrt((x - 1i32) * x) / (x + x)`. -/
example (hf : f ≠ .e222_117 ∧ f ≠ .e251_9) := C25_seven_types_partial f hf pr
  (.div (.sqrt (.mul (.subI (.bytes (List.replicate f.nbytes 1)) 1) (.bytes (List.replicate f.nbytes 1))))
    (.add (.bytes (List.replicate f.nbytes 1)) (.bytes (List.replicate f.nbytes 1))))
  ⟨⟨⟨⟨(ones_ok f).1, (ones_ok f).2.1⟩, by simp [IsI32]⟩, (ones_ok f).1, (ones_ok f).2.1⟩, ⟨(ones_ok f).1, (ones_ok f).2.1⟩,
    (ones_ok f).1, (ones_ok f).2.1⟩
  ⟨⟨(ones_ok f).2.2, (ones_ok f).2.2⟩, (ones_ok f).2.2, (ones_ok f).2.2⟩

/-- `x * x - normalize(x)`. -/
example := C25_careful_partial f pr
  (.sub (.mul (.bytes (List.replicate f.nbytes 1)) (.bytes (List.replicate f.nbytes 1))) (.normalize (.bytes (List.replicate f.nbytes 1))))
  ⟨⟨⟨(ones_ok f).1, (ones_ok f).2.1⟩, (ones_ok f).1, (ones_ok f).2.1⟩, (ones_ok f).1, (ones_ok f).2.1⟩
  ⟨⟨⟨⟨(ones_ok f).2.2, (ones_ok f).2.2⟩, fun _ => ⟨id, id⟩, fun _ => .inl ⟨.inr trivial, .inr (.inl trivial)⟩⟩, (ones_ok f).2.2⟩,
    trivial⟩

/-- `7 * (x - 1) / sqrt(y)`. -/
example := C51_never_panics_partial .e255_19
  (.div (.mulI (.of (.subI (.bytes (List.replicate 32 5)) 1)) 7) (.of (.sqrt (.bytes (List.replicate 32 9))))) (by
    refine ⟨⟨⟨⟨?_, ?_⟩, ?_⟩, ?_⟩, ?_, ?_⟩
    all_goals first | decide | (simp [IsBytes]; done) | (norm_num [IsI32]; done)) (by
    refine ⟨⟨⟨⟨trivial, rfl⟩, ?_⟩, ?_⟩, ?_⟩
    all_goals first | decide | exact ⟨trivial, rfl⟩)

example := C51_small_mul_outcomes f (up_tight f) isI32_min

/-! ### C52: arbitrary words -/

/-- The largest and the smallest word, alternating. -/
def wild (f : Fld) : Elem := (List.range f.k).map fun i => if i % 2 = 0 then 2 ^ 63 - 1 else -2 ^ 63

theorem wild_words : f.Words (wild f) := words_of_wordsB (by cases f <;> decide +kernel)

/-- A point of such words. -/
def wildPoint (f : Fld) : EdwardsExtended Elem := ⟨wild f, wild f, up f, wild f⟩

theorem wild_point : f.PointWords (wildPoint f) :=
  ⟨wild_words f, wild_words f, words_of_wordsB (by cases f <;> decide +kernel), wild_words f⟩

example := C52_computation f (.sqrt (.mul (.words (wild f)) (.words (wild f)))) ⟨wild_words f, wild_words f⟩
example := C52_add f (wild_words f) (wild_words f)
example := C52_sub f (wild_words f) (wild_words f)
example := C52_mul f (wild_words f) (wild_words f)
example := C52_square f (wild_words f)
example := C52_small_add f (wild_words f) isI32_min
example := C52_small_sub f (wild_words f) isI32_min
example := C52_small_mul f (wild_words f) isI32_min
example := C52_neg f (wild_words f)
example := C52_normalize f (wild_words f)
example := C52_invert f (wild_words f)
example := C52_legendre f (wild_words f)
example := C52_quartic .e255_19 rfl (wild_words .e255_19)
example := C52_sqrt f (wild_words f)
example := C52_div f (wild_words f) (wild_words f)
example := C52_unpack f (wild_words f) (someBytes_ok f).1 (by rw [(someBytes_ok f).2]; omega)
example := C52_bitand f (wild_words f) (wild_words f)
example := C52_bitor f (wild_words f) (wild_words f)
example := C52_normalize_eq f (wild_words f) (wild_words f)
example := C52_pack_normalized f (wild_words f) (someBytes_ok f).1 (by rw [(someBytes_ok f).2]; omega)
example := C52_pack f (wild_words f) (someBytes_ok f).1 (by rw [(someBytes_ok f).2]; omega)
example := C52_packed f (wild_words f)
example := C52_hex f true (wild_words f)
example := C52_bit f (idx := 200) (wild_words f) (by cases f <;> decide)
example := C52_point_add f (wild_words f) (wild_point f) (wild_point f)
example := C52_point_double f (wild_words f) (wild_point f)
example := C52_point_triple f (wild_words f) (wild_point f)
example := C52_scalar_mult f (wild_words f) (wild_words f) (wild_point f)

/-- Debug builds panic on these words. -/
example : f.code.mul .debug (wild f) (wild f) = .error .overflow := by cases f <;> decide +kernel

/-! ### C53, C59 and C64: clients -/

theorem ones_client : (Client.step (.bytes (List.replicate f.nbytes 1)) (countClient 100 0)).Uses f Op.NotSub :=
  ⟨trivial, ones_ok f, countClient_uses _ _ _⟩

example (hf : f ≠ .e222_117 ∧ f ≠ .e251_9) := C53_client_partial f hf pr _ (ones_client f)

example := C53_fitting_partial f pr (.step (.bytes (List.replicate f.nbytes 1)) (countClient 100 0))
  ⟨trivial, ones_ok f, countClient_fits _ _ _⟩

/-- Subtraction of unreduced elements, with normalization after every operation. -/
theorem sub_uses : (Client.step (.bytes (List.replicate f.nbytes 1)) <| .step (.sub 0 0) <| .step (.sub 1 0) <| .packed 2 .done).Uses f
    fun o => f = .e251_9 → o.NotPow :=
  ⟨fun _ => trivial, ones_ok f, fun _ => trivial, trivial, fun _ => trivial, trivial, fun _ _ _ _ => trivial⟩

example := C53_normalized_partial f pr _ (sub_uses f)

example (w : World) := C59_client_normalizing f w _ (sub_uses f)

example := C59_never_panics f (comp f) (comp_valid f)

example := C59_never_panics_ints .e255_19
  (.div (.mulI (.of (.subI (.bytes (List.replicate 32 5)) 1)) 7) (.of (.sqrt (.bytes (List.replicate 32 9))))) (by
    refine ⟨⟨⟨⟨?_, ?_⟩, ?_⟩, ?_⟩, ?_, ?_⟩
    all_goals first | decide | (simp [IsBytes]; done) | (norm_num [IsI32]; done)) (by
    refine ⟨⟨⟨⟨trivial, rfl⟩, ?_⟩, ?_⟩, ?_⟩
    all_goals first | decide | exact ⟨trivial, rfl⟩)

example := C59_any_words f (.sqrt (.mul (.words (wild f)) (.words (wild f)))) ⟨wild_words f, wild_words f⟩

theorem outside_args (k : Nat) : (outside (List.replicate 66 7) k).Args f := ⟨by simp [Op.Args, IsBytes], trivial, fun _ _ => trivial⟩

/-- With variables that exist already. -/
example := C64_client f pr (outside (List.replicate 66 7) 5) (outside_args f 5) (rs := [up f, down f])
  (by rintro a (_ | ⟨_, _ | ⟨_, ⟨⟩⟩⟩); exacts [up_tight f, down_tight f])

/-- `lazyClient` is wrong in `Mod_e222_117`, in both kinds of builds. -/
example : lazyClient.run .e222_117 pr false [] ≠ .ok (lazyClient.ideal .e222_117 []) := by
  rw [ne_eq, C64_right_iff .e222_117 pr lazyClient (by simp [lazyClient, Client.Args, Op.Args, IsI32]),
    show lazyClient.int .e222_117 [] = some false by decide +kernel]
  simp [lazyClient, Client.ideal, Op.ideal]

example (pr' : Profile) := C64_builds f pr pr' _ (outside_args f 5) true

/-! ### C57 and C58: the repaired types -/

example := C57_sub f pr (down_tight f).rep (low_tight f).rep
example := C57_mul f pr (down_tight f).loose (low_tight f).loose isI32_min
example := C57_square f pr (down_tight f)
example := C57_normalize f pr (low_tight f).rep
example := C57_compare f pr (low_tight f).rep (up_tight f).rep
example := C57_pack f pr (low_tight f).rep (someBytes_ok f).1 (by rw [(someBytes_ok f).2]; omega)
example := C57_unpack f pr (down_words f) (someBytes_ok f).1 (by rw [(someBytes_ok f).2]; omega)
example := C57_unpack_pack f pr (low_tight f).rep (down_words f) (ones_ok f).1 (by simp)
example := C58_inverted f pr (low_tight f) (down_tight f)
example := C58_legendre f pr (low_tight f)
example := C58_sqrt f pr (low_tight f)
example := C58_normalize_eq f pr (low_tight f).rep (down_tight f).rep
example := C58_bit f pr (low_tight f).rep 77
example := C58_packed f pr (low_tight f).rep true

/-! ### C54 to C56: text -/

theorem wild_length : (wild f).length = f.code.limbs := by cases f <;> rfl

example (w : World) := C54_in_place (has_src f) w (Nat.le_refl 12) (wild_length f)
example (w : World) := C54_unary (has_src f) w (Nat.le_refl 12) (wild_length f)
example (w : World) := C54_quartic_legendre (has_src .e255_19) w (Nat.le_refl 12) (wild_length .e255_19) rfl
example (w : World) := C54_small (has_src f) w (Nat.le_refl 12) (wild_length f) (-2147483648)
example (w : World) := C54_compare (has_src f) w (Nat.le_refl 12) (wild_length f) (wild_length f)
example (w : World) := C54_bitwise (has_src f) w (Nat.le_refl 12) (wild_length f) (wild_length f)
example (w : World) := C54_masks (has_src f) w (Nat.le_refl 12) (wild_length f) (t := maskId f) (by simp) true
example (w : World) := C54_constants (has_src f) w (Nat.le_refl 12)
example (w : World) := C54_rand (has_src f) w (Nat.le_refl 12) 5
example (w : World) := C54_format (has_src f) w (Nat.le_refl 12) (wild_length f) ['x']
example (w : World) := C54_text_add f w (up_tight f).rep (down_tight f).rep
example (w : World) := C54_text_pack f w (ones_ok f).1 (by simp) (by cases f <;> decide +kernel)

theorem wild_fits : Fits c.fld (wildPoint c.fld) := by cases c <;> exact ⟨rfl, rfl, rfl, rfl⟩

example := C55_operators (has_crv c) (w := crvWorld c pr) rfl (Nat.le_refl 12) (wild_fits c) (wild_fits c)
example := C55_constructors (has_crv c) (w := crvWorld c pr) rfl (Nat.le_refl 12) (p := wildPoint c.fld) (wild c.fld) (up c.fld)
example := C55_bitwise (has_crv c) (w := crvWorld c pr) rfl (Nat.le_refl 12) (wild_fits c) (wild_fits c) (wild_length c.fld)
example := C55_scalar_mult (has_crv c) (w := crvWorld c pr) rfl (Nat.le_refl 12) (wild_fits c) (wild_length c.fld)
example := C55_text_ladder_total c pr c.base1.1.1 (k := wild c.fld) (by cases c <;> rfl)

/-- Numbers of `i64` are secret. -/
theorem los_words : Los [rf f (wild f)] [rf f f.code.ZERO] := .cons (.ref (lo_elem _ (by cases f <;> rfl))) .nil

example (rng rng' : Nat → Int → Int) (fn : Fn) := C56_release (src f) 0 rng rng' 12 fn (los_words f)
example (rng rng' : Nat → Int → Int) (fn : Fn) := C56_debug (src f) pr 0 rng rng' 12 fn (los_words f)

/-- `square` of `ONE` and of `M_ONE` does the same in debug builds. -/
example (rng rng' : Nat → Int → Int) :
    (callFnT (src f) ⟨pr, 0, rng⟩ 12 (tyId f) (id! "square") [rf f f.code.ONE]).trace =
      (callFnT (src f) ⟨pr, 0, rng'⟩ 12 (tyId f) (id! "square") [rf f f.code.M_ONE]).trace := by
  have h (w : World) {a : Elem} (ha : f.Tight a) (hl : a.length = f.code.limbs) :
      ∃ r, callFn (src f) w 12 (tyId f) (id! "square") [rf f a] = .ok r := by
    obtain ⟨r, hr, -⟩ := C05_square f w.pr ha
    have := (C54_in_place (has_src f) w (Nat.le_refl 12) hl).1
    rw [hr] at this
    exact ⟨_, this⟩
  obtain ⟨r, hr⟩ := h ⟨pr, 0, rng⟩ (one_canon f).tight (by cases f <;> rfl)
  obtain ⟨s, hs⟩ := h ⟨pr, 0, rng'⟩ (m_one_canon f).tight (by cases f <;> rfl)
  exact (C56_success (src f) pr 0 rng rng' 12 (tyId f) _ (.cons (.ref (lo_elem _ (by cases f <;> rfl))) .nil) hr hs).1

example := C56_point_scalar c 12 (id! "scalar_mult") (wild_fits c) (p' := c.baseCoords 1) (by cases c <;> exact ⟨rfl, rfl, rfl, rfl⟩)
  (k := wild c.fld) (k' := c.fld.code.ZERO) (by cases c <;> rfl)
example := C56_ladder c pr c.base1.1.1 (four_repr c).1.1 (k := wild c.fld) (k' := c.fld.code.ZERO) (by cases c <;> rfl)
  (by cases c <;> rfl)
example (w : World) (hw : w.pr = .release) := C56_unary f w hw 12 (id! "sqrt") (a := wild f) (a' := f.code.ZERO) (by cases f <;> rfl)
example (w : World) (hw : w.pr = .release) := C56_operators f w hw 12 (id! "Div") (a := wild f) (a' := f.code.ZERO) (b := up f)
  (b' := f.code.ONE) (by cases f <;> rfl) (by cases f <;> rfl)

/-! ### C60 to C62, C65 and C67 -/

/-- A comment and a line break after the first word of `const A : i32 = 5 ;`. -/
def fiveText : List Nat := "const A : i32 = 5 ;".toList.map Char.toNat

example : Grammar.read [fiveText ++ 32 :: 47 :: 47 :: "five".toList.map Char.toNat] =
    some ⟨[(id! "A", ⟨false, false, id! "i32"⟩, .lit none 5)], []⟩ :=
  C60_comment [] [] fiveText _ (by decide +kernel)

example := C60_break [] [] ("const A : i32 =".toList.map Char.toNat) ("5 ;".toList.map Char.toNat) (by decide +kernel)
  (by decide +kernel)

example := C60_distinct (f := f) rfl

/-- Two elements and two scripts that differ in secrets only. -/
theorem peek_lo : LoScript (peek [1, 0, 0, 0]) (peek [2, 0, 0, 0]) := C61_looking_leaks.1

example (rng rng' : Nat → Int → Int) := C61_leak (src .e221_3) pr 0 rng rng' 12 peek_lo (los_words .e221_3)

/-- The answer `true` only. -/
def sawTrue : List Val → Bool
  | [.bool true] => true
  | _ => false

theorem sawTrue_eq : ∀ {l m : List Val}, sawTrue l = true → sawTrue m = true → l = m
  | [.bool true], [.bool true], _, _ => rfl

/-- Scripts with the same answers: the last bits of 1 and 3. -/
example := C61_release (src .e221_3) 0 (fun _ _ => 0) (fun _ _ => 1) 12 (s := peek [1, 0, 0, 0]) (s' := peek [3, 0, 0, 0])
  (.value (lo_elem _ rfl) <| .value (Lo.refl _) <| .call _ _ <| .look _ fun _ => LoScript.refl _) .nil
  (sawTrue_eq (by decide +kernel) (by decide +kernel))

theorem exchange_blind {a x y : List Int} : Blind (exchange c a x y) :=
  .value <| .call <| .value <| .call <| .value <| .call <| .call <| .call <| .call .done

example (rng rng' : Nat → Int → Int) (a b x y : List Int) (h : a.length = b.length) := C61_blind (crvProg c) (crvId c) rng rng' 12
  (s := exchange c a x y) (s' := exchange c b x y)
  (.value (lo_slice h) <| .call _ _ <| .value (lo_slice rfl) <| .call _ _ <| .value (lo_slice rfl) <|
      .call _ _ <| .call _ _ <| .call _ _ <| .call _ _ .done) (exchange_blind c) .nil

theorem rep_ok {b : Int} (hb : 0 ≤ b ∧ b < 256) : IsBytes (List.replicate c.fld.nbytes b) ∧
    c.fld.nbytes ≤ (List.replicate c.fld.nbytes b).length :=
  ⟨fun x hx => by rw [List.eq_of_mem_replicate hx]; exact hb, by simp⟩

example := C61_exchange_runs c pr (rep_ok c (b := 7) (by decide)).1 (rep_ok c (by decide)).2 (rep_ok c (b := 255) (by decide)).1
  (rep_ok c (by decide)).2 (rep_ok c (b := 0) (by decide)).1 (rep_ok c (by decide)).2

example := C61_exchange c pr (rep_ok c (b := 7) (by decide)).1 (rep_ok c (b := 255) (by decide)).1 (rep_ok c (b := 0) (by decide)).1
  (rep_ok c (b := 8) (by decide)).1 (rep_ok c (b := 254) (by decide)).1 (rep_ok c (b := 3) (by decide)).1 (rep_ok c (by decide)).2
  (rep_ok c (by decide)).2 (rep_ok c (by decide)).2 (by simp) (by simp) (by simp)

/-- A handshake. -/
def shake (c : Crv) : CClient (List Int) := handshake (List.replicate c.fld.nbytes 7) (List.replicate c.fld.nbytes 255)
  (List.replicate c.fld.nbytes 1) (List.replicate c.fld.nbytes 2)

theorem shake_bytes : ∀ l ∈ [List.replicate c.fld.nbytes (7 : Int), List.replicate c.fld.nbytes 255, List.replicate c.fld.nbytes 1,
    List.replicate c.fld.nbytes 2], IsBytes l ∧ c.fld.nbytes ≤ l.length := by
  intro l hl
  simp only [List.mem_cons, List.not_mem_nil, or_false] at hl
  rcases hl with rfl | rfl | rfl | rfl <;> exact rep_ok c (by decide)

theorem shake_typed : (shake c).erase.Typed c.fld (Op.Fits c.fld) := handshake_typed _ (by cases c <;> decide) (shake_bytes c)

theorem shake_args : (shake c).Args c.fld :=
  ⟨(rep_ok c (by decide)).1, (rep_ok c (by decide)).1, (rep_ok c (by decide)).1, (rep_ok c (by decide)).1, fun _ _ _ => trivial⟩

example := C62_model (has_crv c) (w := crvWorld c pr) rfl (Nat.le_refl 12) (shake c)
example := C62_elements c.fld (shake c).erase (shake_typed c) (rs := [c.fld.code.ZERO])
  (by rintro a (_ | ⟨_, ⟨⟩⟩); exact Reach.zero _)
example := C62_points_unseen c (shake c) (shake_typed c) (w := crvWorld c pr) rfl
example := C62_client c (shake c) (shake_typed c) (w := crvWorld c pr) rfl
example := C62_client_analysed c (.point .zero <| .step .zero <| .step (.subI 0 1) <| .eq 0 1 .done)
  (by simp [CClient.erase, Client.Typed, Op.Valid, IsI32])
  ⟨trivial, _, rfl, by simp [Op.Valid, IsI32], (-1, -1), by cases c <;> decide +kernel, by cases c <;> decide +kernel,
    by cases c <;> decide +kernel, fun _ => trivial⟩ (w := crvWorld c pr) rfl
example := C62_handshake c (shake_bytes c) (w := crvWorld c pr) rfl
example := C64_curve c (shake c) (shake_typed c)
example := C65_client c pr (shake c) (shake_args c) (rs := [up c.fld, down c.fld])
  (by rintro a (_ | ⟨_, _ | ⟨_, ⟨⟩⟩⟩); exacts [up_tight _, down_tight _])
  (ps := [zero (c.scalar pr)]) (by rintro p (_ | ⟨_, ⟨⟩⟩); exact zero_okT)

example (m : Int) (hm : IsI32 m) := C67_client f (montStep (List.replicate 66 7) (List.replicate 66 9) m)
  (montStep_args f (by decide) (by decide) hm) (rs := [up f, down f])
  (by rintro a (_ | ⟨_, _ | ⟨_, ⟨⟩⟩⟩); exacts [(up_tight f).rep, (down_tight f).rep])

example := C67_small_mul f (down_tight f) isI32_min

/-- Release builds of `Mod_e414_17` find that two equal results differ. -/
example : (montStep (List.replicate 66 9) (List.replicate 66 7) 2000000000).run .e414_17 .release [] ≠
    .ok ((montStep (List.replicate 66 9) (List.replicate 66 7) 2000000000).ideal .e414_17 []) := by
  have h : (montStep (List.replicate 66 9) (List.replicate 66 7) 2000000000).int .e414_17 [] = .gives true false := by decide +kernel
  rw [ne_eq, C67_right_iff .e414_17 _ (montStep_args .e414_17 (by decide) (by decide) (by norm_num [IsI32])) (by rw [h]; nofun), h]
  rintro ⟨s, e⟩
  have : (montStep (List.replicate 66 9) (List.replicate 66 7) 2000000000).ideal .e414_17 [] = true := by
    simp [montStep, FClient.ideal, FOp.ideal, Op.ideal]
    ring
  rw [this] at e
  cases e

example {x : Bool} (h : (montStep (List.replicate 66 7) (List.replicate 66 9) 121665).run .e222_117 .debug [] = .ok x) :=
  C67_builds .e222_117 _ (montStep_args .e222_117 (by decide) (by decide) (by simp [IsI32]))
    (by rw [show (montStep (List.replicate 66 7) (List.replicate 66 9) 121665).int .e222_117 [] = .gives true true by decide +kernel]
        nofun) h

example := C67_embeds f _ (outside_args f 5)

/-! ### C46 to C51: orders, and the remaining theorems -/

theorem neutral_canonical : c.RepresentsCanonically (c.coords 0 1 7) (0 : c.Point) := by
  obtain ⟨⟨-, z0, ex, ey⟩, et⟩ := neutral_repr c
  refine ⟨⟨?_, z0, ex, ey⟩, et⟩
  refine ⟨?_, ?_, ?_, ?_⟩ <;> refine canon_of_canonB ?_ <;> cases c <;> decide +kernel

example := C46_edwards_cofactor c (c.base + c.base)
example (m : Mont) := C46_montgomery_cofactor m (m.base + m.base)
example (m : Mont) := C49_montgomery_subgroup m (m.base + m.base)
example (m : Mont) := (C50_montgomery m).2 65536 (by decide) (by decide)
example := C47_ladder c pr (k := can c.fld) (can_canon c.fld).canonical 
  (s := ⟨c.coords 0 1 7, c.baseCoords 1, c.coords 0 1 7, c.baseCoords 1, 5, true, c.fld.code.ZERO, c.fld.code.ZERO⟩) (neutral_canonical c)
  (base_canonical c)
example := C51_counterexample_factor .e521_1 (.inr (.inr (.inr (.inr rfl))))
example := C19_M_HALF_COEFF .e255_19 (by decide)
example := C19_no_M_HALF .e521_1 (by decide)

/-- An element that a random generator gives. -/
example := (C24_rand_partial f).2 f.code.ONE (by cases f <;> decide +kernel)

end Verif

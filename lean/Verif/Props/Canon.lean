import Verif.Field.Bits
import Verif.Props.Ring

/-!
# Properties C09–C14, C19–C22, C24, C37, C38: canonical values and their encodings
-/

namespace Verif
open Fld

variable (f : Fld) (pr : Profile)

/-! ## C09: normalization -/

/-- Full statement of C09 (false for negative values close to a multiple of `-2 ^ n`). -/
def C09_statement : Prop := ∀ (f : Fld) (pr : Profile) (a : Elem), f.Tight a →
  ∃ r, f.code.normalize pr a = .ok r ∧ f.Canon (f.V a % f.p) r

/-- `normalize` never panics; the result is the canonical representative of the residue
exactly when folding the carry gives a non-negative number. -/
theorem C09_normalize_correct_iff {a : Elem} (ha : f.Rep a) :
    ∃ r, f.code.normalize pr a = .ok r ∧ f.Tight r ∧
      (f.Canon (f.V a % f.p) r ↔ f.Foldable (f.V a)) := by
  obtain ⟨r, h1, h2, h3, h4, h5⟩ := normalize_exact pr ha
  have h0 : (0 : Int) ≤ 2 ^ f.tb := by positivity
  have hc : (0 : Int) ≤ f.c := by positivity
  refine ⟨r, h1, Shape.mono h2 (by linarith) (by rw [pow_succ]; linarith), ?_, ?_⟩
  · intro hcan
    by_contra hneg
    have hneg : f.fold (f.V a) < 0 := not_le.mp hneg
    have hV : 0 ≤ f.V r := by rw [hcan.2.1]; exact hcan.2.2.1
    rcases lt_or_ge (f.fold (f.V a) + f.c) 0 with h | h
    · rw [h3 h] at hV; linarith
    · have := f.p_pos
      rw [h4 h (by linarith)] at hV; linarith
  · intro hf
    obtain ⟨r', h6, h7⟩ := normalize_ok pr ha hf
    rw [h1] at h6; cases h6
    exact h7

/-- Part of C09: values of at least `-p`, in particular everything built from sums,
products, squares and differences with a normalized right operand.  Missing: smaller
values, for some of which the code is wrong. -/
theorem C09_normalize_partial {a : Elem} (ha : f.Rep a) (hV : -f.p ≤ f.V a) :
    ∃ r, f.code.normalize pr a = .ok r ∧ f.Canon (f.V a % f.p) r := by
  obtain ⟨r, h1, -, h2⟩ := C09_normalize_correct_iff f pr ha
  exact ⟨r, h1, h2.mpr (Foldable.of_gt hV)⟩

/-- Canonical representatives are unique. -/
theorem C09_canonical_unique {x : Int} {a b : Elem} (ha : f.Canon x a) (hb : f.Canon x b) :
    a = b := Shape.ext ha.1 hb.1 (ha.2.1.trans hb.2.1.symm)

/-- Normalizing twice changes nothing. -/
theorem C09_normalize_idempotent {a : Elem} (ha : f.Rep a) (hV : f.Foldable (f.V a)) :
    ∃ r, f.code.normalize pr a = .ok r ∧ f.code.normalize pr r = .ok r := by
  obtain ⟨r, h1, -, h2⟩ := C09_normalize_correct_iff f pr ha
  have hc := h2.mpr hV
  obtain ⟨s, h3, h4⟩ := C09_normalize_partial f pr (Tight.rep hc.tight)
    (by rw [hc.2.1]; linarith [hc.2.2.1, f.p_pos])
  refine ⟨r, h1, ?_⟩
  rw [hc.2.1, Int.emod_emod_of_dvd _ dvd_rfl] at h4
  rw [h3, C09_canonical_unique f h4 hc]

/-- In all nine types an encoding of a number below `2 ^ n` is read as that number. -/
theorem C12_unpack_small {a : Elem} {bytes : List Int} (ha : f.IsWords a)
    (hb : IsBytes bytes) (hl : f.nbytes ≤ bytes.length)
    (hv : leVal (bytes.take f.nbytes) < 2 ^ f.n) :
    ∃ r, f.code.unpack pr a bytes = .ok r ∧ f.Shape 0 (2 ^ f.tb - 1) r ∧
      f.V r = leVal (bytes.take f.nbytes) := by
  obtain ⟨r, h1, h2, h3⟩ := unpack_exact pr ha hb hl
  have h0 := leVal_nonneg (hb.take f.nbytes)
  have hu : f.n ≤ f.ubits := by cases f <;> decide
  have hV : f.V r = leVal (bytes.take f.nbytes) := by
    rw [h3]
    exact Int.emod_eq_of_lt h0 (hv.trans_le (pow_le_pow_right₀ (by norm_num) hu))
  refine ⟨r, h1, Shape.of_V h2 ?_ ?_, hV⟩
  · rw [mul_zero, hV]; exact h0
  · rw [sub_add_cancel, ← pow_n, hV]; exact hv

/-- The bytes of `2 ^ n - 1`. -/
def maxBytes (f : Fld) : List Int :=
  List.replicate (f.nbytes - 1) 255 ++ [2 ^ (f.n - 8 * (f.nbytes - 1)) - 1]

theorem maxBytes_isBytes : IsBytes (maxBytes f) := by
  intro b hb
  simp only [maxBytes, List.mem_append, List.mem_replicate, List.mem_singleton] at hb
  rcases hb with ⟨-, rfl⟩ | rfl
  · norm_num
  · cases f <;> decide

theorem maxBytes_length : (maxBytes f).length = f.nbytes := by
  simp only [maxBytes, List.length_append, List.length_replicate, List.length_singleton, nbytes_pos]

set_option maxRecDepth 100000 in
theorem maxBytes_val : leVal (maxBytes f) = 2 ^ f.n - 1 := by
  cases f <;> decide +kernel

/-- `zero() - unpacked(2 ^ n - 1)` is not normalized correctly, in the eight types with
`c > 1`. -/
theorem C09_counterexample (hf : f ≠ .e521_1) : ∃ u m r,
    f.code.unpacked pr (maxBytes f) = .ok u ∧
    f.code.sub pr f.code.ZERO u = .ok m ∧ f.code.normalize pr m = .ok r ∧ f.Tight m ∧
    f.Denotes m (1 - 2 ^ f.n) ∧ ¬ f.Canon (f.V m % f.p) r := by
  have hz := zero_canon f
  have ht : (maxBytes f).take f.nbytes = maxBytes f := by
    rw [← maxBytes_length f]; exact List.take_length
  obtain ⟨u, h1, h2, h3⟩ := C12_unpack_small f pr (Rep.isWords (Tight.rep hz.tight))
    (maxBytes_isBytes f) (maxBytes_length f).ge
    (by rw [ht, maxBytes_val]; linarith)
  rw [ht, maxBytes_val] at h3
  have hu := Tight.rep (word_tight h2)
  obtain ⟨m, h4, h5, h6⟩ := sub_exact pr (Tight.rep hz.tight) hu
  have hN : (1 : Int) < 2 ^ f.n := one_lt_pow₀ (by norm_num) (by cases f <;> decide)
  have e1 : ((2 : Int) ^ f.n - 1) / 2 ^ f.n = 0 :=
    Int.ediv_eq_zero_of_lt (by linarith) (by linarith)
  rw [hz.2.1, h3, e1, Int.zero_ediv] at h6
  have hm : f.V m = 1 + 2 ^ f.n * (-1) := by rw [h6]; ring
  have h0 : (0 : Int) ≤ 2 ^ f.tb := by positivity
  have hc : (0 : Int) ≤ f.c := by positivity
  have htight : f.Tight m := Shape.mono h5 (by linarith) (by rw [pow_succ]; linarith)
  obtain ⟨r, h7, -, h8⟩ := C09_normalize_correct_iff f pr (Tight.rep htight)
  refine ⟨u, m, r, h1, h4, h7, htight, by rw [Denotes, hm]; congr 1; ring, fun h => ?_⟩
  have h9 := h8.mp h
  rw [Foldable, hm, Int.add_mul_emod_self_left, Int.add_mul_ediv_left _ _ (by linarith),
    Int.emod_eq_of_lt (by norm_num) hN, Int.ediv_eq_zero_of_lt (by norm_num) hN] at h9
  have : 1 < f.c := by
    cases f with
    | e521_1 => exact absurd rfl hf
    | _ => decide
  have : (1 : Int) < f.c := by exact_mod_cast this
  linarith

theorem C09_statement_false : ¬ C09_statement := by
  intro h
  obtain ⟨u, m, r, -, -, h1, h2, -, h3⟩ := C09_counterexample .e255_19 .debug (by decide)
  obtain ⟨r', h4, h5⟩ := h .e255_19 .debug m h2
  rw [h1] at h4; cases h4
  exact h3 h5

/-- The element of `C09_counterexample` for `Mod_e255_19`, of value `1 - 2 ^ 255`. -/
def badElem : Elem := [1, 0, 0, 0, -2 ^ 31]

theorem badElem_tight : Fld.e255_19.Tight badElem := ⟨[1, 0, 0, 0], _, rfl, by decide⟩

set_option maxRecDepth 100000 in
/-- It is a difference of two unpacked byte strings. -/
theorem badElem_reachable (pr : Profile) :
    (Fld.e255_19.code.unpacked pr (maxBytes .e255_19) >>= fun u =>
      Fld.e255_19.code.sub pr Fld.e255_19.code.ZERO u) = .ok badElem := by
  have h : ∀ x : Res Elem, (match x with
      | .ok r => decide (r = badElem)
      | .error _ => false) = true → x = .ok badElem := by
    intro x hx
    cases x with
    | ok r => rw [of_decide_eq_true hx]
    | error e => cases hx
  apply h
  cases pr <;> decide +kernel

/-- A representation with a negative value satisfying the hypothesis of the partial
theorem. -/
example : Fld.e255_19.Rep [5, 0, 0, 0, -1] ∧ -Fld.e255_19.p ≤ Fld.e255_19.V [5, 0, 0, 0, -1] :=
  ⟨⟨[5, 0, 0, 0], _, rfl, by decide⟩, by decide +kernel⟩

/-! ## C10: equality -/

/-- Full statement of C10 (false where C09 is). -/
def C10_statement : Prop := ∀ (f : Fld) (pr : Profile) (a b : Elem), f.Tight a → f.Tight b →
  ∃ a' b' r, f.code.normalizeEq pr a b = .ok (a', b', r) ∧ (r = true ↔ f.V a ≡ f.V b [ZMOD f.p])

set_option maxRecDepth 100000 in
/-- `badElem` is told apart from the canonical element `p - 18` of the same residue. -/
theorem C10_statement_false : ¬ C10_statement := by
  intro h
  have ht : Fld.e255_19.Tight [2 ^ 56 - 37, 2 ^ 56 - 1, 2 ^ 56 - 1, 2 ^ 56 - 1, 2 ^ 31 - 1] :=
    ⟨[2 ^ 56 - 37, 2 ^ 56 - 1, 2 ^ 56 - 1, 2 ^ 56 - 1], _, rfl, by decide⟩
  obtain ⟨a', b', r, h1, h2⟩ := h .e255_19 .debug _ _ badElem_tight ht
  have hr : r = true := h2.mpr (by decide +kernel)
  have h3 : (match Fld.e255_19.code.normalizeEq .debug badElem
      [2 ^ 56 - 37, 2 ^ 56 - 1, 2 ^ 56 - 1, 2 ^ 56 - 1, 2 ^ 31 - 1] with
    | .ok (_, _, r) => r
    | .error _ => true) = false := by decide +kernel
  rw [h1] at h3
  exact absurd (hr.symm.trans h3) (by decide)

/-- `normalize_eq` answers whether the two residues are equal and leaves both operands
canonical. -/
theorem C10_normalize_eq_partial {a b : Elem} (ha : f.Rep a) (hb : f.Rep b)
    (va : f.Foldable (f.V a)) (vb : f.Foldable (f.V b)) :
    ∃ a' b' r, f.code.normalizeEq pr a b = .ok (a', b', r) ∧ f.Canon (f.V a % f.p) a' ∧
      f.Canon (f.V b % f.p) b' ∧ (r = true ↔ f.V a ≡ f.V b [ZMOD f.p]) := by
  obtain ⟨a', h1, -, h2⟩ := C09_normalize_correct_iff f pr ha
  obtain ⟨b', h3, -, h4⟩ := C09_normalize_correct_iff f pr hb
  have ca := h2.mpr va
  have cb := h4.mpr vb
  refine ⟨a', b', (List.zipWith (fun x y => decide (x = y)) a' b').all id, ?_, ca, cb, ?_⟩
  · simp only [FieldCode.normalizeEq, FieldCode.normalizeSelfEq, h1, h3, bind, Except.bind, pure,
      Except.pure]
  · have hlen : a'.length = b'.length := by rw [ca.1.length, cb.1.length]
    have hz : ∀ (x y : List Int), x.length = y.length →
        ((List.zipWith (fun x y => decide (x = y)) x y).all id = true ↔ x = y) := by
      intro x
      induction x with
      | nil => intro y h; cases y with
        | nil => simp
        | cons => simp at h
      | cons u x ih =>
        intro y h
        cases y with
        | nil => simp at h
        | cons v y =>
          simp only [List.zipWith_cons_cons, List.all_cons, id, Bool.and_eq_true,
            decide_eq_true_eq, List.cons.injEq, ih y (by simpa using h)]
    rw [hz a' b' hlen]
    constructor
    · intro h
      have := ca.2.1.symm.trans ((congrArg f.V h).trans cb.2.1)
      exact this
    · intro h
      have h : f.V a % f.p = f.V b % f.p := h
      rw [h] at ca
      exact C09_canonical_unique f ca cb

/-- Two different representations of the same residue, `5` and `5 + p`. -/
example : Fld.e255_19.Rep [5, 0, 0, 0, 0] ∧
    Fld.e255_19.Rep [2 ^ 56 - 14, 2 ^ 56 - 1, 2 ^ 56 - 1, 2 ^ 56 - 1, 2 ^ 31 - 1] ∧
    Fld.e255_19.Foldable (Fld.e255_19.V [2 ^ 56 - 14, 2 ^ 56 - 1, 2 ^ 56 - 1, 2 ^ 56 - 1, 2 ^ 31 - 1]) :=
  ⟨⟨[5, 0, 0, 0], _, rfl, by decide⟩,
    ⟨[2 ^ 56 - 14, 2 ^ 56 - 1, 2 ^ 56 - 1, 2 ^ 56 - 1], _, rfl, by decide⟩,
    Foldable.of_nonneg (by decide +kernel)⟩

/-! ## C11: packing -/

/-- Full statement of C11 (false where C09 is). -/
def C11_statement : Prop := ∀ (f : Fld) (pr : Profile) (a : Elem), f.Tight a →
  ∃ a' out, f.code.packed pr a = .ok (a', out) ∧ out.length = f.nbytes ∧
    leVal out = f.V a % f.p

set_option maxRecDepth 100000 in
theorem C11_statement_false : ¬ C11_statement := by
  intro h
  obtain ⟨a', out, h1, -, h2⟩ := h .e255_19 .debug _ badElem_tight
  have h3 : (match Fld.e255_19.code.packed .debug badElem with
    | .ok (_, out) => decide (leVal out = Fld.e255_19.V badElem % Fld.e255_19.p)
    | .error _ => true) = false := by decide +kernel
  rw [h1] at h3
  simp only [h2, decide_true] at h3
  exact absurd h3 (by decide)

/-- `pack` writes the little-endian bytes of the canonical integer into the first `nbytes`
bytes, leaves the rest of the slice alone, and normalizes the element. -/
theorem C11_pack_partial {a : Elem} {bytes : List Int} (ha : f.Rep a)
    (va : f.Foldable (f.V a)) (hb : IsBytes bytes) (hl : f.nbytes ≤ bytes.length) :
    ∃ a' out, f.code.pack pr a bytes = .ok (a', out ++ bytes.drop f.nbytes) ∧
      f.Canon (f.V a % f.p) a' ∧ out.length = f.nbytes ∧ IsBytes out ∧
      leVal out = f.V a % f.p := by
  obtain ⟨a', h1, -, h2⟩ := C09_normalize_correct_iff f pr ha
  have ca := h2.mpr va
  obtain ⟨out, h3, h4, h5, h6⟩ := packNormalized_exact pr ca.1 hb hl
  refine ⟨a', out, ?_, ca, h4, h5, h6.trans ca.2.1⟩
  simp only [FieldCode.pack, h1, h3, bind, Except.bind, pure, Except.pure]

/-- `packed` returns the little-endian bytes of the canonical integer. -/
theorem C11_packed_partial {a : Elem} (ha : f.Rep a) (va : f.Foldable (f.V a)) :
    ∃ a' out, f.code.packed pr a = .ok (a', out) ∧ f.Canon (f.V a % f.p) a' ∧
      out.length = f.nbytes ∧ IsBytes out ∧ leVal out = f.V a % f.p := by
  obtain ⟨a', out, h1, h2, h3, h4, h5⟩ := C11_pack_partial f pr
    (bytes := List.replicate f.nbytes 0) ha va
    (fun b hb => by rw [List.eq_of_mem_replicate hb]; norm_num) (by simp)
  refine ⟨a', out, ?_, h2, h3, h4, h5⟩
  simp only [FieldCode.packed, codeNbytes_eq, h1]
  simp

/-- `nbytes()` and `nbits()` are what they should be. -/
theorem C11_sizes : f.code.nbytes = f.nbytes ∧ f.code.nbits = f.n :=
  ⟨codeNbytes_eq f, codeNbits_eq f⟩

/-! ## C12: unpacking -/

/-- Full statement of C12 (false for `Mod_e383_187`). -/
def C12_statement : Prop := ∀ (f : Fld) (pr : Profile) (a : Elem) (bytes : List Int),
  f.IsWords a → IsBytes bytes → bytes.length = f.nbytes →
  ∃ r, f.code.unpack pr a bytes = .ok r ∧ f.V r = leVal bytes % 2 ^ f.n

/-- `unpack` reads the low `n` bits of the little-endian integer of the first `nbytes`
bytes, whatever the element was before.  Missing: `Mod_e383_187`. -/
theorem C12_unpack_partial (hf : f ≠ .e383_187) {a : Elem} {bytes : List Int} (ha : f.IsWords a)
    (hb : IsBytes bytes) (hl : f.nbytes ≤ bytes.length) :
    ∃ r, f.code.unpack pr a bytes = .ok r ∧ f.Shape 0 (2 ^ f.tb - 1) r ∧
      f.V r = leVal (bytes.take f.nbytes) % 2 ^ f.n := by
  obtain ⟨r, h1, h2, h3⟩ := unpack_exact pr ha hb hl
  have e : f.ubits = f.n := by
    cases f with
    | e383_187 => exact absurd rfl hf
    | _ => rfl
  rw [e] at h2 h3
  exact ⟨r, h1, h2, h3⟩

/-- `Mod_e383_187` also keeps bit 383, as a carry. -/
theorem C12_unpack_e383 {a : Elem} {bytes : List Int} (ha : Fld.e383_187.IsWords a)
    (hb : IsBytes bytes) (hl : 48 ≤ bytes.length) :
    ∃ r, Fld.e383_187.code.unpack pr a bytes = .ok r ∧ Fld.e383_187.Tight r ∧
      Fld.e383_187.V r = leVal (bytes.take 48) := by
  obtain ⟨r, h1, h2, h3⟩ := unpack_exact (f := .e383_187) pr ha hb hl
  refine ⟨r, h1, Shape.mono h2 (by decide) (by decide), ?_⟩
  have hB := hb.take Fld.e383_187.nbytes
  have hlt := leVal_lt hB
  rw [List.length_take_of_le (show e383_187.nbytes ≤ _ from hl)] at hlt
  rw [h3]
  exact Int.emod_eq_of_lt (leVal_nonneg hB) hlt

theorem C12_statement_false : ¬ C12_statement := by
  intro h
  have hz := Rep.isWords (Tight.rep (zero_canon .e383_187).tight)
  have hb : IsBytes (List.replicate 48 255) := by
    intro b hb
    rw [List.eq_of_mem_replicate hb]; norm_num
  obtain ⟨r, h1, h2⟩ := h .e383_187 .debug _ (List.replicate 48 255) hz hb rfl
  obtain ⟨r', h3, -, h4⟩ := C12_unpack_e383 .debug hz hb (by simp)
  rw [h1] at h3; cases h3
  rw [h2] at h4
  exact absurd h4 (by decide +kernel)

/-! ## C13: round trips -/

/-- Full statement of the first half of C13 (false where C09 is). -/
def C13_statement : Prop := ∀ (f : Fld) (pr : Profile) (a : Elem), f.Tight a →
  ∃ a' out r, f.code.packed pr a = .ok (a', out) ∧ f.code.unpacked pr out = .ok r ∧
    f.Denotes r (f.V a)

set_option maxRecDepth 100000 in
theorem C13_statement_false : ¬ C13_statement := by
  intro h
  obtain ⟨a', out, r, h1, h2, h3⟩ := h .e255_19 .debug _ badElem_tight
  have h4 : (match Fld.e255_19.code.packed .debug badElem with
    | .ok (_, out) => match Fld.e255_19.code.unpacked .debug out with
      | .ok r => decide (Fld.e255_19.V r % Fld.e255_19.p =
          Fld.e255_19.V badElem % Fld.e255_19.p)
      | .error _ => true
    | .error _ => true) = false := by decide +kernel
  rw [h1] at h4
  simp only [h2] at h4
  exact of_decide_eq_false h4 h3

/-- Unpacking what `packed` returns gives the canonical element of the same residue. -/
theorem C13_unpack_packed_partial {a : Elem} (ha : f.Rep a) (va : f.Foldable (f.V a)) :
    ∃ a' out r, f.code.packed pr a = .ok (a', out) ∧ f.code.unpacked pr out = .ok r ∧
      r = a' ∧ f.Canon (f.V a % f.p) r := by
  obtain ⟨a', out, h1, h2, h3, h4, h5⟩ := C11_packed_partial f pr ha va
  have hz := Rep.isWords (Tight.rep (zero_canon f).tight)
  have ht : out.take f.nbytes = out := by rw [← h3]; exact List.take_length
  obtain ⟨r, h6, h7, h8⟩ := C12_unpack_small f pr hz h4 h3.ge
    (by rw [ht, h5]; exact h2.2.2.2.trans f.p_lt)
  have hc : f.Canon (f.V a % f.p) r := ⟨h7, by rw [h8, ht, h5], h2.2.2⟩
  exact ⟨a', out, r, h1, h6, C09_canonical_unique f hc h2, hc⟩

/-- Packing what was unpacked returns the encoding of the residue; for numbers below `p`
that is the byte string itself. -/
theorem C13_packed_unpack {bytes : List Int} (hb : IsBytes bytes)
    (hl : bytes.length = f.nbytes) (hv : leVal bytes < 2 ^ f.n) :
    ∃ u u' out, f.code.unpacked pr bytes = .ok u ∧ f.code.packed pr u = .ok (u', out) ∧
      out.length = f.nbytes ∧ IsBytes out ∧ leVal out = leVal bytes % f.p ∧
      (leVal bytes < f.p → out = bytes) := by
  have hz := Rep.isWords (Tight.rep (zero_canon f).tight)
  have ht : bytes.take f.nbytes = bytes := by rw [← hl]; exact List.take_length
  obtain ⟨u, h1, h2, h3⟩ := C12_unpack_small f pr hz hb hl.ge (by rw [ht]; exact hv)
  rw [ht] at h3
  obtain ⟨u', out, h4, -, h5, h6, h7⟩ := C11_packed_partial f pr (Tight.rep (word_tight h2))
    (Foldable.of_nonneg (word_V h2).1)
  refine ⟨u, u', out, h1, h4, h5, h6, by rw [h7, h3], fun hp => ?_⟩
  refine leVal_inj h6 hb (h5.trans hl.symm) ?_
  rw [h7, h3]
  exact Int.emod_eq_of_lt (leVal_nonneg hb) hp

/-- A byte string that is not canonical (the encoding of `p + 5`). -/
example : IsBytes (242 :: List.replicate 30 255 ++ [127]) ∧
    leVal (242 :: List.replicate 30 255 ++ [127]) = Fld.e255_19.p + 5 := by
  constructor
  · intro b hb
    have h : ∀ b ∈ 242 :: List.replicate 30 255 ++ [127], 0 ≤ b ∧ b < (256 : Int) := by decide
    exact h b hb
  · decide +kernel

/-! ## C14: buffer lengths -/

/-- `unpack` panics exactly on slices shorter than `nbytes`, and ignores further bytes. -/
theorem C14_unpack {a : Elem} {bytes : List Int} (ha : f.IsWords a) (hb : IsBytes bytes) :
    ((∃ e, f.code.unpack pr a bytes = .error e) ↔ bytes.length < f.nbytes) ∧
    (f.nbytes ≤ bytes.length →
      f.code.unpack pr a bytes = f.code.unpack pr a (bytes.take f.nbytes)) := by
  refine ⟨⟨fun ⟨e, he⟩ => ?_, unpack_short pr ha⟩, fun hl => ?_⟩
  · by_contra hn
    obtain ⟨r, h1, -⟩ := unpack_exact pr ha hb (not_lt.mp hn)
    rw [he] at h1; cases h1
  · obtain ⟨r, h1, h2, h3⟩ := unpack_exact pr ha hb hl
    obtain ⟨r', h1', h2', h3'⟩ := unpack_exact pr ha (hb.take f.nbytes)
      (by rw [List.length_take_of_le hl])
    rw [List.take_take, min_self] at h3'
    rw [h1, h1', Shape.ext h2 h2' (h3.trans h3'.symm)]

/-- `pack` panics exactly on slices shorter than `nbytes`. -/
theorem C14_pack {a : Elem} {bytes : List Int} (ha : f.Rep a) (hb : IsBytes bytes) :
    (∃ e, f.code.pack pr a bytes = .error e) ↔ bytes.length < f.nbytes := by
  obtain ⟨a', h1, h2, -⟩ := C09_normalize_correct_iff f pr ha
  have h2 := Tight.rep h2
  constructor
  · rintro ⟨e, he⟩
    by_contra hn
    obtain ⟨out, h3⟩ := packNormalized_runs pr h2 hb (not_lt.mp hn)
    simp only [FieldCode.pack, h1, h3, bind, Except.bind, pure, Except.pure] at he
    cases he
  · intro hl
    obtain ⟨e, he⟩ := packNormalized_short pr h2.isWords hl
    exact ⟨e, by simp only [FieldCode.pack, h1, he, bind, Except.bind]⟩

/-! ## C19: constants of the field types -/

/-- `zero()`, `one()`, `m_one()` are canonical, `modulus()` is `p`. -/
theorem C19_constants : f.Canon 0 f.code.ZERO ∧ f.Canon 1 f.code.ONE ∧
    f.Canon (f.p - 1) f.code.M_ONE ∧ f.V f.code.MODULUS = f.p :=
  ⟨zero_canon f, one_canon f, m_one_canon f, modulus_V f⟩

/-! ## C20: bits -/

/-- Full statement of C20 (false where C09 is). -/
def C20_statement : Prop := ∀ (f : Fld) (pr : Profile) (a : Elem) (i : Nat), f.Tight a →
  i < f.n → ∃ a', f.code.bit pr a i = .ok (a', decide ((f.V a % f.p) / 2 ^ i % 2 = 1))

set_option maxRecDepth 100000 in
theorem C20_statement_false : ¬ C20_statement := by
  intro h
  obtain ⟨a', h1⟩ := h .e255_19 .debug _ 0 badElem_tight (by decide)
  have h2 : (match Fld.e255_19.code.bit .debug badElem 0 with
    | .ok (_, b) => b
    | .error _ => true) = false := by decide +kernel
  rw [h1] at h2
  exact of_decide_eq_false h2 (by decide +kernel)

/-- `bit(i)` is bit `i` of the canonical integer for every index inside the storage,
and panics beyond. -/
theorem C20_bit_partial {a : Elem} (ha : f.Rep a) (va : f.Foldable (f.V a)) (i : Nat) :
    (i < f.L * f.k → ∃ a', f.code.bit pr a i =
      .ok (a', decide ((f.V a % f.p) / 2 ^ i % 2 = 1)) ∧ f.Canon (f.V a % f.p) a') ∧
    (f.L * f.k ≤ i → ∃ e, f.code.bit pr a i = .error e) := by
  obtain ⟨a', h1, -, h2⟩ := C09_normalize_correct_iff f pr ha
  have ca := h2.mpr va
  have hLpos : 0 < f.L := by cases f <;> decide
  have hlen := ca.1.length
  constructor
  · intro hi
    have hq : i / f.L < f.k := Nat.div_lt_of_lt_mul hi
    refine ⟨a', ?_, ca⟩
    have hget : a'[i / f.L]? = some (a'[i / f.L]'(by omega)) := List.getElem?_eq_getElem _
    have hpre : ∀ j x, j < i / f.L → a'[j]? = some x → 0 ≤ x ∧ x < 2 ^ f.L := by
      intro j x hj hx
      obtain ⟨low, top, rfl, hl, hd, -, -⟩ := ca.1
      rw [List.getElem?_append_left (by omega)] at hx
      exact hd x (List.mem_of_getElem? hx)
    obtain ⟨R, hR, -⟩ := digitsVal_get f.L a' _ _ hget hpre
    simp only [FieldCode.bit, h1, FieldCode.bitNormalized, limbBits_eq, hget, bind, Except.bind,
      pure, Except.pure]
    rw [and64_one, shr64]
    suffices e0 : (f.V a % f.p) / 2 ^ i % 2 = a'[i / f.L] / 2 ^ (i % f.L) % 2 by rw [e0]
    have hV : digitsVal f.L a' = f.V a % f.p := ca.2.1
    rw [hV] at hR
    have hm : i % f.L < f.L := Nat.mod_lt _ hLpos
    have e : (f.V a % f.p) / 2 ^ i =
        (a'[i / f.L]'(by omega) + 2 ^ f.L * R) / 2 ^ (i % f.L) := by
      rw [← hR, Int.ediv_ediv_of_nonneg (by positivity), ← pow_add, Nat.div_add_mod]
    have e2 : (2 : Int) ^ f.L * R = 2 ^ (i % f.L) * (2 * (2 ^ (f.L - i % f.L - 1) * R)) := by
      have : (2 : Int) ^ f.L = 2 ^ (i % f.L) * (2 * 2 ^ (f.L - i % f.L - 1)) := by
        rw [← pow_succ', ← pow_add]; congr 1; omega
      rw [this]; ring
    rw [e, e2, Int.add_mul_ediv_left _ _ (by positivity), Int.add_mul_emod_self_left]
  · intro hi
    have hq : f.k ≤ i / f.L := (Nat.le_div_iff_mul_le hLpos).mpr (by rw [mul_comm]; exact hi)
    have hget : a'[i / f.L]? = none := List.getElem?_eq_none (by omega)
    exact ⟨.index, by
      simp only [FieldCode.bit, h1, FieldCode.bitNormalized, limbBits_eq, hget, bind, Except.bind]⟩

/-- Bits from `nbits()` on are `false`; `nbits()` is the bit length of `p`. -/
theorem C20_high_bits (v : Int) {i : Nat} (hi : f.n ≤ i) : (v % f.p) / 2 ^ i % 2 = 0 := by
  have h0 : 0 ≤ v % f.p := Int.emod_nonneg _ f.p_pos.ne'
  have h1 : v % f.p < f.p := Int.emod_lt_of_pos _ f.p_pos
  rw [Int.ediv_eq_zero_of_lt h0 (h1.trans (f.p_lt.trans_le
    (pow_le_pow_right₀ (by norm_num) hi)))]
  rfl

theorem C20_nbits : f.code.nbits = f.n ∧ 2 ^ (f.n - 1) ≤ f.p ∧ f.p < 2 ^ f.n := by
  refine ⟨codeNbits_eq f, ?_, f.p_lt⟩
  have h1 : (2 : Int) ^ f.n = 2 ^ (f.n - 1) + 2 ^ (f.n - 1) := by
    have : f.n = (f.n - 1) + 1 := by cases f <;> rfl
    conv_lhs => rw [this, pow_succ]
    ring
  have h2 : (256 : Int) < 2 ^ (f.n - 1) := by
    calc (256 : Int) < 2 ^ 199 := by norm_num
      _ ≤ 2 ^ (f.n - 1) := pow_le_pow_right₀ (by norm_num) (by cases f <;> decide)
  have h3 : (f.c : Int) < 256 := by exact_mod_cast f.c_lt
  simp only [p]; linarith

/-! ## C21: masks -/

/-- `filled(b)` (and `fill`) is the all-ones or all-zeros pattern. -/
theorem C21_filled (b : Bool) (a : Elem) (ha : a.length = f.k) :
    f.code.filled b = List.replicate f.k (if b then -1 else 0) ∧
    FieldCode.fill a b = f.code.filled b := by
  simp only [FieldCode.filled, FieldCode.fill, maskWord_eq, limbs_eq, List.map_const', ha, and_self]

/-- Masks select bit for bit. -/
theorem C21_select (b : Bool) {x y : Elem} (hx : f.IsWords x) (hy : f.IsWords y) :
    FieldCode.normalizedBitor (FieldCode.normalizedBitand x (f.code.filled b))
      (FieldCode.normalizedBitand y (f.code.filled (!b))) = if b then x else y := by
  have key : ∀ (k : Nat) (x y : List Int), x.length = k → y.length = k →
      (∀ w ∈ x, -2 ^ 63 ≤ w ∧ w ≤ 2 ^ 63 - 1) → (∀ w ∈ y, -2 ^ 63 ≤ w ∧ w ≤ 2 ^ 63 - 1) →
      List.zipWith or64
        (List.zipWith and64 x (List.replicate k (if b then -1 else 0)))
        (List.zipWith and64 y (List.replicate k (if !b then -1 else 0))) = if b then x else y := by
    intro k
    induction k with
    | zero =>
      intro x y h1 h2 _ _
      rw [List.length_eq_zero_iff.mp h1, List.length_eq_zero_iff.mp h2]
      cases b <;> rfl
    | succ k ih =>
      intro x y h1 h2 h3 h4
      cases x with
      | nil => simp at h1
      | cons u x =>
        cases y with
        | nil => simp at h2
        | cons v y =>
          have hu := h3 u (by simp)
          have hv := h4 v (by simp)
          have iu : inI64 u = true := (Check.inI64_iff u).mpr (by norm_num at hu; exact hu)
          have iv : inI64 v = true := (Check.inI64_iff v).mpr (by norm_num at hv; exact hv)
          have := ih x y (by simpa using h1) (by simpa using h2)
            (fun w hw => h3 w (by simp [hw])) (fun w hw => h4 w (by simp [hw]))
          simp only [List.replicate_succ, List.zipWith_cons_cons, this]
          cases b
          · simp [and64_zero, and64_neg_one iv, zero_or64 iv]
          · simp [and64_zero, and64_neg_one iu, or64_zero iu]
  have hf : ∀ b, f.code.filled b = List.replicate f.k (if b then -1 else 0) :=
    fun b => (C21_filled f b x hx.1).1
  simp only [FieldCode.normalizedBitor, FieldCode.normalizedBitand, hf]
  exact key f.k x y hx.1 hy.1 hx.2 hy.2

/-! ## C22: hex formatting -/

/-- Full statement of C22 (false where C09 is). -/
def C22_statement : Prop := ∀ (f : Fld) (pr : Profile) (upper : Bool) (a : Elem), f.Tight a →
  ∃ s, f.code.fmtHex pr upper a = .ok s ∧ s.length = 2 * f.nbytes ∧
    hexRead upper s = some (f.V a % f.p).toNat

set_option maxRecDepth 100000 in
theorem C22_statement_false : ¬ C22_statement := by
  intro h
  obtain ⟨s, h1, -, h2⟩ := h .e255_19 .debug false _ badElem_tight
  have h3 : (match Fld.e255_19.code.fmtHex .debug false badElem with
    | .ok s => decide (hexRead false s =
        some (Fld.e255_19.V badElem % Fld.e255_19.p).toNat)
    | .error _ => true) = false := by decide +kernel
  rw [h1] at h3
  exact of_decide_eq_false h3 h2

/-- `{:x}` and `{:X}` print `2 · nbytes` hex digits of the canonical integer. (The element
itself is a clone, so it is not modified.) -/
theorem C22_hex_partial (upper : Bool) {a : Elem} (ha : f.Rep a) (va : f.Foldable (f.V a)) :
    ∃ s, f.code.fmtHex pr upper a = .ok s ∧ s.length = 2 * f.nbytes ∧
      hexRead upper s = some (f.V a % f.p).toNat := by
  obtain ⟨a', out, h1, -, h2, h3, h4⟩ := C11_packed_partial f pr ha va
  refine ⟨(out.reverse.map (FieldCode.hexByte upper)).flatten, ?_, ?_, ?_⟩
  · simp only [FieldCode.fmtHex, h1, bind, Except.bind, pure, Except.pure]
  · have : ∀ (l : List Int), ((l.map (FieldCode.hexByte upper)).flatten).length = 2 * l.length := by
      intro l
      induction l with
      | nil => rfl
      | cons b l ih =>
        rw [List.map_cons, List.flatten_cons, List.length_append, ih, List.length_cons]
        simp [FieldCode.hexByte]; omega
    rw [this, List.length_reverse, h2]
  · have := hexRead_bytes upper out h3 0 []
    rw [List.append_nil, mul_zero, zero_add, h4] at this
    exact this

/-! ## C24: random elements -/

/-- What a call `gen_range(0, hi)` may answer. -/
def IsRng (rng : Nat → Int → Int) : Prop := ∀ i hi, 0 < hi → 0 ≤ rng i hi ∧ rng i hi < hi

/-- `rand()` returns exactly the elements all of whose words are below the corresponding
words of the modulus. -/
theorem C24_rand_range (a : Elem) : (∃ rng, IsRng rng ∧ f.code.rand rng = a) ↔
    List.Forall₂ (fun x m => 0 ≤ x ∧ x < m) a f.code.MODULUS := by
  have hlen : f.code.MODULUS.length = f.k := (modulus_shape f).length
  have hpos : ∀ m ∈ f.code.MODULUS, 0 < m := by cases f <;> decide
  rw [List.forall₂_iff_get]
  constructor
  · rintro ⟨rng, h, rfl⟩
    refine ⟨by simp [FieldCode.rand, limbs_eq, hlen], fun i h1 h2 => ?_⟩
    simp only [FieldCode.rand, List.get_eq_getElem, List.getElem_map, List.getElem_range]
    rw [List.getD_eq_getElem?_getD, List.getElem?_eq_getElem h2, Option.getD_some]
    exact h i _ (hpos _ (List.getElem_mem h2))
  · rintro ⟨h1, h2⟩
    refine ⟨fun i hi => if 0 ≤ a.getD i 0 ∧ a.getD i 0 < hi then a.getD i 0 else 0, ?_, ?_⟩
    · intro i hi h
      dsimp only
      split
      · assumption
      · exact ⟨le_refl _, h⟩
    · refine List.ext_getElem (by simp [FieldCode.rand, limbs_eq, h1, hlen]) fun i h3 h4 => ?_
      have h5 : i < f.code.MODULUS.length := h1 ▸ h4
      simp only [FieldCode.rand, List.getElem_map, List.getElem_range]
      simp only [List.getD_eq_getElem?_getD, List.getElem?_eq_getElem h4,
        List.getElem?_eq_getElem h5, Option.getD_some]
      exact if_pos (h2 i h4 h5)

/-- Every element returned by `rand()` is canonical. -/
theorem C24_rand_canonical {rng : Nat → Int → Int} (h : IsRng rng) :
    f.Canon (f.V (f.code.rand rng)) (f.code.rand rng) := by
  have h1 := (C24_rand_range f _).mp ⟨rng, h, rfl⟩
  generalize f.code.rand rng = a at h1
  have hlt : ∀ (a m : List Int), List.Forall₂ (fun x m => 0 ≤ x ∧ x < m) a m →
      digitsVal f.L a ≤ digitsVal f.L m := by
    intro a m h
    induction h with
    | nil => exact le_refl _
    | cons h _ ih =>
      simp only [digitsVal]
      have : (0 : Int) ≤ 2 ^ f.L := by positivity
      nlinarith
  obtain ⟨mlow, mtop, hm, hml, hmd, hm0, hm1⟩ := modulus_shape f
  have hV := modulus_V f
  rw [hm] at h1 hV
  have h2 := List.forall₂_take_append _ _ _ h1
  have h3 := List.forall₂_drop_append _ _ _ h1
  obtain ⟨top, ht, h4⟩ : ∃ top, a.drop mlow.length = [top] ∧ 0 ≤ top ∧ top < mtop := by
    obtain ⟨top, u, h5, h6, h7⟩ := List.forall₂_cons_right_iff.mp h3
    exact ⟨top, by rw [h7, List.forall₂_nil_right_iff.mp h6], h5⟩
  have ha : a = a.take mlow.length ++ [top] := by rw [← ht, List.take_append_drop]
  have hshape : f.Shape 0 (2 ^ f.tb - 1) a := by
    refine ⟨_, top, ha, by rw [h2.length_eq, hml], fun x hx => ?_, h4.1, by linarith⟩
    obtain ⟨i, hi, rfl⟩ := List.getElem_of_mem hx
    have h5 := (List.forall₂_iff_get.mp h2).2 i hi (h2.length_eq ▸ hi)
    have h6 := hmd _ (List.getElem_mem (h2.length_eq ▸ hi))
    simp only [List.get_eq_getElem] at h5
    exact ⟨h5.1, h5.2.trans h6.2⟩
  have h0 := (word_V hshape).1
  refine ⟨hshape, rfl, h0, ?_⟩
  have h5 := hlt _ _ h2
  rw [← hV, ha, V, V, digitsVal_append, digitsVal_append, h2.length_eq]
  simp only [digitsVal, mul_zero, add_zero]
  have : (0 : Int) < 2 ^ (f.L * mlow.length) := by positivity
  nlinarith [h4.2]

/-- The coverage half of C24 is false: `m_one()`, a canonical element, is never returned. -/
theorem C24_rand_never_m_one {rng : Nat → Int → Int} (h : IsRng rng) :
    f.code.rand rng ≠ f.code.M_ONE := by
  intro e
  have h1 := (C24_rand_range f _).mp ⟨rng, h, e⟩
  rw [List.forall₂_iff_get] at h1
  have l1 : 1 < f.code.M_ONE.length := by clear h1 e; cases f <;> decide
  have l2 : 1 < f.code.MODULUS.length := by clear h1 e; cases f <;> decide
  have h2 := h1.2 1 l1 l2
  have h3 : f.code.M_ONE[1]? = f.code.MODULUS[1]? := by clear h1 e h2; cases f <;> rfl
  rw [List.getElem?_eq_getElem l1, List.getElem?_eq_getElem l2, Option.some.injEq] at h3
  simp only [List.get_eq_getElem, h3] at h2
  exact lt_irrefl _ h2.2

/-- Full statement of the coverage half of C24 (false). -/
def C24_statement : Prop := ∀ (f : Fld) (x : Int) (a : Elem), f.Canon x a →
  ∃ rng, IsRng rng ∧ f.code.rand rng = a

theorem C24_statement_false : ¬ C24_statement := by
  intro h
  obtain ⟨rng, h1, h2⟩ := h .e255_19 _ _ (m_one_canon _)
  exact C24_rand_never_m_one _ h1 h2

/-- A generator always answering `7` or the largest allowed number is admissible. -/
example : IsRng fun _ hi => if 7 < hi then 7 else hi - 1 := by
  intro i hi h
  dsimp only
  split <;> omega

/-! ## C37: AND/OR helpers -/

/-- Full statement of C37 for `normalize_bitand` (false where C09 is). -/
def C37_statement : Prop := ∀ (f : Fld) (pr : Profile) (a b : Elem), f.Tight a → f.Tight b →
  ∃ r b', f.code.normalizeBitand pr a b = .ok (r, b') ∧
    f.V r = (((f.V a % f.p).toNat &&& (f.V b % f.p).toNat : Nat) : Int)

set_option maxRecDepth 100000 in
theorem C37_statement_false : ¬ C37_statement := by
  intro h
  obtain ⟨r, b', h1, h2⟩ := h .e255_19 .debug _ _ badElem_tight (one_canon _).tight
  have h3 : (match Fld.e255_19.code.normalizeBitand .debug badElem Fld.e255_19.code.ONE with
    | .ok (r, _) => decide (Fld.e255_19.V r =
        (((Fld.e255_19.V badElem % Fld.e255_19.p).toNat &&&
          (Fld.e255_19.V Fld.e255_19.code.ONE % Fld.e255_19.p).toNat : Nat) : Int))
    | .error _ => true) = false := by decide +kernel
  rw [h1] at h3
  exact of_decide_eq_false h3 h2

/-- `normalize_bitand` and `normalize_bitor` act on the canonical integers and leave the
right operand normalized. -/
theorem C37_normalize_bitand_bitor_partial {a b : Elem} (ha : f.Rep a) (hb : f.Rep b)
    (va : f.Foldable (f.V a)) (vb : f.Foldable (f.V b)) :
    ∃ r s b', f.code.normalizeBitand pr a b = .ok (r, b') ∧
      f.code.normalizeBitor pr a b = .ok (s, b') ∧ f.Canon (f.V b % f.p) b' ∧
      f.V r = (((f.V a % f.p).toNat &&& (f.V b % f.p).toNat : Nat) : Int) ∧
      f.V s = (((f.V a % f.p).toNat ||| (f.V b % f.p).toNat : Nat) : Int) := by
  obtain ⟨a', h1, -, h2⟩ := C09_normalize_correct_iff f pr ha
  obtain ⟨b', h3, -, h4⟩ := C09_normalize_correct_iff f pr hb
  have ca := h2.mpr va
  have cb := h4.mpr vb
  have digits : ∀ {x : Int} {c : Elem}, f.Canon x c → ∀ w ∈ c, 0 ≤ w ∧ w < 2 ^ f.L := by
    intro x c hc w hw
    obtain ⟨low, top, rfl, hl, hd, h5, h6⟩ := hc.1
    have hp : (2 : Int) ^ f.tb ≤ 2 ^ f.L :=
      pow_le_pow_right₀ (by norm_num) (by cases f <;> decide)
    rcases List.mem_append.mp hw with hw | hw
    · exact hd w hw
    · simp only [List.mem_singleton] at hw
      subst hw; exact ⟨h5, by linarith⟩
  have hbits := digitsVal_bits f.L (by cases f <;> decide) a' b'
    (by rw [ca.1.length, cb.1.length]) (digits ca) (digits cb)
  have ea : digitsVal f.L a' = f.V a % f.p := ca.2.1
  have eb : digitsVal f.L b' = f.V b % f.p := cb.2.1
  rw [ea, eb] at hbits
  refine ⟨FieldCode.normalizedBitand a' b', FieldCode.normalizedBitor a' b', b', ?_, ?_, cb,
    hbits.1, hbits.2⟩
  · simp only [FieldCode.normalizeBitand, FieldCode.normalizeSelfBitand, h1, h3, bind, Except.bind,
      pure, Except.pure]
  · simp only [FieldCode.normalizeBitor, FieldCode.normalizeSelfBitor, h1, h3, bind, Except.bind,
      pure, Except.pure]

/-- Exactly when AND, OR and the normalized right operand are all as they should be: when
the carries of both operands fold to non-negative numbers.  There is no panic otherwise. -/
theorem C37_correct_iff {a b : Elem} (ha : f.Rep a) (hb : f.Rep b) :
    ∃ r s b', f.code.normalizeBitand pr a b = .ok (r, b') ∧
      f.code.normalizeBitor pr a b = .ok (s, b') ∧ f.Tight b' ∧
      ((f.Canon (f.V b % f.p) b' ∧
        f.V r = (((f.V a % f.p).toNat &&& (f.V b % f.p).toNat : Nat) : Int) ∧
        f.V s = (((f.V a % f.p).toNat ||| (f.V b % f.p).toNat : Nat) : Int)) ↔
      (f.Foldable (f.V a) ∧ f.Foldable (f.V b))) := by
  obtain ⟨a', h1, ta, h2⟩ := C09_normalize_correct_iff f pr ha
  obtain ⟨b', h3, tb, h4⟩ := C09_normalize_correct_iff f pr hb
  have k1 : f.code.normalizeBitand pr a b = .ok (FieldCode.normalizedBitand a' b', b') := by
    simp only [FieldCode.normalizeBitand, FieldCode.normalizeSelfBitand, h1, h3, bind, Except.bind,
      pure, Except.pure]
  have k2 : f.code.normalizeBitor pr a b = .ok (FieldCode.normalizedBitor a' b', b') := by
    simp only [FieldCode.normalizeBitor, FieldCode.normalizeSelfBitor, h1, h3, bind, Except.bind,
      pure, Except.pure]
  have words : ∀ {c : Elem}, f.Tight c → ∀ w ∈ c, inI64 w = true := by
    intro c hc w hw
    obtain ⟨low, top, rfl, hl, hd, h5, h6⟩ := hc
    have hL : (2 : Int) ^ f.L ≤ 2 ^ 62 :=
      pow_le_pow_right₀ (by norm_num) (by cases f <;> decide)
    have hp : (2 : Int) ^ (f.tb + 1) ≤ 2 ^ 62 :=
      pow_le_pow_right₀ (by norm_num) (by cases f <;> decide)
    have hp' : (2 : Int) ^ f.tb ≤ 2 ^ 62 :=
      pow_le_pow_right₀ (by norm_num) (by cases f <;> decide)
    have hc := f.c_lt
    norm_num at hL hp hp'
    rw [Check.inI64_iff]
    rcases List.mem_append.mp hw with hw | hw
    · have := hd w hw
      constructor <;> linarith
    · simp only [List.mem_singleton] at hw
      subst hw
      constructor <;> linarith
  refine ⟨_, _, b', k1, k2, tb, ?_, ?_⟩
  · rintro ⟨cb, hr, hs⟩
    refine ⟨?_, h4.1 cb⟩
    have hsum : f.V (FieldCode.normalizedBitand a' b') + f.V (FieldCode.normalizedBitor a' b') =
        f.V a' + f.V b' :=
      digitsVal_and_add_or f.L a' b' (by rw [ta.length, tb.length]) (words ta) (words tb)
    have hnat := land_add_lor (f.V a % f.p).toNat (f.V b % f.p).toNat
    have na : 0 ≤ f.V a % f.p := Int.emod_nonneg _ f.p_pos.ne'
    have nb : 0 ≤ f.V b % f.p := Int.emod_nonneg _ f.p_pos.ne'
    have hVa : 0 ≤ f.V a' := by
      rw [hr, hs, cb.2.1] at hsum
      omega
    obtain ⟨r, q1, q2, q3, q4, q5⟩ := normalize_exact pr ha
    rw [h1] at q1; cases q1
    by_contra hneg
    have hneg : f.fold (f.V a) < 0 := not_le.mp hneg
    have := f.p_pos
    rcases lt_or_ge (f.fold (f.V a) + f.c) 0 with h | h
    · have hc : (0 : Int) ≤ f.c := by positivity
      have := q3 h
      linarith
    · have := q4 h (by linarith)
      linarith
  · rintro ⟨va, vb⟩
    obtain ⟨r, s, b'', e1, e2, e3, e4, e5⟩ := C37_normalize_bitand_bitor_partial f pr ha hb va vb
    rw [k1] at e1; rw [k2] at e2
    cases e1; cases e2
    exact ⟨e3, e4, e5⟩

/-- The `self` versions normalize only the left operand and combine with the right one
word by word; the normalized operand is canonical exactly under the condition of C09. -/
theorem C37_normalize_self {a : Elem} (b : Elem) (ha : f.Rep a) :
    ∃ a', f.code.normalize pr a = .ok a' ∧
      (f.Canon (f.V a % f.p) a' ↔ f.Foldable (f.V a)) ∧
      f.code.normalizeSelfBitand pr a b = .ok (List.zipWith and64 a' b) ∧
      f.code.normalizeSelfBitor pr a b = .ok (List.zipWith or64 a' b) := by
  obtain ⟨a', h1, -, h2⟩ := C09_normalize_correct_iff f pr ha
  refine ⟨a', h1, h2, ?_, ?_⟩
  · simp only [FieldCode.normalizeSelfBitand, h1, bind, Except.bind, pure, Except.pure,
      FieldCode.normalizedBitand]
  · simp only [FieldCode.normalizeSelfBitor, h1, bind, Except.bind, pure, Except.pure,
      FieldCode.normalizedBitor]

/-- Both sides of the condition occur: `5 + p` satisfies it, `badElem` does not. -/
example : Fld.e255_19.Foldable
      (Fld.e255_19.V [2 ^ 56 - 14, 2 ^ 56 - 1, 2 ^ 56 - 1, 2 ^ 56 - 1, 2 ^ 31 - 1]) ∧
    Fld.e255_19.Rep badElem ∧ ¬ Fld.e255_19.Foldable (Fld.e255_19.V badElem) :=
  ⟨by unfold Foldable; decide +kernel, badElem_tight.rep, by unfold Foldable; decide +kernel⟩

/-! ## C38: debug formatting -/

/-- `{:?}` prints the type name and the words between brackets, separated by commas; each
word is its 64-bit two's complement pattern in hex without leading zeros. -/
theorem C38_debug (a : Elem) :
    FieldCode.fmtDebug f.code a =
      (f.code.typeName ++ ": [ ").toList ++
        (List.intersperse ", ".toList (a.map FieldCode.hexI64)).flatten ++ " ]".toList ∧
    ∀ w, hexRead false (FieldCode.hexI64 w) = some (w % 2 ^ 64).toNat ∧
      (FieldCode.hexI64 w).length ≤ 16 ∧
      ((FieldCode.hexI64 w).head? = some '0' → w % 2 ^ 64 = 0) := by
  constructor
  · cases a with
    | nil => simp [FieldCode.fmtDebug]
    | cons w ws =>
      have : ∀ (ws : List Int) (w : Int),
          (List.intersperse ", ".toList ((w :: ws).map FieldCode.hexI64)).flatten =
          FieldCode.hexI64 w ++ (ws.map fun x => ", ".toList ++ FieldCode.hexI64 x).flatten := by
        intro ws
        induction ws with
        | nil => intro w; simp
        | cons v ws ih =>
          intro w
          have := ih v
          simp only [List.map_cons] at *
          rw [List.intersperse_cons_cons, List.flatten_cons, List.flatten_cons, this]
          simp
      rw [this]
      simp [FieldCode.fmtDebug]
  · intro w
    have hlt := toU64_lt w
    obtain ⟨h1, h2, h3⟩ := hexNat_read 15 (toU64 w) (by
      have : (2 : Nat) ^ 64 = 16 ^ (15 + 1) := by norm_num
      omega)
    have e : (toU64 w : Nat) = (w % 2 ^ 64).toNat := by simp only [toU64]; norm_num
    refine ⟨by rw [← e]; exact h1, h2, fun h => ?_⟩
    have := h3 h
    simp only [toU64] at this
    norm_num; omega

end Verif

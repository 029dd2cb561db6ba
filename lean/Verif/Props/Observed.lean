import Verif.Props.Canon

/-!
# C09–C11, C13, C14, C20, C22: what is observed of an element in any representation

The theorems of `Verif.Props.Canon` say that the observations are right for the elements that
`normalize` handles (`Foldable`).  Here: what they return for all others, from which they are
right for no others (with two exceptions, which are stated exactly).
-/

namespace Verif
open Fld

variable (f : Fld) (pr : Profile)

/-- The integer of the words that `normalize` leaves behind. -/
def Fld.normVal (v : Int) : Int :=
  let w := v % 2 ^ f.n + f.c * (v / 2 ^ f.n)
  if 0 ≤ w then v % f.p else if 0 ≤ w + f.c then w else w - 2 * f.c

/-- Exact effect of `normalize` on every representation. -/
theorem C09_normalize_value {a : Elem} (ha : f.Rep a) :
    ∃ r, f.code.normalize pr a = .ok r ∧ f.Tight r ∧ f.V r = f.normVal (f.V a) := by
  obtain ⟨r, h1, h2, h3⟩ := C09_normalize_correct_iff f pr ha
  obtain ⟨r', h1', -, h4, h5, -⟩ := normalize_exact pr ha
  rw [h1] at h1'
  cases h1'
  refine ⟨r, h1, h2, ?_⟩
  have e : f.V a % 2 ^ f.n + f.c * (f.V a / 2 ^ f.n) = f.fold (f.V a) := rfl
  by_cases hf : f.Foldable (f.V a)
  · have := (h3.mpr hf).2.1
    simp only [Foldable] at hf
    simp only [normVal, if_pos hf, this]
  · have hn := hf
    simp only [Foldable, e, not_le] at hf
    have hp := f.p_pos
    simp only [normVal, e, if_neg (not_le.mpr hf)]
    split
    · next h => exact h5 h (by linarith)
    · next h => exact h4 (by linarith)

/-- Values that `normalize` does not handle stay negative, and close to zero. -/
theorem normVal_bounds {a : Elem} (ha : f.Rep a) (hf : ¬ f.Foldable (f.V a)) :
    f.normVal (f.V a) < 0 ∧ -f.p < f.fold (f.V a) ∧ -2 ^ f.n < f.normVal (f.V a) ∧
    f.fold (f.V a) < 0 := by
  have e : f.V a % 2 ^ f.n + f.c * (f.V a / 2 ^ f.n) = f.fold (f.V a) := rfl
  have hlo := Shape.lo_le ha
  have hq : -2 ^ 63 ≤ f.V a / 2 ^ f.n := by
    rw [Int.le_ediv_iff_mul_le (by positivity)]
    have : (2 : Int) ^ (f.L * (f.k - 1)) ≤ 2 ^ f.n := by
      exact pow_le_pow_right₀ (by norm_num) (by cases f <;> decide)
    nlinarith
  have hm : 0 ≤ f.V a % 2 ^ f.n := Int.emod_nonneg _ (by positivity)
  have hc0 : (0 : Int) ≤ f.c := by positivity
  have hc : (f.c : Int) < 256 := by exact_mod_cast f.c_lt
  have h2 : (2 : Int) ^ 199 ≤ 2 ^ f.n :=
    pow_le_pow_right₀ (by norm_num) (by cases f <;> decide)
  have hw : -2 ^ 71 ≤ f.fold (f.V a) := by rw [← e]; nlinarith
  have hp : f.p = 2 ^ f.n - f.c := rfl
  simp only [Foldable, e, not_le] at hf
  norm_num at h2 hw
  refine ⟨?_, by linarith, ?_, hf⟩
  · simp only [normVal, e, if_neg (not_le.mpr hf)]
    split <;> linarith
  · simp only [normVal, e, if_neg (not_le.mpr hf)]
    split <;> linarith

/-- The low `n` bits of what `normalize` leaves are those of the canonical integer for no other
values. -/
theorem normVal_low {a : Elem} (ha : f.Rep a) :
    f.normVal (f.V a) % 2 ^ f.n = f.V a % f.p ↔ f.Foldable (f.V a) := by
  have hp := f.p_pos
  have hpn := f.p_lt
  by_cases hf : f.Foldable (f.V a)
  · have h0 := Int.emod_nonneg (f.V a) hp.ne'
    have h1 := Int.emod_lt_of_pos (f.V a) hp
    have e : f.normVal (f.V a) = f.V a % f.p := if_pos hf
    rw [e, Int.emod_eq_of_lt h0 (h1.trans hpn)]
    exact iff_of_true rfl hf
  · obtain ⟨h1, h2, h3, h4⟩ := normVal_bounds f ha hf
    have hv : f.V a % f.p = f.fold (f.V a) + f.p := by
      have : f.V a % f.p = (f.fold (f.V a) + f.p) % f.p := by
        rw [Int.add_emod_right]; exact (fold_modEq f (f.V a)).symm
      rw [this, Int.emod_eq_of_lt (by linarith) (by linarith)]
    have hw : f.normVal (f.V a) % 2 ^ f.n = f.normVal (f.V a) + 2 ^ f.n := by
      have : f.normVal (f.V a) % 2 ^ f.n = (f.normVal (f.V a) + 2 ^ f.n) % 2 ^ f.n := by
        rw [Int.add_emod_right]
      rw [this, Int.emod_eq_of_lt (by linarith) (by linarith)]
    have hc : (0 : Int) < f.c := by cases f <;> decide
    refine iff_of_false ?_ hf
    rw [hv, hw]
    have e : f.V a % 2 ^ f.n + f.c * (f.V a / 2 ^ f.n) = f.fold (f.V a) := rfl
    have hp : f.p = 2 ^ f.n - f.c := rfl
    simp only [normVal, e, if_neg (not_le.mpr h4), hp]
    intro h
    split at h <;> linarith

/-! ## C10: equality -/

/-- `normalize_eq` compares what `normalize` makes of the two values. -/
theorem C10_normalize_eq_exact {a b : Elem} (ha : f.Rep a) (hb : f.Rep b) :
    ∃ a' b' r, f.code.normalizeEq pr a b = .ok (a', b', r) ∧
      (r = true ↔ f.normVal (f.V a) = f.normVal (f.V b)) := by
  obtain ⟨a', h1, h2, h3⟩ := C09_normalize_value f pr ha
  obtain ⟨b', h4, h5, h6⟩ := C09_normalize_value f pr hb
  refine ⟨a', b', (List.zipWith (fun x y => decide (x = y)) a' b').all id, ?_, ?_⟩
  · simp only [FieldCode.normalizeEq, FieldCode.normalizeSelfEq, h1, h4, bind, Except.bind, pure,
      Except.pure]
  · have hz : ∀ (x y : List Int), x.length = y.length →
        ((List.zipWith (fun x y => decide (x = y)) x y).all id = true ↔ x = y) := by
      intro x
      induction x with
      | nil => intro y h; cases y with
        | nil => simp
        | cons => simp at h
      | cons u x ih =>
        intro y h
        cases y with
        | nil => simp at h
        | cons v y =>
          simp only [List.zipWith_cons_cons, List.all_cons, id, Bool.and_eq_true,
            decide_eq_true_eq, List.cons.injEq, ih y (by simpa using h)]
    rw [hz a' b' (by rw [Shape.length h2, Shape.length h5]), ← h3, ← h6]
    exact ⟨fun h => by rw [h], fun h => Shape.ext h2 h5 h⟩

/-- An element that `normalize` handles is never taken for one that it does not handle. -/
theorem C10_false_negative {a b : Elem} (ha : f.Rep a) (hb : f.Rep b)
    (va : f.Foldable (f.V a)) (vb : ¬ f.Foldable (f.V b)) :
    ∃ a' b', f.code.normalizeEq pr a b = .ok (a', b', false) := by
  obtain ⟨a', b', r, h1, h2⟩ := C10_normalize_eq_exact f pr ha hb
  have h3 := (normVal_bounds f hb vb).1
  have h4 : f.normVal (f.V a) = f.V a % f.p := if_pos va
  have h5 := Int.emod_nonneg (f.V a) f.p_pos.ne'
  cases r with
  | false => exact ⟨a', b', h1⟩
  | true => have := h2.mp rfl; omega

/-! ## C11, C13, C14: packing -/

/-- `pack` of any representation writes `nbytes` bytes, namely those of the low bits of the
normalized words (384 bits in `Mod_e383_187`, `n` bits elsewhere), and does not touch the bytes
behind them. -/
theorem C14_pack_tail {a : Elem} {bytes : List Int} (ha : f.Rep a) (hb : IsBytes bytes)
    (hl : f.nbytes ≤ bytes.length) :
    ∃ a' out, f.code.pack pr a bytes = .ok (a', out ++ bytes.drop f.nbytes) ∧
      f.code.normalize pr a = .ok a' ∧ out.length = f.nbytes ∧ IsBytes out ∧
      leVal out = f.normVal (f.V a) % 2 ^ (match f with | .e383_187 => 384 | _ => f.n) := by
  obtain ⟨a', h1, h2, h3⟩ := C09_normalize_value f pr ha
  obtain ⟨out, h4, h5, h6, h7⟩ := packNormalized_all pr (Tight.rep h2) hb hl
  refine ⟨a', out, ?_, h1, h5, h6, ?_⟩
  · simp only [FieldCode.pack, h1, h4, bind, Except.bind, pure, Except.pure]
  · rw [h7, h3]; cases f <;> rfl

/-- The same for `packed`. -/
theorem packed_value {a : Elem} (ha : f.Rep a) :
    ∃ a' out, f.code.packed pr a = .ok (a', out) ∧ f.code.normalize pr a = .ok a' ∧
      out.length = f.nbytes ∧ IsBytes out ∧ leVal out = f.normVal (f.V a) % 2 ^ f.ubits := by
  obtain ⟨a', out, h1, h2, h3, h4, h5⟩ := C14_pack_tail f pr
    (bytes := List.replicate f.nbytes 0) ha
    (fun b hb => by rw [List.eq_of_mem_replicate hb]; norm_num) (by simp)
  refine ⟨a', out, ?_, h2, h3, h4, ?_⟩
  · simp only [FieldCode.packed, codeNbytes_eq, h1]
    simp
  · rw [h5]; cases f <;> rfl

theorem normVal_ubits {a : Elem} (ha : f.Rep a) :
    f.normVal (f.V a) % 2 ^ f.ubits = f.V a % f.p ↔ f.Foldable (f.V a) := by
  have hu : f.n ≤ f.ubits := by cases f <;> decide
  have h0 := Int.emod_nonneg (f.V a) f.p_pos.ne'
  have h1 := Int.emod_lt_of_pos (f.V a) f.p_pos
  have h2 := f.p_lt
  constructor
  · intro h
    refine (normVal_low f ha).mp ?_
    rw [← Int.emod_emod_of_dvd (f.normVal (f.V a)) (pow_dvd_pow 2 hu), h,
      Int.emod_eq_of_lt h0 (h1.trans h2)]
  · intro h
    have e : f.normVal (f.V a) = f.V a % f.p := if_pos h
    rw [e, Int.emod_eq_of_lt h0 ((h1.trans h2).trans_le (pow_le_pow_right₀ (by norm_num) hu))]

/-- `packed` returns the bytes of the canonical integer for exactly the elements that `normalize`
handles. -/
theorem C11_packed_correct_iff {a : Elem} (ha : f.Rep a) :
    ∃ a' out, f.code.packed pr a = .ok (a', out) ∧ out.length = f.nbytes ∧ IsBytes out ∧
      (leVal out = f.V a % f.p ↔ f.Foldable (f.V a)) := by
  obtain ⟨a', out, h1, -, h2, h3, h4⟩ := packed_value f pr ha
  exact ⟨a', out, h1, h2, h3, by rw [h4]; exact normVal_ubits f ha⟩

/-- Unpacking the packed bytes gives the residue back for exactly the elements that `normalize`
handles, and by accident for some others in `Mod_e383_187`, where bit 383 makes up for the
error. -/
theorem C13_unpack_packed_iff {a : Elem} (ha : f.Rep a) :
    ∃ a' out r, f.code.packed pr a = .ok (a', out) ∧ f.code.unpacked pr out = .ok r ∧
      (f.Denotes r (f.V a) ↔ f.Foldable (f.V a) ∨
        f = .e383_187 ∧ f.V a % 2 ^ f.n + f.c * (f.V a / 2 ^ f.n) < -f.c) := by
  obtain ⟨a', out, h1, -, h2, h3, h4⟩ := packed_value f pr ha
  have ht : out.take f.nbytes = out := by rw [← h2]; exact List.take_length
  obtain ⟨r, h5, -, h6⟩ := unpack_exact pr (Rep.isWords (Tight.rep (zero_canon f).tight)) h3 h2.ge
  rw [ht, h4, Int.emod_emod_of_dvd _ dvd_rfl] at h6
  refine ⟨a', out, r, h1, h5, ?_⟩
  have hp := f.p_pos
  by_cases hf : f.Foldable (f.V a)
  · refine iff_of_true ?_ (Or.inl hf)
    rw [(normVal_ubits f ha).mpr hf] at h6
    rw [Denotes, h6]
    exact Int.mod_modEq _ _
  · obtain ⟨b1, b2, b3, b4⟩ := normVal_bounds f ha hf
    have e : f.V a % 2 ^ f.n + f.c * (f.V a / 2 ^ f.n) = f.fold (f.V a) := rfl
    have hu : (2 : Int) ^ f.n ≤ 2 ^ f.ubits :=
      pow_le_pow_right₀ (by norm_num) (by cases f <;> decide)
    have hw : f.V r = f.normVal (f.V a) + 2 ^ f.ubits := by
      rw [h6, ← Int.add_emod_right, Int.emod_eq_of_lt (by linarith) (by linarith)]
    have hpe : f.p = 2 ^ f.n - f.c := rfl
    have hc : (0 : Int) < f.c := by cases f <;> decide
    have hcl : (f.c : Int) < 256 := by exact_mod_cast f.c_lt
    have hbig : (1000 : Int) < f.p := by
      have h2 : (2 : Int) ^ 199 ≤ 2 ^ f.n :=
        pow_le_pow_right₀ (by norm_num) (by cases f <;> decide)
      rw [hpe]; norm_num at h2; linarith
    simp only [hf, false_or, e]
    rw [show f.Denotes r (f.V a) ↔ f.V a ≡ f.V r [ZMOD f.p] from ⟨Int.ModEq.symm, Int.ModEq.symm⟩,
      Int.modEq_iff_dvd]
    have hd : f.p ∣ f.V a - f.fold (f.V a) := by
      rw [fold_eq]; exact ⟨f.V a / 2 ^ f.n, by ring⟩
    have hiff : (f.p ∣ f.V r - f.V a) ↔ f.p ∣ f.V r - f.fold (f.V a) := by
      rw [show f.V r - f.fold (f.V a) = (f.V r - f.V a) + (f.V a - f.fold (f.V a)) by ring]
      exact (dvd_add_left hd).symm
    rw [hiff]
    have small : ∀ {x : Int}, 0 < x → x < f.p → ¬ f.p ∣ x :=
      fun h0 h1 h => absurd (Int.le_of_dvd h0 h) (not_le.mpr h1)
    have hval : f.normVal (f.V a) = if 0 ≤ f.fold (f.V a) + f.c then f.fold (f.V a)
        else f.fold (f.V a) - 2 * f.c := by
      simp only [normVal, e, if_neg (not_le.mpr b4)]
    rw [hw, hval]
    by_cases h3 : f = .e383_187
    · have hub : (2 : Int) ^ f.ubits = 2 * f.p + 2 * f.c := by
        rw [hpe, h3]; decide +kernel
      split
      · next h =>
        refine iff_of_false ?_ (fun h' => by linarith [h'.2])
        rw [hub, show f.fold (f.V a) + (2 * f.p + 2 * f.c) - f.fold (f.V a) =
          2 * f.c + f.p * 2 by ring]
        rw [dvd_add_left (Dvd.intro _ rfl)]
        exact small (by linarith) (by linarith)
      · next h =>
        refine iff_of_true ?_ ⟨h3, by linarith⟩
        rw [hub]
        exact ⟨2, by ring⟩
    · have hub : (2 : Int) ^ f.ubits = f.p + f.c := by
        have : f.ubits = f.n := by cases f <;> first | exact absurd rfl h3 | rfl
        rw [hpe, this]; ring
      refine iff_of_false ?_ (fun h' => h3 h'.1)
      split
      · rw [hub, show f.fold (f.V a) + (f.p + f.c) - f.fold (f.V a) = f.c + f.p * 1 by ring,
          dvd_add_left (Dvd.intro _ rfl)]
        exact small hc (by linarith)
      · rw [hub, show f.fold (f.V a) - 2 * f.c + (f.p + f.c) - f.fold (f.V a) =
          -f.c + f.p * 1 by ring, dvd_add_left (Dvd.intro _ rfl), dvd_neg]
        exact small hc (by linarith)

/-! ## C05: squaring -/

set_option maxRecDepth 100000 in
/-- Squaring and multiplying by itself disagree in `Mod_e251_9` on an element made by the public
functions: `u + u + u` for `u = unpacked(2 ^ 251 - 1)`. -/
theorem C05_counterexample : ∃ u v w r s,
    e251_9.code.unpacked pr (maxBytes e251_9) = .ok u ∧ e251_9.code.add pr u u = .ok v ∧
    e251_9.code.add pr v u = .ok w ∧ e251_9.code.squared pr w = .ok r ∧
    e251_9.code.mul pr w w = .ok s ∧ ¬ e251_9.Denotes r (e251_9.V s) := by
  refine ⟨[2 ^ 56 - 1, 2 ^ 56 - 1, 2 ^ 56 - 1, 2 ^ 56 - 1, 2 ^ 27 - 1],
    [2 ^ 56 - 2, 2 ^ 56 - 1, 2 ^ 56 - 1, 2 ^ 56 - 1, 2 ^ 28 - 1], [6, 0, 0, 0, 2 ^ 28],
    [576, 0, 0, 0, 0], [252, 0, 0, 0, 0], ?_, ?_, ?_, ?_, ?_, ?_⟩
  · cases pr <;> decide +kernel
  · cases pr <;> decide +kernel
  · cases pr <;> decide +kernel
  · cases pr <;> decide +kernel
  · cases pr <;> decide +kernel
  · unfold Denotes; decide +kernel

/-! ## C20: bits -/

/-- `bit(i)` of any representation is bit `i` of the normalized words, read as an integer in two's
complement. -/
theorem C20_bit_exact {a : Elem} (ha : f.Rep a) {i : Nat} (hi : i < f.L * f.k) :
    ∃ a', f.code.bit pr a i = .ok (a', decide (f.normVal (f.V a) / 2 ^ i % 2 = 1)) := by
  obtain ⟨a', h1, h2, h3⟩ := C09_normalize_value f pr ha
  have hLpos : 0 < f.L := by cases f <;> decide
  have hlen := Shape.length h2
  have hq : i / f.L < f.k := Nat.div_lt_of_lt_mul hi
  refine ⟨a', ?_⟩
  have hget : a'[i / f.L]? = some (a'[i / f.L]'(by omega)) := List.getElem?_eq_getElem _
  have hpre : ∀ j x, j < i / f.L → a'[j]? = some x → 0 ≤ x ∧ x < 2 ^ f.L := by
    intro j x hj hx
    obtain ⟨low, top, rfl, hl, hd, -, -⟩ := h2
    rw [List.getElem?_append_left (by omega)] at hx
    exact hd x (List.mem_of_getElem? hx)
  obtain ⟨R, hR, -⟩ := digitsVal_get f.L a' _ _ hget hpre
  simp only [FieldCode.bit, h1, FieldCode.bitNormalized, limbBits_eq, hget, bind, Except.bind,
    pure, Except.pure]
  rw [and64_one, shr64]
  suffices e0 : f.normVal (f.V a) / 2 ^ i % 2 = a'[i / f.L] / 2 ^ (i % f.L) % 2 by rw [e0]
  have hV : digitsVal f.L a' = f.normVal (f.V a) := h3
  rw [hV] at hR
  have hm : i % f.L < f.L := Nat.mod_lt _ hLpos
  have e : f.normVal (f.V a) / 2 ^ i =
      (a'[i / f.L]'(by omega) + 2 ^ f.L * R) / 2 ^ (i % f.L) := by
    rw [← hR, Int.ediv_ediv_of_nonneg (by positivity), ← pow_add, Nat.div_add_mod]
  have e2 : (2 : Int) ^ f.L * R = 2 ^ (i % f.L) * (2 * (2 ^ (f.L - i % f.L - 1) * R)) := by
    have : (2 : Int) ^ f.L = 2 ^ (i % f.L) * (2 * 2 ^ (f.L - i % f.L - 1)) := by
      rw [← pow_succ', ← pow_add]; congr 1; omega
    rw [this]; ring
  rw [e, e2, Int.add_mul_ediv_left _ _ (by positivity), Int.add_mul_emod_self_left]

theorem emod_pow_of_bits (x y : Int) : ∀ n : Nat,
    (∀ i < n, x / 2 ^ i % 2 = y / 2 ^ i % 2) → x % 2 ^ n = y % 2 ^ n := by
  have step : ∀ (x : Int) (n : Nat), x % 2 ^ (n + 1) = x % 2 ^ n + 2 ^ n * (x / 2 ^ n % 2) := by
    intro x n
    have h1 := Int.emod_add_mul_ediv x (2 ^ n)
    have h2 := Int.emod_add_mul_ediv (x / 2 ^ n) 2
    have h3 := Int.emod_add_mul_ediv x (2 ^ (n + 1))
    have h4 : x / 2 ^ (n + 1) = x / 2 ^ n / 2 := by
      rw [pow_succ, ← Int.ediv_ediv_of_nonneg (by positivity)]
    rw [h4] at h3
    rw [show (2 : Int) ^ (n + 1) * (x / 2 ^ n / 2) = 2 ^ n * (2 * (x / 2 ^ n / 2)) by ring] at h3
    linear_combination h3 - h1 - 2 ^ n * h2
  intro n
  induction n with
  | zero => intro _; simp
  | succ n ih =>
    intro h
    rw [step, step, ih (fun i hi => h i (by omega)), h n (by omega)]

/-- All of the bits below `nbits()` are right for exactly the elements that `normalize` handles. -/
theorem C20_bits_correct_iff {a : Elem} (ha : f.Rep a) :
    (∀ i < f.n, ∃ a', f.code.bit pr a i = .ok (a', decide ((f.V a % f.p) / 2 ^ i % 2 = 1))) ↔
      f.Foldable (f.V a) := by
  have hnk : f.n ≤ f.L * f.k := by cases f <;> decide
  constructor
  · intro h
    refine (normVal_low f ha).mp ?_
    have h0 := Int.emod_nonneg (f.V a) f.p_pos.ne'
    have h1 := Int.emod_lt_of_pos (f.V a) f.p_pos
    rw [emod_pow_of_bits _ (f.V a % f.p) f.n fun i hi => ?_,
      Int.emod_eq_of_lt h0 (h1.trans f.p_lt)]
    obtain ⟨a', h2⟩ := h i hi
    obtain ⟨a'', h3⟩ := C20_bit_exact f pr ha (hi.trans_le hnk)
    rw [h2] at h3
    have h4 := congrArg Prod.snd (Except.ok.inj h3)
    have h5 := decide_eq_decide.mp h4
    have h6 := Int.emod_two_eq_zero_or_one ((f.V a % f.p) / 2 ^ i)
    have h7 := Int.emod_two_eq_zero_or_one (f.normVal (f.V a) / 2 ^ i)
    omega
  · intro h i hi
    obtain ⟨a', h1, -⟩ := (C20_bit_partial f pr ha h i).1 (hi.trans_le hnk)
    exact ⟨a', h1⟩

/-! ## C22: hex digits -/

/-- The hex digits are those of the canonical integer for exactly the elements that `normalize`
handles. -/
theorem C22_hex_correct_iff (upper : Bool) {a : Elem} (ha : f.Rep a) :
    ∃ s, f.code.fmtHex pr upper a = .ok s ∧ s.length = 2 * f.nbytes ∧
      (hexRead upper s = some (f.V a % f.p).toNat ↔ f.Foldable (f.V a)) := by
  obtain ⟨a', out, h1, h2, h3, h4⟩ := C11_packed_correct_iff f pr ha
  refine ⟨(out.reverse.map (FieldCode.hexByte upper)).flatten, ?_, ?_, ?_⟩
  · simp only [FieldCode.fmtHex, h1, bind, Except.bind, pure, Except.pure]
  · have : ∀ (l : List Int), ((l.map (FieldCode.hexByte upper)).flatten).length = 2 * l.length := by
      intro l
      induction l with
      | nil => rfl
      | cons b l ih =>
        rw [List.map_cons, List.flatten_cons, List.length_append, ih, List.length_cons]
        simp [FieldCode.hexByte]; omega
    rw [this, List.length_reverse, h2]
  · have := hexRead_bytes upper out h3 0 []
    rw [List.append_nil, mul_zero, zero_add] at this
    have this : hexRead upper (out.reverse.map (FieldCode.hexByte upper)).flatten =
      some (leVal out).toNat := this
    rw [this, ← h4, Option.some_inj]
    have h5 := leVal_nonneg h3
    have h6 := Int.emod_nonneg (f.V a) f.p_pos.ne'
    omega

/-- Both sides of the equivalences occur: a negative value that `normalize` handles, and one that
it does not handle. -/
example : Fld.e255_19.Rep [5, 0, 0, 0, -1] ∧ Fld.e255_19.Foldable (Fld.e255_19.V [5, 0, 0, 0, -1]) ∧
    Fld.e255_19.Rep badElem ∧ ¬ Fld.e255_19.Foldable (Fld.e255_19.V badElem) :=
  ⟨⟨[5, 0, 0, 0], _, rfl, by decide⟩, by unfold Foldable; decide +kernel,
    Tight.rep badElem_tight, by unfold Foldable; decide +kernel⟩

/-- The accident in `Mod_e383_187`: the value `-2 ^ 384`. -/
example : Fld.e383_187.Rep [0, 0, 0, 0, 0, 0, -2 ^ 48] ∧
    Fld.e383_187.V [0, 0, 0, 0, 0, 0, -2 ^ 48] = -2 ^ 384 ∧
    Fld.e383_187.V [0, 0, 0, 0, 0, 0, -2 ^ 48] % 2 ^ Fld.e383_187.n + Fld.e383_187.c *
      (Fld.e383_187.V [0, 0, 0, 0, 0, 0, -2 ^ 48] / 2 ^ Fld.e383_187.n) < -Fld.e383_187.c :=
  ⟨⟨[0, 0, 0, 0, 0, 0], _, rfl, by decide⟩, by decide +kernel, by decide +kernel⟩

end Verif

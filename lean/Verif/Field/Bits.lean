import Verif.Field.Consts

/-!
# Bits, masks and characters (helper lemmas)
-/

namespace Verif
open Check

/-- The word at index `i` is the `i`-th digit, up to multiples of `2 ^ L`. -/
theorem digitsVal_get (L : Nat) : ∀ (a : List Int) (i : Nat) (w : Int), a[i]? = some w →
    (∀ j x, j < i → a[j]? = some x → 0 ≤ x ∧ x < 2 ^ L) →
    ∃ R, digitsVal L a / 2 ^ (L * i) = w + 2 ^ L * R ∧ (i + 1 = a.length → R = 0) := by
  intro a
  induction a with
  | nil => intro i w h; simp at h
  | cons x a ih =>
    intro i w h hd
    cases i with
    | zero =>
      simp only [List.getElem?_cons_zero, Option.some.injEq] at h
      subst h
      refine ⟨digitsVal L a, by simp [digitsVal], fun hl => ?_⟩
      have : a = [] := List.length_eq_zero_iff.mp (by simp only [List.length_cons] at hl; omega)
      subst this; rfl
    | succ i =>
      simp only [List.getElem?_cons_succ] at h
      obtain ⟨R, hR, hz⟩ := ih i w h (fun j y hj hy => hd (j + 1) y (by omega) (by simpa using hy))
      have hx := hd 0 x (by omega) (by simp)
      refine ⟨R, ?_, fun hl => hz (by simp at hl; omega)⟩
      rw [← hR, Nat.mul_add, mul_one, Nat.add_comm, pow_add,
        ← Int.ediv_ediv_of_nonneg (by positivity)]
      simp only [digitsVal]
      rw [Int.add_mul_ediv_left _ _ (by positivity), Int.ediv_eq_zero_of_lt hx.1 hx.2, zero_add]

theorem and64_one (x : Int) : and64 x 1 = x % 2 := by
  have := and64_mask x x 0 1 (by norm_num) (by norm_num) (by rfl)
  norm_num at this
  rw [this]; omega

theorem toU64_lt (x : Int) : toU64 x < 2 ^ 64 := by
  simp only [toU64]; omega

theorem ofU64_toU64 {x : Int} (h : inI64 x = true) : ofU64 (toU64 x) = x := by
  rw [inI64_iff] at h
  simp only [ofU64, toU64, wrap64]
  omega

theorem toU64_neg_one : toU64 (-1) = 2 ^ 64 - 1 := by decide +kernel

theorem and64_neg_one {x : Int} (h : inI64 x = true) : and64 x (-1) = x := by
  rw [and64, toU64_neg_one, Nat.and_two_pow_sub_one_of_lt_two_pow (toU64_lt x), ofU64_toU64 h]

theorem and64_zero (x : Int) : and64 x 0 = 0 := by
  have : toU64 0 = 0 := by decide +kernel
  rw [and64, this, Nat.and_zero]; decide +kernel

theorem or64_zero {x : Int} (h : inI64 x = true) : or64 x 0 = x := by
  have : toU64 0 = 0 := by decide +kernel
  rw [or64, this, Nat.or_zero, ofU64_toU64 h]

theorem zero_or64 {x : Int} (h : inI64 x = true) : or64 0 x = x := by
  have : toU64 0 = 0 := by decide +kernel
  rw [or64, this, Nat.zero_or, ofU64_toU64 h]

theorem toU64_natCast {n : Nat} (h : n < 2 ^ 64) : toU64 (n : Int) = n := by
  simp only [toU64]; omega

theorem ofU64_natCast {n : Nat} (h : n < 2 ^ 63) : ofU64 n = (n : Int) := by
  simp only [ofU64, wrap64]; omega

theorem land_add {L a b A B : Nat} (ha : a < 2 ^ L) (hb : b < 2 ^ L) :
    (2 ^ L * A + a) &&& (2 ^ L * B + b) = 2 ^ L * (A &&& B) + (a &&& b) := by
  apply Nat.eq_of_testBit_eq
  intro i
  rw [Nat.testBit_and, Nat.testBit_two_pow_mul_add _ ha, Nat.testBit_two_pow_mul_add _ hb,
    Nat.testBit_two_pow_mul_add _ (Nat.and_lt_two_pow _ hb)]
  split
  · rw [Nat.testBit_and]
  · rw [Nat.testBit_and]

theorem lor_add {L a b A B : Nat} (ha : a < 2 ^ L) (hb : b < 2 ^ L) :
    (2 ^ L * A + a) ||| (2 ^ L * B + b) = 2 ^ L * (A ||| B) + (a ||| b) := by
  apply Nat.eq_of_testBit_eq
  intro i
  rw [Nat.testBit_or, Nat.testBit_two_pow_mul_add _ ha, Nat.testBit_two_pow_mul_add _ hb,
    Nat.testBit_two_pow_mul_add _ (Nat.or_lt_two_pow ha hb)]
  split
  · rw [Nat.testBit_or]
  · rw [Nat.testBit_or]

/-- Wordwise AND is AND of the numbers, wordwise OR is OR of the numbers. -/
theorem digitsVal_bits (L : Nat) (hL : L < 63) : ∀ (a b : List Int), a.length = b.length →
    (∀ x ∈ a, 0 ≤ x ∧ x < 2 ^ L) → (∀ x ∈ b, 0 ≤ x ∧ x < 2 ^ L) →
    digitsVal L (List.zipWith and64 a b) =
      (((digitsVal L a).toNat &&& (digitsVal L b).toNat : Nat) : Int) ∧
    digitsVal L (List.zipWith or64 a b) =
      (((digitsVal L a).toNat ||| (digitsVal L b).toNat : Nat) : Int) := by
  intro a
  induction a with
  | nil => intro b h _ _; cases b <;> simp_all [digitsVal]
  | cons x a ih =>
    intro b h ha hb
    cases b with
    | nil => simp at h
    | cons y b =>
      have ha' : ∀ x ∈ a, 0 ≤ x ∧ x < 2 ^ L := fun z hz => ha z (by simp [hz])
      have hb' : ∀ x ∈ b, 0 ≤ x ∧ x < 2 ^ L := fun z hz => hb z (by simp [hz])
      obtain ⟨i1, i2⟩ := ih b (by simpa using h) ha' hb'
      have hx := ha x (by simp)
      have hy := hb y (by simp)
      obtain ⟨x, rfl⟩ := Int.eq_ofNat_of_zero_le hx.1
      obtain ⟨y, rfl⟩ := Int.eq_ofNat_of_zero_le hy.1
      obtain ⟨A, hA⟩ := Int.eq_ofNat_of_zero_le (digitsVal_nonneg L a ha')
      obtain ⟨B, hB⟩ := Int.eq_ofNat_of_zero_le (digitsVal_nonneg L b hb')
      have hx2 : x < 2 ^ L := by exact_mod_cast hx.2
      have hy2 : y < 2 ^ L := by exact_mod_cast hy.2
      have hp : (2 : Nat) ^ L < 2 ^ 63 := Nat.pow_lt_pow_right (by norm_num) hL
      have hp4 : (2 : Nat) ^ 63 < 2 ^ 64 := by norm_num
      rw [hA, hB] at i1 i2
      have e1 : ((x : Int) + 2 ^ L * (A : Int)).toNat = 2 ^ L * A + x := by
        have : (x : Int) + 2 ^ L * (A : Int) = ((2 ^ L * A + x : Nat) : Int) := by
          push_cast; ring
        rw [this, Int.toNat_natCast]
      have e2 : ((y : Int) + 2 ^ L * (B : Int)).toNat = 2 ^ L * B + y := by
        have : (y : Int) + 2 ^ L * (B : Int) = ((2 ^ L * B + y : Nat) : Int) := by
          push_cast; ring
        rw [this, Int.toNat_natCast]
      simp only [List.zipWith_cons_cons, digitsVal, i1, i2, hA, hB, e1, e2, land_add hx2 hy2,
        lor_add hx2 hy2, Int.toNat_natCast]
      have h1 : and64 (x : Int) (y : Int) = ((x &&& y : Nat) : Int) := by
        rw [and64, toU64_natCast (by omega), toU64_natCast (by omega)]
        exact ofU64_natCast (lt_trans (Nat.and_lt_two_pow _ hy2) hp)
      have h2 : or64 (x : Int) (y : Int) = ((x ||| y : Nat) : Int) := by
        rw [or64, toU64_natCast (by omega), toU64_natCast (by omega)]
        exact ofU64_natCast (lt_trans (Nat.or_lt_two_pow hx2 hy2) hp)
      rw [h1, h2]
      constructor <;> · push_cast; ring

theorem maskWord_eq (b : Bool) : FieldCode.maskWord b = if b then -1 else 0 := by
  cases b <;> decide +kernel

open FieldCode

theorem hexCharVal_digit (upper : Bool) {n : Nat} (h : n < 16) :
    hexCharVal upper (hexDigit upper n) = some n := by
  have : ∀ u, ∀ n : Fin 16, hexCharVal u (hexDigit u n.val) = some n.val := by decide +kernel
  exact this upper ⟨n, h⟩

theorem hexRead_byte (upper : Bool) {b : Int} (h0 : 0 ≤ b) (h1 : b < 256) (acc : Nat)
    (rest : List Char) :
    hexReadFrom upper acc (hexByte upper b ++ rest) =
      hexReadFrom upper (256 * acc + b.toNat) rest := by
  simp only [hexByte, List.cons_append, List.nil_append, hexReadFrom,
    hexCharVal_digit upper (show b.toNat / 16 < 16 by omega),
    hexCharVal_digit upper (show b.toNat % 16 < 16 by omega)]
  congr 1; omega

theorem hexRead_bytes (upper : Bool) : ∀ (bs : List Int), IsBytes bs → ∀ (acc : Nat)
    (rest : List Char),
    hexReadFrom upper acc ((bs.reverse.map (hexByte upper)).flatten ++ rest) =
      hexReadFrom upper (256 ^ bs.length * acc + (leVal bs).toNat) rest := by
  intro bs
  induction bs with
  | nil => intro _ acc rest; simp [leVal, digitsVal]
  | cons b bs ih =>
    intro h acc rest
    have hb := h b (by simp)
    have hbs : IsBytes bs := fun x hx => h x (by simp [hx])
    have hnn := leVal_nonneg hbs
    simp only [List.reverse_cons, List.map_append, List.flatten_append, List.append_assoc]
    rw [ih hbs]
    simp only [List.map_cons, List.map_nil, List.flatten_cons, List.flatten_nil, List.append_nil]
    rw [hexRead_byte upper hb.1 hb.2]
    congr 1
    obtain ⟨b, rfl⟩ := Int.eq_ofNat_of_zero_le hb.1
    obtain ⟨B, hB⟩ := Int.eq_ofNat_of_zero_le hnn
    have e : leVal ((b : Int) :: bs) = ((b + 256 * B : Nat) : Int) := by
      have : leVal ((b : Int) :: bs) = b + 2 ^ 8 * leVal bs := rfl
      rw [this, hB]; push_cast; ring
    rw [e, hB, Int.toNat_natCast, Int.toNat_natCast, Int.toNat_natCast, List.length_cons, pow_succ]
    ring

theorem hexReadFrom_append (upper : Bool) : ∀ (s : List Char) (acc x : Nat) (rest : List Char),
    hexReadFrom upper acc s = some x →
    hexReadFrom upper acc (s ++ rest) = hexReadFrom upper x rest := by
  intro s
  induction s with
  | nil => intro acc x rest h; simp only [hexReadFrom, Option.some.injEq] at h; subst h; rfl
  | cons c s ih =>
    intro acc x rest h
    simp only [List.cons_append, hexReadFrom] at *
    cases hc : hexCharVal upper c with
    | none => rw [hc] at h; cases h
    | some d => rw [hc] at h; exact ih _ _ _ h

theorem hexNat_read : ∀ (n x : Nat), x < 16 ^ (n + 1) →
    hexRead false (hexNat (n + 1) x) = some x ∧ (hexNat (n + 1) x).length ≤ n + 1 ∧
    ((hexNat (n + 1) x).head? = some '0' → x = 0) := by
  intro n
  induction n with
  | zero =>
    intro x h
    have : ∀ x : Fin 16, hexRead false (hexNat 1 x.val) = some x.val ∧
      (hexNat 1 x.val).length ≤ 1 ∧ ((hexNat 1 x.val).head? = some '0' → x.val = 0) := by
      decide +kernel
    exact this ⟨x, by simpa using h⟩
  | succ n ih =>
    intro x h
    rcases lt_or_ge x 16 with h16 | h16
    · have e : hexNat (n + 1 + 1) x = hexNat 1 x := by
        rw [hexNat, if_pos h16, hexNat, if_pos h16]
      have : ∀ x : Fin 16, hexRead false (hexNat 1 x.val) = some x.val ∧
        (hexNat 1 x.val).length ≤ 1 ∧ ((hexNat 1 x.val).head? = some '0' → x.val = 0) := by
        decide +kernel
      obtain ⟨h1, h2, h3⟩ := this ⟨x, h16⟩
      rw [e]
      exact ⟨h1, h2.trans (by omega), h3⟩
    · have e : hexNat (n + 1 + 1) x = hexNat (n + 1) (x / 16) ++ [hexDigit false (x % 16)] := by
        rw [hexNat, if_neg (by omega)]
      obtain ⟨h1, h2, h3⟩ := ih (x / 16) (by
        rw [pow_succ] at h
        exact Nat.div_lt_of_lt_mul (by linarith))
      rw [e]
      refine ⟨?_, by simp; omega, ?_⟩
      · rw [hexRead, hexReadFrom_append _ _ _ _ _ h1]
        simp only [hexReadFrom, hexCharVal_digit false (show x % 16 < 16 by omega)]
        congr 1; omega
      · intro hh
        have hne : hexNat (n + 1) (x / 16) ≠ [] := by
          rw [hexNat]; split <;> simp
        rw [List.head?_append_of_ne_nil _ hne] at hh
        have := h3 hh
        omega

/-- AND and OR of two numbers add up to the sum of the numbers. -/
theorem land_add_lor (x : Nat) : ∀ y, (x &&& y) + (x ||| y) = x + y := by
  induction x using Nat.strong_induction_on with
  | _ x ih =>
    intro y
    rcases Nat.eq_zero_or_pos x with rfl | hx
    · simp
    have h := ih (x / 2) (by omega) (y / 2)
    have a1 : (x &&& y) / 2 = x / 2 &&& y / 2 := Nat.and_div_two
    have a2 : (x ||| y) / 2 = x / 2 ||| y / 2 := Nat.or_div_two
    have c1 : (x &&& y) % 2 ^ 1 = (x % 2 ^ 1) &&& (y % 2 ^ 1) := Nat.and_mod_two_pow
    have c2 : (x ||| y) % 2 ^ 1 = (x % 2 ^ 1) ||| (y % 2 ^ 1) := Nat.or_mod_two_pow
    rw [pow_one] at c1 c2
    have b : (x &&& y) % 2 + (x ||| y) % 2 = x % 2 + y % 2 := by
      rw [c1, c2]
      rcases Nat.mod_two_eq_zero_or_one x with h | h <;>
        rcases Nat.mod_two_eq_zero_or_one y with h' | h' <;> rw [h, h'] <;> rfl
    omega

/-- The same for `i64` words. -/
theorem and64_add_or64 {x y : Int} (hx : inI64 x = true) (hy : inI64 y = true) :
    and64 x y + or64 x y = x + y := by
  have h := land_add_lor (toU64 x) (toU64 y)
  have h1 : (toU64 x &&& toU64 y) / 2 ^ 63 = toU64 x / 2 ^ 63 &&& toU64 y / 2 ^ 63 :=
    Nat.and_div_two_pow
  have h2 : (toU64 x ||| toU64 y) / 2 ^ 63 = toU64 x / 2 ^ 63 ||| toU64 y / 2 ^ 63 :=
    Nat.or_div_two_pow
  have hlx := toU64_lt x
  have hly := toU64_lt y
  have e1 := ofU64_toU64 hx
  have e2 := ofU64_toU64 hy
  have g1 : toU64 x / 2 ^ 63 = 0 ∨ toU64 x / 2 ^ 63 = 1 := by omega
  have g2 : toU64 y / 2 ^ 63 = 0 ∨ toU64 y / 2 ^ 63 = 1 := by omega
  rw [and64, or64]
  generalize toU64 x = a at *
  generalize toU64 y = b at *
  unfold ofU64 wrap64 at *
  rcases g1 with g1 | g1 <;> rcases g2 with g2 | g2 <;> rw [g1, g2] at h1 h2 <;>
    norm_num at h1 h2 <;> omega

/-- The same for the values of word vectors. -/
theorem digitsVal_and_add_or (L : Nat) : ∀ (a b : List Int), a.length = b.length →
    (∀ x ∈ a, inI64 x = true) → (∀ x ∈ b, inI64 x = true) →
    digitsVal L (List.zipWith and64 a b) + digitsVal L (List.zipWith or64 a b) =
      digitsVal L a + digitsVal L b
  | [], [], _, _, _ => by simp [digitsVal]
  | x :: a, y :: b, h, ha, hb => by
    have i := digitsVal_and_add_or L a b (by simpa using h) (fun z hz => ha z (by simp [hz]))
      (fun z hz => hb z (by simp [hz]))
    have j := and64_add_or64 (ha x (by simp)) (hb y (by simp))
    simp only [List.zipWith_cons_cons, digitsVal]
    linear_combination j + 2 ^ L * i

end Verif

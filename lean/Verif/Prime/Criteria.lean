import Mathlib.Data.Nat.Prime.Basic
import Mathlib.GroupTheory.OrderOfElement
import Mathlib.FieldTheory.Finite.Basic
import Mathlib.FieldTheory.IsAlgClosed.AlgebraicClosure
import Mathlib.Algebra.CharP.Lemmas
import Mathlib.Tactic.LinearCombination

/-!
# Primality criteria

Two classical criteria that reduce the primality of `N` to that of some prime factors of
`N - 1` (Pocklington) or of `N + 1` (Morrison), with fast modular exponentiation that the
kernel can evaluate.
-/

namespace Verif.Prime

/-- `acc * b ^ e mod m`, for `e < 2 ^ fuel`. -/
def powM (m : Nat) : Nat → Nat → Nat → Nat → Nat
  | 0, _, _, acc => acc
  | k + 1, b, e, acc =>
    powM m k (b * b % m) (e / 2) (if e % 2 = 1 then acc * b % m else acc)

theorem powM_modEq (m : Nat) : ∀ (k b e acc : Nat), e < 2 ^ k →
    powM m k b e acc ≡ acc * b ^ e [MOD m] := by
  intro k
  induction k with
  | zero =>
    intro b e acc h
    have : e = 0 := by simpa using h
    subst this
    simp only [powM, pow_zero, mul_one]
    exact Nat.ModEq.refl _
  | succ k ih =>
    intro b e acc h
    have he : e / 2 < 2 ^ k := by rw [pow_succ] at h; omega
    have h1 := ih (b * b % m) (e / 2) (if e % 2 = 1 then acc * b % m else acc) he
    rw [powM]
    refine h1.trans ?_
    have h2 : (b * b % m) ^ (e / 2) ≡ b ^ (2 * (e / 2)) [MOD m] := by
      rw [pow_mul]
      exact ((Nat.mod_modEq _ _).trans (by rw [pow_two])).pow _
    have h3 : e = 2 * (e / 2) + e % 2 := by omega
    rcases Nat.mod_two_eq_zero_or_one e with h4 | h4
    · rw [if_neg (by omega)]
      conv_rhs => rw [h3, h4, add_zero]
      exact h2.mul_left _
    · rw [if_pos h4]
      conv_rhs => rw [h3, h4, pow_succ]
      have := (Nat.mod_modEq (acc * b) m).mul h2
      refine this.trans ?_
      rw [mul_assoc, mul_comm b]

/-- Products of prime powers. -/
def prodPow : List (Nat × Nat) → Nat
  | [] => 1
  | (q, e) :: l => q ^ e * prodPow l

theorem mem_of_dvd_prodPow : ∀ (l : List (Nat × Nat)), (∀ x ∈ l, x.1.Prime) → ∀ {q : Nat},
    q.Prime → q ∣ prodPow l → ∃ x ∈ l, x.1 = q := by
  intro l
  induction l with
  | nil => intro _ q hq h; exact absurd (Nat.dvd_one.mp h) hq.one_lt.ne'
  | cons x l ih =>
    intro hl q hq h
    rw [prodPow] at h
    rcases hq.dvd_mul.mp h with h | h
    · refine ⟨x, by simp, ?_⟩
      exact ((Nat.prime_dvd_prime_iff_eq hq (hl x (by simp))).mp (hq.dvd_of_dvd_pow h)).symm
    · obtain ⟨y, h1, h2⟩ := ih (fun y hy => hl y (by simp [hy])) hq h
      exact ⟨y, by simp [h1], h2⟩

/-- If all prime factors of `N` are at least `B` and `N < B ^ 2` then `N` is prime. -/
theorem prime_of_factors {N B : Nat} (hN : 1 < N) (hB : N < B * B)
    (h : ∀ l : Nat, l.Prime → l ∣ N → B ≤ l) : N.Prime := by
  by_contra hc
  have h1 := h _ (Nat.minFac_prime hN.ne') (Nat.minFac_dvd N)
  have h2 := Nat.minFac_sq_le_self (by omega) hc
  rw [pow_two] at h2
  have := Nat.mul_le_mul h1 h1
  omega

/-- In a commutative monoid: an element whose `n`-th power is one but no `n / q`-th power
has a power of order `F`, for `F ∣ n`. -/
theorem orderOf_of_pow {G : Type*} [Monoid G] {x : G} {n F : Nat} (hn : 0 < n) (hF : F ∣ n)
    (h1 : x ^ n = 1) (h2 : ∀ q : Nat, q.Prime → q ∣ F → x ^ (n / q) ≠ 1) :
    orderOf (x ^ (n / F)) = F := by
  have hF0 : 0 < F := Nat.pos_of_dvd_of_pos hF hn
  refine orderOf_eq_of_pow_and_pow_div_prime hF0 ?_ fun q hq hd => ?_
  · rw [← pow_mul, Nat.div_mul_cancel hF, h1]
  · rw [← pow_mul]
    have : n / F * (F / q) = n / q := by
      obtain ⟨m, rfl⟩ := hd
      obtain ⟨k, rfl⟩ := hF
      have hq0 := hq.pos
      have hm : 0 < m := Nat.pos_of_mul_pos_left hF0
      rw [Nat.mul_div_cancel_left _ (Nat.mul_pos hq0 hm), Nat.mul_div_cancel_left _ hq0,
        mul_assoc, Nat.mul_div_cancel_left _ hq0, mul_comm]
    rw [this]
    exact h2 q hq hd

/-- Certificate check for `prime_of_pred`. -/
def checkPred (N a k : Nat) (l : List (Nat × Nat)) : Bool :=
  decide (1 < N) && decide (N ≤ 2 ^ k) && decide ((N - 1) % prodPow l = 0) &&
  decide (N < (prodPow l + 1) * (prodPow l + 1)) && decide (powM N k a (N - 1) 1 = 1) &&
  l.all fun x => decide (Nat.gcd (powM N k a ((N - 1) / x.1) 1 + N - 1) N = 1)

/-- Pocklington: enough prime factors of `N - 1` are known. -/
theorem prime_of_pred {N : Nat} (a k : Nat) (l : List (Nat × Nat)) (hl : ∀ x ∈ l, x.1.Prime)
    (h : checkPred N a k l = true) : N.Prime := by
  simp only [checkPred, Bool.and_eq_true, decide_eq_true_eq, List.all_eq_true] at h
  obtain ⟨⟨⟨⟨⟨h1, hk⟩, h2⟩, h3⟩, h4⟩, h5⟩ := h
  have hF : prodPow l ∣ N - 1 := Nat.dvd_of_mod_eq_zero h2
  refine prime_of_factors h1 h3 fun p hp hpN => ?_
  have : Fact p.Prime := ⟨hp⟩
  have hpow : ∀ e, e < 2 ^ k → ((powM N k a e 1 : Nat) : ZMod p) = (a : ZMod p) ^ e := by
    intro e he
    have := (powM_modEq N k a e 1 he).of_dvd hpN
    rw [one_mul] at this
    have := (ZMod.natCast_eq_natCast_iff _ _ _).mpr this
    rw [this, Nat.cast_pow]
  have hlt : ∀ q, (N - 1) / q < 2 ^ k := fun q =>
    lt_of_le_of_lt (Nat.div_le_self _ _) (by omega)
  have e1 : (a : ZMod p) ^ (N - 1) = 1 := by
    rw [← hpow _ (by omega), h4, Nat.cast_one]
  have e2 : ∀ q : Nat, q.Prime → q ∣ prodPow l → (a : ZMod p) ^ ((N - 1) / q) ≠ 1 := by
    intro q hq hd he
    obtain ⟨x, hx, rfl⟩ := mem_of_dvd_prodPow l hl hq hd
    have hg := h5 x hx
    rw [← hpow _ (hlt _)] at he
    have : (p : Nat) ∣ powM N k a ((N - 1) / x.1) 1 + N - 1 := by
      rw [← ZMod.natCast_eq_zero_iff, Nat.cast_sub (by omega), Nat.cast_add, he,
        (ZMod.natCast_eq_zero_iff N p).mpr hpN]
      simp
    have := Nat.dvd_gcd this hpN
    rw [hg] at this
    exact hp.one_lt.ne' (Nat.dvd_one.mp this)
  have ho := orderOf_of_pow (by omega) hF e1 e2
  have ha0 : (a : ZMod p) ≠ 0 := by
    intro h0
    rw [h0, zero_pow (by omega)] at e1
    exact zero_ne_one e1
  have hd : prodPow l ∣ p - 1 := by
    rw [← ho]
    exact orderOf_dvd_of_pow_eq_one (by
      rw [← pow_mul, mul_comm, pow_mul, ZMod.pow_card_sub_one_eq_one ha0, one_pow])
  have := Nat.le_of_dvd (by have := hp.one_lt; omega) hd
  have := hp.one_lt
  omega

/-- Multiplication of `u + v √D`. -/
def mulQ (m D : Nat) (x y : Nat × Nat) : Nat × Nat :=
  ((x.1 * y.1 + D * (x.2 * y.2)) % m, (x.1 * y.2 + x.2 * y.1) % m)

/-- `acc * b ^ e` for pairs, `e < 2 ^ fuel`. -/
def powQ (m D : Nat) : Nat → Nat × Nat → Nat → Nat × Nat → Nat × Nat
  | 0, _, _, acc => acc
  | k + 1, b, e, acc =>
    powQ m D k (mulQ m D b b) (e / 2) (if e % 2 = 1 then mulQ m D acc b else acc)

section
variable {K : Type*} [Field K] {m D : Nat}

/-- The element denoted by a pair, in a field of characteristic dividing `m`. -/
def valQ (s : K) (x : Nat × Nat) : K := x.1 + x.2 * s

theorem valQ_mul {s : K} (hm : (m : K) = 0) (hs : s * s = D) (x y : Nat × Nat) :
    valQ s (mulQ m D x y) = valQ s x * valQ s y := by
  have hmod : ∀ z : Nat, ((z % m : Nat) : K) = z := by
    intro z
    conv_rhs => rw [← Nat.div_add_mod z m, Nat.cast_add, Nat.cast_mul, hm, zero_mul, zero_add]
  simp only [valQ, mulQ, hmod]
  push_cast
  rw [← hs]
  ring

theorem valQ_pow {s : K} (hm : (m : K) = 0) (hs : s * s = D) : ∀ (k : Nat) (b : Nat × Nat)
    (e : Nat) (acc : Nat × Nat), e < 2 ^ k →
    valQ s (powQ m D k b e acc) = valQ s acc * valQ s b ^ e := by
  intro k
  induction k with
  | zero =>
    intro b e acc h
    have : e = 0 := by simpa using h
    subst this
    simp [powQ]
  | succ k ih =>
    intro b e acc h
    have he : e / 2 < 2 ^ k := by rw [pow_succ] at h; omega
    rw [powQ, ih _ _ _ he, valQ_mul hm hs]
    have h3 : e = 2 * (e / 2) + e % 2 := by omega
    rcases Nat.mod_two_eq_zero_or_one e with h4 | h4
    · rw [if_neg (by omega)]
      conv_rhs => rw [h3, h4, add_zero, pow_mul, pow_two]
    · rw [if_pos h4, valQ_mul hm hs]
      conv_rhs => rw [h3, h4, pow_succ, pow_mul, pow_two]
      ring
end

/-- Certificate check for `prime_of_succ`. -/
def checkSucc (N D a b k : Nat) (l : List (Nat × Nat)) : Bool :=
  decide (1 < N) && decide (N % 2 = 1) && decide (N + 1 < 2 ^ k) &&
  decide ((N + 1) % prodPow l = 0) && decide (N < (prodPow l - 1) * (prodPow l - 1)) &&
  decide (Nat.gcd D N = 1) && decide ((a * a) % N = (D * (b * b) + 1) % N) &&
  decide (powQ N D k (a, b) (N + 1) (1, 0) = (1, 0)) &&
  l.all fun x => decide (Nat.gcd (powQ N D k (a, b) ((N + 1) / x.1) (1, 0)).2 N = 1) ||
    decide (powQ N D k (a, b) ((N + 1) / x.1) (1, 0) = (N - 1, 0))

/-- The argument for `prime_of_succ` in an algebraically closed field of characteristic `p`. -/
theorem dvd_of_succ {N D a b k p : Nat} {l : List (Nat × Nat)} (K : Type) [Field K]
    [CharP K p] [IsAlgClosed K] (hp : p.Prime) (hpN : p ∣ N)
    (hl : ∀ x ∈ l, x.1.Prime) (h : checkSucc N D a b k l = true) :
    prodPow l ∣ p - 1 ∨ prodPow l ∣ p + 1 := by
  simp only [checkSucc, Bool.and_eq_true, decide_eq_true_eq, List.all_eq_true] at h
  obtain ⟨⟨⟨⟨⟨⟨⟨⟨h1, hodd⟩, hk⟩, h2⟩, h3⟩, hD⟩, hnorm⟩, h4⟩, h5⟩ := h
  have hF : prodPow l ∣ N + 1 := Nat.dvd_of_mod_eq_zero h2
  have : Fact p.Prime := ⟨hp⟩
  have : ExpChar K p := ExpChar.prime hp
  have hNK : (N : K) = 0 := (CharP.cast_eq_zero_iff K p N).mpr hpN
  have hp2 : p ≠ 2 := by
    rintro rfl
    have := Nat.mod_eq_zero_of_dvd hpN
    omega
  have h2K : (2 : K) ≠ 0 := by
    intro h0
    have h0' : ((2 : Nat) : K) = 0 := by exact_mod_cast h0
    have := (CharP.cast_eq_zero_iff K p 2).mp h0'
    exact hp2 ((Nat.prime_dvd_prime_iff_eq hp Nat.prime_two).mp this)
  obtain ⟨s, hs⟩ := IsAlgClosed.exists_pow_nat_eq (D : K) (n := 2) (by norm_num)
  rw [pow_two] at hs
  have hcast : ∀ z : Nat, (z : K) ^ p = z := by
    intro z
    rw [← frobenius_def, map_natCast]
  -- Frobenius
  have hsp : s ^ p = s ∨ s ^ p = -s := by
    apply sq_eq_sq_iff_eq_or_eq_neg.mp
    rw [← pow_mul, mul_comm, pow_mul, pow_two, hs, hcast]
  obtain ⟨α, hα⟩ : ∃ α, α = (a : K) + b * s := ⟨_, rfl⟩
  obtain ⟨β, hβ⟩ : ∃ β, β = (a : K) - b * s := ⟨_, rfl⟩
  have hαβ : α * β = 1 := by
    have : ((a * a : Nat) : K) = ((D * (b * b) + 1 : Nat) : K) := by
      have e := Nat.div_add_mod (a * a) N
      have e' := Nat.div_add_mod (D * (b * b) + 1) N
      rw [← e, ← e', hnorm, Nat.cast_add, Nat.cast_add, Nat.cast_mul, Nat.cast_mul, hNK,
        zero_mul, zero_mul]
    push_cast at this
    rw [hα, hβ]
    linear_combination this - (b : K) * b * hs
  have hαp : α ^ p = α ∨ α ^ p = β := by
    have e : α ^ p = a + b * s ^ p := by
      rw [hα, add_pow_expChar, mul_pow, hcast, hcast]
    rcases hsp with h | h
    · left; rw [e, h, hα]
    · right; rw [e, h, hβ]; ring
  have hα0 : α ≠ 0 := left_ne_zero_of_mul_eq_one hαβ
  have hend : α ^ (p - 1) = 1 ∨ α ^ (p + 1) = 1 := by
    rcases hαp with h | h
    · left
      have : α ^ (p - 1) * α = 1 * α := by
        rw [← pow_succ, Nat.sub_add_cancel hp.one_lt.le, h, one_mul]
      exact mul_right_cancel₀ hα0 this
    · right; rw [pow_succ, h, mul_comm, hαβ]
  -- powers
  have hpow : ∀ e, e < 2 ^ k → valQ s (powQ N D k (a, b) e (1, 0)) = α ^ e := by
    intro e he
    rw [valQ_pow hNK hs k _ e _ he]
    simp [valQ, hα]
  have hpow' : ∀ e, e < 2 ^ k → valQ (-s) (powQ N D k (a, b) e (1, 0)) = β ^ e := by
    intro e he
    have hs' : -s * -s = D := by rw [neg_mul_neg, hs]
    rw [valQ_pow hNK hs' k _ e _ he]
    simp [valQ, hβ, sub_eq_add_neg]
  have e1 : α ^ (N + 1) = 1 := by
    rw [← hpow _ (by omega), h4]; simp [valQ]
  have e2 : ∀ q : Nat, q.Prime → q ∣ prodPow l → α ^ ((N + 1) / q) ≠ 1 := by
    intro q hq hd he
    obtain ⟨x, hx, rfl⟩ := mem_of_dvd_prodPow l hl hq hd
    have hg := h5 x hx
    have hlt : (N + 1) / x.1 < 2 ^ k := lt_of_le_of_lt (Nat.div_le_self _ _) hk
    have hβ1 : β ^ ((N + 1) / x.1) = 1 := by
      have : (α * β) ^ ((N + 1) / x.1) = 1 := by rw [hαβ, one_pow]
      rwa [mul_pow, he, one_mul] at this
    rw [← hpow _ hlt] at he
    rw [← hpow' _ hlt] at hβ1
    generalize powQ N D k (a, b) ((N + 1) / x.1) (1, 0) = y at he hβ1 hg
    simp only [valQ] at he hβ1
    rw [Bool.or_eq_true, decide_eq_true_eq, decide_eq_true_eq] at hg
    rcases hg with hg | rfl
    swap
    · simp only [Nat.cast_zero, zero_mul, add_zero] at he
      rw [Nat.cast_sub h1.le, hNK, Nat.cast_one, zero_sub] at he
      exact h2K (by linear_combination -he)
    have hvs : (2 * (y.2 : K)) * s = 0 := by linear_combination he - hβ1
    have hv : (y.2 : K) ≠ 0 := by
      intro h0
      have := Nat.dvd_gcd ((CharP.cast_eq_zero_iff K p _).mp h0) hpN
      rw [hg] at this
      exact hp.one_lt.ne' (Nat.dvd_one.mp this)
    have hs0 : s = 0 := by
      rcases mul_eq_zero.mp hvs with h | h
      · exact absurd h (mul_ne_zero h2K hv)
      · exact h
    rw [hs0, mul_zero] at hs
    have := Nat.dvd_gcd ((CharP.cast_eq_zero_iff K p D).mp hs.symm) hpN
    rw [hD] at this
    exact hp.one_lt.ne' (Nat.dvd_one.mp this)
  have ho := orderOf_of_pow (Nat.succ_pos N) hF e1 e2
  rw [← ho]
  rcases hend with h | h
  · left
    exact orderOf_dvd_of_pow_eq_one (by rw [← pow_mul, mul_comm, pow_mul, h, one_pow])
  · right
    exact orderOf_dvd_of_pow_eq_one (by rw [← pow_mul, mul_comm, pow_mul, h, one_pow])

/-- Morrison: enough prime factors of `N + 1` are known. -/
theorem prime_of_succ {N : Nat} (D a b k : Nat) (l : List (Nat × Nat))
    (hl : ∀ x ∈ l, x.1.Prime) (h : checkSucc N D a b k l = true) : N.Prime := by
  have h' := h
  simp only [checkSucc, Bool.and_eq_true, decide_eq_true_eq] at h'
  obtain ⟨⟨⟨⟨⟨⟨⟨⟨h1, -⟩, -⟩, -⟩, h3⟩, -⟩, -⟩, -⟩, -⟩ := h'
  refine prime_of_factors h1 h3 fun p hp hpN => ?_
  have : Fact p.Prime := ⟨hp⟩
  have : CharP (AlgebraicClosure (ZMod p)) p :=
    charP_of_injective_algebraMap (algebraMap (ZMod p) _).injective p
  have hd := dvd_of_succ (AlgebraicClosure (ZMod p)) hp hpN hl h
  have hp1 := hp.one_lt
  rcases hd with hd | hd
  · have := Nat.le_of_dvd (by omega) hd
    omega
  · have := Nat.le_of_dvd (by omega) hd
    omega

end Verif.Prime

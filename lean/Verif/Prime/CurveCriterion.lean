import Verif.Prime.Criteria
import Mathlib.AlgebraicGeometry.EllipticCurve.Affine.Point
import Mathlib.Tactic.FieldSimp

/-!
# A primality criterion with elliptic curves

The criterion of Goldwasser and Kilian: `N` is prime if there is a point whose order on a curve modulo every prime factor
of `N` is a prime `q > 2 √N + 1`.  The multiples are computed modulo `N` in Jacobian coordinates; the last of them having a
third coordinate prime to `N` shows that no exceptional case arises modulo any prime factor.
-/

namespace Verif.Prime

/-- The double of a point of `y² = x³ + a x + b`. -/
def dblJ (N a : Nat) (P : Nat × Nat × Nat) : Nat × Nat × Nat :=
  let X := P.1
  let Y := P.2.1
  let Z := P.2.2
  let YY := Y * Y % N
  let S := 4 * X * YY % N
  let ZZ := Z * Z % N
  let M := (3 * X * X + a * (ZZ * ZZ % N)) % N
  let X' := (M * M + 2 * (N - S)) % N
  (X', (M * (S + (N - X')) + 8 * (N - YY * YY % N)) % N, 2 * Y * Z % N)

/-- The sum of a point and the affine point `(x, y)`. -/
def addJ (N x y : Nat) (P : Nat × Nat × Nat) : Nat × Nat × Nat :=
  let X := P.1
  let Y := P.2.1
  let Z := P.2.2
  let ZZ := Z * Z % N
  let H := (x * ZZ + (N - X)) % N
  let R := (y * (ZZ * Z % N) + (N - Y)) % N
  let HH := H * H % N
  let HHH := HH * H % N
  let V := X * HH % N
  let X' := (R * R + (N - HHH) + 2 * (N - V)) % N
  (X', (R * (V + (N - X')) + Y * (N - HHH)) % N, Z * H % N)

/-- The multiple by `n`, for `2 ^ k ≤ n < 2 ^ (k + 1)`. -/
def mulJ (N a x y : Nat) : Nat → Nat → Nat × Nat × Nat
  | 0, _ => (x, y, 1)
  | k + 1, n =>
    let P := dblJ N a (mulJ N a x y k (n / 2))
    if n % 2 = 1 then addJ N x y P else P

section
variable {K : Type*} [Field K] {N : Nat}

theorem cast_mod (hN : (N : K) = 0) (z : Nat) : ((z % N : Nat) : K) = z := by
  conv_rhs => rw [← Nat.div_add_mod z N, Nat.cast_add, Nat.cast_mul, hN, zero_mul, zero_add]

theorem cast_sub (hN : (N : K) = 0) {z : Nat} (hz : z ≤ N) : ((N - z : Nat) : K) = -z := by
  rw [Nat.cast_sub hz, hN, zero_sub]

theorem dblJ_cast (h0 : 0 < N) (hN : (N : K) = 0) (a : Nat) (P : Nat × Nat × Nat) :
    let X : K := P.1
    let Y : K := P.2.1
    let Z : K := P.2.2
    let S := 4 * X * Y ^ 2
    let M := 3 * X ^ 2 + a * Z ^ 4
    ((dblJ N a P).1 : K) = M ^ 2 - 2 * S ∧
      ((dblJ N a P).2.1 : K) = M * (S - (M ^ 2 - 2 * S)) - 8 * Y ^ 4 ∧
      ((dblJ N a P).2.2 : K) = 2 * Y * Z := by
  have hm := fun z : Nat => cast_sub hN (Nat.mod_lt z h0).le
  refine ⟨?_, ?_, ?_⟩ <;> simp only [dblJ, cast_mod hN, Nat.cast_add, Nat.cast_mul, hm] <;> push_cast <;> ring

theorem addJ_cast (h0 : 0 < N) (hN : (N : K) = 0) (x y : Nat) {P : Nat × Nat × Nat} (h1 : P.1 ≤ N) (h2 : P.2.1 ≤ N) :
    let X : K := P.1
    let Y : K := P.2.1
    let Z : K := P.2.2
    let H := x * Z ^ 2 - X
    let R := y * Z ^ 3 - Y
    ((addJ N x y P).1 : K) = R ^ 2 - H ^ 3 - 2 * (X * H ^ 2) ∧
      ((addJ N x y P).2.1 : K) = R * (X * H ^ 2 - (R ^ 2 - H ^ 3 - 2 * (X * H ^ 2))) - Y * H ^ 3 ∧
      ((addJ N x y P).2.2 : K) = Z * H := by
  have hm := fun z : Nat => cast_sub hN (Nat.mod_lt z h0).le
  refine ⟨?_, ?_, ?_⟩ <;>
    simp only [addJ, cast_mod hN, Nat.cast_add, Nat.cast_mul, hm, cast_sub hN h1, cast_sub hN h2] <;> push_cast <;> ring

theorem dblJ_le (h0 : 0 < N) (a : Nat) (P : Nat × Nat × Nat) : (dblJ N a P).1 ≤ N ∧ (dblJ N a P).2.1 ≤ N :=
  ⟨(Nat.mod_lt _ h0).le, (Nat.mod_lt _ h0).le⟩

open WeierstrassCurve.Affine

/-- The curve `y² = x³ + a x + b`. -/
def short (a b : K) : WeierstrassCurve.Affine K := ⟨0, 0, 0, a, b⟩

/-- Jacobian coordinates of an affine point. -/
def IsJ {a b : K} (P : (short a b).Point) (X Y Z : K) : Prop :=
  ∃ x y h, P = .some x y h ∧ X = x * Z ^ 2 ∧ Y = y * Z ^ 3

variable [DecidableEq K] {a b : K}

theorem isJ_dbl {P : (short a b).Point} {X Y Z : K} (h : IsJ P X Y Z) (hZ : 2 * Y * Z ≠ 0) :
    IsJ (P + P) ((3 * X ^ 2 + a * Z ^ 4) ^ 2 - 2 * (4 * X * Y ^ 2))
      ((3 * X ^ 2 + a * Z ^ 4) * (4 * X * Y ^ 2 - ((3 * X ^ 2 + a * Z ^ 4) ^ 2 - 2 * (4 * X * Y ^ 2))) - 8 * Y ^ 4)
      (2 * Y * Z) := by
  obtain ⟨x, y, h, rfl, rfl, rfl⟩ := h
  have h2 : (2 : K) ≠ 0 := by rintro h; simp [h] at hZ
  have hz : Z ≠ 0 := by rintro h; simp [h] at hZ
  have hy0 : y ≠ 0 := by rintro rfl; simp at hZ
  have hy : y ≠ (short a b).negY x y := by
    simp only [short, negY]
    intro e
    exact mul_ne_zero h2 hy0 (by linear_combination e)
  rw [Point.add_self_of_Y_ne hy]
  have hs : (short a b).slope x x y y = (3 * x ^ 2 + a) / (2 * y) := by
    rw [slope_of_Y_ne rfl hy]
    simp only [short, negY]
    ring_nf
  refine ⟨_, _, _, rfl, ?_, ?_⟩ <;> simp only [addX, addY, negAddY, negY, hs] <;> simp only [short] <;> field_simp <;> ring

theorem isJ_add {P : (short a b).Point} {X Y Z x y : K} (h : IsJ P X Y Z) (hQ : (short a b).Nonsingular x y)
    (hZ : Z * (x * Z ^ 2 - X) ≠ 0) :
    IsJ (P + .some x y hQ) ((y * Z ^ 3 - Y) ^ 2 - (x * Z ^ 2 - X) ^ 3 - 2 * (X * (x * Z ^ 2 - X) ^ 2))
      ((y * Z ^ 3 - Y) * (X * (x * Z ^ 2 - X) ^ 2 -
        ((y * Z ^ 3 - Y) ^ 2 - (x * Z ^ 2 - X) ^ 3 - 2 * (X * (x * Z ^ 2 - X) ^ 2))) - Y * (x * Z ^ 2 - X) ^ 3)
      (Z * (x * Z ^ 2 - X)) := by
  obtain ⟨u, v, h, rfl, rfl, rfl⟩ := h
  have hz : Z ≠ 0 := by rintro h; simp [h] at hZ
  have hx : u ≠ x := by rintro rfl; simp at hZ
  have hx' : u - x ≠ 0 := sub_ne_zero.2 hx
  rw [Point.add_of_X_ne hx]
  refine ⟨_, _, _, rfl, ?_, ?_⟩ <;> simp only [addX, addY, negAddY, negY, slope_of_X_ne hx] <;> simp only [short] <;>
    field_simp <;> ring

/-- What `mulJ` computes, when its third coordinate is not zero in `K`. -/
theorem isJ_mul (h0 : 0 < N) (hN : (N : K) = 0) {a x y : Nat} (hQ : (short (a : K) b).Nonsingular x y) :
    ∀ k n : Nat, 2 ^ k ≤ n → n < 2 ^ (k + 1) → ((mulJ N a x y k n).2.2 : K) ≠ 0 →
      IsJ (n • (.some (x : K) y hQ : (short (a : K) b).Point)) ((mulJ N a x y k n).1 : K) ((mulJ N a x y k n).2.1 : K)
        ((mulJ N a x y k n).2.2 : K) := by
  intro k
  induction k with
  | zero =>
    intro n h1 h2 _
    have : n = 1 := by omega
    subst this
    refine ⟨x, y, hQ, one_nsmul _, ?_, ?_⟩ <;> simp [mulJ]
  | succ k ih =>
    intro n h1 h2 hz
    have h1' : 2 ^ k ≤ n / 2 := by rw [pow_succ] at h1; omega
    have h2' : n / 2 < 2 ^ (k + 1) := by rw [pow_succ] at h2; omega
    have hi := ih (n / 2) h1' h2'
    have hd := dblJ_cast h0 hN a (mulJ N a x y k (n / 2))
    have hle := dblJ_le h0 a (mulJ N a x y k (n / 2))
    have hn : n = n / 2 + n / 2 + n % 2 := by omega
    rw [mulJ] at hz ⊢
    generalize mulJ N a x y k (n / 2) = P at hi hd hle hz ⊢
    have hdbl : ((dblJ N a P).2.2 : K) ≠ 0 → IsJ ((n / 2 + n / 2) • (.some (x : K) y hQ : (short (a : K) b).Point))
        ((dblJ N a P).1 : K) ((dblJ N a P).2.1 : K) ((dblJ N a P).2.2 : K) := by
      intro hz
      rw [hd.2.2] at hz
      rw [add_nsmul, hd.1, hd.2.1, hd.2.2]
      exact isJ_dbl (hi fun e => hz (by rw [e, mul_zero])) hz
    rcases Nat.mod_two_eq_zero_or_one n with h | h
    · rw [h, add_zero] at hn
      simp only [h, zero_ne_one, if_false] at hz ⊢
      rw [hn]
      exact hdbl hz
    · rw [h] at hn
      simp only [h, if_true] at hz ⊢
      have ha := addJ_cast h0 hN x y hle.1 hle.2
      rw [ha.2.2] at hz
      rw [ha.1, ha.2.1, ha.2.2, hn, succ_nsmul]
      exact isJ_add (hdbl fun e => hz (by rw [e, zero_mul])) hQ hz

/-- The points of a curve over a finite field: at most two for each `x` and the one at infinity. -/
theorem card_short_le {p : Nat} [Fact p.Prime] (a b : ZMod p) :
    Finite (short a b).Point ∧ Nat.card (short a b).Point ≤ 2 * p + 1 := by
  classical
  have hr : ∀ c : ZMod p, ∃ r : ZMod p, ∀ y, y ^ 2 = c → y = r ∨ y = -r := by
    intro c
    by_cases h : ∃ r, r ^ 2 = c
    · obtain ⟨r, rfl⟩ := h
      exact ⟨r, fun y hy => sq_eq_sq_iff_eq_or_eq_neg.1 hy⟩
    · exact ⟨0, fun y hy => absurd ⟨y, hy⟩ h⟩
  choose r hr using hr
  let g : (short a b).Point → Option (ZMod p × Bool)
    | .zero => none
    | .some x y _ => some (x, decide (y = r (x ^ 3 + a * x + b)))
  have hg : Function.Injective g := by
    rintro (_ | ⟨x, y, h⟩) (_ | ⟨x', y', h'⟩) e
    · rfl
    · simp [g] at e
    · simp [g] at e
    · simp only [g, Option.some.injEq, Prod.mk.injEq] at e
      obtain ⟨rfl, e⟩ := e
      have e1 := ((nonsingular_iff _ _).1 h).1
      have e2 := ((nonsingular_iff _ _).1 h').1
      rw [equation_iff] at e1 e2
      simp only [short] at e1 e2
      have f1 := hr (x ^ 3 + a * x + b) y (by linear_combination e1)
      have f2 := hr (x ^ 3 + a * x + b) y' (by linear_combination e2)
      have : y = y' := by
        by_cases hy : y = r (x ^ 3 + a * x + b)
        · rw [decide_eq_true hy, eq_comm, decide_eq_true_eq] at e
          rw [hy, e]
        · rw [decide_eq_false hy, eq_comm, decide_eq_false_iff_not] at e
          rw [f1.resolve_left hy, f2.resolve_left e]
      subst this
      rfl
  refine ⟨Finite.of_injective g hg, (Nat.card_le_card_of_injective g hg).trans ?_⟩
  rw [Finite.card_option, Nat.card_prod, Nat.card_zmod, Nat.card_eq_fintype_card, Fintype.card_bool]
  omega

end

open WeierstrassCurve.Affine

/-- Certificate check for `prime_of_curve`: the multiple of the point by `q - 1` is its opposite. -/
def checkCurve (N a x y q k : Nat) : Bool :=
  decide (1 < N) && decide (2 ^ k ≤ q - 1) && decide (q - 1 < 2 ^ (k + 1)) && decide (N < (q - 1) / 2 * ((q - 1) / 2)) &&
  decide (Nat.gcd (2 * y) N = 1) &&
  (let P := mulJ N a x y k (q - 1)
   decide (Nat.gcd P.2.2 N = 1) && decide (P.1 % N = x * (P.2.2 * P.2.2) % N) &&
   decide ((P.2.1 + y * (P.2.2 * (P.2.2 * P.2.2))) % N = 0))

/-- Goldwasser and Kilian: a point of large prime order on the curve `y² = x³ + a x + b`. -/
theorem prime_of_curve {N : Nat} (a x y q k : Nat) (hq : q.Prime) (h : checkCurve N a x y q k = true) : N.Prime := by
  simp only [checkCurve, Bool.and_eq_true, decide_eq_true_eq] at h
  obtain ⟨⟨⟨⟨⟨h1, hk⟩, hk'⟩, h4⟩, hy⟩, ⟨hz, hX⟩, hY⟩ := h
  have hq1 := hq.one_lt
  refine prime_of_factors h1 h4 fun p hp hpN => ?_
  have : Fact p.Prime := ⟨hp⟩
  have hN : (N : ZMod p) = 0 := (ZMod.natCast_eq_zero_iff N p).mpr hpN
  have hne : ∀ z : Nat, Nat.gcd z N = 1 → (z : ZMod p) ≠ 0 := by
    intro z hg h0
    have := Nat.dvd_gcd ((ZMod.natCast_eq_zero_iff z p).mp h0) hpN
    rw [hg] at this
    exact hp.one_lt.ne' (Nat.dvd_one.mp this)
  have hQ : (short (a : ZMod p) ((y : ZMod p) ^ 2 - x ^ 3 - a * x)).Nonsingular x y := by
    rw [nonsingular_iff, equation_iff]
    simp only [short]
    refine ⟨by ring, Or.inr fun e => hne _ hy ?_⟩
    push_cast
    linear_combination e
  obtain ⟨u, v, hs, e, eX, eY⟩ := isJ_mul (by omega) hN hQ k (q - 1) hk hk' (hne _ hz)
  generalize mulJ N a x y k (q - 1) = P at *
  have hz' := hne _ hz
  have eu : u = x := by
    have : ((P.1 % N : Nat) : ZMod p) = ((x * (P.2.2 * P.2.2) % N : Nat) : ZMod p) := by rw [hX]
    rw [cast_mod hN, cast_mod hN, eX] at this
    push_cast at this
    exact mul_right_cancel₀ (pow_ne_zero 2 hz') (by linear_combination this)
  have ev : v = -y := by
    have : (((P.2.1 + y * (P.2.2 * (P.2.2 * P.2.2))) % N : Nat) : ZMod p) = 0 := by rw [hY, Nat.cast_zero]
    rw [cast_mod hN] at this
    push_cast at this
    rw [eY] at this
    exact mul_right_cancel₀ (pow_ne_zero 3 hz') (by linear_combination this)
  subst eu ev
  have hord : addOrderOf (.some (x : ZMod p) y hQ : (short (a : ZMod p) ((y : ZMod p) ^ 2 - x ^ 3 - a * x)).Point) = q := by
    have : Fact q.Prime := ⟨hq⟩
    refine addOrderOf_eq_prime ?_ (Point.some_ne_zero _)
    rw [← Nat.sub_add_cancel hq1.le, succ_nsmul, e]
    exact Point.add_of_Y_eq rfl (by simp [short, negY])
  obtain ⟨hfin, hle⟩ := card_short_le (a : ZMod p) ((y : ZMod p) ^ 2 - x ^ 3 - a * x)
  have hd := addOrderOf_dvd_natCard (.some (x : ZMod p) y hQ : (short (a : ZMod p) ((y : ZMod p) ^ 2 - x ^ 3 - a * x)).Point)
  rw [hord] at hd
  have := Nat.le_of_dvd Nat.card_pos hd
  omega

end Verif.Prime

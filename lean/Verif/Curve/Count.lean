import Verif.Curve.Law
import Mathlib.GroupTheory.Sylow
import Mathlib.Data.Fintype.Card
import Mathlib.GroupTheory.OrderOfElement

/-!
# Counting the points of a complete Edwards curve (helper lemmas)

The order of the group is at most `2 q` (two points for each `x` coordinate); it is a multiple of
the order of every point; and the points whose order is a power of two are few, because `(0, -1)`
is the only point of order two and a point can be halved only if `(1 - d) (1 - y²)` is a square.
-/

namespace Verif

namespace EdPoint

section
variable {K : Type*} [Field K] {d : K}

/-- The coordinates. -/
def coords (P : EdPoint K d) : K × K := (P.x, P.y)

theorem coords_injective : Function.Injective (coords (K := K) (d := d)) := by
  intro P Q h
  simp only [coords, Prod.mk.injEq] at h
  exact EdPoint.ext h.1 h.2

instance [Finite K] : Finite (EdPoint K d) := Finite.of_injective _ coords_injective

variable [hd : Fact (¬ IsSquare d)]

theorem one_sub_ne (x : K) : 1 - d * x ^ 2 ≠ 0 := by
  intro h
  have hx : x ≠ 0 := by rintro rfl; simp at h
  exact hd.out ⟨1 / x, by field_simp; linear_combination -h⟩

/-- Two points with the same `x` have the same `y` up to sign. -/
theorem y_eq_or {P Q : EdPoint K d} (h : P.x = Q.x) : P.y = Q.y ∨ P.y = -Q.y := by
  have h1 := P.on
  have h2 := Q.on
  rw [h] at h1
  have e : (1 - d * Q.x ^ 2) * (P.y ^ 2 - Q.y ^ 2) = 0 := by linear_combination h1 - h2
  have e := (mul_eq_zero.1 e).resolve_left (one_sub_ne _)
  exact sq_eq_sq_iff_eq_or_eq_neg.1 (sub_eq_zero.1 e)

/-- At most two points for each `x`. -/
theorem card_le [Finite K] : Nat.card (EdPoint K d) ≤ 2 * Nat.card K := by
  classical
  have : Fintype K := Fintype.ofFinite K
  have : Fintype (EdPoint K d) := Fintype.ofFinite _
  rw [Nat.card_eq_fintype_card, Nat.card_eq_fintype_card, ← Finset.card_univ]
  refine (Finset.card_le_mul_card_image (f := fun P : EdPoint K d => P.x) _ 2 ?_).trans
    (Nat.mul_le_mul_left _ (Finset.card_le_univ _))
  intro x hx
  obtain ⟨P, -, hP⟩ := Finset.mem_image.1 hx
  have hsub : (Finset.univ.filter fun Q : EdPoint K d => Q.x = x).image (fun Q => Q.y) ⊆
      {P.y, -P.y} := by
    intro y hy
    simp only [Finset.mem_image, Finset.mem_filter, Finset.mem_univ, true_and] at hy
    obtain ⟨Q, h1, rfl⟩ := hy
    simp only [Finset.mem_insert, Finset.mem_singleton]
    exact y_eq_or (h1.trans hP.symm)
  rw [← Finset.card_image_of_injOn (f := fun Q : EdPoint K d => Q.y)]
  · exact (Finset.card_le_card hsub).trans Finset.card_le_two
  · intro Q hQ R hR h
    simp only [Finset.coe_filter, Finset.mem_univ, true_and, Set.mem_ofPred_eq] at hQ hR
    exact EdPoint.ext (hQ.trans hR.symm) h

variable [h2 : NeZero (2 : K)]

/-- The point of order two. -/
def two : EdPoint K d := ⟨0, -1, by ring⟩

/-- A point of order four. -/
def four : EdPoint K d := ⟨1, 0, by ring⟩

theorem eq_zero_or_two {P : EdPoint K d} (h : P + P = 0) : P = 0 ∨ P = two := by
  have hn : P = -P := eq_neg_of_add_eq_zero_left h
  have hx : P.x = -P.x := congrArg EdPoint.x hn
  have x0 : P.x = 0 := by
    have : 2 * P.x = 0 := by linear_combination hx
    exact (mul_eq_zero.1 this).resolve_left h2.out
  have ho := P.on
  rw [x0] at ho
  have : P.y ^ 2 = 1 ^ 2 := by linear_combination ho
  rcases sq_eq_sq_iff_eq_or_eq_neg.1 this with h | h
  · left; exact EdPoint.ext x0 h
  · right; exact EdPoint.ext x0 h

omit hd in
theorem two_ne_zero' : (two : EdPoint K d) ≠ 0 := by
  intro h
  have h := congrArg EdPoint.y h
  simp only [two, zero_y] at h
  exact h2.out (by linear_combination -h)

theorem double_x (P : EdPoint K d) :
    (P + P).x * (P.x ^ 2 + P.y ^ 2) = 2 * P.x * P.y := by
  have h := den_pos P P
  have e : 1 + d * P.x * P.x * P.y * P.y = P.x ^ 2 + P.y ^ 2 := by linear_combination -P.on
  rw [add_x, e, div_mul_cancel₀]
  · ring
  · rwa [e] at h

theorem double_y (P : EdPoint K d) :
    2 - (P.x ^ 2 + P.y ^ 2) ≠ 0 ∧
      (P + P).y * (2 - (P.x ^ 2 + P.y ^ 2)) = P.y ^ 2 - P.x ^ 2 := by
  have h := den_neg P P
  have e : 1 - d * P.x * P.x * P.y * P.y = 2 - (P.x ^ 2 + P.y ^ 2) := by linear_combination P.on
  rw [e] at h
  refine ⟨h, ?_⟩
  rw [add_y, e, div_mul_cancel₀ _ h]
  ring

/-- The double of a point satisfies: `(1 - d) (1 - y²)` is a square. -/
theorem square_of_double (P : EdPoint K d) : IsSquare ((1 - d) * (1 - (P + P).y ^ 2)) := by
  obtain ⟨h0, h1⟩ := double_y P
  refine ⟨2 * (1 - d) * P.x * P.y / (2 - (P.x ^ 2 + P.y ^ 2)), ?_⟩
  have e : (P + P).y = (P.y ^ 2 - P.x ^ 2) / (2 - (P.x ^ 2 + P.y ^ 2)) := by
    rw [eq_div_iff h0, h1]
  rw [e, div_mul_div_comm, eq_div_iff (mul_ne_zero h0 h0)]
  have : (1 - (( P.y ^ 2 - P.x ^ 2) / (2 - (P.x ^ 2 + P.y ^ 2))) ^ 2) *
      ((2 - (P.x ^ 2 + P.y ^ 2)) * (2 - (P.x ^ 2 + P.y ^ 2))) =
      (2 - (P.x ^ 2 + P.y ^ 2)) ^ 2 - (P.y ^ 2 - P.x ^ 2) ^ 2 := by
    field_simp
  rw [mul_assoc, this]
  linear_combination (-4 * (1 - d)) * P.on

/-- Twice a point of order four: `(0, -1)`. -/
theorem y_eq_zero_of_double {P : EdPoint K d} (h : P + P = two) : P.y = 0 ∧ P.x ^ 2 = 1 := by
  have hx := double_x P
  have hy := (double_y P).2
  rw [h] at hx hy
  simp only [two] at hx hy
  have e : 2 * (P.x * P.y) = 0 := by linear_combination -hx
  have e := (mul_eq_zero.1 e).resolve_left h2.out
  have ho := P.on
  have y0 : P.y = 0 := by
    rcases mul_eq_zero.1 e with h0 | h0
    · have : 2 * (P.y ^ 2 - 1) = 0 := by
        rw [h0] at hy ho
        have : 2 * P.y ^ 2 = 2 := by linear_combination 2 * ho
        linear_combination this
      rw [h0] at hy
      have h3 := (mul_eq_zero.1 this).resolve_left h2.out
      exfalso
      apply h2.out
      linear_combination -hy + 0 * h3
    · exact h0
  refine ⟨y0, ?_⟩
  rw [y0] at ho
  linear_combination ho

/-- Twice a point of order eight. -/
theorem of_double_y_eq_zero {P : EdPoint K d} (h : (P + P).y = 0) :
    P.x ^ 2 = P.y ^ 2 ∧ (d * P.y ^ 2 - 1) ^ 2 = 1 - d := by
  have hy := (double_y P).2
  rw [h, zero_mul] at hy
  have e : P.x ^ 2 = P.y ^ 2 := by linear_combination hy
  refine ⟨e, ?_⟩
  have ho := P.on
  linear_combination (-d) * ho + (d - d ^ 2 * P.y ^ 2) * e

end

section
variable {K : Type*} [Field K] [Finite K] {d : K} [hd : Fact (¬ IsSquare d)]
  [h2 : NeZero (2 : K)]

/-- At most `2 ^ k` points have order dividing `2 ^ k`. -/
theorem card_torsion (k : Nat) : Nat.card {P : EdPoint K d // 2 ^ k • P = 0} ≤ 2 ^ k := by
  classical
  induction k with
  | zero =>
    rw [pow_zero]
    have : Subsingleton {P : EdPoint K d // 1 • P = 0} := by
      constructor
      rintro ⟨P, hP⟩ ⟨Q, hQ⟩
      simp only [one_smul] at hP hQ
      simp [hP, hQ]
    exact Finite.card_le_one_iff_subsingleton.2 this
  | succ k ih =>
    have : Fintype {P : EdPoint K d // 2 ^ k • P = 0} := Fintype.ofFinite _
    have : Fintype {P : EdPoint K d // 2 ^ (k + 1) • P = 0} := Fintype.ofFinite _
    rw [Nat.card_eq_fintype_card] at ih ⊢
    rw [← Finset.card_univ] at ih ⊢
    let f : {P : EdPoint K d // 2 ^ (k + 1) • P = 0} → {P : EdPoint K d // 2 ^ k • P = 0} :=
      fun P => ⟨P.1 + P.1, by rw [← two_nsmul, ← mul_smul, ← pow_succ]; exact P.2⟩
    have hf : ∀ x ∈ Finset.univ.image f, (Finset.univ.filter fun P => f P = x).card ≤ 2 := by
      intro x hx
      obtain ⟨P, -, hP⟩ := Finset.mem_image.1 hx
      have hsub : (Finset.univ.filter fun Q => f Q = x).image (fun Q => Q.1 - P.1) ⊆ {0, two} := by
        intro R hR
        simp only [Finset.mem_image, Finset.mem_filter, Finset.mem_univ, true_and] at hR
        obtain ⟨Q, h1, rfl⟩ := hR
        rw [Finset.mem_insert, Finset.mem_singleton]
        apply eq_zero_or_two
        have : Q.1 + Q.1 = P.1 + P.1 := congrArg Subtype.val (h1.trans hP.symm)
        rw [sub_add_sub_comm, this, sub_self]
      rw [← Finset.card_image_of_injOn (f := fun Q : {P : EdPoint K d // 2 ^ (k + 1) • P = 0} =>
        Q.1 - P.1)]
      · exact (Finset.card_le_card hsub).trans Finset.card_le_two
      · intro Q _ R _ h
        exact Subtype.ext (sub_left_injective h)
    refine (Finset.card_le_mul_card_image (f := f) _ 2 hf).trans ?_
    have e : (2 : Nat) ^ (k + 1) = 2 * 2 ^ k := pow_succ' 2 k
    exact (Nat.mul_le_mul_left 2 ((Finset.card_le_univ _).trans ih)).trans e.ge

/-- If no point has order `2 ^ (k + 1)`, then `2 ^ (k + 1)` does not divide the group order. -/
theorem not_dvd_card {k : Nat}
    (h : ∀ P : EdPoint K d, 2 ^ (k + 1) • P = 0 → 2 ^ k • P = 0) :
    ¬ 2 ^ (k + 1) ∣ Nat.card (EdPoint K d) := by
  intro hdvd
  have : Fact (Nat.Prime 2) := ⟨Nat.prime_two⟩
  obtain ⟨H, hH⟩ := Sylow.exists_subgroup_card_pow_prime (G := Multiplicative (EdPoint K d)) 2
    (n := k + 1) hdvd
  have hle := card_torsion (K := K) (d := d) k
  have : Nat.card H ≤ Nat.card {P : EdPoint K d // 2 ^ k • P = 0} := by
    refine Nat.card_le_card_of_injective (fun x => ⟨x.1.toAdd, h _ ?_⟩) ?_
    · have := pow_card_eq_one' (x := x)
      rw [hH] at this
      have := congrArg Subtype.val this
      exact this
    · intro x y hxy
      simp only [Subtype.mk.injEq] at hxy
      exact Subtype.ext hxy
  rw [hH] at this
  have := this.trans hle
  rw [pow_succ] at this
  have : 0 < 2 ^ k := by positivity
  omega

omit [Finite K] in
/-- No point of order eight when `1 - d` is not a square. -/
theorem no_order_eight (h : ¬ IsSquare (1 - d)) (P : EdPoint K d) (hP : 2 ^ 3 • P = 0) :
    2 ^ 2 • P = 0 := by
  have e4 : 2 ^ 2 • P = (P + P) + (P + P) := by
    rw [show (2 : Nat) ^ 2 = 2 * 2 by norm_num, mul_smul, two_nsmul, two_nsmul]
  have e8 : 2 ^ 2 • P + 2 ^ 2 • P = 0 := by
    rw [← two_nsmul, ← mul_smul]; exact hP
  rcases eq_zero_or_two e8 with h0 | h0
  · exact h0
  · rw [e4] at h0
    have hy := (y_eq_zero_of_double h0).1
    have hs := square_of_double P
    rw [hy] at hs
    exact absurd (by simpa using hs) h

omit [Finite K] in
/-- No point of order sixteen when the candidates for `y` of a point of order eight fail. -/
theorem no_order_sixteen
    (h : ∀ y : K, (d * y ^ 2 - 1) ^ 2 = 1 - d → ¬ IsSquare ((1 - d) * (1 - y ^ 2)))
    (P : EdPoint K d) (hP : 2 ^ 4 • P = 0) : 2 ^ 3 • P = 0 := by
  have e8 : 2 ^ 3 • P = ((P + P) + (P + P)) + ((P + P) + (P + P)) := by
    rw [show (2 : Nat) ^ 3 = 2 * (2 * 2) by norm_num, mul_smul, mul_smul, two_nsmul, two_nsmul,
      two_nsmul]
  have e16 : 2 ^ 3 • P + 2 ^ 3 • P = 0 := by
    rw [← two_nsmul, ← mul_smul]; exact hP
  rcases eq_zero_or_two e16 with h0 | h0
  · exact h0
  · rw [e8] at h0
    have hy := (y_eq_zero_of_double h0).1
    exact absurd (square_of_double P) (h _ (of_double_y_eq_zero hy).2)

omit [Finite K] in
theorem four_order : 2 ^ 2 • (four : EdPoint K d) = 0 ∧ 2 ^ 1 • (four : EdPoint K d) ≠ 0 := by
  have e : (four : EdPoint K d) + four = two := by
    ext
    · rw [add_x]; simp [four, two]
    · rw [add_y]; simp [four, two]
  have e2 : (two : EdPoint K d) + two = 0 := by
    ext
    · rw [add_x]; simp [two]
    · rw [add_y]; simp [two]
  refine ⟨?_, ?_⟩
  · rw [show (2 : Nat) ^ 2 = 2 * 2 by norm_num, mul_smul, two_nsmul, two_nsmul, e, e2]
  · rw [pow_one, two_nsmul, e]; exact two_ne_zero'

end
end EdPoint

/-- A multiple of `h` and of the prime `l`, at most `2 q`, but not a multiple of `2 h`. -/
theorem card_of_bounds {N h l q : Nat} (hN : N ≤ 2 * q) (pos : 0 < N) (h1 : h ∣ N) (h2 : l ∣ N)
    (cop : Nat.Coprime h l) (h3 : ¬ 2 * h ∣ N) (h4 : 2 * q < 3 * (h * l)) : N = h * l := by
  obtain ⟨m, rfl⟩ := Nat.Coprime.mul_dvd_of_dvd_of_dvd cop h1 h2
  have hl : 0 < h * l := Nat.pos_of_mul_pos_right pos
  have m3 : m < 3 := by
    by_contra hm
    have : h * l * 3 ≤ h * l * m := Nat.mul_le_mul_left _ (not_lt.1 hm)
    omega
  have m0 : 0 < m := Nat.pos_of_mul_pos_left pos
  have m2 : m ≠ 2 := by
    rintro rfl
    exact h3 ⟨l, by ring⟩
  have : m = 1 := by omega
  rw [this, mul_one]

end Verif

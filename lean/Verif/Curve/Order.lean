import Verif.Curve.Curves
import Verif.Field.ChainEval

/-!
# Computing multiples of a point (helper lemmas)

Double-and-add on projective coordinates in natural numbers modulo `p`, for evaluation by the
kernel, and its agreement with the group of curve points.
-/

namespace Verif
namespace Crv

/-- Projective coordinates. -/
structure Proj where
  x : Nat
  y : Nat
  z : Nat

open FieldCode in
/-- Addition modulo `p`, in continuation-passing style so that all values are evaluated. -/
def Proj.add {α : Type} (p d : Nat) (P Q : Proj) (k : Proj → α) : α :=
  forceNat (P.z * Q.z % p) fun a =>
  forceNat (a * a % p) fun b =>
  forceNat (P.x * Q.x % p) fun c =>
  forceNat (P.y * Q.y % p) fun e =>
  forceNat (d * (c * e % p) % p) fun f =>
  forceNat (a * (b + (p - f)) % p * (P.x * Q.y + P.y * Q.x) % p) fun x =>
  forceNat (a * (b + f) % p * (e + (p - c)) % p) fun y =>
  forceNat ((b + (p - f)) * (b + f) % p) fun z => k ⟨x, y, z⟩

/-- `acc + k P`, for `k < 2 ^ fuel`. -/
def Proj.smul {α : Type} (p d : Nat) (K : Proj → α) : Nat → Nat → Proj → Proj → α
  | 0, _, _, acc => K acc
  | m + 1, k, P, acc =>
    if Nat.beq (k % 2) 1 then
      acc.add p d P fun acc' => P.add p d P fun P' =>
        FieldCode.forceNat (k / 2) fun k' => Proj.smul p d K m k' P' acc'
    else P.add p d P fun P' =>
      FieldCode.forceNat (k / 2) fun k' => Proj.smul p d K m k' P' acc

variable {c : Crv}

/-- The coordinates represent the point. -/
def Proj.Is (c : Crv) (a : Proj) (P : c.Point) : Prop :=
  (a.z : c.K) ≠ 0 ∧ (a.x : c.K) = P.x * (a.z : c.K) ∧ (a.y : c.K) = P.y * (a.z : c.K)

theorem sub_cast (c : Crv) {m : Nat} (h : m < c.fld.pN) :
    ((c.fld.pN - m : Nat) : c.K) = - (m : c.K) := by
  rw [Nat.cast_sub (le_of_lt h), ZMod.natCast_self, zero_sub]

theorem Proj.add_is {α : Type} {A B : Proj} {P Q : c.Point} (hA : A.Is c P) (hB : B.Is c Q)
    (k : Proj → α) : ∃ r, A.add c.fld.pN c.dNat B k = k r ∧ r.Is c (P + Q) := by
  have pos : 0 < c.fld.pN := by have := c.fld.pN_facts.1; omega
  obtain ⟨zA, xA, yA⟩ := hA
  obtain ⟨zB, xB, yB⟩ := hB
  have dp := EdPoint.den_pos P Q
  have dm := EdPoint.den_neg P Q
  simp only [Proj.add, FieldCode.forceNat_eq]
  refine ⟨_, rfl, ?_⟩
  have e1 := sub_cast c (Nat.mod_lt (c.dNat * (A.x * B.x % c.fld.pN * (A.y * B.y % c.fld.pN) %
    c.fld.pN)) pos)
  have e2 := sub_cast c (Nat.mod_lt (A.x * B.x) pos)
  simp only [ZMod.natCast_mod, Nat.cast_mul, dNat_cast] at e1 e2
  unfold Proj.Is
  simp only [ZMod.natCast_mod, Nat.cast_mul, Nat.cast_add, e1, e2, dNat_cast]
  rw [xA, xB, yA, yB]
  generalize (A.z : c.K) = u at *
  generalize (B.z : c.K) = v at *
  have ez : (u * v * (u * v) + -(c.d * (P.x * u * (Q.x * v) * (P.y * u * (Q.y * v))))) *
      (u * v * (u * v) + c.d * (P.x * u * (Q.x * v) * (P.y * u * (Q.y * v)))) =
      (u * v) ^ 4 * (1 - c.d * P.x * Q.x * P.y * Q.y) * (1 + c.d * P.x * Q.x * P.y * Q.y) := by
    ring
  refine ⟨?_, ?_, ?_⟩
  · rw [ez]
    exact mul_ne_zero (mul_ne_zero (pow_ne_zero _ (mul_ne_zero zA zB)) dm) dp
  · rw [ez, EdPoint.add_x, div_mul_eq_mul_div, eq_div_iff dp]
    ring
  · rw [ez, EdPoint.add_y, div_mul_eq_mul_div, eq_div_iff dm]
    ring

theorem Proj.smul_is {α : Type} (K : Proj → α) : ∀ (m k : Nat) {A B : Proj} {P Q : c.Point},
    A.Is c P → B.Is c Q → k < 2 ^ m →
    ∃ r, Proj.smul c.fld.pN c.dNat K m k A B = K r ∧ r.Is c (Q + k • P) := by
  intro m
  induction m with
  | zero =>
    intro k A B P Q hA hB hk
    have : k = 0 := by simpa using hk
    subst this
    exact ⟨B, rfl, by simpa using hB⟩
  | succ m ih =>
    intro k A B P Q hA hB hk
    have hk' : k / 2 < 2 ^ m := by rw [pow_succ] at hk; omega
    rcases Nat.mod_two_eq_zero_or_one k with h | h
    · obtain ⟨A', h1, h2⟩ := Proj.add_is hA hA
        (fun P' => FieldCode.forceNat (k / 2) fun k' => Proj.smul c.fld.pN c.dNat K m k' P' B)
      obtain ⟨r, h3, h4⟩ := ih (k / 2) h2 hB hk'
      refine ⟨r, ?_, ?_⟩
      · rw [Proj.smul, h, if_neg (by decide), h1, FieldCode.forceNat_eq, h3]
      · rw [← two_nsmul, ← mul_smul, show k / 2 * 2 = k by omega] at h4
        exact h4
    · obtain ⟨A', h1, h2⟩ := Proj.add_is hA hA (fun a => a)
      obtain ⟨B', h5, h6⟩ := Proj.add_is hB hA (fun b => b)
      obtain ⟨r, h3, h4⟩ := ih (k / 2) h2 h6 hk'
      simp only [Proj.add, FieldCode.forceNat_eq] at h1 h5
      subst h1 h5
      refine ⟨r, ?_, ?_⟩
      · rw [Proj.smul, h, if_pos (by decide)]
        simp only [Proj.add, FieldCode.forceNat_eq]
        exact h3
      · rw [← two_nsmul, ← mul_smul, add_assoc, ← succ_nsmul',
          show k / 2 * 2 + 1 = k by omega] at h4
        exact h4

/-- The coordinates are those of the neutral element. -/
def Proj.isZero (p : Nat) (a : Proj) : Bool := Nat.beq (a.x % p) 0 && Nat.beq (a.y % p) (a.z % p)

theorem Proj.is_zero {a : Proj} {P : c.Point} (h : a.Is c P) :
    a.isZero c.fld.pN = true ↔ P = 0 := by
  obtain ⟨hz, hx, hy⟩ := h
  have e1 : a.x % c.fld.pN = 0 ↔ (a.x : c.K) = 0 := by
    rw [ZMod.natCast_eq_zero_iff, Nat.dvd_iff_mod_eq_zero]
  have e2 : a.y % c.fld.pN = a.z % c.fld.pN ↔ (a.y : c.K) = (a.z : c.K) := by
    rw [ZMod.natCast_eq_natCast_iff]; rfl
  rw [Proj.isZero, Bool.and_eq_true, Nat.beq_eq, Nat.beq_eq, e1, e2]
  rw [hx, hy]
  constructor
  · rintro ⟨h1, h2⟩
    ext
    · rw [EdPoint.zero_x]; exact (mul_eq_zero.1 h1).resolve_right hz
    · rw [EdPoint.zero_y]; exact mul_right_cancel₀ hz (by rw [h2, one_mul])
  · rintro rfl
    rw [EdPoint.zero_x, EdPoint.zero_y, zero_mul, one_mul]
    exact ⟨rfl, rfl⟩

/-- Decides whether `k P = 0` for an affine point. -/
def smulZero (c : Crv) (k x y : Nat) : Bool :=
  Proj.smul c.fld.pN c.dNat (fun r => r.isZero c.fld.pN) c.fld.n k ⟨x, y, 1⟩ ⟨0, 1, 1⟩

theorem smulZero_iff {k x y : Nat} {P : c.Point} (hx : (x : c.K) = P.x) (hy : (y : c.K) = P.y)
    (hk : k < 2 ^ c.fld.n) : c.smulZero k x y = true ↔ k • P = 0 := by
  have hA : (⟨x, y, 1⟩ : Proj).Is c P := by
    refine ⟨?_, ?_, ?_⟩ <;> simp [hx, hy]
  have hB : (⟨0, 1, 1⟩ : Proj).Is c 0 := by
    refine ⟨?_, ?_, ?_⟩ <;> simp [EdPoint.zero_x, EdPoint.zero_y]
  obtain ⟨r, h1, h2⟩ := Proj.smul_is (fun r => r.isZero c.fld.pN) c.fld.n k hA hB hk
  rw [smulZero, h1, Proj.is_zero h2, zero_add]

end Crv
end Verif

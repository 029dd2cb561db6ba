import Verif.Curve.Value
import Verif.Curve.Ladder
import Verif.Props.Canon

/-!
# The ladder on integers (helper lemmas)
-/

namespace Verif
open EdwardsExtended

/-- The ladder on integers, reading the given bits. -/
def ladI (c : Crv) : List Bool → EdwardsExtended Int → EdwardsExtended Int →
    (EdwardsExtended Int → Bool) → Bool
  | [], r0, _, k => k r0
  | b :: l, r0, r1, k => addF c false r0 r1 fun s =>
    bif b then doubleF c false r0 fun d => ladI c l d s k
    else doubleF c false r1 fun d => ladI c l s d k

namespace Crv
variable (c : Crv) (pr : Profile)

/-- Bits of canonical words. -/
theorem bit_canon {x : Int} {a : Elem} (ha : c.fld.Canon x a) {i : Nat}
    (hi : i < (c.scalar pr).nbits) :
    (c.scalar pr).bitNormalized a i = .ok (decide (x / 2 ^ i % 2 = 1)) := by
  rw [scalar_eq] at hi ⊢
  have hi : i < c.fld.n := by rw [← (C20_nbits c.fld).1]; exact hi
  have hn : c.fld.n ≤ c.fld.L * c.fld.k := by cases c <;> decide
  have hv := ha.2.1
  have hm : c.fld.V a % c.fld.p = x := by
    rw [hv]; exact Int.emod_eq_of_lt ha.2.2.1 ha.2.2.2
  obtain ⟨r, h1, h2⟩ := C09_normalize_partial c.fld pr ha.tight.rep (by
    have := ha.2.2; omega)
  rw [hm] at h2
  have := C09_canonical_unique c.fld h2 ha
  subst this
  obtain ⟨a', h3, h4⟩ := (C20_bit_partial c.fld pr ha.tight.rep (by
    apply Fld.Foldable.of_nonneg; rw [hv]; exact ha.2.2.1) i).1 (by omega)
  simp only [FieldCode.bit, h1, bind, Except.bind, pure, Except.pure] at h3
  split at h3
  · cases h3
  · next e =>
    cases h3
    rw [hm] at e
    exact e

theorem tight_selects : (c.scalar pr).Selects c.fld.Tight := by
  rw [scalar_eq]
  intro x y hx hy b
  exact C21_select c.fld b hx.rep.isWords hy.rep.isWords

/-- What the integer ladder computes the ladder computes. -/
theorem ladI_sound {k : Elem} {bits : List Bool} (hl : bits.length = (c.scalar pr).nbits)
    (hb : ∀ i (hi : i < bits.length),
      (c.scalar pr).bitNormalized k ((c.scalar pr).nbits - 1 - i) = .ok bits[i])
    {s : Ladder Elem} (h0 : s.r0.Ok c.fld.Tight) (h1 : s.r1.Ok c.fld.Tight)
    {κ : EdwardsExtended Int → Bool} (hk : ladI c bits (s.r0.ints c) (s.r1.ints c) κ = true) :
    ∃ s', Ladder.loop (c.scalar pr) k Ladder.body (c.scalar pr).nbits 0 s =
        .ok (s', Ladder.events (c.scalar pr).nbits 0) ∧
      s'.r0.Ok c.fld.Tight ∧ κ (s'.r0.ints c) = true := by
  obtain ⟨s', e1, e2, -, e4⟩ := Ladder.loop_inv (c.tight_selects pr) (k := k)
    (fun i r0 r1 => r0.Ok c.fld.Tight ∧ r1.Ok c.fld.Tight ∧
      ladI c (bits.drop i) (r0.ints c) (r1.ints c) κ = true)
    (fun h => ⟨h.1, h.2.1⟩) (N := (c.scalar pr).nbits) (by
      rintro i r0 r1 hi ⟨a, b, h⟩
      rw [← hl] at hi
      rw [List.drop_eq_getElem_cons hi] at h
      have hbit := hb i hi
      simp only [ladI] at h
      obtain ⟨sum, f1, f2, -, f3⟩ := c.addF_sound pr a b h
      cases hc : bits[i] with
      | true =>
        rw [hc, cond_true] at f3
        obtain ⟨dbl, g1, g2, -, g3⟩ := c.doubleF_sound pr a f3
        exact ⟨true, sum, dbl, by rw [hbit, hc], f1, g1, g2, f2, g3⟩
      | false =>
        rw [hc, cond_false] at f3
        obtain ⟨dbl, g1, g2, -, g3⟩ := c.doubleF_sound pr b f3
        exact ⟨false, sum, dbl, by rw [hbit, hc], f1, g1, f2, g2, g3⟩)
    (c.scalar pr).nbits 0 s (by omega) ⟨h0, h1, by simpa using hk⟩
  rw [← hl, List.drop_length] at e4
  exact ⟨s', e1, e2, e4⟩

/-- The bits of `x`, most significant first, as read by the ladder. -/
def ladBits (n x : Nat) : List Bool :=
  (List.range n).map fun i => Nat.beq (x / Nat.pow 2 (n - 1 - i) % 2) 1

/-- What the integer ladder computes for a canonical scalar `scalar_mult_normalized` computes. -/
theorem ladI_scalarMult {k : Elem} {x : Nat} (hk : c.fld.Canon x k) {p : EdwardsExtended Elem}
    (hp : p.Ok c.fld.Tight) {κ : EdwardsExtended Int → Bool}
    (h : ladI c (ladBits c.fld.n x) ((zero (c.scalar pr)).ints c) (p.ints c) κ = true) :
    ∃ r, p.scalarMultNormalizedT (c.scalar pr) k =
        .ok (r, Ladder.events (c.scalar pr).nbits 0) ∧
      p.scalarMult (c.scalar pr) k = .ok (r, k) ∧ r.Ok c.fld.Tight ∧ κ (r.ints c) = true := by
  have hn : (c.scalar pr).nbits = c.fld.n := by rw [scalar_eq]; exact (C20_nbits c.fld).1
  have hz : (zero (c.scalar pr)).Ok c.fld.Tight := by
    have z := (c.impl pr).zero.1
    have o := (c.impl pr).one.1
    exact ⟨z, o, o, o⟩
  obtain ⟨s', h1, h2, h3⟩ := c.ladI_sound pr (k := k) (bits := ladBits c.fld.n x)
    (by simp [ladBits, hn]) (by
      intro i hi
      have hi' : i < c.fld.n := by simpa [ladBits] using hi
      rw [c.bit_canon pr hk (by rw [hn]; omega), hn]
      congr 1
      simp only [ladBits, List.getElem_map, List.getElem_range]
      rw [Bool.eq_iff_iff, decide_eq_true_eq, Nat.beq_eq]
      change _ ↔ x / 2 ^ (c.fld.n - 1 - i) % 2 = 1
      exact_mod_cast Iff.rfl)
    (s := ⟨zero (c.scalar pr), p, zero (c.scalar pr), p, 0, false, (c.scalar pr).filled false,
      (c.scalar pr).filled false⟩) hz hp h
  have e1 : p.scalarMultNormalizedT (c.scalar pr) k =
      .ok (s'.r0, Ladder.events (c.scalar pr).nbits 0) := by
    simp only [scalarMultNormalizedT, h1, bind, Except.bind, pure, Except.pure]
  obtain ⟨r, n1, n2⟩ := C09_normalize_partial c.fld pr hk.tight.rep (by
    have := hk.2; omega)
  have hm : c.fld.V k % c.fld.p = x := by
    rw [hk.2.1]; exact Int.emod_eq_of_lt hk.2.2.1 hk.2.2.2
  rw [hm] at n2
  have := C09_canonical_unique c.fld n2 hk
  subst this
  refine ⟨s'.r0, e1, ?_, h2, h3⟩
  have e2 : (c.scalar pr).normalize r = .ok r := by rw [scalar_eq]; exact n1
  simp only [scalarMult, scalarMultNormalized, e1, e2, bind, Except.bind, pure, Except.pure]

end Crv
end Verif

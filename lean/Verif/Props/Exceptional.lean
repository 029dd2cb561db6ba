import Verif.Props.Power
import Verif.Field.ChainValue

/-!
# C15, C18: exceptional non-negative operands in `Mod_e251_9`

The run condition in `C15_invert_partial` and `C18_sqrt_partial` for `Mod_e251_9` is not only
about negative operands.  The products in the chains can reach `2 ^ 504`, where `*` drops a
carry.  Two witnesses, found by solving for operands whose intermediate values `a ^ 4`,
respectively `a ^ 6` and `a ^ 8`, are as large as representations get:

* the inverse of the sum of two canonical elements is wrong;
* the square root of a canonical quadratic residue is wrong.
-/

namespace Verif
open Fld FieldCode

/-- A canonical quadratic residue. -/
def hardSquare : Elem :=
  [57024851672561690, 49657355783911998, 26973601546562015, 62777667873879642, 1437131]

/-- One of its square roots. -/
def hardSquareRoot : Int := 0x59d4a06cd008c9aed485acbc329533b37a8cfc8ecdcd80552014dd35858a1c2

set_option maxRecDepth 100000 in
/-- C18 fails in `Mod_e251_9` even for a canonical quadratic residue: the square of the
result of `sqrt` is another residue class. -/
theorem C18_e251_counterexample (pr : Profile) :
    e251_9.Canon (e251_9.V hardSquare) hardSquare ∧
    hardSquareRoot * hardSquareRoot ≡ e251_9.V hardSquare [ZMOD e251_9.p] ∧
    ∃ r s, e251_9.code.sqrt pr hardSquare = .ok r ∧ e251_9.code.squared pr r = .ok s ∧
      ¬ e251_9.Denotes s (e251_9.V hardSquare) := by
  have hc : e251_9.Canon (e251_9.V hardSquare) hardSquare := by
    apply canon_of_canonB; decide +kernel
  refine ⟨hc, by unfold Int.ModEq; decide +kernel, ?_⟩
  have h1 : (e251_9.intRun (fun _ => none) e251_9.code.sqrtC (e251_9.V hardSquare)).isSome = true := by
    decide +kernel
  obtain ⟨y, hy⟩ := Option.isSome_iff_exists.mp h1
  have h2 : (match e251_9.intRun (fun _ => none) e251_9.code.sqrtC (e251_9.V hardSquare) with
      | some y => decide (y * y % e251_9.p = e251_9.V hardSquare % e251_9.p)
      | none => true) = false := by decide +kernel
  rw [hy] at h2
  have h2 := of_decide_eq_false h2
  obtain ⟨r, h3, h4, h5⟩ := intRun_sound' pr (q := e251_9.code.quarticLegendre pr) hc.tight hy
  obtain ⟨s, h6, -, h7⟩ := C05_square e251_9 pr h4
  refine ⟨r, s, h3, h6, fun h => h2 ?_⟩
  rw [← h5]
  exact h7.symm.trans h

/-- A canonical element. -/
def hardSummand : Elem :=
  [70608066033879502, 72057594037927935, 72057594037927935, 31525197391593471, 134217727]

set_option maxRecDepth 100000 in
/-- C15 fails in `Mod_e251_9` for the sum of two canonical elements, a positive number:
`(m_one() + b).inverted()` is not its inverse. -/
theorem C15_e251_counterexample (pr : Profile) :
    e251_9.Canon (e251_9.V hardSummand) hardSummand ∧
    ∃ a r, e251_9.code.add pr e251_9.code.M_ONE hardSummand = .ok a ∧
      0 < e251_9.V a ∧ ¬ e251_9.p ∣ e251_9.V a ∧
      e251_9.code.inverted pr a = .ok r ∧ ¬ e251_9.V a * e251_9.V r ≡ 1 [ZMOD e251_9.p] := by
  have hc : e251_9.Canon (e251_9.V hardSummand) hardSummand := by
    apply canon_of_canonB; decide +kernel
  have hm := m_one_canon e251_9
  obtain ⟨a, h1, h2, -⟩ := C01_add e251_9 pr (Tight.rep hm.tight) (Tight.rep hc.tight)
  obtain ⟨a', h1', -, h3⟩ := add_exact pr (Tight.rep hm.tight) (Tight.rep hc.tight)
  obtain rfl := ok_unique h1' h1
  have h3 : e251_9.V a' = 0xfffffff6ffffffffffffffffffffffffffffffffffffffffffad9a9763a09c4 := by
    rw [h3, hm.2.1]; decide +kernel
  refine ⟨hc, a', ?_⟩
  have k1 : (e251_9.intRun (fun _ => none) e251_9.code.invertC
      0xfffffff6ffffffffffffffffffffffffffffffffffffffffffad9a9763a09c4).isSome = true := by
    decide +kernel
  obtain ⟨y, hy⟩ := Option.isSome_iff_exists.mp k1
  have k2 : (match e251_9.intRun (fun _ => none) e251_9.code.invertC
        0xfffffff6ffffffffffffffffffffffffffffffffffffffffffad9a9763a09c4 with
      | some y => decide (0xfffffff6ffffffffffffffffffffffffffffffffffffffffffad9a9763a09c4 * y
          % e251_9.p = 1 % e251_9.p)
      | none => true) = false := by decide +kernel
  rw [hy] at k2
  have k2 := of_decide_eq_false k2
  rw [← h3] at hy
  obtain ⟨r, h4, h5, h6⟩ := intRun_sound' pr (q := noQuartic) h2 hy
  refine ⟨r, h1, ?_, ?_, h4, fun h => k2 ?_⟩
  · rw [h3]; decide
  · rw [h3]; decide +kernel
  · rw [h3, h6] at h
    exact h

end Verif

import Lean.Elab.Tactic
import Verif.Rust.Grammar
import Verif.Rust.Parse

/-!
# Reading a text

The text of a file is a list of lines; `readText` runs the reader of `Grammar.lean` on the codes of their
characters.  The kernel would spend minutes taking the string literals apart, so the modules of this
directory state the two halves on given codes: the lines are the strings with these codes, and the reader
finds the program in the codes.
-/

namespace Verif.Rust

/-- The program of a list of lines. -/
def readText (lines : List String) : Option Program :=
  Grammar.read (lines.map fun l => l.toList.map Char.toNat)

/-- The lines with given codes of characters. -/
def linesOfCodes (codes : List (List Nat)) : List String :=
  codes.map fun l => String.ofList (l.map Char.ofNat)

/-- All characters are ASCII characters. -/
def isAscii (codes : List (List Nat)) : Bool := codes.all fun l => l.all fun c => Nat.blt c 128

theorem toNat_ofNat_ascii {c : Nat} (h : c < 128) : (Char.ofNat c).toNat = c := by
  have hv : c.isValidChar := Or.inl (by omega)
  rw [Char.ofNat, dif_pos hv]
  simp [Char.toNat, Char.ofNatAux]

theorem readText_of {lines : List String} {codes : List (List Nat)} {P : Program}
    (ha : isAscii codes = true) (hl : linesOfCodes codes = lines) (hr : Grammar.read codes = some P) :
    readText lines = some P := by
  subst hl
  rw [readText, linesOfCodes, List.map_map, ← hr]
  congr 1
  conv => rhs; rw [← List.map_id codes]
  refine List.map_congr_left fun l hl => ?_
  have hl' := List.all_eq_true.mp ha l hl
  simp only [Function.comp_apply, String.toList_ofList, List.map_map, id]
  conv => rhs; rw [← List.map_id l]
  refine List.map_congr_left fun c hc => ?_
  have := List.all_eq_true.mp hl' c hc
  simp only [Function.comp_apply, id]
  exact toNat_ofNat_ascii (by simpa [Nat.blt_eq] using this)

end Verif.Rust

open Lean Elab Tactic Meta in
/-- An equation between closed terms, by evaluation in the kernel. -/
elab "kernel_rfl" : tactic => do
  let g ← getMainGoal
  let t ← instantiateMVars (← g.getType)
  let some (α, a, _) := t.eq? | throwError "not an equation"
  let u ← getLevel α
  g.assign (mkApp2 (mkConst ``Eq.refl [u]) α a)
  replaceMainGoal []

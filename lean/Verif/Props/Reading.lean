import Verif.Rust.Basic
import Verif.Rust.Formulas
import Verif.Rust.Layout
import Verif.Rust.Read.E221_3
import Verif.Rust.Read.E222_117
import Verif.Rust.Read.E251_9
import Verif.Rust.Read.E255_19
import Verif.Rust.Read.E382_105
import Verif.Rust.Read.E383_187
import Verif.Rust.Read.E414_17
import Verif.Rust.Read.E511_187
import Verif.Rust.Read.E521_1
import Verif.Rust.Read.Curves

/-!
# C60: the programs are what the text of the files says

The programs about which C54, C55, C56 and C59 speak were read from the text of the files by the parser of
`Rust/Parse.lean` when the modules were elaborated.  Here the text itself is an object of the logic, a list
of lines for every file, and a reader that is a total function of the logic (`Rust/Grammar.lean`, written
separately from the parser) is proved to find exactly the same programs in it.  The layout of the text is
proved not to matter: blank lines, comments at the end of lines and indentation may be inserted anywhere.
-/

namespace Verif

open Rust

/-- The lines of the file of a field up to `#[cfg(test)]`. -/
noncomputable def srcText : Fld → List String
  | .e221_3 => Source.e221_3Text
  | .e222_117 => Source.e222_117Text
  | .e251_9 => Source.e251_9Text
  | .e255_19 => Source.e255_19Text
  | .e382_105 => Source.e382_105Text
  | .e383_187 => Source.e383_187Text
  | .e414_17 => Source.e414_17Text
  | .e511_187 => Source.e511_187Text
  | .e521_1 => Source.e521_1Text

/-- The lines of the file of a curve. -/
noncomputable def crvText : Crv → List String
  | .e222 => Source.e222Text
  | .curve1174 => Source.curve1174Text
  | .e382 => Source.e382Text
  | .curve41417 => Source.curve41417Text
  | .e521 => Source.e521Text

/-- The text of every field file reads as the program of C54. -/
theorem C60_field (f : Fld) : readText (srcText f) = some (src f) := by
  cases f
  · exact Read.e221_3
  · exact Read.e222_117
  · exact Read.e251_9
  · exact Read.e255_19
  · exact Read.e382_105
  · exact Read.e383_187
  · exact Read.e414_17
  · exact Read.e511_187
  · exact Read.e521_1

/-- The text of `edwards.rs` reads as the program of C55. -/
theorem C60_edwards : readText Source.edwardsText = some Source.edwards := Read.edwards

/-- The text of every curve file reads as the program of C55. -/
theorem C60_curve (c : Crv) : readText (crvText c) = some (crvSrc c) := by
  cases c
  · exact Read.e222
  · exact Read.curve1174
  · exact Read.e382
  · exact Read.curve41417
  · exact Read.e521

/-- The program of a curve is what the text of its three files says, put together. -/
theorem C60_program (c : Crv) : ∃ F E C, readText (srcText c.fld) = some F ∧
    readText Source.edwardsText = some E ∧ readText (crvText c) = some C ∧ crvProg c = (F.join E).join C :=
  ⟨_, _, _, C60_field c.fld, C60_edwards, C60_curve c, rfl⟩

/-- The reader finds at most one program, and different files have different programs. -/
theorem C60_distinct {f g : Fld} (h : srcText f = srcText g) : f = g := by
  have h' : src f = src g := Option.some.inj (by rw [← C60_field, ← C60_field, h])
  have hc : ((src f).impls.map (·.self.name)) = (src g).impls.map (·.self.name) := by rw [h']
  revert hc
  cases f <;> cases g <;> first | exact fun _ => rfl | (intro hc; exact absurd hc (by decide +kernel))

/-! ### The layout of a text does not matter

For all texts, not only those of the files. -/

open Grammar in
/-- Lines with spaces or a comment only may be inserted or removed anywhere. -/
theorem C60_blank_line (a b : List (List Nat)) (k : ℕ) (u : List Nat) :
    read (a ++ List.replicate k 32 :: b) = read (a ++ b) ∧
      read (a ++ (List.replicate k 32 ++ 47 :: 47 :: u) :: b) = read (a ++ b) :=
  ⟨read_blank (by simpa [toks, lexLine] using toks_indent k []) a b,
    read_blank (by rw [toks_indent, toks_comment]) a b⟩

open Grammar in
/-- Every line may be indented. -/
theorem C60_indent (a b : List (List Nat)) (k : ℕ) (l : List Nat) :
    read (a ++ (List.replicate k 32 ++ l) :: b) = read (a ++ l :: b) :=
  read_line (toks_indent k l) a b

open Grammar in
/-- A comment may be put after every line of a text that can be read. -/
theorem C60_comment (a b : List (List Nat)) (l u : List Nat) {P : Program}
    (h : read (a ++ l :: b) = some P) : read (a ++ (l ++ 32 :: 47 :: 47 :: u) :: b) = some P := by
  rw [← h]
  cases hl : toks l with
  | none => rw [Grammar.read, lex_append, lex_cons, hl] at h; cases hq : lex a <;> simp [hq] at h
  | some s => exact read_line ((toks_append_comment hl u).trans hl.symm) a b

open Grammar in
/-- A line may be broken at every space that is not in a string or a comment: what is before the space has
tokens by itself, and no `//`. -/
theorem C60_break (a b : List (List Nat)) (l u : List Nat) (h : (toks l).isSome) (hc : ¬[47, 47] <:+: l) :
    read (a ++ (l ++ 32 :: u) :: b) = read (a ++ l :: u :: b) := by
  obtain ⟨s, hs⟩ := Option.isSome_iff_exists.mp h
  exact read_break hs hc u a b

/-! ### The reader on small texts -/

/-- Expressions with all operators without brackets. -/
noncomputable def precText : List String := rust_lines%
r"const A : i32 = 1 + 2 * 3 & 4 << 5 | a - b as u8 as i64 - !c[1] * d.0 >> 1 & 7;
const B : bool = x & 3 == 1 | 2; // comment
const C : [u8; 2] = [0x1fu8, 0b101 / 2 % 3 * 1,];"

/-- The parser of `Parse.lean` reads the text as the reader of `Grammar.lean` does. -/
example : readText precText = some (rust_file% precText) := by decide +kernel

/-- `const A : i32 = 1 + 2 * 3 & 4 << 5;`: multiplication binds tighter than addition, addition tighter than
shifts, shifts tighter than `&`. -/
example : readText ["const A : i32 = 1 + 2 * 3", "  & 4 << 5; // no more"] =
    some ⟨[(id! "A", ⟨false, false, id! "i32"⟩,
      .bin .and (.bin .add (.lit none 1) (.bin .mul (.lit none 2) (.lit none 3)))
        (.bin .shl (.lit none 4) (.lit none 5)))], []⟩ := by
  decide +kernel

/-- Operators of the same precedence associate to the left; `as` binds tighter than `*`, `*` less tightly
than `!` and indexing. -/
example : readText ["const A : i32 = a[0] - b as i64 - !c[1] * d;"] =
    some ⟨[(id! "A", ⟨false, false, id! "i32"⟩,
      .bin .sub (.bin .sub (.index (.var (id! "a")) (.lit none 0)) (.cast (.var (id! "b")) .i64))
        (.bin .mul (.not (.index (.var (id! "c")) (.lit none 1))) (.var (id! "d"))))], []⟩ := by
  decide +kernel

/-- A text with a missing bracket, an unknown operator or an unknown statement is not read. -/
example : readText ["const A : i32 = (1 + 2;"] = none ∧ readText ["const A : i32 = 1 ^ 2;"] = none ∧
    readText ["impl A { fn f(&self) { while x { } } }"] = none := by
  refine ⟨?_, ?_, ?_⟩ <;> decide +kernel

end Verif

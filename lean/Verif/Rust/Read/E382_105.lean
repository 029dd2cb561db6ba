import Verif.Rust.Read.Basic
import Verif.Rust.Read.E383_187 -- not used; large files are checked one after the other
import Verif.Rust.Source.E382_105

/-! # Reading `/repo/src/field/mod_e382_105.rs` -/

namespace Verif.Rust.Read

set_option maxRecDepth 1000000

/-- The codes of the characters of `Source.e382_105Text`. -/
noncomputable def e382_105Codes : List (List Nat) := rust_codes% Source.e382_105Text

theorem e382_105_ascii : isAscii e382_105Codes = true := by kernel_rfl

theorem e382_105_lines : linesOfCodes e382_105Codes = Source.e382_105Text := by kernel_rfl

theorem e382_105_read : Grammar.read e382_105Codes = some Source.e382_105 := by kernel_rfl

theorem e382_105 : readText Source.e382_105Text = some Source.e382_105 :=
  readText_of e382_105_ascii e382_105_lines e382_105_read

end Verif.Rust.Read

import Verif.Rust.Read.Basic
import Verif.Rust.Source.E383_187

/-! # Reading `/repo/src/field/mod_e383_187.rs` -/

namespace Verif.Rust.Read

set_option maxRecDepth 1000000

/-- The codes of the characters of `Source.e383_187Text`. -/
noncomputable def e383_187Codes : List (List Nat) := rust_codes% Source.e383_187Text

theorem e383_187_ascii : isAscii e383_187Codes = true := by kernel_rfl

theorem e383_187_lines : linesOfCodes e383_187Codes = Source.e383_187Text := by kernel_rfl

theorem e383_187_read : Grammar.read e383_187Codes = some Source.e383_187 := by kernel_rfl

theorem e383_187 : readText Source.e383_187Text = some Source.e383_187 :=
  readText_of e383_187_ascii e383_187_lines e383_187_read

end Verif.Rust.Read

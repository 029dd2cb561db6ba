import Verif.Rust.Read.Basic
import Verif.Rust.Source.E511_187

/-! # Reading `/repo/src/field/mod_e511_187.rs` -/

namespace Verif.Rust.Read

set_option maxRecDepth 1000000

/-- The codes of the characters of `Source.e511_187Text`. -/
noncomputable def e511_187Codes : List (List Nat) := rust_codes% Source.e511_187Text

theorem e511_187_ascii : isAscii e511_187Codes = true := by kernel_rfl

theorem e511_187_lines : linesOfCodes e511_187Codes = Source.e511_187Text := by kernel_rfl

theorem e511_187_read : Grammar.read e511_187Codes = some Source.e511_187 := by kernel_rfl

theorem e511_187 : readText Source.e511_187Text = some Source.e511_187 :=
  readText_of e511_187_ascii e511_187_lines e511_187_read

end Verif.Rust.Read

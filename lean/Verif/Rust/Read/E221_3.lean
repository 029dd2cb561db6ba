import Verif.Rust.Read.Basic
import Verif.Rust.Read.E222_117 -- not used; large files are checked one after the other
import Verif.Rust.Source.E221_3

/-! # Reading `/repo/src/field/mod_e221_3.rs` -/

namespace Verif.Rust.Read

set_option maxRecDepth 1000000

/-- The codes of the characters of `Source.e221_3Text`. -/
noncomputable def e221_3Codes : List (List Nat) := rust_codes% Source.e221_3Text

theorem e221_3_ascii : isAscii e221_3Codes = true := by kernel_rfl

theorem e221_3_lines : linesOfCodes e221_3Codes = Source.e221_3Text := by kernel_rfl

theorem e221_3_read : Grammar.read e221_3Codes = some Source.e221_3 := by kernel_rfl

theorem e221_3 : readText Source.e221_3Text = some Source.e221_3 :=
  readText_of e221_3_ascii e221_3_lines e221_3_read

end Verif.Rust.Read

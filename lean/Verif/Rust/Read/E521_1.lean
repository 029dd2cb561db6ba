import Verif.Rust.Read.Basic
import Verif.Rust.Read.E511_187 -- not used; large files are checked one after the other
import Verif.Rust.Source.E521_1

/-! # Reading `/repo/src/field/mod_e521_1.rs` -/

namespace Verif.Rust.Read

set_option maxRecDepth 1000000

/-- The codes of the characters of `Source.e521_1Text`. -/
noncomputable def e521_1Codes : List (List Nat) := rust_codes% Source.e521_1Text

theorem e521_1_ascii : isAscii e521_1Codes = true := by kernel_rfl

theorem e521_1_lines : linesOfCodes e521_1Codes = Source.e521_1Text := by kernel_rfl

theorem e521_1_read : Grammar.read e521_1Codes = some Source.e521_1 := by kernel_rfl

theorem e521_1 : readText Source.e521_1Text = some Source.e521_1 :=
  readText_of e521_1_ascii e521_1_lines e521_1_read

end Verif.Rust.Read

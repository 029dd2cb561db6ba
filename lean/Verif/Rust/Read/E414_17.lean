import Verif.Rust.Read.Basic
import Verif.Rust.Read.E521_1 -- not used; large files are checked one after the other
import Verif.Rust.Source.E414_17

/-! # Reading `/repo/src/field/mod_e414_17.rs` -/

namespace Verif.Rust.Read

set_option maxRecDepth 1000000

/-- The codes of the characters of `Source.e414_17Text`. -/
noncomputable def e414_17Codes : List (List Nat) := rust_codes% Source.e414_17Text

theorem e414_17_ascii : isAscii e414_17Codes = true := by kernel_rfl

theorem e414_17_lines : linesOfCodes e414_17Codes = Source.e414_17Text := by kernel_rfl

theorem e414_17_read : Grammar.read e414_17Codes = some Source.e414_17 := by kernel_rfl

theorem e414_17 : readText Source.e414_17Text = some Source.e414_17 :=
  readText_of e414_17_ascii e414_17_lines e414_17_read

end Verif.Rust.Read

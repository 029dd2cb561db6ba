import Verif.Rust.Read.Basic
import Verif.Rust.Read.E255_19 -- not used; large files are checked one after the other
import Verif.Rust.Source.E251_9

/-! # Reading `/repo/src/field/mod_e251_9.rs` -/

namespace Verif.Rust.Read

set_option maxRecDepth 1000000

/-- The codes of the characters of `Source.e251_9Text`. -/
noncomputable def e251_9Codes : List (List Nat) := rust_codes% Source.e251_9Text

theorem e251_9_ascii : isAscii e251_9Codes = true := by kernel_rfl

theorem e251_9_lines : linesOfCodes e251_9Codes = Source.e251_9Text := by kernel_rfl

theorem e251_9_read : Grammar.read e251_9Codes = some Source.e251_9 := by kernel_rfl

theorem e251_9 : readText Source.e251_9Text = some Source.e251_9 :=
  readText_of e251_9_ascii e251_9_lines e251_9_read

end Verif.Rust.Read

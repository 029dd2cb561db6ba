import Verif.Rust.Read.Basic
import Verif.Rust.Read.E414_17 -- not used; large files are checked one after the other
import Verif.Rust.Source.E222_117

/-! # Reading `/repo/src/field/mod_e222_117.rs` -/

namespace Verif.Rust.Read

set_option maxRecDepth 1000000

/-- The codes of the characters of `Source.e222_117Text`. -/
noncomputable def e222_117Codes : List (List Nat) := rust_codes% Source.e222_117Text

theorem e222_117_ascii : isAscii e222_117Codes = true := by kernel_rfl

theorem e222_117_lines : linesOfCodes e222_117Codes = Source.e222_117Text := by kernel_rfl

theorem e222_117_read : Grammar.read e222_117Codes = some Source.e222_117 := by kernel_rfl

theorem e222_117 : readText Source.e222_117Text = some Source.e222_117 :=
  readText_of e222_117_ascii e222_117_lines e222_117_read

end Verif.Rust.Read

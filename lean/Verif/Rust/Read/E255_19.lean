import Verif.Rust.Read.Basic
import Verif.Rust.Read.E382_105 -- not used; large files are checked one after the other
import Verif.Rust.Source.E255_19

/-! # Reading `/repo/src/field/mod_e255_19.rs` -/

namespace Verif.Rust.Read

set_option maxRecDepth 1000000

/-- The codes of the characters of `Source.e255_19Text`. -/
noncomputable def e255_19Codes : List (List Nat) := rust_codes% Source.e255_19Text

theorem e255_19_ascii : isAscii e255_19Codes = true := by kernel_rfl

theorem e255_19_lines : linesOfCodes e255_19Codes = Source.e255_19Text := by kernel_rfl

theorem e255_19_read : Grammar.read e255_19Codes = some Source.e255_19 := by kernel_rfl

theorem e255_19 : readText Source.e255_19Text = some Source.e255_19 :=
  readText_of e255_19_ascii e255_19_lines e255_19_read

end Verif.Rust.Read

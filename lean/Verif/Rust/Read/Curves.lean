import Verif.Rust.Read.Basic
import Verif.Rust.Source.Curves

/-! # Reading the files of `/repo/src/curve` -/

namespace Verif.Rust.Read

set_option maxRecDepth 1000000

/-- The codes of the characters of `Source.edwardsText`. -/
noncomputable def edwardsCodes : List (List Nat) := rust_codes% Source.edwardsText

theorem edwards_ascii : isAscii edwardsCodes = true := by kernel_rfl

theorem edwards_lines : linesOfCodes edwardsCodes = Source.edwardsText := by kernel_rfl

theorem edwards_read : Grammar.read edwardsCodes = some Source.edwards := by kernel_rfl

theorem edwards : readText Source.edwardsText = some Source.edwards :=
  readText_of edwards_ascii edwards_lines edwards_read

/-- The codes of the characters of `Source.e222Text`. -/
noncomputable def e222Codes : List (List Nat) := rust_codes% Source.e222Text

theorem e222_ascii : isAscii e222Codes = true := by kernel_rfl

theorem e222_lines : linesOfCodes e222Codes = Source.e222Text := by kernel_rfl

theorem e222_read : Grammar.read e222Codes = some Source.e222 := by kernel_rfl

theorem e222 : readText Source.e222Text = some Source.e222 :=
  readText_of e222_ascii e222_lines e222_read

/-- The codes of the characters of `Source.curve1174Text`. -/
noncomputable def curve1174Codes : List (List Nat) := rust_codes% Source.curve1174Text

theorem curve1174_ascii : isAscii curve1174Codes = true := by kernel_rfl

theorem curve1174_lines : linesOfCodes curve1174Codes = Source.curve1174Text := by kernel_rfl

theorem curve1174_read : Grammar.read curve1174Codes = some Source.curve1174 := by kernel_rfl

theorem curve1174 : readText Source.curve1174Text = some Source.curve1174 :=
  readText_of curve1174_ascii curve1174_lines curve1174_read

/-- The codes of the characters of `Source.e382Text`. -/
noncomputable def e382Codes : List (List Nat) := rust_codes% Source.e382Text

theorem e382_ascii : isAscii e382Codes = true := by kernel_rfl

theorem e382_lines : linesOfCodes e382Codes = Source.e382Text := by kernel_rfl

theorem e382_read : Grammar.read e382Codes = some Source.e382 := by kernel_rfl

theorem e382 : readText Source.e382Text = some Source.e382 :=
  readText_of e382_ascii e382_lines e382_read

/-- The codes of the characters of `Source.curve41417Text`. -/
noncomputable def curve41417Codes : List (List Nat) := rust_codes% Source.curve41417Text

theorem curve41417_ascii : isAscii curve41417Codes = true := by kernel_rfl

theorem curve41417_lines : linesOfCodes curve41417Codes = Source.curve41417Text := by kernel_rfl

theorem curve41417_read : Grammar.read curve41417Codes = some Source.curve41417 := by kernel_rfl

theorem curve41417 : readText Source.curve41417Text = some Source.curve41417 :=
  readText_of curve41417_ascii curve41417_lines curve41417_read

/-- The codes of the characters of `Source.e521Text`. -/
noncomputable def e521Codes : List (List Nat) := rust_codes% Source.e521Text

theorem e521_ascii : isAscii e521Codes = true := by kernel_rfl

theorem e521_lines : linesOfCodes e521Codes = Source.e521Text := by kernel_rfl

theorem e521_read : Grammar.read e521Codes = some Source.e521 := by kernel_rfl

theorem e521 : readText Source.e521Text = some Source.e521 :=
  readText_of e521_ascii e521_lines e521_read

end Verif.Rust.Read

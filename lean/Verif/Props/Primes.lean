import Verif.Spec
import Verif.Prime.Certs

/-!
# Property C36: the moduli are prime
-/

namespace Verif
open Fld Verif.Prime

private theorem of_eq {a b : Nat} (h : a = b) (hb : Nat.Prime b) : Nat.Prime a := h ▸ hb

/-- All nine moduli `2 ^ n - c` are prime. -/
theorem C36_moduli_prime (f : Fld) : Nat.Prime (2 ^ f.n - f.c) := by
  cases f with
  | e221_3 => exact of_eq (by decide +kernel) prime_221_281149
  | e222_117 => exact of_eq (by decide +kernel) prime_222_562187
  | e251_9 => exact of_eq (by decide +kernel) prime_251_301239
  | e255_19 => exact of_eq (by decide +kernel) prime_255_819949
  | e382_105 => exact of_eq (by decide +kernel) prime_382_576599
  | e383_187 => exact of_eq (by decide +kernel) prime_383_153221
  | e414_17 => exact of_eq (by decide +kernel) prime_414_472367
  | e511_187 => exact of_eq (by decide +kernel) prime_511_041861
  | e521_1 => exact of_eq (by decide +kernel) prime_521_057151

end Verif

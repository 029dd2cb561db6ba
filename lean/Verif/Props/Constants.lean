import Verif.Field.ChainSym

/-!
# The exported constants of the field files

Property C19: the documented constants.  `docTable` lists, for every `pub const`
of the nine `src/field/mod_e*.rs` that names a curve parameter, the integer *as
written in its doc comment* in the source; the model's constants are the digit
arrays.  The theorems compare the two.
-/

namespace Verif

/-- One documented constant: its name, its type, the integer of its doc comment, its digits. -/
structure DocConst where
  name : String
  fld : Fld
  doc : Int
  val : Elem

/-- The doc comments of the curve constants.  Every line cites the file and lines of the source. -/
def docTable : List DocConst :=
  [
    -- src/field/mod_e221_3.rs 68-69
    { name := "M221_BASE_X", fld := .e221_3,
      doc := 0x4,
      val := Fields.E221_3.M221_BASE_X },
    -- src/field/mod_e221_3.rs 71-75
    { name := "M221_BASE_Y", fld := .e221_3,
      doc := 0xf7acdd2a4939571d1cef14eca37c228e61dbff10707dc6c08c5056d,
      val := Fields.E221_3.M221_BASE_Y },
    -- src/field/mod_e221_3.rs 77-81
    { name := "M221_ORDER", fld := .e221_3,
      doc := 2 ^ 218 + 438651314700378199859927091142747,
      val := Fields.E221_3.M221_ORDER },
    -- src/field/mod_e222_117.rs 59-61
    { name := "E222_D", fld := .e222_117,
      doc := 160102,
      val := Fields.E222_117.E222_D },
    -- src/field/mod_e222_117.rs 63-67
    { name := "E222_BASE_X", fld := .e222_117,
      doc := 0x19b12bb156a389e55c9768c303316d07c23adab3736eb2bc3eb54e51,
      val := Fields.E222_117.E222_BASE_X },
    -- src/field/mod_e222_117.rs 69-70
    { name := "E222_BASE_Y", fld := .e222_117,
      doc := 0x1c,
      val := Fields.E222_117.E222_BASE_Y },
    -- src/field/mod_e222_117.rs 72-76
    { name := "E222_ORDER", fld := .e222_117,
      doc := 2 ^ 218 + 438651314700378199859927091142747,
      val := Fields.E222_117.E222_ORDER },
    -- src/field/mod_e251_9.rs 62-67
    { name := "CURVE1174_D", fld := .e251_9,
      doc := -1174,
      val := Fields.E251_9.CURVE1174_D },
    -- src/field/mod_e251_9.rs 69-74
    { name := "CURVE1174_BASE_X", fld := .e251_9,
      doc := 0x37fbb0cea308c479343aee7c029a190c021d96a492ecd6516123f27bce29eda,
      val := Fields.E251_9.CURVE1174_BASE_X },
    -- src/field/mod_e251_9.rs 76-81
    { name := "CURVE1174_BASE_Y", fld := .e251_9,
      doc := 0x6b72f82d47fb7cc6656841169840e0c4fe2dee2af3f976ba4ccb1bf9b46360e,
      val := Fields.E251_9.CURVE1174_BASE_Y },
    -- src/field/mod_e251_9.rs 83-88
    { name := "CURVE1174_ORDER", fld := .e251_9,
      doc := 2 ^ 249 - 11332719920821432534773113288178349711,
      val := Fields.E251_9.CURVE1174_ORDER },
    -- src/field/mod_e255_19.rs 72-73
    { name := "CURVE25519_BASE_X", fld := .e255_19,
      doc := 0x9,
      val := Fields.E255_19.CURVE25519_BASE_X },
    -- src/field/mod_e255_19.rs 75-80
    { name := "CURVE25519_BASE_Y", fld := .e255_19,
      doc := 0x20ae19a1b8a086b4e01edd2c7748d14c923d4d7e6d7c61b229e9c5a27eced3d9,
      val := Fields.E255_19.CURVE25519_BASE_Y },
    -- src/field/mod_e255_19.rs 82-87
    { name := "CURVE25519_ORDER", fld := .e255_19,
      doc := 2 ^ 252 + 27742317777372353535851937790883648493,
      val := Fields.E255_19.CURVE25519_ORDER },
    -- src/field/mod_e382_105.rs 63-69
    { name := "E382_D", fld := .e382_105,
      doc := -67254,
      val := Fields.E382_105.E382_D },
    -- src/field/mod_e382_105.rs 71-77
    { name := "E382_BASE_X", fld := .e382_105,
      doc := 0x196f8dd0eab20391e5f05be96e8d20ae68f840032b0b64352923bab85364841193517dbce8105398ebc0cc9470f79603,
      val := Fields.E382_105.E382_BASE_X },
    -- src/field/mod_e382_105.rs 79-80
    { name := "E382_BASE_Y", fld := .e382_105,
      doc := 0x11,
      val := Fields.E382_105.E382_BASE_Y },
    -- src/field/mod_e382_105.rs 82-88
    { name := "E382_ORDER", fld := .e382_105,
      doc := 2 ^ 380 - 1030303207694556153926491950732314247062623204330168346855,
      val := Fields.E382_105.E382_ORDER },
    -- src/field/mod_e383_187.rs 76-77
    { name := "M383_BASE_X", fld := .e383_187,
      doc := 0xc,
      val := Fields.E383_187.M383_BASE_X },
    -- src/field/mod_e383_187.rs 79-85
    { name := "M383_BASE_Y", fld := .e383_187,
      doc := 0x1ec7ed04aaf834af310e304b2da0f328e7c165f0e8988abd3992861290f617aa1f1b2e7d0b6e332e969991b62555e77e,
      val := Fields.E383_187.M383_BASE_Y },
    -- src/field/mod_e383_187.rs 87-92
    { name := "M383_ORDER", fld := .e383_187,
      doc := 2 ^ 380 + 166236275931373516105219794935542153308039234455761613271,
      val := Fields.E383_187.M383_ORDER },
    -- src/field/mod_e383_187.rs 94-96
    { name := "CURVE383187_BASE_X", fld := .e383_187,
      doc := 0x5,
      val := Fields.E383_187.CURVE383187_BASE_X },
    -- src/field/mod_e383_187.rs 98-104
    { name := "CURVE383187_BASE_Y", fld := .e383_187,
      doc := 0x1eebe07dc1871896732b12d5504a32370471965c7a11f2c89865f855ab3cbd7c224e3620c31af3370788457dd5ce46df,
      val := Fields.E383_187.CURVE383187_BASE_Y },
    -- src/field/mod_e383_187.rs 106-111
    { name := "CURVE383187_ORDER", fld := .e383_187,
      doc := 2 ^ 380 + 356080847217269887368687156533236720299699248977882517025,
      val := Fields.E383_187.CURVE383187_ORDER },
    -- src/field/mod_e414_17.rs 63-66
    { name := "CURVE41417_D", fld := .e414_17,
      doc := 3617,
      val := Fields.E414_17.CURVE41417_D },
    -- src/field/mod_e414_17.rs 69-75
    { name := "CURVE41417_BASE_X", fld := .e414_17,
      doc := 0x1a334905141443300218c0631c326e5fcd46369f44c03ec7f57ff35498a4ab4d6d6ba111301a73faa8537c64c4fd3812f3cbc595,
      val := Fields.E414_17.CURVE41417_BASE_X },
    -- src/field/mod_e414_17.rs 77-79
    { name := "CURVE41417_BASE_Y", fld := .e414_17,
      doc := 0x22,
      val := Fields.E414_17.CURVE41417_BASE_Y },
    -- src/field/mod_e414_17.rs 81-87
    { name := "CURVE41417_ORDER", fld := .e414_17,
      doc := 2 ^ 411 - 33364140863755142520810177694098385178984727200411208589594759,
      val := Fields.E414_17.CURVE41417_ORDER },
    -- src/field/mod_e511_187.rs 80-82
    { name := "M511_BASE_X", fld := .e511_187,
      doc := 0x5,
      val := Fields.E511_187.M511_BASE_X },
    -- src/field/mod_e511_187.rs 84-91
    { name := "M511_BASE_Y", fld := .e511_187,
      doc := 0x2fbdc0ad8530803d28fdbad354bb488d32399ac1cf8f6e01ee3f96389b90c809422b9429e8a43dbf49308ac4455940abe9f1dbca542093a895e30a64af056fa5,
      val := Fields.E511_187.M511_BASE_Y },
    -- src/field/mod_e511_187.rs 93-99
    { name := "M511_ORDER", fld := .e511_187,
      doc := 2 ^ 508 + 10724754759635747624044531514068121842070756627434833028965540808827675062043,
      val := Fields.E511_187.M511_ORDER },
    -- src/field/mod_e521_1.rs 65-72
    { name := "E521_D", fld := .e521_1,
      doc := -376014,
      val := Fields.E521_1.E521_D },
    -- src/field/mod_e521_1.rs 74-81
    { name := "E521_BASE_X", fld := .e521_1,
      doc := 0x752cb45c48648b189df90cb2296b2878a3bfd9f42fc6c818ec8bf3c9c0c6203913f6ecc5ccc72434b1ae949d568fc99c6059d0fb13364838aa302a940a2f19ba6c,
      val := Fields.E521_1.E521_BASE_X },
    -- src/field/mod_e521_1.rs 83-85
    { name := "E521_BASE_Y", fld := .e521_1,
      doc := 0xc,
      val := Fields.E521_1.E521_BASE_Y },
    -- src/field/mod_e521_1.rs 87-94
    { name := "E521_ORDER", fld := .e521_1,
      doc := 2 ^ 519 - 337554763258501705789107630418782636071904961214051226618635150085779108655765,
      val := Fields.E521_1.E521_ORDER } ]

/-- Full statement of the second half of C19: every documented constant is the canonical
representation of the integer in its doc comment.  It is false for `E222_ORDER`. -/
def C19_statement : Prop := ∀ r ∈ docTable, r.fld.Canon (r.doc % r.fld.p) r.val

set_option maxRecDepth 100000 in
/-- 34 of the 35 documented curve constants are the canonical representations of the documented
integers (negative `d` values modulo `p`); the exception is `E222_ORDER`. -/
theorem C19_documented_partial :
    ∀ r ∈ docTable, r.name ≠ "E222_ORDER" → r.fld.Canon (r.doc % r.fld.p) r.val := by
  have h : (docTable.all fun r =>
      r.name == "E222_ORDER" || r.fld.canonB (r.doc % r.fld.p) r.val) = true := by
    decide +kernel
  intro r hr hn
  have h1 := List.all_eq_true.1 h r hr
  simp only [Bool.or_eq_true, beq_iff_eq] at h1
  exact Fld.canon_of_canonB (h1.resolve_left hn)

set_option maxRecDepth 100000 in
/-- `E222_ORDER` (src/field/mod_e222_117.rs 72-76) is not the integer of its doc comment, which
is the order of M-221, but `2 ^ 220 - 181532584069648727485883454223169`. -/
theorem C19_E222_ORDER :
    Fld.e222_117.Canon (2 ^ 220 - 181532584069648727485883454223169) Fields.E222_117.E222_ORDER ∧
    Fld.e222_117.V Fields.E222_117.E222_ORDER ≠ 2 ^ 218 + 438651314700378199859927091142747 :=
  ⟨Fld.canon_of_canonB (by decide +kernel), by decide +kernel⟩

theorem C19_statement_false : ¬ C19_statement := by
  intro h
  have h1 := h ⟨"E222_ORDER", .e222_117, 2 ^ 218 + 438651314700378199859927091142747,
    Fields.E222_117.E222_ORDER⟩
    (by unfold docTable; repeat (first | exact .head _ | apply List.Mem.tail))
  exact C19_E222_ORDER.2 (h1.2.1.trans (by decide +kernel))

/-- `M_HALF` (the four types with `p ≡ 5 mod 8`) is the canonical representation of `-1/2`, that
is of `(p - 1) / 2`, and `COEFF` is a canonical value with `(COEFF + 1) ^ 2 ≡ -1`. -/
theorem C19_M_HALF_COEFF (f : Fld) (hf : f.Five) :
    ∃ mh co, f.code.M_HALF = some mh ∧ f.code.COEFF = some co ∧
      f.Canon ((f.p - 1) / 2) mh ∧ f.p ∣ 2 * f.V mh + 1 ∧
      f.Canon (f.V co) co ∧ f.p ∣ (f.V co + 1) ^ 2 + 1 := by
  have h := Fld.sqrt5_consts f hf
  have hc : (match f.code.M_HALF, f.code.COEFF with
      | some mh, some co => f.canonB ((f.p - 1) / 2) mh && f.canonB (f.V co) co
      | _, _ => false) = true := by
    rcases hf with rfl | rfl | rfl | rfl <;> decide +kernel
  cases hm : f.code.M_HALF with
  | none => rw [hm] at hc; simp at hc
  | some mh =>
    cases hk : f.code.COEFF with
    | none => rw [hm, hk] at hc; simp at hc
    | some co =>
      rw [hm, hk] at hc h
      simp only [Bool.and_eq_true] at hc
      exact ⟨mh, co, rfl, rfl, Fld.canon_of_canonB hc.1, Int.dvd_of_emod_eq_zero h.1,
        Fld.canon_of_canonB hc.2, Int.dvd_of_emod_eq_zero h.2⟩

/-- The five other types define neither constant. -/
theorem C19_no_M_HALF (f : Fld) (hf : ¬ f.Five) : f.code.M_HALF = none ∧ f.code.COEFF = none := by
  cases f <;> first | exact ⟨rfl, rfl⟩ | (exfalso; exact hf (by simp [Fld.Five]))

end Verif

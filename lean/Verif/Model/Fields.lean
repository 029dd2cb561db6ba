import Verif.Model.Fields.E221_3
import Verif.Model.Fields.E222_117
import Verif.Model.Fields.E251_9
import Verif.Model.Fields.E255_19
import Verif.Model.Fields.E382_105
import Verif.Model.Fields.E383_187
import Verif.Model.Fields.E414_17
import Verif.Model.Fields.E511_187
import Verif.Model.Fields.E521_1

/-!
# The nine field modules

`/repo/src/field/mod.rs` (the list of `pub mod mod_e…`).
-/

namespace Verif

/-- The nine field types of the crate. -/
def allFields : List FieldCode :=
  [Fields.E221_3.code, Fields.E222_117.code, Fields.E251_9.code, Fields.E255_19.code,
   Fields.E382_105.code, Fields.E383_187.code, Fields.E414_17.code, Fields.E511_187.code,
   Fields.E521_1.code]

end Verif

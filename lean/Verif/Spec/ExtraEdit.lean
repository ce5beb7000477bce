import Verif.Model.ExtraEdit

/-!
C106: what the extra field of a transaction contains.
-/

namespace Verif.ExtraEdit
open Verif Ed Key

/-- The extra field consists of these fields. -/
def Holds (extra : Bytes) (fs : List Field) : Prop := parseExtra extra.length extra = some fs

end Verif.ExtraEdit

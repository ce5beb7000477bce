/-!
Shared vocabulary of the model.

`bytes`/`bytearray` of the Python code are `List UInt8`; Python `int` is `Nat`/`Int`.
-/

namespace Verif

/-- Python `bytes` / `bytearray` value (immutable view). -/
abbrev Bytes := List UInt8

end Verif

import Verif.Model.Varint

/-! Serialisation of a Monero transaction prefix, written independently of the signer. -/

namespace Verif
/-- Transaction prefix; inputs and outputs as their own serialisations. -/
structure TxPrefix where
  version : Nat
  unlockTime : Nat
  vin : List Bytes
  vout : List Bytes
  extra : Bytes

/-- Version, unlock time, inputs with their number, outputs with their number, extra with its length. -/
def TxPrefix.bytes (t : TxPrefix) : Bytes :=
  Varint.dumpNat t.version ++ Varint.dumpNat t.unlockTime ++
  (Varint.dumpNat t.vin.length ++ t.vin.flatten) ++
  (Varint.dumpNat t.vout.length ++ t.vout.flatten) ++
  (Varint.dumpNat t.extra.length ++ t.extra)

end Verif

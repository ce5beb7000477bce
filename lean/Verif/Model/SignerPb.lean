import Verif.Model.Transport
import Verif.Model.Signer

/-!
The bytes of source and destination entries as the device computes them for its tags (`gen_hmac_vini`, `gen_hmac_txout`, `gen_hmac_tsxdest`,
monero_glue/protocol/tsx_sign_builder.py:345-387, `protobuf.dump_message`), with the message classes of `monero_glue/messages/`.
The entries are those of `Model/Signer.lean`: fields the signer requires are present; `multisig_kLRki`, `original` and `is_integrated` are absent.
-/

namespace Verif.Signer
open Verif Pb

/-- `MoneroOutputEntry` with its `MoneroRctKeyPublic`. -/
def RingMember.value (m : RingMember) : Value := .msg [[.uint m.idx], [.msg [[.bytes m.dest], [.bytes m.commitment]]]]

/-- The fields of `MoneroTransactionSourceEntry`, messages/MoneroTransactionSourceEntry.py, `get_fields`. -/
def Src.slots (s : Src) : List (List Value) :=
  [s.outputs.map RingMember.value, [.uint s.realOutput], [.bytes s.txKey], s.addKeys.map .bytes, [.uint s.inTxIndex], [.uint s.amount],
   [.bool s.rct], [.bytes s.mask], [], (s.subaddrMinor.map fun n : Nat => Value.uint n).toList]

/-- `dump_message(kwriter, src_entr)`, 353. -/
def Src.pb (s : Src) : Bytes := (dumpMessage Msgs.schema Msgs.srcEntry s.slots).getD []

/-- The fields of `MoneroTransactionDestinationEntry`, messages/MoneroTransactionDestinationEntry.py, `get_fields`. -/
def Dst.slots (d : Dst) : List (List Value) :=
  [[.uint d.amount], [.msg [[.bytes d.addr.spend], [.bytes d.addr.view]]], [.bool d.isSub], [], []]

/-- `dump_message(kwriter, dst_entr)`, 368, 383. -/
def Dst.pb (d : Dst) : Bytes := (dumpMessage Msgs.schema Msgs.dstEntry d.slots).getD []

end Verif.Signer

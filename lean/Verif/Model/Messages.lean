import Verif.Model.Protobuf

/-!
The message classes of `monero_glue/messages/` (one file per class, named like the class) and their numbers in `monero_glue/messages/MessageType.py`:
generated from those files. Classes are numbered in alphabetical order. `wire`: the number in MessageType.py under the name of the class, which is also
the class's `MESSAGE_WIRE_TYPE`. `fields`: what `get_fields()` returns; `none` where it uses `p.EnumType`, which `monero_glue/protobuf.py` does not have
(108-129), so that it raises. Field names are left out, as the encoding does not contain them.
-/

namespace Verif.Msgs
open Verif Pb

/-- A message class. -/
structure Class where
  name : String
  wire : Option Nat
  fields : Option (List Field)

/-- monero_glue/messages/Address.py to EthereumAddress.py, `get_fields`. -/
def classes0 : List Class := [
  ⟨"Address", some 30, some [⟨1, .unicode, false⟩]⟩,
  ⟨"ApplyFlags", some 28, some [⟨1, .uvarint, false⟩]⟩,
  ⟨"ApplySettings", some 25, some [⟨1, .unicode, false⟩, ⟨2, .unicode, false⟩, ⟨3, .bool, false⟩, ⟨4, .bytes, false⟩, ⟨6, .uvarint, false⟩, ⟨7, .uvarint, false⟩, ⟨8, .bool, false⟩]⟩,
  ⟨"BackupDevice", some 34, some []⟩,
  ⟨"BinanceAddress", some 701, some [⟨1, .unicode, false⟩]⟩,
  ⟨"BinanceCancelMsg", some 708, some [⟨1, .unicode, false⟩, ⟨2, .unicode, false⟩, ⟨3, .unicode, false⟩]⟩,
  ⟨"BinanceCoin", none, some [⟨1, .svarint, false⟩, ⟨2, .unicode, false⟩]⟩,
  ⟨"BinanceGetAddress", some 700, some [⟨1, .uvarint, true⟩, ⟨2, .bool, false⟩]⟩,
  ⟨"BinanceGetPublicKey", some 702, some [⟨1, .uvarint, true⟩, ⟨2, .bool, false⟩]⟩,
  ⟨"BinanceInputOutput", none, some [⟨1, .unicode, false⟩, ⟨2, .msg 6, true⟩]⟩,
  ⟨"BinanceOrderMsg", some 707, none⟩,
  ⟨"BinancePublicKey", some 703, some [⟨1, .bytes, false⟩]⟩,
  ⟨"BinanceSignTx", some 704, some [⟨1, .uvarint, true⟩, ⟨2, .uvarint, false⟩, ⟨3, .svarint, false⟩, ⟨4, .unicode, false⟩, ⟨5, .unicode, false⟩, ⟨6, .svarint, false⟩, ⟨7, .svarint, false⟩]⟩,
  ⟨"BinanceSignedTx", some 709, some [⟨1, .bytes, false⟩, ⟨2, .bytes, false⟩]⟩,
  ⟨"BinanceTransferMsg", some 706, some [⟨1, .msg 9, true⟩, ⟨2, .msg 9, true⟩]⟩,
  ⟨"BinanceTxRequest", some 705, some []⟩,
  ⟨"ButtonAck", some 27, some []⟩,
  ⟨"ButtonRequest", some 26, none⟩,
  ⟨"Cancel", some 20, some []⟩,
  ⟨"CardanoAddress", some 308, some [⟨1, .unicode, false⟩]⟩,
  ⟨"CardanoGetAddress", some 307, some [⟨1, .uvarint, true⟩, ⟨2, .bool, false⟩]⟩,
  ⟨"CardanoGetPublicKey", some 305, some [⟨1, .uvarint, true⟩, ⟨2, .bool, false⟩]⟩,
  ⟨"CardanoPublicKey", some 306, some [⟨1, .unicode, false⟩, ⟨2, .msg 111, false⟩]⟩,
  ⟨"CardanoSignTx", some 303, some [⟨1, .msg 26, true⟩, ⟨2, .msg 27, true⟩, ⟨3, .uvarint, false⟩, ⟨5, .uvarint, false⟩]⟩,
  ⟨"CardanoSignedTx", some 310, some [⟨1, .bytes, false⟩, ⟨2, .bytes, false⟩]⟩,
  ⟨"CardanoTxAck", some 309, some [⟨1, .bytes, false⟩]⟩,
  ⟨"CardanoTxInputType", none, some [⟨1, .uvarint, true⟩, ⟨2, .bytes, false⟩, ⟨3, .uvarint, false⟩, ⟨4, .uvarint, false⟩]⟩,
  ⟨"CardanoTxOutputType", none, some [⟨1, .unicode, false⟩, ⟨2, .uvarint, true⟩, ⟨3, .uvarint, false⟩]⟩,
  ⟨"CardanoTxRequest", some 304, some [⟨1, .uvarint, false⟩, ⟨2, .bytes, false⟩, ⟨3, .bytes, false⟩]⟩,
  ⟨"ChangePin", some 4, some [⟨1, .bool, false⟩]⟩,
  ⟨"ChangeWipeCode", some 82, some [⟨1, .bool, false⟩]⟩,
  ⟨"CipherKeyValue", some 23, some [⟨1, .uvarint, true⟩, ⟨2, .unicode, false⟩, ⟨3, .bytes, false⟩, ⟨4, .bool, false⟩, ⟨5, .bool, false⟩, ⟨6, .bool, false⟩, ⟨7, .bytes, false⟩]⟩,
  ⟨"CipheredKeyValue", some 48, some [⟨1, .bytes, false⟩]⟩,
  ⟨"ClearSession", some 24, some []⟩,
  ⟨"CosiCommit", some 71, some [⟨1, .uvarint, true⟩, ⟨2, .bytes, false⟩]⟩,
  ⟨"CosiCommitment", some 72, some [⟨1, .bytes, false⟩, ⟨2, .bytes, false⟩]⟩,
  ⟨"CosiSign", some 73, some [⟨1, .uvarint, true⟩, ⟨2, .bytes, false⟩, ⟨3, .bytes, false⟩, ⟨4, .bytes, false⟩]⟩,
  ⟨"CosiSignature", some 74, some [⟨1, .bytes, false⟩]⟩,
  ⟨"DebugLinkDecision", some 100, none⟩,
  ⟨"DebugLinkEraseSdCard", some 9005, some [⟨1, .bool, false⟩]⟩,
  ⟨"DebugLinkFlashErase", some 113, some [⟨1, .uvarint, false⟩]⟩,
  ⟨"DebugLinkGetState", some 101, some [⟨1, .bool, false⟩, ⟨2, .bool, false⟩, ⟨3, .bool, false⟩]⟩,
  ⟨"DebugLinkLayout", some 9001, some [⟨1, .unicode, true⟩]⟩,
  ⟨"DebugLinkLog", some 104, some [⟨1, .uvarint, false⟩, ⟨2, .unicode, false⟩, ⟨3, .unicode, false⟩]⟩,
  ⟨"DebugLinkMemory", some 111, some [⟨1, .bytes, false⟩]⟩,
  ⟨"DebugLinkMemoryRead", some 110, some [⟨1, .uvarint, false⟩, ⟨2, .uvarint, false⟩]⟩,
  ⟨"DebugLinkMemoryWrite", some 112, some [⟨1, .uvarint, false⟩, ⟨2, .bytes, false⟩, ⟨3, .bool, false⟩]⟩,
  ⟨"DebugLinkRecordScreen", some 9003, some [⟨1, .unicode, false⟩]⟩,
  ⟨"DebugLinkReseedRandom", some 9002, some [⟨1, .uvarint, false⟩]⟩,
  ⟨"DebugLinkShowText", some 9004, some [⟨1, .unicode, false⟩, ⟨2, .msg 50, true⟩, ⟨3, .unicode, false⟩, ⟨4, .unicode, false⟩]⟩,
  ⟨"DebugLinkShowTextItem", none, none⟩,
  ⟨"DebugLinkState", some 102, some [⟨1, .bytes, false⟩, ⟨2, .unicode, false⟩, ⟨3, .unicode, false⟩, ⟨4, .bytes, false⟩, ⟨5, .msg 111, false⟩, ⟨6, .bool, false⟩, ⟨7, .unicode, false⟩, ⟨8, .bytes, false⟩, ⟨9, .unicode, false⟩, ⟨10, .uvarint, false⟩, ⟨11, .uvarint, false⟩, ⟨12, .uvarint, false⟩, ⟨13, .unicode, true⟩]⟩,
  ⟨"DebugLinkStop", some 103, some []⟩,
  ⟨"DebugMoneroDiagAck", some 547, some [⟨1, .uvarint, false⟩, ⟨2, .uvarint, false⟩, ⟨3, .uvarint, false⟩, ⟨4, .uvarint, true⟩, ⟨5, .bytes, false⟩, ⟨6, .bytes, false⟩, ⟨7, .bytes, true⟩]⟩,
  ⟨"DebugMoneroDiagRequest", some 546, some [⟨1, .uvarint, false⟩, ⟨2, .uvarint, false⟩, ⟨3, .uvarint, false⟩, ⟨4, .uvarint, true⟩, ⟨5, .bytes, false⟩, ⟨6, .bytes, false⟩, ⟨7, .bytes, true⟩]⟩,
  ⟨"Deprecated_PassphraseStateAck", some 78, some []⟩,
  ⟨"Deprecated_PassphraseStateRequest", some 77, some [⟨1, .bytes, false⟩]⟩,
  ⟨"ECDHSessionKey", some 62, some [⟨1, .bytes, false⟩]⟩,
  ⟨"Entropy", some 10, some [⟨1, .bytes, false⟩]⟩,
  ⟨"EntropyAck", some 36, some [⟨1, .bytes, false⟩]⟩,
  ⟨"EntropyRequest", some 35, some []⟩,
  ⟨"EosActionBuyRam", none, some [⟨1, .uvarint, false⟩, ⟨2, .uvarint, false⟩, ⟨3, .msg 76, false⟩]⟩,
  ⟨"EosActionBuyRamBytes", none, some [⟨1, .uvarint, false⟩, ⟨2, .uvarint, false⟩, ⟨3, .uvarint, false⟩]⟩,
  ⟨"EosActionCommon", none, some [⟨1, .uvarint, false⟩, ⟨2, .uvarint, false⟩, ⟨3, .msg 82, true⟩]⟩,
  ⟨"EosActionDelegate", none, some [⟨1, .uvarint, false⟩, ⟨2, .uvarint, false⟩, ⟨3, .msg 76, false⟩, ⟨4, .msg 76, false⟩, ⟨5, .bool, false⟩]⟩,
  ⟨"EosActionDeleteAuth", none, some [⟨1, .uvarint, false⟩, ⟨2, .uvarint, false⟩]⟩,
  ⟨"EosActionLinkAuth", none, some [⟨1, .uvarint, false⟩, ⟨2, .uvarint, false⟩, ⟨3, .uvarint, false⟩, ⟨4, .uvarint, false⟩]⟩,
  ⟨"EosActionNewAccount", none, some [⟨1, .uvarint, false⟩, ⟨2, .uvarint, false⟩, ⟨3, .msg 77, false⟩, ⟨4, .msg 77, false⟩]⟩,
  ⟨"EosActionRefund", none, some [⟨1, .uvarint, false⟩]⟩,
  ⟨"EosActionSellRam", none, some [⟨1, .uvarint, false⟩, ⟨2, .uvarint, false⟩]⟩,
  ⟨"EosActionTransfer", none, some [⟨1, .uvarint, false⟩, ⟨2, .uvarint, false⟩, ⟨3, .msg 76, false⟩, ⟨4, .unicode, false⟩]⟩,
  ⟨"EosActionUndelegate", none, some [⟨1, .uvarint, false⟩, ⟨2, .uvarint, false⟩, ⟨3, .msg 76, false⟩, ⟨4, .msg 76, false⟩]⟩,
  ⟨"EosActionUnknown", none, some [⟨1, .uvarint, false⟩, ⟨2, .bytes, false⟩]⟩,
  ⟨"EosActionUnlinkAuth", none, some [⟨1, .uvarint, false⟩, ⟨2, .uvarint, false⟩, ⟨3, .uvarint, false⟩]⟩,
  ⟨"EosActionUpdateAuth", none, some [⟨1, .uvarint, false⟩, ⟨2, .uvarint, false⟩, ⟨3, .uvarint, false⟩, ⟨4, .msg 77, false⟩]⟩,
  ⟨"EosActionVoteProducer", none, some [⟨1, .uvarint, false⟩, ⟨2, .uvarint, false⟩, ⟨3, .uvarint, true⟩]⟩,
  ⟨"EosAsset", none, some [⟨1, .svarint, false⟩, ⟨2, .uvarint, false⟩]⟩,
  ⟨"EosAuthorization", none, some [⟨1, .uvarint, false⟩, ⟨2, .msg 79, true⟩, ⟨3, .msg 78, true⟩, ⟨4, .msg 80, true⟩]⟩,
  ⟨"EosAuthorizationAccount", none, some [⟨1, .msg 82, false⟩, ⟨2, .uvarint, false⟩]⟩,
  ⟨"EosAuthorizationKey", none, some [⟨1, .uvarint, false⟩, ⟨2, .bytes, false⟩, ⟨3, .uvarint, true⟩, ⟨4, .uvarint, false⟩]⟩,
  ⟨"EosAuthorizationWait", none, some [⟨1, .uvarint, false⟩, ⟨2, .uvarint, false⟩]⟩,
  ⟨"EosGetPublicKey", some 600, some [⟨1, .uvarint, true⟩, ⟨2, .bool, false⟩]⟩,
  ⟨"EosPermissionLevel", none, some [⟨1, .uvarint, false⟩, ⟨2, .uvarint, false⟩]⟩,
  ⟨"EosPublicKey", some 601, some [⟨1, .unicode, false⟩, ⟨2, .bytes, false⟩]⟩,
  ⟨"EosSignTx", some 602, some [⟨1, .uvarint, true⟩, ⟨2, .bytes, false⟩, ⟨3, .msg 88, false⟩, ⟨4, .uvarint, false⟩]⟩,
  ⟨"EosSignedTx", some 605, some [⟨1, .unicode, false⟩]⟩,
  ⟨"EosTxActionAck", some 604, some [⟨1, .msg 63, false⟩, ⟨2, .msg 70, false⟩, ⟨3, .msg 64, false⟩, ⟨4, .msg 71, false⟩, ⟨5, .msg 68, false⟩, ⟨6, .msg 61, false⟩, ⟨7, .msg 62, false⟩, ⟨8, .msg 69, false⟩, ⟨9, .msg 75, false⟩, ⟨10, .msg 74, false⟩, ⟨11, .msg 65, false⟩, ⟨12, .msg 66, false⟩, ⟨13, .msg 73, false⟩, ⟨14, .msg 67, false⟩, ⟨15, .msg 72, false⟩]⟩,
  ⟨"EosTxActionRequest", some 603, some [⟨1, .uvarint, false⟩]⟩,
  ⟨"EosTxHeader", none, some [⟨1, .uvarint, false⟩, ⟨2, .uvarint, false⟩, ⟨3, .uvarint, false⟩, ⟨4, .uvarint, false⟩, ⟨5, .uvarint, false⟩, ⟨6, .uvarint, false⟩]⟩,
  ⟨"EthereumAddress", some 57, some [⟨1, .bytes, false⟩, ⟨2, .unicode, false⟩]⟩]

/-- monero_glue/messages/EthereumGetAddress.py to NEMAddress.py, `get_fields`. -/
def classes1 : List Class := [
  ⟨"EthereumGetAddress", some 56, some [⟨1, .uvarint, true⟩, ⟨2, .bool, false⟩]⟩,
  ⟨"EthereumGetPublicKey", some 450, some [⟨1, .uvarint, true⟩, ⟨2, .bool, false⟩]⟩,
  ⟨"EthereumMessageSignature", some 66, some [⟨2, .bytes, false⟩, ⟨3, .unicode, false⟩]⟩,
  ⟨"EthereumPublicKey", some 451, some [⟨1, .msg 111, false⟩, ⟨2, .unicode, false⟩]⟩,
  ⟨"EthereumSignMessage", some 64, some [⟨1, .uvarint, true⟩, ⟨2, .bytes, false⟩]⟩,
  ⟨"EthereumSignTx", some 58, some [⟨1, .uvarint, true⟩, ⟨2, .bytes, false⟩, ⟨3, .bytes, false⟩, ⟨4, .bytes, false⟩, ⟨11, .unicode, false⟩, ⟨6, .bytes, false⟩, ⟨7, .bytes, false⟩, ⟨8, .uvarint, false⟩, ⟨9, .uvarint, false⟩, ⟨10, .uvarint, false⟩]⟩,
  ⟨"EthereumTxAck", some 60, some [⟨1, .bytes, false⟩]⟩,
  ⟨"EthereumTxRequest", some 59, some [⟨1, .uvarint, false⟩, ⟨2, .uvarint, false⟩, ⟨3, .bytes, false⟩, ⟨4, .bytes, false⟩]⟩,
  ⟨"EthereumVerifyMessage", some 65, some [⟨2, .bytes, false⟩, ⟨3, .bytes, false⟩, ⟨4, .unicode, false⟩]⟩,
  ⟨"Failure", some 3, none⟩,
  ⟨"Features", some 17, none⟩,
  ⟨"FirmwareErase", some 6, some [⟨1, .uvarint, false⟩]⟩,
  ⟨"FirmwareRequest", some 8, some [⟨1, .uvarint, false⟩, ⟨2, .uvarint, false⟩]⟩,
  ⟨"FirmwareUpload", some 7, some [⟨1, .bytes, false⟩, ⟨2, .bytes, false⟩]⟩,
  ⟨"GetAddress", some 29, none⟩,
  ⟨"GetECDHSessionKey", some 61, some [⟨1, .msg 112, false⟩, ⟨2, .bytes, false⟩, ⟨3, .unicode, false⟩]⟩,
  ⟨"GetEntropy", some 9, some [⟨1, .uvarint, false⟩]⟩,
  ⟨"GetFeatures", some 55, some []⟩,
  ⟨"GetNextU2FCounter", some 80, some []⟩,
  ⟨"GetPublicKey", some 11, none⟩,
  ⟨"HDNodePathType", none, some [⟨1, .msg 111, false⟩, ⟨2, .uvarint, true⟩]⟩,
  ⟨"HDNodeType", none, some [⟨1, .uvarint, false⟩, ⟨2, .uvarint, false⟩, ⟨3, .uvarint, false⟩, ⟨4, .bytes, false⟩, ⟨5, .bytes, false⟩, ⟨6, .bytes, false⟩]⟩,
  ⟨"IdentityType", none, some [⟨1, .unicode, false⟩, ⟨2, .unicode, false⟩, ⟨3, .unicode, false⟩, ⟨4, .unicode, false⟩, ⟨5, .unicode, false⟩, ⟨6, .uvarint, false⟩]⟩,
  ⟨"Initialize", some 0, some [⟨1, .bytes, false⟩]⟩,
  ⟨"LiskAddress", some 115, some [⟨1, .unicode, false⟩]⟩,
  ⟨"LiskDelegateType", none, some [⟨1, .unicode, false⟩]⟩,
  ⟨"LiskGetAddress", some 114, some [⟨1, .uvarint, true⟩, ⟨2, .bool, false⟩]⟩,
  ⟨"LiskGetPublicKey", some 121, some [⟨1, .uvarint, true⟩, ⟨2, .bool, false⟩]⟩,
  ⟨"LiskMessageSignature", some 119, some [⟨1, .bytes, false⟩, ⟨2, .bytes, false⟩]⟩,
  ⟨"LiskMultisignatureType", none, some [⟨1, .uvarint, false⟩, ⟨2, .uvarint, false⟩, ⟨3, .unicode, true⟩]⟩,
  ⟨"LiskPublicKey", some 122, some [⟨1, .bytes, false⟩]⟩,
  ⟨"LiskSignMessage", some 118, some [⟨1, .uvarint, true⟩, ⟨2, .bytes, false⟩]⟩,
  ⟨"LiskSignTx", some 116, some [⟨1, .uvarint, true⟩, ⟨2, .msg 126, false⟩]⟩,
  ⟨"LiskSignatureType", none, some [⟨1, .bytes, false⟩]⟩,
  ⟨"LiskSignedTx", some 117, some [⟨1, .bytes, false⟩]⟩,
  ⟨"LiskTransactionAsset", none, some [⟨1, .msg 123, false⟩, ⟨2, .msg 115, false⟩, ⟨3, .unicode, true⟩, ⟨4, .msg 119, false⟩, ⟨5, .unicode, false⟩]⟩,
  ⟨"LiskTransactionCommon", none, none⟩,
  ⟨"LiskVerifyMessage", some 120, some [⟨1, .bytes, false⟩, ⟨2, .bytes, false⟩, ⟨3, .bytes, false⟩]⟩,
  ⟨"LoadDevice", some 13, some [⟨1, .unicode, true⟩, ⟨3, .unicode, false⟩, ⟨4, .bool, false⟩, ⟨5, .unicode, false⟩, ⟨6, .unicode, false⟩, ⟨7, .bool, false⟩, ⟨8, .uvarint, false⟩, ⟨9, .bool, false⟩, ⟨10, .bool, false⟩]⟩,
  ⟨"MessageSignature", some 40, some [⟨1, .unicode, false⟩, ⟨2, .bytes, false⟩]⟩,
  ⟨"MoneroAccountPublicAddress", none, some [⟨1, .bytes, false⟩, ⟨2, .bytes, false⟩]⟩,
  ⟨"MoneroAddress", some 541, some [⟨1, .bytes, false⟩]⟩,
  ⟨"MoneroExportedKeyImage", none, some [⟨1, .bytes, false⟩, ⟨3, .bytes, false⟩]⟩,
  ⟨"MoneroGetAddress", some 540, some [⟨1, .uvarint, true⟩, ⟨2, .bool, false⟩, ⟨3, .uvarint, false⟩, ⟨4, .uvarint, false⟩, ⟨5, .uvarint, false⟩, ⟨6, .bytes, false⟩]⟩,
  ⟨"MoneroGetTxKeyAck", some 551, some [⟨1, .bytes, false⟩, ⟨2, .bytes, false⟩, ⟨3, .bytes, false⟩]⟩,
  ⟨"MoneroGetTxKeyRequest", some 550, some [⟨1, .uvarint, true⟩, ⟨2, .uvarint, false⟩, ⟨3, .bytes, false⟩, ⟨4, .bytes, false⟩, ⟨5, .bytes, false⟩, ⟨6, .bytes, false⟩, ⟨7, .uvarint, false⟩, ⟨8, .bytes, false⟩]⟩,
  ⟨"MoneroGetWatchKey", some 542, some [⟨1, .uvarint, true⟩, ⟨2, .uvarint, false⟩]⟩,
  ⟨"MoneroKeyImageExportInitAck", some 531, some []⟩,
  ⟨"MoneroKeyImageExportInitRequest", some 530, some [⟨1, .uvarint, false⟩, ⟨2, .bytes, false⟩, ⟨3, .uvarint, true⟩, ⟨4, .uvarint, false⟩, ⟨5, .msg 153, true⟩]⟩,
  ⟨"MoneroKeyImageSyncFinalAck", some 535, some [⟨1, .bytes, false⟩]⟩,
  ⟨"MoneroKeyImageSyncFinalRequest", some 534, some []⟩,
  ⟨"MoneroKeyImageSyncStepAck", some 533, some [⟨1, .msg 132, true⟩]⟩,
  ⟨"MoneroKeyImageSyncStepRequest", some 532, some [⟨1, .msg 176, true⟩]⟩,
  ⟨"MoneroLiveRefreshFinalAck", some 557, some []⟩,
  ⟨"MoneroLiveRefreshFinalRequest", some 556, some []⟩,
  ⟨"MoneroLiveRefreshStartAck", some 553, some []⟩,
  ⟨"MoneroLiveRefreshStartRequest", some 552, some [⟨1, .uvarint, true⟩, ⟨2, .uvarint, false⟩]⟩,
  ⟨"MoneroLiveRefreshStepAck", some 555, some [⟨1, .bytes, false⟩, ⟨2, .bytes, false⟩]⟩,
  ⟨"MoneroLiveRefreshStepRequest", some 554, some [⟨1, .bytes, false⟩, ⟨2, .bytes, false⟩, ⟨3, .uvarint, false⟩, ⟨4, .uvarint, false⟩, ⟨5, .uvarint, false⟩]⟩,
  ⟨"MoneroMultisigKLRki", none, some [⟨1, .bytes, false⟩, ⟨2, .bytes, false⟩, ⟨3, .bytes, false⟩, ⟨4, .bytes, false⟩]⟩,
  ⟨"MoneroOutputEntry", none, some [⟨1, .uvarint, false⟩, ⟨2, .msg 151, false⟩]⟩,
  ⟨"MoneroRctKeyPublic", none, some [⟨1, .bytes, false⟩, ⟨2, .bytes, false⟩]⟩,
  ⟨"MoneroRingCtSig", none, some [⟨1, .uvarint, false⟩, ⟨2, .bytes, false⟩, ⟨3, .uvarint, false⟩]⟩,
  ⟨"MoneroSubAddressIndicesList", none, some [⟨1, .uvarint, false⟩, ⟨2, .uvarint, true⟩]⟩,
  ⟨"MoneroTransactionAllInputsSetAck", some 510, some [⟨1, .msg 168, false⟩]⟩,
  ⟨"MoneroTransactionAllInputsSetRequest", some 509, some []⟩,
  ⟨"MoneroTransactionAllOutSetAck", some 514, some [⟨1, .bytes, false⟩, ⟨2, .bytes, false⟩, ⟨4, .msg 152, false⟩, ⟨5, .bytes, false⟩]⟩,
  ⟨"MoneroTransactionAllOutSetRequest", some 513, some [⟨1, .msg 168, false⟩]⟩,
  ⟨"MoneroTransactionData", none, some [⟨1, .uvarint, false⟩, ⟨2, .bytes, false⟩, ⟨3, .uvarint, false⟩, ⟨4, .msg 159, true⟩, ⟨5, .msg 159, false⟩, ⟨6, .uvarint, false⟩, ⟨7, .uvarint, false⟩, ⟨8, .uvarint, false⟩, ⟨9, .uvarint, false⟩, ⟨10, .uvarint, true⟩, ⟨11, .msg 168, false⟩, ⟨12, .uvarint, true⟩, ⟨13, .uvarint, false⟩, ⟨14, .uvarint, false⟩, ⟨15, .bytes, false⟩]⟩,
  ⟨"MoneroTransactionDestinationEntry", none, some [⟨1, .uvarint, false⟩, ⟨2, .msg 130, false⟩, ⟨3, .bool, false⟩, ⟨4, .bytes, false⟩, ⟨5, .bool, false⟩]⟩,
  ⟨"MoneroTransactionFinalAck", some 518, some [⟨1, .bytes, false⟩, ⟨2, .bytes, false⟩, ⟨3, .bytes, false⟩, ⟨4, .bytes, false⟩, ⟨5, .bytes, false⟩]⟩,
  ⟨"MoneroTransactionFinalRequest", some 517, some []⟩,
  ⟨"MoneroTransactionInitAck", some 502, some [⟨1, .bytes, true⟩, ⟨2, .msg 168, false⟩]⟩,
  ⟨"MoneroTransactionInitRequest", some 501, some [⟨1, .uvarint, false⟩, ⟨2, .uvarint, true⟩, ⟨3, .uvarint, false⟩, ⟨4, .msg 158, false⟩]⟩,
  ⟨"MoneroTransactionInputViniAck", some 508, some []⟩,
  ⟨"MoneroTransactionInputViniRequest", some 507, some [⟨1, .msg 175, false⟩, ⟨2, .bytes, false⟩, ⟨3, .bytes, false⟩, ⟨4, .bytes, false⟩, ⟨5, .bytes, false⟩, ⟨6, .uvarint, false⟩]⟩,
  ⟨"MoneroTransactionInputsPermutationAck", some 506, some []⟩,
  ⟨"MoneroTransactionInputsPermutationRequest", some 505, some [⟨1, .uvarint, true⟩]⟩,
  ⟨"MoneroTransactionRsigData", none, some [⟨1, .uvarint, false⟩, ⟨2, .uvarint, false⟩, ⟨3, .uvarint, true⟩, ⟨4, .bytes, false⟩, ⟨5, .bytes, false⟩, ⟨6, .bytes, true⟩, ⟨7, .uvarint, false⟩]⟩,
  ⟨"MoneroTransactionSetInputAck", some 504, some [⟨1, .bytes, false⟩, ⟨2, .bytes, false⟩, ⟨3, .bytes, false⟩, ⟨4, .bytes, false⟩, ⟨5, .bytes, false⟩, ⟨6, .bytes, false⟩]⟩,
  ⟨"MoneroTransactionSetInputRequest", some 503, some [⟨1, .msg 175, false⟩]⟩,
  ⟨"MoneroTransactionSetOutputAck", some 512, some [⟨1, .bytes, false⟩, ⟨2, .bytes, false⟩, ⟨3, .msg 168, false⟩, ⟨4, .bytes, false⟩, ⟨5, .bytes, false⟩]⟩,
  ⟨"MoneroTransactionSetOutputRequest", some 511, some [⟨1, .msg 159, false⟩, ⟨2, .bytes, false⟩, ⟨3, .msg 168, false⟩, ⟨4, .bool, false⟩]⟩,
  ⟨"MoneroTransactionSignInputAck", some 516, some [⟨1, .bytes, false⟩, ⟨2, .bytes, false⟩]⟩,
  ⟨"MoneroTransactionSignInputRequest", some 515, some [⟨1, .msg 175, false⟩, ⟨2, .bytes, false⟩, ⟨3, .bytes, false⟩, ⟨4, .bytes, false⟩, ⟨5, .bytes, false⟩, ⟨6, .bytes, false⟩, ⟨7, .bytes, false⟩, ⟨8, .uvarint, false⟩]⟩,
  ⟨"MoneroTransactionSourceEntry", none, some [⟨1, .msg 150, true⟩, ⟨2, .uvarint, false⟩, ⟨3, .bytes, false⟩, ⟨4, .bytes, true⟩, ⟨5, .uvarint, false⟩, ⟨6, .uvarint, false⟩, ⟨7, .bool, false⟩, ⟨8, .bytes, false⟩, ⟨9, .msg 149, false⟩, ⟨10, .uvarint, false⟩]⟩,
  ⟨"MoneroTransferDetails", none, some [⟨1, .bytes, false⟩, ⟨2, .bytes, false⟩, ⟨3, .bytes, true⟩, ⟨4, .uvarint, false⟩, ⟨5, .uvarint, false⟩, ⟨6, .uvarint, false⟩]⟩,
  ⟨"MoneroWatchKey", some 543, some [⟨1, .bytes, false⟩, ⟨2, .bytes, false⟩]⟩,
  ⟨"MultisigRedeemScriptType", none, some [⟨1, .msg 110, true⟩, ⟨2, .bytes, true⟩, ⟨3, .uvarint, false⟩, ⟨4, .msg 111, true⟩, ⟨5, .uvarint, true⟩]⟩,
  ⟨"NEMAddress", some 68, some [⟨1, .unicode, false⟩]⟩]

/-- monero_glue/messages/NEMAggregateModification.py to WordRequest.py, `get_fields`. -/
def classes2 : List Class := [
  ⟨"NEMAggregateModification", none, some [⟨1, .msg 181, true⟩, ⟨2, .svarint, false⟩]⟩,
  ⟨"NEMCosignatoryModification", none, none⟩,
  ⟨"NEMDecryptMessage", some 75, some [⟨1, .uvarint, true⟩, ⟨2, .uvarint, false⟩, ⟨3, .bytes, false⟩, ⟨4, .bytes, false⟩]⟩,
  ⟨"NEMDecryptedMessage", some 76, some [⟨1, .bytes, false⟩]⟩,
  ⟨"NEMGetAddress", some 67, some [⟨1, .uvarint, true⟩, ⟨2, .uvarint, false⟩, ⟨3, .bool, false⟩]⟩,
  ⟨"NEMImportanceTransfer", none, none⟩,
  ⟨"NEMMosaic", none, some [⟨1, .unicode, false⟩, ⟨2, .unicode, false⟩, ⟨3, .uvarint, false⟩]⟩,
  ⟨"NEMMosaicCreation", none, some [⟨1, .msg 188, false⟩, ⟨2, .unicode, false⟩, ⟨3, .uvarint, false⟩]⟩,
  ⟨"NEMMosaicDefinition", none, none⟩,
  ⟨"NEMMosaicSupplyChange", none, none⟩,
  ⟨"NEMProvisionNamespace", none, some [⟨1, .unicode, false⟩, ⟨2, .unicode, false⟩, ⟨3, .unicode, false⟩, ⟨4, .uvarint, false⟩]⟩,
  ⟨"NEMSignTx", some 69, some [⟨1, .msg 193, false⟩, ⟨2, .msg 193, false⟩, ⟨3, .msg 194, false⟩, ⟨4, .bool, false⟩, ⟨5, .msg 190, false⟩, ⟨6, .msg 187, false⟩, ⟨7, .msg 189, false⟩, ⟨8, .msg 180, false⟩, ⟨9, .msg 185, false⟩]⟩,
  ⟨"NEMSignedTx", some 70, some [⟨1, .bytes, false⟩, ⟨2, .bytes, false⟩]⟩,
  ⟨"NEMTransactionCommon", none, some [⟨1, .uvarint, true⟩, ⟨2, .uvarint, false⟩, ⟨3, .uvarint, false⟩, ⟨4, .uvarint, false⟩, ⟨5, .uvarint, false⟩, ⟨6, .bytes, false⟩]⟩,
  ⟨"NEMTransfer", none, some [⟨1, .unicode, false⟩, ⟨2, .uvarint, false⟩, ⟨3, .bytes, false⟩, ⟨4, .bytes, false⟩, ⟨5, .msg 186, true⟩]⟩,
  ⟨"NextU2FCounter", some 81, some [⟨1, .uvarint, false⟩]⟩,
  ⟨"PassphraseAck", some 42, some [⟨1, .unicode, false⟩, ⟨2, .bytes, false⟩, ⟨3, .bool, false⟩]⟩,
  ⟨"PassphraseRequest", some 41, some [⟨1, .bool, false⟩]⟩,
  ⟨"PinMatrixAck", some 19, some [⟨1, .unicode, false⟩]⟩,
  ⟨"PinMatrixRequest", some 18, none⟩,
  ⟨"Ping", some 1, some [⟨1, .unicode, false⟩, ⟨2, .bool, false⟩]⟩,
  ⟨"PublicKey", some 12, some [⟨1, .msg 111, false⟩, ⟨2, .unicode, false⟩]⟩,
  ⟨"RecoveryDevice", some 45, none⟩,
  ⟨"ResetDevice", some 14, none⟩,
  ⟨"RippleAddress", some 401, some [⟨1, .unicode, false⟩]⟩,
  ⟨"RippleGetAddress", some 400, some [⟨1, .uvarint, true⟩, ⟨2, .bool, false⟩]⟩,
  ⟨"RipplePayment", none, some [⟨1, .uvarint, false⟩, ⟨2, .unicode, false⟩, ⟨3, .uvarint, false⟩]⟩,
  ⟨"RippleSignTx", some 402, some [⟨1, .uvarint, true⟩, ⟨2, .uvarint, false⟩, ⟨3, .uvarint, false⟩, ⟨4, .uvarint, false⟩, ⟨5, .uvarint, false⟩, ⟨6, .msg 206, false⟩]⟩,
  ⟨"RippleSignedTx", some 403, some [⟨1, .bytes, false⟩, ⟨2, .bytes, false⟩]⟩,
  ⟨"SdProtect", some 79, none⟩,
  ⟨"SelfTest", some 32, some [⟨1, .bytes, false⟩]⟩,
  ⟨"SetU2FCounter", some 63, some [⟨1, .uvarint, false⟩]⟩,
  ⟨"SignIdentity", some 53, some [⟨1, .msg 112, false⟩, ⟨2, .bytes, false⟩, ⟨3, .unicode, false⟩, ⟨4, .unicode, false⟩]⟩,
  ⟨"SignMessage", some 38, none⟩,
  ⟨"SignTx", some 15, some [⟨1, .uvarint, false⟩, ⟨2, .uvarint, false⟩, ⟨3, .unicode, false⟩, ⟨4, .uvarint, false⟩, ⟨5, .uvarint, false⟩, ⟨6, .uvarint, false⟩, ⟨7, .bool, false⟩, ⟨8, .uvarint, false⟩, ⟨9, .uvarint, false⟩, ⟨10, .uvarint, false⟩]⟩,
  ⟨"SignedIdentity", some 54, some [⟨1, .unicode, false⟩, ⟨2, .bytes, false⟩, ⟨3, .bytes, false⟩]⟩,
  ⟨"StellarAccountMergeOp", some 218, some [⟨1, .unicode, false⟩, ⟨2, .unicode, false⟩]⟩,
  ⟨"StellarAddress", some 208, some [⟨1, .unicode, false⟩]⟩,
  ⟨"StellarAllowTrustOp", some 217, some [⟨1, .unicode, false⟩, ⟨2, .unicode, false⟩, ⟨3, .uvarint, false⟩, ⟨4, .unicode, false⟩, ⟨5, .uvarint, false⟩]⟩,
  ⟨"StellarAssetType", none, some [⟨1, .uvarint, false⟩, ⟨2, .unicode, false⟩, ⟨3, .unicode, false⟩]⟩,
  ⟨"StellarBumpSequenceOp", some 221, some [⟨1, .unicode, false⟩, ⟨2, .uvarint, false⟩]⟩,
  ⟨"StellarChangeTrustOp", some 216, some [⟨1, .unicode, false⟩, ⟨2, .msg 219, false⟩, ⟨3, .uvarint, false⟩]⟩,
  ⟨"StellarCreateAccountOp", some 210, some [⟨1, .unicode, false⟩, ⟨2, .unicode, false⟩, ⟨3, .svarint, false⟩]⟩,
  ⟨"StellarCreatePassiveOfferOp", some 214, some [⟨1, .unicode, false⟩, ⟨2, .msg 219, false⟩, ⟨3, .msg 219, false⟩, ⟨4, .svarint, false⟩, ⟨5, .uvarint, false⟩, ⟨6, .uvarint, false⟩]⟩,
  ⟨"StellarGetAddress", some 207, some [⟨1, .uvarint, true⟩, ⟨2, .bool, false⟩]⟩,
  ⟨"StellarManageDataOp", some 220, some [⟨1, .unicode, false⟩, ⟨2, .unicode, false⟩, ⟨3, .bytes, false⟩]⟩,
  ⟨"StellarManageOfferOp", some 213, some [⟨1, .unicode, false⟩, ⟨2, .msg 219, false⟩, ⟨3, .msg 219, false⟩, ⟨4, .svarint, false⟩, ⟨5, .uvarint, false⟩, ⟨6, .uvarint, false⟩, ⟨7, .uvarint, false⟩]⟩,
  ⟨"StellarPathPaymentOp", some 212, some [⟨1, .unicode, false⟩, ⟨2, .msg 219, false⟩, ⟨3, .svarint, false⟩, ⟨4, .unicode, false⟩, ⟨5, .msg 219, false⟩, ⟨6, .svarint, false⟩, ⟨7, .msg 219, true⟩]⟩,
  ⟨"StellarPaymentOp", some 211, some [⟨1, .unicode, false⟩, ⟨2, .unicode, false⟩, ⟨3, .msg 219, false⟩, ⟨4, .svarint, false⟩]⟩,
  ⟨"StellarSetOptionsOp", some 215, some [⟨1, .unicode, false⟩, ⟨2, .unicode, false⟩, ⟨3, .uvarint, false⟩, ⟨4, .uvarint, false⟩, ⟨5, .uvarint, false⟩, ⟨6, .uvarint, false⟩, ⟨7, .uvarint, false⟩, ⟨8, .uvarint, false⟩, ⟨9, .unicode, false⟩, ⟨10, .uvarint, false⟩, ⟨11, .bytes, false⟩, ⟨12, .uvarint, false⟩]⟩,
  ⟨"StellarSignTx", some 202, some [⟨2, .uvarint, true⟩, ⟨3, .unicode, false⟩, ⟨4, .unicode, false⟩, ⟨5, .uvarint, false⟩, ⟨6, .uvarint, false⟩, ⟨8, .uvarint, false⟩, ⟨9, .uvarint, false⟩, ⟨10, .uvarint, false⟩, ⟨11, .unicode, false⟩, ⟨12, .uvarint, false⟩, ⟨13, .bytes, false⟩, ⟨14, .uvarint, false⟩]⟩,
  ⟨"StellarSignedTx", some 230, some [⟨1, .bytes, false⟩, ⟨2, .bytes, false⟩]⟩,
  ⟨"StellarTxOpRequest", some 203, some []⟩,
  ⟨"Success", some 2, some [⟨1, .unicode, false⟩]⟩,
  ⟨"TezosAddress", some 151, some [⟨1, .unicode, false⟩]⟩,
  ⟨"TezosBallotOp", none, none⟩,
  ⟨"TezosContractID", none, none⟩,
  ⟨"TezosDelegationOp", none, some [⟨7, .bytes, false⟩, ⟨2, .uvarint, false⟩, ⟨3, .uvarint, false⟩, ⟨4, .uvarint, false⟩, ⟨5, .uvarint, false⟩, ⟨6, .bytes, false⟩]⟩,
  ⟨"TezosGetAddress", some 150, some [⟨1, .uvarint, true⟩, ⟨2, .bool, false⟩]⟩,
  ⟨"TezosGetPublicKey", some 154, some [⟨1, .uvarint, true⟩, ⟨2, .bool, false⟩]⟩,
  ⟨"TezosManagerTransfer", none, some [⟨1, .msg 236, false⟩, ⟨2, .uvarint, false⟩]⟩,
  ⟨"TezosOriginationOp", none, some [⟨12, .bytes, false⟩, ⟨2, .uvarint, false⟩, ⟨3, .uvarint, false⟩, ⟨4, .uvarint, false⟩, ⟨5, .uvarint, false⟩, ⟨6, .bytes, false⟩, ⟨7, .uvarint, false⟩, ⟨8, .bool, false⟩, ⟨9, .bool, false⟩, ⟨10, .bytes, false⟩, ⟨11, .bytes, false⟩]⟩,
  ⟨"TezosParametersManager", none, some [⟨1, .bytes, false⟩, ⟨2, .bool, false⟩, ⟨3, .msg 240, false⟩]⟩,
  ⟨"TezosProposalOp", none, some [⟨1, .bytes, false⟩, ⟨2, .uvarint, false⟩, ⟨4, .bytes, true⟩]⟩,
  ⟨"TezosPublicKey", some 155, some [⟨1, .unicode, false⟩]⟩,
  ⟨"TezosRevealOp", none, some [⟨7, .bytes, false⟩, ⟨2, .uvarint, false⟩, ⟨3, .uvarint, false⟩, ⟨4, .uvarint, false⟩, ⟨5, .uvarint, false⟩, ⟨6, .bytes, false⟩]⟩,
  ⟨"TezosSignTx", some 152, some [⟨1, .uvarint, true⟩, ⟨2, .bytes, false⟩, ⟨3, .msg 245, false⟩, ⟨4, .msg 248, false⟩, ⟨5, .msg 241, false⟩, ⟨6, .msg 237, false⟩, ⟨7, .msg 243, false⟩, ⟨8, .msg 235, false⟩]⟩,
  ⟨"TezosSignedTx", some 153, some [⟨1, .unicode, false⟩, ⟨2, .bytes, false⟩, ⟨3, .unicode, false⟩]⟩,
  ⟨"TezosTransactionOp", none, some [⟨9, .bytes, false⟩, ⟨2, .uvarint, false⟩, ⟨3, .uvarint, false⟩, ⟨4, .uvarint, false⟩, ⟨5, .uvarint, false⟩, ⟨6, .uvarint, false⟩, ⟨7, .msg 236, false⟩, ⟨8, .bytes, false⟩, ⟨10, .msg 242, false⟩]⟩,
  ⟨"TransactionType", none, some [⟨1, .uvarint, false⟩, ⟨2, .msg 251, true⟩, ⟨3, .msg 252, true⟩, ⟨4, .uvarint, false⟩, ⟨5, .msg 253, true⟩, ⟨6, .uvarint, false⟩, ⟨7, .uvarint, false⟩, ⟨8, .bytes, false⟩, ⟨9, .uvarint, false⟩, ⟨10, .uvarint, false⟩, ⟨11, .bool, false⟩, ⟨12, .uvarint, false⟩, ⟨13, .uvarint, false⟩, ⟨14, .uvarint, false⟩]⟩,
  ⟨"TxAck", some 22, some [⟨1, .msg 249, false⟩]⟩,
  ⟨"TxInputType", none, none⟩,
  ⟨"TxOutputBinType", none, some [⟨1, .uvarint, false⟩, ⟨2, .bytes, false⟩, ⟨3, .uvarint, false⟩]⟩,
  ⟨"TxOutputType", none, none⟩,
  ⟨"TxRequest", some 21, none⟩,
  ⟨"TxRequestDetailsType", none, some [⟨1, .uvarint, false⟩, ⟨2, .bytes, false⟩, ⟨3, .uvarint, false⟩, ⟨4, .uvarint, false⟩]⟩,
  ⟨"TxRequestSerializedType", none, some [⟨1, .uvarint, false⟩, ⟨2, .bytes, false⟩, ⟨3, .bytes, false⟩]⟩,
  ⟨"VerifyMessage", some 39, some [⟨1, .unicode, false⟩, ⟨2, .bytes, false⟩, ⟨3, .bytes, false⟩, ⟨4, .unicode, false⟩]⟩,
  ⟨"WebAuthnAddResidentCredential", some 802, some [⟨1, .bytes, false⟩]⟩,
  ⟨"WebAuthnCredential", none, some [⟨1, .uvarint, false⟩, ⟨2, .bytes, false⟩, ⟨3, .unicode, false⟩, ⟨4, .unicode, false⟩, ⟨5, .bytes, false⟩, ⟨6, .unicode, false⟩, ⟨7, .unicode, false⟩, ⟨8, .uvarint, false⟩, ⟨9, .bool, false⟩, ⟨10, .bool, false⟩, ⟨11, .svarint, false⟩, ⟨12, .svarint, false⟩]⟩,
  ⟨"WebAuthnCredentials", some 801, some [⟨1, .msg 259, true⟩]⟩,
  ⟨"WebAuthnListResidentCredentials", some 800, some []⟩,
  ⟨"WebAuthnRemoveResidentCredential", some 803, some [⟨1, .uvarint, false⟩]⟩,
  ⟨"WipeDevice", some 5, some []⟩,
  ⟨"WordAck", some 47, some [⟨1, .unicode, false⟩]⟩,
  ⟨"WordRequest", some 46, none⟩]

def classes : List Class := classes0 ++ classes1 ++ classes2

/-- The number of `MoneroTransactionSourceEntry`. -/
def srcEntry : Nat := 175
/-- The number of `MoneroTransactionDestinationEntry`. -/
def dstEntry : Nat := 159
/-- The number of `MoneroOutputEntry`. -/
def outputEntry : Nat := 150
/-- The number of `MoneroRctKeyPublic`. -/
def rctKey : Nat := 151
/-- The number of `MoneroAccountPublicAddress`. -/
def account : Nat := 130
/-- The number of `Failure`. -/
def failure : Nat := 99
/-- The number of `MoneroTransactionData`. -/
def txData : Nat := 158
/-- The number of `MoneroTransactionRsigData`. -/
def rsigData : Nat := 168
/-- The number of `MoneroMultisigKLRki`. -/
def multisig : Nat := 149
/-- The number of `MoneroTransactionInitRequest`. -/
def initRequest : Nat := 163
/-- The number of `MoneroTransactionInitAck`. -/
def initAck : Nat := 162

end Verif.Msgs

import Verif.Props.Varint
import Verif.Props.SignerOrder
import Verif.Props.SignerTags
import Verif.Props.SignerValue
import Verif.Props.SignerHash
import Verif.Props.SignerState
import Verif.Props.Common
import Verif.Props.KiSync
import Verif.Props.Batches
import Verif.Props.Permutation
import Verif.Props.Offsets
import Verif.Props.Protobuf
import Verif.Props.B58
import Verif.Props.Addr
import Verif.Props.Mnemonic
import Verif.Props.Bip
import Verif.Props.Curve
import Verif.Props.CurveCodec
import Verif.Props.Keys
import Verif.Props.Amounts
import Verif.Props.Extra
import Verif.Props.Sig
import Verif.Props.Range
import Verif.Props.Mlsag
import Verif.Props.Clsag
import Verif.Props.Bulletproof
import Verif.Props.KeyVLazy
import Verif.Props.KeyVChunk
import Verif.Props.BpWire
import Verif.Props.Keccak
import Verif.Props.Height
import Verif.Props.Enc
import Verif.Props.LiteBlind
import Verif.Props.LiteFields
import Verif.Props.LiteSign
import Verif.Props.LiteMlsag
import Verif.Props.LiteKeys
import Verif.Props.KeysStandard
import Verif.Props.LiteCommands
import Verif.Props.KeysFile
import Verif.Props.Prng
import Verif.Props.Agent
import Verif.Props.AgentLimits
import Verif.Props.AgentSound
import Verif.Props.AgentChecks
import Verif.Props.Seed
import Verif.Props.TxBuilder
import Verif.Props.TxKeys
import Verif.Props.LiveRefresh
import Verif.Props.EndToEnd
import Verif.Props.KiImport
import Verif.Props.Offload
import Verif.Props.Hd
import Verif.Props.HdSerial
import Verif.Props.Amount
import Verif.Props.Command
import Verif.Props.SignedSet
import Verif.Props.Account
import Verif.Props.Prompt
import Verif.Props.Start
import Verif.Props.HdPublic
import Verif.Props.WalletProc
import Verif.Props.Scan
import Verif.Props.EdDsa
import Verif.Props.Sound
import Verif.Props.BpSound
import Verif.Props.Transport
import Verif.Props.SignerPb
import Verif.Props.Asnl
import Verif.Props.Euclid
import Verif.Props.MsgConv
import Verif.Props.MultiExp
import Verif.Props.ExtraEdit
import Verif.Props.Token
import Verif.Props.Hiding
import Verif.Props.Pays
import Verif.Props.HidingOne
import Verif.Props.HidingBp
import Verif.Props.TestGen
import Verif.Props.OneTime
import Verif.Props.SubDistinct
import Verif.Props.SignerClash
import Verif.Props.SignerClashMasks
import Verif.Props.RctHelpers
import Verif.Props.HostAux
import Verif.Props.DictProto
import Verif.Props.Creds
import Verif.Props.RangeOpts
import Verif.Props.Symbols
import Verif.Props.Entropy
import Verif.Props.Connect
import Verif.Props.UserAddr
import Verif.Props.Fold
import Verif.Props.VecTables
import Verif.Props.MsgObj
import Verif.Props.Views
import Verif.Props.SignSet
import Verif.Props.PbWriter
import Verif.Props.Regs

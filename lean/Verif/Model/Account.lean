import Verif.Model.Addr
import Verif.Model.Hd
import Verif.Model.Key

/-! The watch-only account of the agent: monero_poc/agent.py 683-708, 856-948, monero_poc/utils/misc.py 368-375, monero_glue/xmr/crypto.py 27-33,
monero_glue/xmr/enc/chacha_poly.py 20-49. The account number is 0, as everywhere in the agent (the command that sets it is commented out, 210-214).

Simplifications: any exception is `none`. The JSON object is a record; `json.dump` and `json.load` and the file are left out. `update_prompt` has no
effect on the account. -/

namespace Verif.Acct
open Verif Verif.Ed Verif.Hd Verif.Mnemonic

/-- External functions: `cn_fast_hash`, `pbkdf2(password, salt, count=2048)`, ChaCha20Poly1305. -/
structure Outside where
  hash : Bytes → Bytes
  kdf : Bytes → Bytes → Bytes
  encrypt : Bytes → Bytes → Bytes → Bytes
  decrypt : Bytes → Bytes → Bytes → Option Bytes

/-- `HostAgent`, the fields of the account, 55-68. -/
structure Account where
  view : Int
  address : Bytes
  pubView : Ext
  pubSpend : Ext
  net : Nat
  salt : Option Bytes
  password : Bytes
  rpc : Option (List Char)
  walletFile : Option (List Char)
  moneroBin : Option (List Char)

/-- The account file, 699-707; older files have `view_key` (891). -/
structure File where
  viewKey : Option Bytes
  viewKeyEnc : Option Bytes
  address : Bytes
  net : Nat
  salt : Option Bytes
  rpc : Option (List Char)
  walletFile : Option (List Char)
  moneroBin : Option (List Char)

/-- `binascii.hexlify` as text. -/
def hexOf (b : Bytes) : Bytes := (hexlify b).map hexChar

/-- crypto.py 27-33 `b16_to_scalar` -/
def b16ToScalar (t : Bytes) : Option Int := (unhexText t).bind decodeScalar

/-- agent.py 926-944 `set_address`, `recompute_address`: the address kept. -/
def setAddress (H : Bytes → Bytes) (view : Int) (address : Bytes) : Option Bytes :=
  (Addr.decodeAddr H address).bind fun info =>
  (decodePoint info.spend).bind fun spend =>
  (Key.subAddressKeys H view spend 0 0).bind fun k =>
  (Addr.recomputeSub H info (encodePoint k.1) (encodePoint k.2) 0 0).map (·.addr)

/-- agent.py 909-924 `open_with_keys`: the public keys. -/
def openWithKeys (H : Bytes → Bytes) (view : Int) (address : Bytes) : Option (Ext × Ext) :=
  let pubView := scalarmultB view
  (Addr.decodeAddr H address).bind fun info =>
  (decodePoint info.spend).bind fun pubSpend =>
  (decodePoint info.view).bind fun v =>
  (pointEq pubView v).bind fun eq => if eq then some (pubView, pubSpend) else none

/-- agent.py 856-871 `open_account_passed`, on an agent with this salt, password and `rpc_addr`. -/
def openPassed (o : Outside) (viewKey address : Bytes) (testnet : Bool) (watchWallet moneroBin : Option (List Char)) (salt : Option Bytes)
    (password : Bytes) (rpc : Option (List Char)) : Option Account :=
  (b16ToScalar viewKey).bind fun view =>
  let net := if testnet then 1 else 0
  (setAddress o.hash view address).bind fun addr =>
  (openWithKeys o.hash view addr).map fun k =>
    ⟨view, addr, k.1, k.2, net, salt, password, rpc, watchWallet, moneroBin⟩

/-- agent.py 476-490 `load_watchonly`, on the device's answer. -/
def openWatchOnly (o : Outside) (watchKey address : Bytes) (testnet : Bool) (watchWallet moneroBin : Option (List Char)) (salt : Option Bytes)
    (password : Bytes) (rpc : Option (List Char)) : Option Account :=
  let net := if testnet then 1 else 0
  (decodeScalar watchKey).bind fun view =>
  (setAddress o.hash view address).bind fun addr =>
  (openWithKeys o.hash view addr).map fun k =>
    ⟨view, addr, k.1, k.2, net, salt, password, rpc, watchWallet, moneroBin⟩

/-- agent.py 683-708 `save_account`: the account (with its salt) and the file; `fresh` and `nonce` are random. -/
def save (o : Outside) (fresh nonce : Bytes) (a : Account) : Account × File :=
  let salt := a.salt.getD fresh
  let key := o.kdf a.password salt
  let cipher := nonce ++ o.encrypt key nonce (encodeInt a.view) ++ []
  ({ a with salt := some salt },
   ⟨none, some (hexOf cipher), a.address, a.net, some (hexOf salt), a.rpc, a.walletFile, a.moneroBin⟩)

/-- agent.py 883-888: the salt of a file. -/
def fileSalt (fresh : Bytes) (f : File) : Option Bytes :=
  match f.salt with
  | none => some fresh
  | some t => unhexText t

/-- agent.py 890-899: the view key of a file. -/
def fileKey (o : Outside) (password salt : Bytes) (f : File) : Option Int :=
  match f.viewKey with
  | some t => b16ToScalar t
  | none =>
    match f.viewKeyEnc with
    | some t => (unhexText t).bind fun c => (o.decrypt (o.kdf password salt) (c.take 12) (c.drop 12)).bind decodeScalar
    | none => none

/-- agent.py 873-907 `open_account_file`. -/
def openFile (o : Outside) (fresh password : Bytes) (f : File) : Option Account :=
  (fileSalt fresh f).bind fun salt =>
  (fileKey o password salt f).bind fun view =>
  (setAddress o.hash view f.address).bind fun addr =>
  (openWithKeys o.hash view addr).map fun k =>
    ⟨view, addr, k.1, k.2, f.net, some salt, password, f.rpc, f.walletFile, f.moneroBin⟩

/-- agent.py 200-204 `check_address`, on the device's answer. -/
def checkAddress (a : Account) (device : Bytes) : Option Unit := if a.address ≠ device then none else some ()

end Verif.Acct

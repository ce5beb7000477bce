import Verif.Model.Account
import Verif.Model.KeysFile

/-! How the agent starts: monero_poc/agent.py 51-68, 476-496, 518-528, 601-647, 649-726, 728-854. Account: `Model/Account.lean`; keys file:
`Model/KeysFile.lean`.

Simplifications: an exception or `sys.exit` is `none`; what was written to disk before stays. The account file is none of the keys files. Printing, logging
and the prompt are left out. Texts typed are ASCII. -/

namespace Verif.Start
open Verif Verif.Ed Verif.Acct

/-! ## Restore height -/

/-- The variable `height` of `wallet_restore_param`: a number or a text. -/
inductive Height
  | num (n : Int)
  | text (t : List Char)
deriving DecidableEq

/-- What one round of the loop 744-795 may ask for: the answer to "Is it correct?", the line typed, the height the daemon gives (`none`: it raises) for
"-" or for a date, the answer to "Do you want to try again?". -/
structure Turn where
  correct : Bool
  line : List Char
  daemon : Option Int
  again : Bool

/-- What the user sees and says. -/
inductive Said
  | asked (h : Height) (yes : Bool)
  | unresolved (again : Bool)
deriving DecidableEq

/-- 754: `.strip().lower()`. -/
def clean (t : List Char) : List Char := (((t.dropWhile Hd.isSpace).reverse.dropWhile Hd.isSpace).reverse).map Char.toLower

/-- `\d` -/
def isDigit (c : Char) : Bool := decide ('0' ≤ c) && decide (c ≤ '9')

/-- 765: `re.match(r"^(\d{4})-(\d{1,2})-(\d{1,2})$", height)`. -/
def isDate (t : List Char) : Bool :=
  let y := t.takeWhile isDigit
  match t.dropWhile isDigit with
  | '-' :: r =>
    let m := r.takeWhile isDigit
    match r.dropWhile isDigit with
    | '-' :: d => decide (y.length = 4) && decide (m.length = 1 ∨ m.length = 2) && decide (d.length = 1 ∨ d.length = 2) && d.all isDigit
    | _ => false
  | _ => false

/-- 744-796, the loop of `wallet_restore_param` with its variables `height`, `sure_stage` and what was said so far. `none`: it raises, or the turns end
before it does. -/
def restoreLoop : Height → Bool → List Said → List Turn → Option (Height × List Said)
  | _, _, _, [] => none
  | height, sure, said, t :: ts =>
    if sure && t.correct then some (height, said ++ [.asked height true]) else
    let said := if sure then said ++ [.asked height false] else said
    let line := clean t.line
    if line = ['-'] then
      match t.daemon with
      | none => none
      | some h => restoreLoop (.num h) true said ts
    else if line.length = 0 then restoreLoop (.num 0) true said ts
    else if isDate line then
      match t.daemon with
      | some h => restoreLoop (.num h) true said ts
      | none => if t.again then restoreLoop (.text line) sure (said ++ [.unresolved true]) ts else some (.num 0, said ++ [.unresolved false])
    else match Hd.pyInt line with
      | some n => restoreLoop (.num n) true said ts
      | none => restoreLoop (.text line) false said ts

/-- 728-796 `wallet_restore_param`. -/
def restoreParam (ts : List Turn) : Option (Height × List Said) := restoreLoop (.num 0) false [] ts

/-! ## The agent, its arguments and what it meets -/

/-- 55-68: the fields of the agent. -/
structure Agent where
  view : Option Int
  address : Option Bytes
  keys : Option (Ext × Ext)
  net : Option Nat
  salt : Option Bytes
  password : Bytes
  rpc : Option (List Char)
  walletFile : Option (List Char)
  moneroBin : Option (List Char)

/-- 51-68 `__init__`. -/
def Agent.new : Agent := ⟨none, none, none, none, none, [], some "127.0.0.1:18081".toList, none, none⟩

/-- An opened account. -/
def Agent.of (a : Account) : Agent :=
  ⟨some a.view, some a.address, some (a.pubView, a.pubSpend), some a.net, a.salt, a.password, a.rpc, a.walletFile, a.moneroBin⟩

/-- The command line arguments that matter here. -/
structure Args where
  viewKey : Option Bytes
  address : Option Bytes
  accountFile : Bool
  watchWallet : Option (List Char)
  moneroBin : Option (List Char)
  rpc : Option (List Char)
  sign : Bool
  noInit : Bool
  testnet : Bool

/-- xmr/wallet.py 16-31 `WalletKeyData` with `AccountKeys`. -/
structure KeyData where
  created : Int
  spendPub : Bytes
  viewPub : Bytes
  spendSec : Bytes
  viewSec : Bytes
deriving DecidableEq

/-- xmr/wallet.py 33-61 `WalletKeyFile`: the attributes set at 839-841. The other ones have their defaults. -/
structure Info where
  watchOnly : Nat
  testnet : Bool
  refreshHeight : Height
deriving DecidableEq

/-- Files: the one named by `--account-file` (`some none`: there, but no account in it) and the keys files. -/
structure Disk where
  account : Option (Option File)
  keys : List Char → Option Bytes

/-- What a start meets: the device's answer to the request for the view key, the password typed, randomness, the clock, the turns of the dialogue. -/
structure World where
  device : Option (Bytes × Bytes)
  password : Bytes
  fresh : Bytes
  nonce : Bytes
  iv : Bytes
  time : Int
  turns : List Turn

/-- External functions. -/
structure Env where
  o : Outside
  x : Enc.Ciphers
  c : KeysFile.Codec KeyData Info

/-- A text argument that counts as true. -/
def given (t : Option (List Char)) : Option (List Char) := t.filter (· ≠ [])

/-- 518-528 `load_params`. -/
def loadParams (a : Args) (s : Agent) : Agent :=
  { s with
    rpc := (given a.rpc).orElse fun _ => s.rpc
    walletFile := (given a.watchWallet).orElse fun _ => s.walletFile
    moneroBin := (given a.moneroBin).orElse fun _ => s.moneroBin }

/-- 649-667 `check_params(True)`: false is `sys.exit(1)`. -/
def checkParams (a : Args) (s : Agent) : Bool := a.sign || (s.walletFile.isSome && s.moneroBin.isSome)

/-- 476-496 `load_watchonly`: `self.args` is never false here, so no exception gets out and what was set before stays. (`open_with_keys` does not raise
once `set_address` succeeded, see C92; its partial effects are left out.) -/
def loadWatchOnly (e : Env) (a : Args) (w : World) (s : Agent) : Agent :=
  let s := { s with net := some (if a.testnet then 1 else 0) }
  match w.device with
  | none => s
  | some (key, address) =>
    match decodeScalar key with
    | none => s
    | some v =>
      match setAddress e.o.hash v address with
      | none => { s with view := some v, address := some address }
      | some t =>
        match openWithKeys e.o.hash v t with
        | none => { s with view := some v, address := some t }
        | some k => { s with view := some v, address := some t, keys := some k }

/-- 612-619: where the account comes from. -/
def loadAccount (e : Env) (a : Args) (w : World) (d : Disk) : Option Agent :=
  match a.viewKey, a.address with
  | some key, some address => (openPassed e.o key address a.testnet a.watchWallet a.moneroBin none [] Agent.new.rpc).map Agent.of
  | _, _ =>
    if a.accountFile && d.account.isSome then
      match d.account with
      | some (some f) => (openFile e.o w.fresh w.password f).map Agent.of
      | _ => none
    else
      let s := loadParams a Agent.new
      if checkParams a s then some (loadWatchOnly e a w s) else none

/-- 710-726 `check_existing_wallet_file`: whether the keys match; `none`: it raises. -/
def checkExisting (e : Env) (s : Agent) (k : Ext × Ext) (data : Bytes) : Option Bool :=
  match KeysFile.load e.x e.c s.password data with
  | none => none
  | some wl =>
    match wl.keyData with
    | none => none
    | some kd =>
      let same := decide (kd.spendPub = encodePoint k.2) && decide (kd.viewPub = encodePoint k.1)
      match Addr.netVersion s.net false false with
      | none => none
      | some _ => some same

/-- 831-851: the wallet of a new keys file. -/
def newWallet (s : Agent) (v : Int) (k : Ext × Ext) (time : Int) (height : Height) : KeysFile.Wallet KeyData Info :=
  ⟨some ⟨time, encodePoint k.2, encodePoint k.1, encodeInt 0, encodeInt v⟩, ⟨1, decide (s.net = some 1), height⟩⟩

/-- 806: `"%s.keys" % self.wallet_file`. -/
def keyFile (p : List Char) : List Char := p ++ ".keys".toList

/-- 798-854 `ensure_watch_only`: the files afterwards, and whether it returned. -/
def ensureWatchOnly (e : Env) (a : Args) (w : World) (s : Agent) (d : Disk) : Disk × Bool :=
  match s.walletFile with
  | none => (d, true)
  | some p =>
    match s.keys, d.keys (keyFile p) with
    | some k, some data =>
      let ok := (checkExisting e s k data).getD false
      if !ok then (if !a.noInit then (d, false) else (d, true)) else (d, true)
    | keys, _ =>
      if a.noInit then (d, true) else
      match keys with
      | none => (d, false)
      | some k =>
        match s.view, restoreParam w.turns with
        | some v, some (height, _) =>
          match (KeysFile.gen e.x e.c w.iv s.password (newWallet s v k w.time height)).1 with
          | none => (d, false)
          | some data => ({ d with keys := fun q => if q = keyFile p then some data else d.keys q }, true)
        | _, _ => (d, false)

/-- 683-708 `save_account`: opening the file for writing empties it, after the encryption. (The public keys are not saved.) -/
def saveAccount (e : Env) (w : World) (s : Agent) (d : Disk) : Disk × Option Agent :=
  match s.view with
  | none => (d, none)
  | some v =>
    match s.address, s.net with
    | some t, some net =>
      let k := s.keys.getD (⟨0, 1, 1, 0⟩, ⟨0, 1, 1, 0⟩)
      let r := save e.o w.fresh w.nonce ⟨v, t, k.1, k.2, net, s.salt, s.password, s.rpc, s.walletFile, s.moneroBin⟩
      ({ d with account := some (some r.2) }, some { s with salt := r.1.salt })
    | _, _ => ({ d with account := some none }, none)

/-- 601-647 `open_account`: the files afterwards, and the agent if it goes on. -/
def openAccount (e : Env) (a : Args) (w : World) (d : Disk) : Disk × Option Agent :=
  let fresh := a.accountFile && d.account.isNone
  match loadAccount e a w d with
  | none => (d, none)
  | some s =>
    let s := loadParams a s
    if fresh && !checkParams a s then (d, none) else
    let s := if fresh then { s with password := w.password } else s
    match ensureWatchOnly e a w s d with
    | (d, false) => (d, none)
    | (d, true) => if fresh then saveAccount e w s d else (d, some s)

end Verif.Start

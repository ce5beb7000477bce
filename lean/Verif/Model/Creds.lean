import Verif.Model.Addr
import Verif.Model.Key
import Verif.Model.Hd

/-!
The tools that print wallets: monero_poc/generate_creds.py 11-58, monero_poc/seed.py 171-241 and `AccountCreds.new_wallet`, monero_glue/xmr/sub/creds.py
30-48. `H` is Keccak; the printed lines are the texts in them, without their labels.
-/

namespace Verif.Creds
open Verif Ed

/-- creds.py 30-48 `new_wallet`: the private and public keys, the address and the network. -/
structure Wallet where
  view : Int
  spend : Int
  viewPub : Ext
  spendPub : Ext
  address : Bytes
  net : Nat

/-- creds.py 30-48 `new_wallet` (`none`: unknown network). -/
def newWallet (H : Bytes → Bytes) (view spend : Int) (net : Nat) : Option Wallet :=
  let viewPub := scalarmultB view
  let spendPub := scalarmultB spend
  (Addr.netVersion (some net) false false).map fun v =>
    ⟨view, spend, viewPub, spendPub, Addr.encodeAddr H v (encodePoint spendPub) (encodePoint viewPub) none, net⟩

/-- `binascii.hexlify(b).decode(...)`: the text of bytes. -/
def hexText (b : Bytes) : Bytes := (Mnemonic.hexlify b).map Hd.hexChar

/-- generate_creds.py 40-44: the network of the flags; with both flags it is the test net. -/
def network (testnet stagenet : Bool) : Nat := if testnet then 1 else if stagenet then 2 else 0

/-- generate_creds.py 46-58: `rv` and `rs` are the numbers of `rand.getrandbits(512)` (ec_py.py 566-567 `random_scalar`); the result is the printed
address, private view key and private spend key. -/
def generate (H : Bytes → Bytes) (testnet stagenet : Bool) (rv rs : Nat) : Option (Bytes × Bytes × Bytes) :=
  let view : Int := (rv : Int) % l
  let spend : Int := (rs : Int) % l
  (newWallet H view spend (network testnet stagenet)).map fun w => (w.address, hexText (encodeInt view), hexText (encodeInt spend))

/-- One line of the listing of sub-addresses: seed.py 233-241. -/
def subLine (H : Bytes → Bytes) (viewSec : Int) (spendPub : Ext) (net major minor : Nat) : Option (Nat × Nat × Bytes) :=
  (Key.subAddressKeys H viewSec spendPub major minor).bind fun k =>
    (Addr.netVersion (some net) true false).map fun v => (major, minor, Addr.encodeAddr H v (encodePoint k.1) (encodePoint k.2) none)

/-- The indices that seed.py 228-231 goes through. -/
def indices (majorMax minorMax : Nat) : List (Nat × Nat) :=
  (List.range majorMax).flatMap fun major => ((List.range minorMax).filter fun minor => !(major == 0 && minor == 0)).map fun minor => (major, minor)

/-- seed.py 227-241 `gen_sub_address`. -/
def genSubAddress (H : Bytes → Bytes) (viewSec : Int) (spendPub : Ext) (net majorMax minorMax : Nat) : Option (List (Nat × Nat × Bytes)) :=
  (indices majorMax minorMax).mapM fun i => subLine H viewSec spendPub net i.1 i.2

/-- seed.py 210-219: the networks whose sub-addresses are printed. -/
def subNets (mainnet testnet stagenet : Bool) : List Nat :=
  (if mainnet || (!testnet && !stagenet) then [0] else []) ++ (if testnet then [1] else []) ++ (if stagenet then [2] else [])

/-- What seed.py prints of a seed derivation object, 171-173 and 188-219. -/
structure Report where
  spendSec : Bytes
  viewSec : Bytes
  spendPub : Bytes
  viewPub : Bytes
  addresses : List Bytes
  subs : List (Nat × List (Nat × Nat × Bytes))

/-- seed.py 171-173 and 188-219 (`sd.creds`, monero_glue/xmr/sub/seed.py, is `new_wallet`); `keys` are the secret spend, public spend, secret view and
public view key, `subs` the flag. Left out: the lines 175-186 with the words and the seeds (C84). -/
def report (H : Bytes → Bytes) (keys : Int × Ext × Int × Ext) (subs mainnet testnet stagenet : Bool) : Option Report :=
  let (spendSec, spendPub, viewSec, viewPub) := keys
  (newWallet H viewSec spendSec 0).bind fun m =>
  (newWallet H viewSec spendSec 1).bind fun t =>
  (newWallet H viewSec spendSec 2).bind fun s =>
  ((if subs then subNets mainnet testnet stagenet else []).mapM fun net =>
    (genSubAddress H viewSec spendPub net 5 5).map fun ls => (net, ls)).map fun ls =>
    ⟨hexText (encodeInt spendSec), hexText (encodeInt viewSec), hexText (encodePoint spendPub), hexText (encodePoint viewPub),
      [m.address, t.address, s.address], ls⟩

end Verif.Creds

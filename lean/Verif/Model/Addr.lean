import Verif.Model.B58

/-! Monero addresses: monero_glue/xmr/sub/addr.py, xmr_net.py, crypto.py 110-127, monero.py 445-508. The hash `H` is
`cn_fast_hash`. -/

namespace Verif.Addr
open Verif

/-- xmr_net.py 8-23: (standard, integrated, subaddress) prefixes of main net, test net, stage net. -/
def prefixes : Nat → Option (Nat × Nat × Nat)
  | 0 => some (18, 19, 42)
  | 1 => some (53, 54, 63)
  | 2 => some (24, 25, 36)
  | _ => none

/-- xmr_net.py 26-53 `net_version` (`none` network = main net; `none` result = ValueError). -/
def netVersion (net : Option Nat) (isSub isIntegrated : Bool) : Option Nat :=
  if isIntegrated && isSub then none else
    match prefixes (net.getD 0) with
    | none => none
    | some (std, int, sub) => some (if isSub then sub else if isIntegrated then int else std)

/-- crypto.py 110-114 `xmr_base58_addr_encode_check`. (`hexlify` and `_hexToBin` cancel.) -/
def encodeCheck (H : Bytes → Bytes) (version : Nat) (buff : Bytes) : Bytes :=
  let buf := UInt8.ofNat version :: buff
  B58.Mnr.encode (buf ++ (H buf).take 4)

/-- crypto.py 117-127 `xmr_base58_addr_decode_check`: data and version. -/
def decodeCheck (H : Bytes → Bytes) (buff : Bytes) : Option (Bytes × Nat) :=
  match B58.Mnr.decodeBin buff with
  | none => none
  | some d =>
    let body := d.take (d.length - 4)
    if d.drop (d.length - 4) = (H body).take 4 then
      match d with
      | [] => none
      | v :: _ => some (body.drop 1, v.toNat)
    else none

/-- addr.py 65-77 `encode_addr`: a payment id that is None or empty adds nothing. -/
def encodeAddr (H : Bytes → Bytes) (version : Nat) (spend view : Bytes) (pid : Option Bytes) : Bytes :=
  encodeCheck H version (spend ++ view ++ pid.getD [])

/-- addr.py 111-129 `public_addr_encode`. -/
def publicAddrEncode (H : Bytes → Bytes) (spend view : Bytes) (isSub : Bool) (net : Option Nat) (pid : Option Bytes) : Option Bytes :=
  if (pid.getD []).length ≠ 0 ∧ (pid.getD []).length ≠ 8 then none else
    (netVersion net isSub pid.isSome).map fun v => encodeAddr H v spend view pid

/-- addr.py 15-24 `AddrInfo`. -/
structure Info where
  spend : Bytes
  view : Bytes
  net : Nat
  isSub : Bool
  isIntegrated : Bool
  pid : Option Bytes
  addr : Bytes
  base : Bytes
deriving DecidableEq

/-- addr.py 41-47 `recompute_addr`. -/
def recomputeAddr (H : Bytes → Bytes) (i : Info) : Option Info :=
  match publicAddrEncode H i.spend i.view i.isSub (some i.net) none with
  | none => none
  | some b =>
    match publicAddrEncode H i.spend i.view i.isSub (some i.net) i.pid with
    | none => none
    | some a => some { i with base := b, addr := a }

/-- addr.py 194-199 `is_integrated`. -/
def isIntegrated (ver : Nat) : Bool := [19, 54, 25].contains ver

/-- addr.py 202-207 `is_subaddress`. -/
def isSubaddress (ver : Nat) : Bool := [42, 63, 36].contains ver

/-- addr.py 210-230 `get_addr_type`. -/
def addrType (ver : Nat) : Option Nat :=
  if [18, 19, 42].contains ver then some 0 else if [53, 54, 63].contains ver then some 1
  else if [24, 25, 36].contains ver then some 2 else none

/-- addr.py 28-39 `set_addr` with `payment_id=None`. -/
def setAddr (H : Bytes → Bytes) (ver : Nat) (data : Bytes) : Option Info :=
  match addrType ver with
  | none => none
  | some net => recomputeAddr H
      { spend := data.take 32, view := (data.drop 32).take 32, net, isSub := isSubaddress ver, isIntegrated := isIntegrated ver,
        pid := if isIntegrated ver then some (data.drop 64) else none, addr := [], base := [] }

/-- addr.py 80-88 `decode_addr`. -/
def decodeAddr (H : Bytes → Bytes) (addr : Bytes) : Option Info :=
  match decodeCheck H addr with
  | none => none
  | some (d, ver) => setAddr H ver d

/-- addr.py 49-53 `recompute_sub`: new keys and the sub-address flag. -/
def recomputeSub (H : Bytes → Bytes) (i : Info) (spend view : Bytes) (major minor : Nat) : Option Info :=
  recomputeAddr H { i with spend, view, isSub := decide (major ≠ 0 ∧ minor ≠ 0) }

/-- monero.py 487-508 `build_address_info`; `keys` are the encoded public keys of the account (spend, view), `sub` gives the
encoded keys of `generate_sub_address_keys` (445-461) for an index other than (0,0); at (0,0) it returns the account's own keys. -/
def buildAddressInfo (H : Bytes → Bytes) (keys : Bytes × Bytes) (sub : Nat × Nat → Bytes × Bytes) (idx : Option (Nat × Nat))
    (pid : Option Bytes) (net : Nat) : Option Info :=
  if idx.isSome ∧ idx ≠ some (0, 0) ∧ (pid.getD []).length ≠ 0 then none else
    let k := match idx with
      | none => keys
      | some i => if i = (0, 0) then keys else sub i
    recomputeAddr H { spend := k.1, view := k.2, net, isSub := idx.isSome, isIntegrated := pid.isSome, pid, addr := [], base := [] }

end Verif.Addr

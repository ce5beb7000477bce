import Verif.Model.Ed25519
import Verif.Model.Varint

/-!
One-time keys, key images, hidden amounts and payment ids: xmr/core/ec_py.py 826-1075, xmr/monero.py, xmr/ring_ct.py 449-484,
xmr/sub/tsx_helper.py, xmr/sub/addr.py 131-169 and the parts of protocol/tsx_sign_builder.py that build an output. Exceptions are `none`.
Scalars are the integer kept by `EdScalar`, points extended coordinates.
`H` is `cn_fast_hash` (Keccak-256), a parameter.
-/

namespace Verif.Key
open Verif Ed

/-! ## Scalars and points -/

/-- ec_py.py 498-499 `sc_add`, 507-508 `sc_sub`: `EdScalar` arithmetic (80-88) reduces modulo `l`. -/
def scAdd (a b : Int) : Int := (a + b) % l
def scSub (a b : Int) : Int := (a - b) % l

/-- ec_py.py 616-617 `scalarmult(P, e)`. -/
def smul (P : Ext) (e : Int) : Ext := scalarmult P e.toNat

/-- ec_py.py 656-657 `point_mul8`. -/
def mul8 (P : Ext) : Ext := scalarmult P 8

/-- ec_py.py 826-834 `hash_to_scalar` (a digest has 32 bytes). -/
def hs (H : Bytes → Bytes) (data : Bytes) : Int := (bitSum (H data) 256 : Int) % l

/-- ec_py.py 842-909 `hash_to_point` (a digest has 32 bytes). -/
def hp (H : Bytes → Bytes) (data : Bytes) : Ext := scalarmult (hashPoint ((bitSum (H data) 256 : Int) % q)) 8

/-- ec_py.py 922. -/
def xmrH : Bytes := [0x8b, 0x65, 0x59, 0x70, 0x15, 0x37, 0x99, 0xaf, 0x2a, 0xea, 0xdc, 0x9f, 0xf1, 0xad, 0xd0, 0xea, 0x6c, 0x72, 0x51, 0xd5,
  0x41, 0x54, 0xcf, 0xa9, 0x2c, 0x17, 0x3a, 0x0d, 0xd3, 0x9c, 0x1f, 0x94]

/-- ec_py.py 923 `XMR_H_PT`. -/
def hPt : Ext := (decodePoint xmrH).getD ident

/-- ec_py.py 977-987 `gen_c`; 940-941 `scalarmult_h`. -/
def genC (mask amount : Int) : Ext := add (scalarmultB mask) (smul hPt (amount % l))

/-- ec_py.py 944-952 `add_keys2`. -/
def addKeys2 (a b : Int) (P : Ext) : Ext := add (scalarmultB a) (smul P b)

/-- ec_py.py 960-969 `add_keys3`. -/
def addKeys3 (a : Int) (A : Ext) (b : Int) (P : Ext) : Ext := add (smul A a) (smul P b)

/-! ## Derivations -/

/-- ec_py.py 990-1010 `generate_key_derivation`. -/
def keyDerivation (key1 : Ext) (key2 : Int) : Option Ext :=
  if scCheck key2 ≠ 0 then none
  else match geFrombytesCheck key1 with
    | none => none
    | some c => if c ≠ 0 then none else if checkPoint key1 then some (mul8 (smul key1 key2)) else none

/-- ec_py.py 1013-1022 `derivation_to_scalar`. -/
def derivationToScalar (H : Bytes → Bytes) (deriv : Ext) (i : Nat) : Option Int :=
  if checkPoint deriv then some (hs H (encodePoint deriv ++ Varint.dumpNat i)) else none

/-- ec_py.py 1025-1041 `derive_public_key`. -/
def derivePublicKey (H : Bytes → Bytes) (deriv : Ext) (i : Nat) (base : Ext) : Option Ext :=
  match geFrombytesCheck base with
  | none => none
  | some c => if c ≠ 0 then none else if !checkPoint base then none
    else (derivationToScalar H deriv i).map fun s => add base (scalarmultB s)

/-- ec_py.py 1044-1055 `derive_secret_key`. -/
def deriveSecretKey (H : Bytes → Bytes) (deriv : Ext) (i : Nat) (base : Int) : Option Int :=
  if scCheck base ≠ 0 then none else (derivationToScalar H deriv i).map fun s => scAdd base s

/-- `struct.pack("<L", n)` for `n < 2^32`. -/
def le32 (n : Nat) : Bytes := [UInt8.ofNat n, UInt8.ofNat (n / 256), UInt8.ofNat (n / 65536), UInt8.ofNat (n / 16777216)]

/-- ec_py.py 1058-1074 `get_subaddress_secret_key`; `struct.error` for an index of more than 32 bits. -/
def subSecretCore (H : Bytes → Bytes) (a : Int) (major minor : Nat) : Option Int :=
  if major < 2 ^ 32 ∧ minor < 2 ^ 32 then
    some (hs H ([0x53, 0x75, 0x62, 0x41, 0x64, 0x64, 0x72, 0] ++ encodeInt a ++ le32 major ++ le32 minor))
  else none

/-- monero.py 50-62 `get_subaddress_secret_key`. -/
def subSecret (H : Bytes → Bytes) (a : Int) (major minor : Nat) : Option Int :=
  if major = 0 ∧ minor = 0 then some a else subSecretCore H a major minor

/-- monero.py 65-75 `get_subaddress_spend_public_key`. -/
def subSpendPub (H : Bytes → Bytes) (a : Int) (spend : Ext) (major minor : Nat) : Option Ext :=
  if major = 0 ∧ minor = 0 then some spend else (subSecret H a major minor).map fun m => add spend (scalarmultB m)

/-- monero.py 445-461 `generate_sub_address_keys`. -/
def subAddressKeys (H : Bytes → Bytes) (a : Int) (spend : Ext) (major minor : Nat) : Option (Ext × Ext) :=
  if major = 0 ∧ minor = 0 then some (spend, scalarmultB a)
  else (subSecret H a major minor).map fun m =>
    let D := add spend (scalarmultB m)
    (D, smul D a)

/-- monero.py 430-442 `generate_monero_keys` (with 420-427 `generate_keys`): spend secret, spend public, view secret, view public. -/
def moneroKeys (H : Bytes → Bytes) (seed : Bytes) : Option (Int × Ext × Int × Ext) :=
  (decodeScalar seed).map fun b =>
    let a := hs H (encodeInt b)
    (b, scalarmultB b, a, scalarmultB a)

/-! ## Receiving -/

/-- The dict from encoded spend keys to indices. -/
abbrev Table := List (Bytes × (Nat × Nat))

/-- `subaddresses[key]` after assignments in this order (newest first). -/
def Table.get (t : Table) (k : Bytes) : Option (Nat × Nat) := (t.find? fun e => e.1 == k).map (·.2)

/-- monero.py 368-391 `compute_subaddresses`. -/
def computeSubaddresses (H : Bytes → Bytes) (a : Int) (spend : Ext) (account : Nat) : List Nat → Table → Option Table
  | [], t => some t
  | idx :: rest, t =>
    if account = 0 ∧ idx = 0 then computeSubaddresses H a spend account rest ((encodePoint spend, (0, 0)) :: t)
    else match subSpendPub H a spend account idx with
      | none => none
      | some pub => computeSubaddresses H a spend account rest ((encodePoint pub, (account, idx)) :: t)

/-- monero.py 78-86 `derive_subaddress_public_key`. -/
def deriveSubPublic (H : Bytes → Bytes) (out deriv : Ext) (i : Nat) : Option Ext :=
  if checkPoint out then (derivationToScalar H deriv i).map fun s => sub out (scalarmultB s) else none

/-- monero.py 89-95 `generate_key_image`. -/
def keyImage (H : Bytes → Bytes) (pub : Bytes) (x : Int) : Ext := smul (hp H pub) x

/-- monero.py 98-125 `is_out_to_acc_precomp`: `none` an exception, `some none` not ours. -/
def isOutToAcc (H : Bytes → Bytes) (t : Table) (out deriv : Ext) (additional : List Ext) (i : Nat) : Option (Option ((Nat × Nat) × Ext)) :=
  match deriveSubPublic H out deriv i with
  | none => none
  | some k =>
    match t.get (encodePoint k) with
    | some idx => some (some (idx, deriv))
    | none =>
      if additional.length > 0 then
        match additional[i]? with
        | none => none
        | some d' =>
          match deriveSubPublic H out d' i with
          | none => none
          | some k => some ((t.get (encodePoint k)).map fun idx => (idx, d'))
      else some none

/-- monero.py 128-183 `generate_key_image_helper_precomp` without the multisig branch (`multisig_keys` empty); `a`, `b` the private view and
spend keys. -/
def kiHelperPrecomp (H : Bytes → Bytes) (a b : Int) (out deriv : Ext) (i : Nat) (idx : Nat × Nat) : Option (Int × Ext) :=
  if b = 0 then none
  else match deriveSecretKey H deriv i b with
    | none => none
    | some s1 =>
      match (if idx = (0, 0) then some s1 else (subSecret H a idx.1 idx.2).map fun m => scAdd s1 m) with
      | none => none
      | some s2 =>
        let pub := scalarmultB s2
        match pointEq pub out with
        | none => none
        | some false => none
        | some true => some (s2, keyImage H (encodePoint pub) s2)

/-- The loop over the additional keys in monero.py 186-229. -/
def derivations (a : Int) : List Ext → Option (List Ext)
  | [] => some []
  | R :: Rs => match keyDerivation R a, derivations a Rs with
    | some x, some xs => some (x :: xs)
    | _, _ => none

/-- monero.py 186-229 `generate_key_image_helper`. -/
def kiHelper (H : Bytes → Bytes) (a b : Int) (t : Table) (out txPub : Ext) (additional : List Ext) (i : Nat) : Option (Int × Ext × Ext) :=
  match keyDerivation txPub a with
  | none => none
  | some recv =>
    match derivations a additional with
    | none => none
    | some adds =>
      match isOutToAcc H t out recv adds i with
      | none => none
      | some none => none
      | some (some (idx, d')) => (kiHelperPrecomp H a b out d' i idx).map fun r => (r.1, r.2, recv)

/-! ## Sending -/

/-- A destination: the encoded spend and view keys of its address, the sub-address flag and the amount. -/
structure Dst where
  spend : Bytes
  view : Bytes
  isSub : Bool
  amount : Nat
deriving DecidableEq

/-- Address part. -/
def Dst.addr (d : Dst) : Bytes × Bytes := (d.spend, d.view)

/-- Loop of addr.py 131-156 `classify_subaddresses` (`addr_eq` 159-169); addresses already seen are compared as in `addr_to_hash` 56-62. -/
def classifyLoop (change : Option (Bytes × Bytes)) : List Dst → List Bytes → Nat × Nat × Option (Bytes × Bytes) → Nat × Nat × Option (Bytes × Bytes)
  | [], _, acc => acc
  | d :: ds, seen, acc =>
    if change = some d.addr then classifyLoop change ds seen acc
    else if seen.contains (d.spend ++ d.view) then classifyLoop change ds seen acc
    else
      let seen := (d.spend ++ d.view) :: seen
      if d.isSub then classifyLoop change ds seen (acc.1, acc.2.1 + 1, some d.addr)
      else classifyLoop change ds seen (acc.1 + 1, acc.2.1, acc.2.2)

/-- addr.py 131-156: number of standard addresses, of sub-addresses, the last new sub-address. -/
def classify (dsts : List Dst) (change : Option (Bytes × Bytes)) : Nat × Nat × Option (Bytes × Bytes) :=
  classifyLoop change dsts [] (0, 0, none)

/-- Transaction keys of a session. -/
structure TxKeys where
  r : Int
  rPub : Ext
  needAdditional : Bool
deriving DecidableEq

/-- tsx_sign_builder.py 173-178 `gen_r` and 439-451 of `init_transaction`. -/
def txKeys (r : Int) (dsts : List Dst) (change : Option (Bytes × Bytes)) : Option TxKeys :=
  let c := classify dsts change
  let need := decide (c.2.1 > 0 ∧ (c.1 > 0 ∨ c.2.1 > 1))
  if c.1 = 0 ∧ c.2.1 = 1 then
    match c.2.2 with
    | none => none
    | some a => (decodePoint a.1).map fun D => ⟨r, smul D r, need⟩
  else some ⟨r, scalarmultB r, need⟩

/-- tsx_sign_builder.py 1313-1335 `_s6_set_out_additional_keys`; `s` the random scalar drawn. The outer `none` is an exception. -/
def additionalKey (k : TxKeys) (s : Int) (d : Dst) : Option (Option Ext) :=
  if !k.needAdditional then some none
  else if d.isSub then (decodePoint d.spend).map fun D => some (smul D s)
  else some (some (scalarmultB s))

/-- tsx_sign_builder.py 1337-1365 `_s6_set_out_derivation`; `view` the private view key of the sender. -/
def outDerivation (k : TxKeys) (view : Int) (change : Option (Bytes × Bytes)) (s : Int) (d : Dst) : Option Ext :=
  if change = some d.addr then keyDerivation k.rPub view
  else match decodePoint d.view with
    | none => none
    | some V => keyDerivation V (if d.isSub && k.needAdditional then s else k.r)

/-- What the sender publishes or keeps for one output: additional public key, one-time key, amount key. -/
structure OutKeys where
  additional : Option Ext
  outKey : Ext
  amountKey : Int

/-- tsx_sign_builder.py 990-1007 `_s6_compute_tx_keys` for the output at position `i`. -/
def outKeys (H : Bytes → Bytes) (k : TxKeys) (view : Int) (change : Option (Bytes × Bytes)) (i : Nat) (s : Int) (d : Dst) : Option OutKeys :=
  match additionalKey k s d with
  | none => none
  | some add =>
    match outDerivation k view change s d with
    | none => none
    | some deriv =>
      match derivationToScalar H deriv i, decodePoint d.spend with
      | some amountKey, some D => (derivePublicKey H deriv i D).map fun P => ⟨add, P, amountKey⟩
      | _, _ => none

/-- All outputs in order, starting at position `i`; `ss` the random scalars drawn for them. -/
def allOutKeys (H : Bytes → Bytes) (k : TxKeys) (view : Int) (change : Option (Bytes × Bytes)) : Nat → List Int → List Dst → Option (List OutKeys)
  | _, _, [] => some []
  | _, [], _ :: _ => none
  | i, s :: ss, d :: ds =>
    match outKeys H k view change i s d, allOutKeys H k view change (i + 1) ss ds with
    | some o, some os => some (o :: os)
    | _, _ => none

/-! ## Hidden amounts -/

/-- crypto.py 130-133 `xor8`; the first eight bytes of `buff`. -/
def xor8 (buff key : Bytes) : Bytes := (buff.take 8).zipWith (· ^^^ ·) key ++ buff.drop 8

/-- monero.py 464-474 `commitment_mask`. -/
def commitmentMask (H : Bytes → Bytes) (key : Bytes) : Int :=
  hs H ([0x63, 0x6f, 0x6d, 0x6d, 0x69, 0x74, 0x6d, 0x65, 0x6e, 0x74, 0x5f, 0x6d, 0x61, 0x73, 0x6b] ++ key)

/-- monero.py 477-484 `ecdh_hash`; tsx_sign_builder.py 1265-1272 `_s6_ecdh_hash`. -/
def ecdhHash (H : Bytes → Bytes) (key : Bytes) : Bytes := H ([0x61, 0x6d, 0x6f, 0x75, 0x6e, 0x74] ++ key)

/-- tsx_sign_builder.py 1274-1311 `_s6_ecdh_encode`: encoded mask and amount; `sc_init` (ec_py.py 450-453) refuses more than 64 bits. -/
def ecdhEncode (H : Bytes → Bytes) (mask : Int) (amount : Int) (key : Bytes) (v2 : Bool) : Option (Bytes × Bytes) :=
  if amount ≥ 2 ^ 64 then none
  else if v2 then some (List.replicate 32 0, xor8 (encodeInt (amount % l)) (ecdhHash H key))
  else
    let h1 := hs H key
    let h2 := hs H (encodeInt h1)
    some (encodeInt (scAdd mask h1), encodeInt (scAdd (amount % l) h2))

/-- tsx_sign_builder.py 1248-1263 `_s6_serialize_ecdh`. -/
def ecdhSerialize (e : Bytes × Bytes) (v2 : Bool) : Bytes := if v2 then e.2.take 8 else e.1.take 32 ++ e.2.take 32

/-- agent_lite.py 643-659 of `_on_set_outputs_ack`: the host's reading of those bytes; `hf9` is `self.hf == 9`. (For `hf == 9` the 64 bytes
are read as two 32-byte fields by the serialization library.) -/
def ecdhParse (b : Bytes) (hf9 : Bool) : Option (Bytes × Bytes) :=
  if hf9 then (if b.length < 64 then none else some (b.take 32, (b.drop 32).take 32))
  else some (List.replicate 32 0, b ++ (List.replicate 32 0).drop 8)

/-- ring_ct.py 457-484 `ecdh_encdec` as called by 449-454 `ecdh_decode` on decoded scalars (recode.py 14-24): mask and amount. -/
def ecdhDecode (H : Bytes → Bytes) (e : Bytes × Bytes) (key : Bytes) (v2 : Bool) : Option (Int × Int) :=
  match decodeScalar e.1, decodeScalar e.2 with
  | some m, some a =>
    if v2 then (decodeScalar (xor8 (encodeInt a) (ecdhHash H key))).map fun a => (commitmentMask H key, a)
    else
      let h1 := hs H key
      let h2 := hs H (encodeInt h1)
      some (scSub m h1, scSub a h2)
  | _, _ => none

/-- monero.py 309-327 `ecdh_decode_simple` for one output with commitment `comm`: amount and mask. -/
def ecdhDecodeSimple (H : Bytes → Bytes) (e : Bytes × Bytes) (comm : Bytes) (sk : Int) (v2 : Bool) : Option (Int × Int) :=
  match ecdhDecode H e (encodeInt sk) v2 with
  | none => none
  | some (mask, amount) =>
    match decodePoint comm with
    | none => none
    | some C => match pointEq (addKeys2 mask amount hPt) C with
      | some true => some (amount, mask)
      | _ => none

/-! ## Payment ids and the extra field -/

/-- `NULL_KEY_ENC`. -/
def nullKey : Bytes := List.replicate 32 0

/-- Loop of tsx_sign_builder.py 545-575 `get_destination_view_key_pub` (same as tsx_helper.py 111-136); `cur` is `addr`, `n` is `count`. -/
def destViewLoop (change : Option (Bytes × Bytes)) : List Dst → Bytes × Bytes → Nat → Bytes
  | [], cur, _ => cur.2
  | d :: ds, cur, n =>
    if d.amount = 0 then destViewLoop change ds cur n
    else if change = some d.addr then destViewLoop change ds cur n
    else if d.addr = cur then destViewLoop change ds cur n
    else if n > 0 then nullKey
    else destViewLoop change ds d.addr (n + 1)

/-- tsx_sign_builder.py 545-575. -/
def destView (dsts : List Dst) (change : Option (Bytes × Bytes)) : Bytes := destViewLoop change dsts (nullKey, nullKey) 0

/-- tsx_helper.py 139-156 `encrypt_payment_id`. -/
def encryptPaymentId (H : Bytes → Bytes) (pid : Bytes) (pub : Ext) (sec : Int) : Option Bytes :=
  (keyDerivation pub sec).map fun dv => xor8 pid (H (encodePoint dv ++ [0x8D]))

/-- tsx_sign_builder.py 493-543 `process_payment_id`: the initial extra field. -/
def processPaymentId (H : Bytes → Bytes) (pid : Bytes) (r : Int) (dsts : List Dst) (change : Option (Bytes × Bytes)) : Option Bytes :=
  if pid = [] then some []
  else if pid.length = 8 then
    if destView dsts change = nullKey then none
    else match decodePoint (destView dsts change) with
      | none => none
      | some V => (encryptPaymentId H pid V r).map fun e => [2, UInt8.ofNat (e.length + 1), 1] ++ e
  else if pid.length = 32 then some ([2, UInt8.ofNat (pid.length + 1), 0] ++ pid)
  else none

/-- tsx_sign_builder.py 1386-1396 `all_out1_set_tx_extra`: tsx_helper.py 219-229 `add_tx_pub_key_to_extra` and 232-254
`add_additional_tx_pub_keys_to_extra` (variant tag 4, varint length, keys; written by the serialization library). -/
def txExtra (extra : Bytes) (k : TxKeys) (additional : List Bytes) : Bytes :=
  let extra := extra ++ ([1] ++ encodePoint k.rPub)
  if k.needAdditional then extra ++ ([4] ++ Varint.dumpNat additional.length ++ additional.flatten) else extra

/-- tsx_helper.py 61-71 `get_payment_id_from_tx_extra_nonce`, 52-58 `has_payment_id`. -/
def nonceLong (n : Bytes) : Option Bytes := if 33 ≠ n.length then none else if n[0]? ≠ some 0 then none else some (n.drop 1)

/-- tsx_helper.py 74-84 `get_encrypted_payment_id_from_tx_extra_nonce`, 43-49 `has_encrypted_payment_id`. -/
def nonceShort (n : Bytes) : Option Bytes := if 9 ≠ n.length then none else if n[0]? ≠ some 1 then none else some (n.drop 1)

/-- Fields of extra the code writes. -/
inductive Field where
  | pubKey (k : Bytes)
  | nonce (n : Bytes)
  | additional (ks : List Bytes)
deriving DecidableEq

/-- `n` consecutive 32-byte keys. -/
def readKeys : Nat → Bytes → Option (List Bytes × Bytes)
  | 0, b => some ([], b)
  | n + 1, b => if b.length < 32 then none else (readKeys n (b.drop 32)).map fun r => (b.take 32 :: r.1, r.2)

/-- One field of extra as the serialization library reads the variant `TxExtraField` (tags 1, 2 and 4; the others are not modelled). -/
def readField : Bytes → Option (Field × Bytes)
  | [] => none
  | tag :: b =>
    if tag = 1 then (if b.length < 32 then none else some (.pubKey (b.take 32), b.drop 32))
    else if tag = 2 then
      match Varint.load b with
      | none => none
      | some (n, b) => if b.length < n then none else some (.nonce (b.take n), b.drop n)
    else if tag = 4 then
      match Varint.load b with
      | none => none
      | some (n, b) => (readKeys n b).map fun r => (.additional r.1, r.2)
    else none

/-- tsx_helper.py 12-23 `parse_extra_fields`; every field has at least one byte, the first argument bounds their number. -/
def parseExtra : Nat → Bytes → Option (List Field)
  | _, [] => some []
  | 0, _ :: _ => none
  | fuel + 1, b =>
    match readField b with
    | none => none
    | some (f, rest) => (parseExtra fuel rest).map fun fs => f :: fs

end Verif.Key

import Verif.Model.Secp
import Verif.Model.Mnemonic
import Verif.Model.B58
import Verif.Model.Bip
import Verif.Model.Key

/-!
Hierarchical keys: monero_glue/misc/bip/bip32.py, keys.py, network.py and utils.py. Hex strings are lists of digits 0 … 15 (as in `Mnemonic`);
`none` is a raised exception. `hm` is HMAC-SHA512 (key, message), `h160` is RIPEMD160 ∘ SHA256 and `H` the double SHA256. The cache of
`@memoize` is left out here (see `Bip.memoCall`).
-/

namespace Verif.Hd
open Verif Mnemonic

/-! ## Numbers and hex strings -/

/-- utils.py 48-53 `long_to_hex`: at least `size` digits. -/
def longToHex (l size : Nat) : List Nat := List.replicate (size - (hexNat l).length) 0 ++ hexNat l

/-- `binascii.unhexlify`: an odd number of digits raises. -/
def unhexlify : List Nat → Option Bytes
  | [] => some []
  | [_] => none
  | a :: b :: r => (unhexlify r).map (UInt8.ofNat (16 * a + b) :: ·)

/-- `long_or_int(hexlify(b), 16)` for at least one byte. -/
def toLong (b : Bytes) : Nat := parseHex (hexlify b)

/-- The ASCII character of a hex digit. -/
def hexChar (d : Nat) : UInt8 := UInt8.ofNat (if d < 10 then 48 + d else 87 + d)

/-- The hex digit of an ASCII character. -/
def charHex (c : UInt8) : Option Nat :=
  if 48 ≤ c.toNat ∧ c.toNat ≤ 57 then some (c.toNat - 48)
  else if 97 ≤ c.toNat ∧ c.toNat ≤ 102 then some (c.toNat - 87)
  else if 65 ≤ c.toNat ∧ c.toNat ≤ 70 then some (c.toNat - 55)
  else none

/-- `unhexlify` of a text. -/
def unhexText (t : Bytes) : Option Bytes := (t.mapM charHex).bind unhexlify

/-! ## Networks -/

/-- network.py: a network class (classes are compared by identity, here by name and constants). -/
structure Network where
  name : String
  pubkeyAddress : Nat
  secretKey : Nat
  extPublic : Nat
  extSecret : Nat
deriving DecidableEq

/-- network.py 53-65 `BitcoinMainNet`. -/
def btc : Network := ⟨"Bitcoin Main Net", 0x00, 0x80, 0x0488B21E, 0x0488ADE4⟩
/-- network.py 68-80 `BitcoinTestNet`. -/
def btcTest : Network := ⟨"Bitcoin Test Net", 0x6F, 0xEF, 0x043587CF, 0x04358394⟩
/-- network.py 1-11 `BitcoinGoldMainNet`. -/
def btg : Network := ⟨"Bitcoin Gold Main Net", 0x26, 0x80, 0x0488B21E, 0x0488ADE4⟩
/-- network.py 14-24 `BitcoinCashMainNet`. -/
def bch : Network := ⟨"Bitcoin Cash Main Net", 0x1C, 0x80, 0x0488B21E, 0x0488ADE4⟩
/-- network.py 27-37 `DashMainNet`. -/
def dash : Network := ⟨"Dash Main Net", 0x4C, 0xCC, 0x0488B21E, 0x0488ADE4⟩
/-- network.py 40-50 `DashTestNet`. -/
def dashTest : Network := ⟨"Dash Test Net", 0x8C, 0xEF, 0x043587CF, 0x04358394⟩
/-- network.py 83-107 `LitecoinMainNet`. -/
def ltc : Network := ⟨"Litecoin Main Net", 0x30, 0x30 + 128, 0x0488B21E, 0x0488ADE4⟩
/-- network.py 110-134 `LitecoinTestNet`. -/
def ltcTest : Network := ⟨"Litecoin Test Net", 0x6F, 0x6F + 128, 0x043587CF, 0x04358394⟩
/-- network.py 137-155 `DogecoinMainNet`. -/
def doge : Network := ⟨"Dogecoin Main Net", 0x1E, 0x1E + 128, 0x02FACAFD, 0x02FAC398⟩
/-- network.py 158-176 `DogecoinTestNet`. -/
def dogeTest : Network := ⟨"Dogecoin Test Net", 0x71, 0x71 + 128, 0x0432A9A8, 0x0432A243⟩
/-- network.py 179-191 `BlockCypherTestNet`. -/
def blockCypher : Network := ⟨"BlockCypher Test Net", 0x1B, 0x49, 0x2D413FF, 0x2D40FC3⟩
/-- network.py 194-205 `MoneroMainNet`. -/
def xmr : Network := ⟨"Monero Main Net", 0x00, 0x80, 0x0488B21E, 0x0488ADE4⟩

/-- All the networks of network.py. -/
def networks : List Network := [btc, btcTest, btg, bch, dash, dashTest, ltc, ltcTest, doge, dogeTest, blockCypher, xmr]

/-! ## Keys -/

/-- keys.py 48-190 `PrivateKey` (secp256k1) and 351-386 `Ed25519PrivateKey` made from `hex_key` (bytes). -/
inductive PrivateKey
  | secp (k : Nat) (net : Network) (compressed : Bool)
  | ed (key : Bytes)
deriving DecidableEq

/-- keys.py 193-348 `PublicKey` (secp256k1) and 389-406 `Ed25519PublicKey`. -/
inductive PublicKey
  | secp (x y : Int) (net : Network) (compressed : Bool)
  | ed (P : Ed.Ext)
deriving DecidableEq

/-- keys.py 49-55 `PrivateKey(secret_exponent, network)`: ecdsa's `from_secret_exponent` asserts `1 <= secexp < n`. -/
def mkPrivate (k : Nat) (net : Network) (compressed : Bool := false) : Option PrivateKey :=
  if 1 ≤ k ∧ k < Secp.n then some (.secp k net compressed) else none

/-- keys.py 57-59, 362-365 `get_key` (hex). (`if self._hex_key`: the key of a derived node has 32 bytes.) -/
def PrivateKey.getKey : PrivateKey → List Nat
  | .secp k _ _ => longToHex k 64
  | .ed key => hexlify key

/-- keys.py 61-68, 367-368 `get_public_key`. -/
def PrivateKey.getPublicKey : PrivateKey → Option PublicKey
  | .secp k net c => match Secp.mul Secp.g k with
    | some (x, y) => some (.secp x y net c)
    | none => none
  | .ed key => (Ed.decodeScalar key).map fun k => .ed (Ed.scalarmultB k)

/-- keys.py 70-76, 370-373 `get_extended_key` (hex). The ed25519 version has the public key and no network byte. -/
def PrivateKey.getExtendedKey : PrivateKey → Option (List Nat)
  | .secp k net c => if net.secretKey < 256 then some (hexlify [UInt8.ofNat net.secretKey] ++ (PrivateKey.secp k net c).getKey) else none
  | .ed key => (Ed.decodeScalar key).map fun k => hexlify (Ed.encodePoint (Ed.scalarmultB k))

/-- keys.py 208-235, 393-394 `get_key(compressed)` (hex). -/
def PublicKey.getKey : PublicKey → Bool → List Nat
  | .secp x y _ _, true => longToHex (2 + y % 2).toNat 2 ++ longToHex x.toNat 64
  | .secp x y _ _, false => [0, 4] ++ longToHex x.toNat 64 ++ longToHex y.toNat 64
  | .ed P, _ => hexlify (Ed.encodePoint P)

/-- keys.py 341-346 with 36-37, 403-406 `__eq__`: network and coordinates, not `compressed`. -/
def PublicKey.eq : PublicKey → PublicKey → Bool
  | .secp x y net _, .secp x' y' net' _ => net = net' && x = x' && y = y'
  | .ed P, .ed Q => Ed.pointEqual P Q
  | _, _ => false

/-- keys.py 336-339 `from_public_pair`: ecdsa checks that the coordinates are those of a point of the curve. -/
def fromPublicPair (x y : Int) (net : Network) (compressed : Bool := false) : Option PublicKey :=
  if 0 ≤ x ∧ x < Secp.p ∧ 0 ≤ y ∧ y < Secp.p ∧ Secp.contains x y = true then some (.secp x y net compressed) else none

/-- keys.py 237-286 `PublicKey.from_hex_key` of bytes. A key of 66 or 130 bytes is taken for hex; its first byte is then no format byte, or
`unhexlify` raises. -/
def fromHexKey (key : Bytes) (net : Network) : Option PublicKey :=
  let key? := if key.length = 130 ∨ key.length = 66 then unhexText key else some key
  match key? with
  | none => none
  | some key =>
    match key.head? with
    | none => none
    | some idByte =>
      if idByte = 4 then
        if key.length ≠ 65 then none else fromPublicPair (toLong ((key.drop 1).take 32)) (toLong (key.drop 33)) net
      else if idByte = 2 ∨ idByte = 3 then
        if key.length ≠ 33 then none else
          let yOdd := decide (idByte.toNat % 2 = 1)
          let x : Int := toLong (key.drop 1)
          let alpha := (Ed.expmod Secp.p 3 x 3 + 0 * x + 7) % Secp.p
          match Secp.sqrt alpha with
          | none => none
          | some beta =>
            let yEven := !yOdd
            if yEven = decide (beta % 2 = 1) then fromPublicPair x (Secp.p - beta) net true
            else fromPublicPair x beta net true
      else none

/-! ## Wallet nodes -/

/-- bip32.py 34-155: the attributes of `Wallet`; `parentFingerprint` without the leading `0x`. -/
structure Wallet where
  privateKey : Option PrivateKey
  publicKey : PublicKey
  seedSecret : Option Bytes
  useEd : Bool
  network : Network
  depth : Nat
  parentFingerprint : List Nat
  childNumber : Nat
  chainCode : List Nat
deriving DecidableEq

/-- An integer or a hex string. -/
inductive HexArg
  | int (n : Nat)
  | hex (d : List Nat)

/-- bip32.py 121-132 `h(val, hex_len)`. (`is_hex_string` looks at `str(val)`, which starts with `b` for every bytes object.) -/
def HexArg.h : HexArg → Nat → Option (List Nat)
  | .int n, len => some (longToHex n len)
  | .hex d, len => if d.length ≠ len then none else some d

/-- bip32.py 134-143 `l(val)`. -/
def HexArg.l : HexArg → Option Nat
  | .int n => some n
  | .hex [] => none
  | .hex (d :: ds) => some (parseHex (d :: ds))

/-- bip32.py 74-112: the keys of a new node. The exponent 0 counts as not given. -/
def initKeys (exponent : Option Nat) (priv : Option PrivateKey) (pair : Option (Int × Int)) (pub : Option PublicKey) (net : Network)
    (useEd : Bool) : Option (Option PrivateKey × PublicKey) :=
  let exponent := exponent.filter (· ≠ 0)
  if exponent.isNone && priv.isNone && (!useEd && (pair.isNone && pub.isNone)) then none else
    let priv? : Option (Option PrivateKey) := match priv, exponent with
      | some k, _ => some (some k)
      | none, some e => (mkPrivate e net).map some
      | none, none => some none
    match priv? with
    | none => none
    | some priv =>
      let pub? : Option PublicKey := match pub with
        | some P => some P
        | none =>
          match useEd, pair with
          | false, some (x, y) => fromPublicPair x y net
          | _, _ => priv.bind PrivateKey.getPublicKey
      match pub? with
      | none => none
      | some P =>
        match useEd, priv with
        | false, some k =>
          match k.getPublicKey with
          | none => none
          | some P' => if P'.eq P then some (some k, P) else none
        | _, _ => some (priv, P)

/-- bip32.py 54-155 `Wallet.__init__` (`use_slip0010` raises NotImplementedError; never given). -/
def initWallet (chainCode : HexArg) (depth : Nat) (parentFingerprint childNumber : HexArg) (exponent : Option Nat) (priv : Option PrivateKey)
    (pair : Option (Int × Int)) (pub : Option PublicKey) (net : Network) (seed : Option Bytes) (useEd : Bool) : Option Wallet :=
  match initKeys exponent priv pair pub net useEd with
  | none => none
  | some (priv, pub) =>
    match parentFingerprint.h 8, childNumber.l, chainCode.h 64 with
    | some pf, some cn, some cc => some ⟨priv, pub, seed, useEd, net, depth, pf, cn, cc⟩
    | _, _, _ => none

/-- bip32.py 672-706 `from_master_secret`: "Bitcoin seed" or "ed25519 seed". -/
def fromMasterSecret (hm : Bytes → Bytes → Bytes) (seed : Bytes) (net : Network) (useEd : Bool) : Option Wallet :=
  let cvSeed : Bytes := if useEd then [0x65, 0x64, 0x32, 0x35, 0x35, 0x31, 0x39, 0x20, 0x73, 0x65, 0x65, 0x64]
    else [0x42, 0x69, 0x74, 0x63, 0x6f, 0x69, 0x6e, 0x20, 0x73, 0x65, 0x65, 0x64]
  let I := hm cvSeed seed
  initWallet (.int (toLong (I.drop 32))) 0 (.int 0) (.int 0) (some (toLong (I.take 32))) none none none net (some seed) useEd

/-- bip32.py 168-185 `identifier`, `fingerprint` (without `0x`). -/
def Wallet.fingerprint (h160 : Bytes → Bytes) (w : Wallet) : Option (List Nat) :=
  (unhexlify (w.publicKey.getKey true)).map fun key => (hexlify (h160 key)).take 8

/-- bip32.py 470-479 `public_copy`. An ed25519 key has no coordinates: AttributeError. -/
def Wallet.publicCopy (w : Wallet) : Option Wallet :=
  match w.publicKey with
  | .secp x y _ _ => initWallet (.hex w.chainCode) w.depth (.hex w.parentFingerprint) (.int w.childNumber) none none (some (x, y)) none w.network none false
  | .ed _ => none

/-- bip32.py 416-452: the keys of a child. Without private key, `PrivateKey(None)` (line 448) raises. -/
def childKeys (w : Wallet) (IL : Bytes) : Option (PrivateKey × PublicKey) :=
  if w.useEd then
    if w.privateKey.isNone then none else
      match (PrivateKey.ed IL).getPublicKey with
      | some (.ed P) => if Ed.pointEqual P Ed.ident then none else some (.ed IL, .ed P)
      | _ => none
  else
    match w.privateKey with
    | some k =>
      let exponent := (toLong IL + parseHex k.getKey) % Secp.n
      match mkPrivate exponent btc with
      | none => none
      | some priv => priv.getPublicKey.map fun pub => (priv, pub)
    | none => none

/-- bip32.py 338-468 `get_child`. -/
def Wallet.getChild (hm : Bytes → Bytes → Bytes) (h160 : Bytes → Bytes) (w : Wallet) (number : Int) (isPrime : Option Bool) (asPrivate : Bool) :
    Option Wallet :=
  match Bip.childIndex w.privateKey.isSome w.useEd number isPrime with
  | none => none
  | some (index, prime) =>
    let indexHex := longToHex index 8
    let data := (if prime then [0, 0] ++ (w.privateKey.map PrivateKey.getKey).getD [] else w.publicKey.getKey true) ++ indexHex
    match unhexlify w.chainCode, unhexlify data with
    | some chain, some msg =>
      let I := hm chain msg
      let IL := I.take 32
      let IR := I.drop 32
      if !w.useEd && decide (toLong IL ≥ Secp.n) then none else
        match childKeys w IL, w.fingerprint h160 with
        | some (priv, pub), some fp =>
          match initWallet (.hex (hexlify IR)) (w.depth + 1) (.hex fp) (.hex indexHex) none (some priv) none (some pub) w.network none w.useEd with
          | none => none
          | some child => if asPrivate then some child else child.publicCopy
        | _, _ => none
    | _, _ => none

/-! ## Paths -/

/-- White space that `int()` strips (ASCII). -/
def isSpace (c : Char) : Bool := c = ' ' || c = '\t' || c = '\n' || c = '\r' || c = '\x0b' || c = '\x0c'

/-- The digits of `int()`: single underscores between digits are allowed (ASCII digits). -/
def digitsVal : List Char → Bool → Nat → Option Nat
  | [], afterDigit, acc => if afterDigit then some acc else none
  | c :: cs, afterDigit, acc =>
    if c = '_' then if afterDigit then digitsVal cs false acc else none
    else if '0' ≤ c ∧ c ≤ '9' then digitsVal cs true (acc * 10 + (c.toNat - 48)) else none

/-- `int(text)`; `none` is a ValueError. -/
def pyInt (s : List Char) : Option Int :=
  let s := ((s.dropWhile isSpace).reverse.dropWhile isSpace).reverse
  match s with
  | '-' :: r => (digitsVal r false 0).map fun n => -(n : Int)
  | '+' :: r => (digitsVal r false 0).map fun n => (n : Int)
  | r => (digitsVal r false 0).map fun n => (n : Int)

/-- `path.split("/")`. -/
def splitSlash : List Char → List (List Char)
  | [] => [[]]
  | c :: cs => if c = '/' then [] :: splitSlash cs else
    match splitSlash cs with
    | [] => [[c]]
    | p :: ps => (c :: p) :: ps

/-- bip32.py 325-333: number and hardening of a path component; an empty component raises IndexError. -/
def parsePart (part : List Char) : Option (Int × Option Bool) :=
  match part.getLast? with
  | none => none
  | some c =>
    if c = '\'' ∨ c = 'p' then (pyInt (part.filter fun c => c ≠ '\'' ∧ c ≠ 'p')).map fun n => (n, some true)
    else (pyInt part).map fun n => (n, none)

/-- bip32.py 321-333: the loop over the components. -/
def walk (hm : Bytes → Bytes → Bytes) (h160 : Bytes → Bytes) : List (List Char) → Wallet → Option Wallet
  | [], w => some w
  | part :: parts, w =>
    if part = ['m'] ∨ part = ['M'] then walk hm h160 parts w else
      match parsePart part with
      | none => none
      | some (number, prime) =>
        match w.getChild hm h160 number prime true with
        | none => none
        | some child => walk hm h160 parts child

/-- bip32.py 285-336 `get_child_for_path`. -/
def Wallet.getChildForPath (hm : Bytes → Bytes → Bytes) (h160 : Bytes → Bytes) (w : Wallet) (path : List Char) : Option Wallet :=
  if path = [] then none else
    let pub := path.drop (path.length - 4) = ['.', 'p', 'u', 'b']
    let asPrivate := !(path.head? = some 'M' || pub)
    let path := if pub then path.take (path.length - 4) else path
    match walk hm h160 (splitSlash path) w with
    | none => none
    | some child => if asPrivate then some child else child.publicCopy

/-! ## Serialization -/

/-- bip32.py 539-567 `serialize` (hex). -/
def Wallet.serialize (w : Wallet) (priv : Bool) : Option (List Nat) :=
  let head (version : Nat) := longToHex version 8 ++ longToHex w.depth 2 ++ w.parentFingerprint ++ longToHex w.childNumber 8 ++ w.chainCode
  if priv then w.privateKey.map fun k => head w.network.extSecret ++ ([0, 0] ++ k.getKey)
  else some (head w.network.extPublic ++ w.publicKey.getKey true)

/-- bip32.py 569-571 `serialize_b58`. -/
def Wallet.serializeB58 (H : Bytes → Bytes) (w : Wallet) (priv : Bool) : Option Bytes :=
  ((w.serialize priv).bind unhexlify).map (B58.Btc.encodeCheck H)

/-- bip32.py 607-617: raw bytes, hex text or Base58 text, by length. Other lengths are taken as raw bytes. -/
def unpackKey (H : Bytes → Bytes) (key : Bytes) : Option Bytes :=
  if key.length = 78 ∨ key.length = 78 + 32 then some key
  else if key.length = 78 * 2 ∨ key.length = (78 + 32) * 2 then unhexText key
  else if key.length = 111 then B58.Btc.decodeCheck H key
  else some key

/-- bip32.py 586-670 `deserialize`. -/
def deserialize (H : Bytes → Bytes) (key : Bytes) (net : Network) : Option Wallet :=
  match unpackKey H key with
  | none => none
  | some key =>
    let version := toLong (key.take 4)
    match key[4]?, key[45]? with
    | some depth, some pointType =>
      let pf := toLong ((key.drop 5).take 4)
      let child := toLong ((key.drop 9).take 4)
      let chain := toLong ((key.drop 13).take 32)
      let keyData := key.drop 45
      if pointType = 0 then
        if version ≠ net.extSecret then none
        else if keyData.drop 1 = [] then none
        else initWallet (.int chain) depth.toNat (.int pf) (.int child) (some (toLong (keyData.drop 1))) none none none net none false
      else if pointType = 2 ∨ pointType = 3 ∨ pointType = 4 then
        if version ≠ net.extPublic then none
        else match fromHexKey keyData net with
          | some (.secp x y n _) =>
            initWallet (.int chain) depth.toNat (.int pf) (.int child) none none none (some (.secp x y n false)) net none false
          | _ => none
      else none
    | _, _ => none

/-- keys.py 36-37, 172-182, 382-383 `__eq__` of private keys. -/
def PrivateKey.eq : PrivateKey → PrivateKey → Bool
  | .secp k net _, .secp k' net' _ => net = net' && k = k'
  | .ed key, .ed key' => Ed.decodeScalar key = Ed.decodeScalar key'
  | _, _ => false

/-- bip32.py 722-734 `__eq__`. -/
def Wallet.eq (v w : Wallet) : Bool :=
  v.chainCode = w.chainCode && v.depth = w.depth && v.parentFingerprint = w.parentFingerprint && v.childNumber = w.childNumber &&
    (match v.privateKey, w.privateKey with
      | some k, some k' => k.eq k'
      | none, none => true
      | _, _ => false) && v.publicKey.eq w.publicKey && v.network = w.network

/-- bip32.py 573-584 `to_address`; `bytes([num])` raises from 256. -/
def Wallet.toAddress (H h160 : Bytes → Bytes) (w : Wallet) : Option Bytes :=
  match unhexlify (w.publicKey.getKey true) with
  | none => none
  | some key => if w.network.pubkeyAddress < 256 then some (B58.Btc.encodeCheck H (UInt8.ofNat w.network.pubkeyAddress :: h160 key)) else none

/-! ## Wallet import format -/

/-- keys.py 78-96 `PrivateKey.export_to_wif`: `bytes += str` raises for the compressed form. -/
def PrivateKey.exportToWif (H : Bytes → Bytes) (k : PrivateKey) (compressed : Option Bool) : Option Bytes :=
  let c := match compressed, k with
    | some c, _ => c
    | none, .secp _ _ c => c
    | none, .ed _ => false
  if c then none else (k.getExtendedKey.bind unhexlify).map (B58.Btc.encodeCheck H)

/-- bip32.py 527-537 `Wallet.export_to_wif`. -/
def Wallet.exportToWif (H : Bytes → Bytes) (w : Wallet) : Option Bytes :=
  ((w.privateKey.bind PrivateKey.getExtendedKey).bind unhexlify).map fun b => B58.Btc.encodeCheck H (b ++ [1])

/-- keys.py 101-145 `PrivateKey.from_wif`. -/
def fromWif (H : Bytes → Bytes) (wif : Bytes) (net : Network) : Option PrivateKey :=
  match B58.Btc.decodeCheck H wif with
  | none => none
  | some [] => none
  | some (b :: key) =>
    if b.toNat ≠ net.secretKey then none
    else if key.length = 33 then mkPrivate (toLong key.dropLast) net true
    else if key = [] then none
    else mkPrivate (toLong key) net false

/-! ## Recovering the parent's key -/

/-- keys.py 184-190 `PrivateKey.__sub__`: AssertionError for different networks. -/
def PrivateKey.sub : PrivateKey → PrivateKey → Option PrivateKey
  | .secp k1 net1 _, .secp k2 net2 _ => if net1 ≠ net2 then none else mkPrivate (((k1 : Int) - k2) % Secp.n).toNat net1
  | _, _ => none

/-- bip32.py 481-525 `crack_private_key`. -/
def Wallet.crack (hm : Bytes → Bytes → Bytes) (h160 : Bytes → Bytes) (w child : Wallet) : Option Wallet :=
  if w.privateKey.isSome then none else
    if some child.parentFingerprint ≠ w.fingerprint h160 then none
    else if child.childNumber ≥ 0x80000000 then none
    else
      match unhexlify w.chainCode, unhexlify (w.publicKey.getKey true ++ longToHex child.childNumber 8) with
      | some chain, some msg =>
        match mkPrivate (toLong ((hm chain msg).take 32)) w.network, child.privateKey with
        | some il, some ck =>
          match ck.sub il with
          | none => none
          | some parent =>
            initWallet (.hex w.chainCode) w.depth (.hex w.parentFingerprint) (.int w.childNumber) none (some parent) none none w.network none false
        | _, _ => none
      | _, _ => none

end Verif.Hd

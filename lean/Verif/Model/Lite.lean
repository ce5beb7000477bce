import Verif.Model.Sig

/-!
The lite protocol (commands of the Ledger application), protocol_lite/lite.py and protocol_lite/consts.py.

A command runs on the state of the protocol object and either returns or raises (`none`); the changes made before an exception stay.
Hashing contexts are the bytes fed so far (C51). The response buffer is the list of bytes written; the code has a buffer of 2048 bytes, which the
longest response (200 bytes, or 64 bytes and the address) does not fill. The imports of `apps.monero` (99, 646) are taken to succeed.
-/

namespace Verif.Lite
open Verif Ed Key Sig

/-- What the protocol gets from outside: `H` Keccak-256, `sha` SHA-256, `enc` and `dec` the functions of xmr/enc/aescbc.py under the key of the session
(`enc` can raise), `address` the encoded address of the credentials, `confirm` the user asked for a destination (public view key, public spend key,
amount, sub-address flag; `false` is an exception of the interface), `fee` whether the library function `load_uvarint_b` reads a number. -/
structure Env where
  H : Bytes → Bytes
  sha : Bytes → Bytes
  enc : Bytes → Option Bytes
  dec : Bytes → Bytes
  address : Bytes
  confirm : Ext → Ext → Int → Bool → Bool
  fee : Bytes → Bool

/-- lite.py 36-73: the fields that are read again. `asked` records, for the theorems only, the destinations the user confirmed;
`rnd` are the values `random_scalar` will return. -/
structure St where
  a : Int
  b : Int
  A : Ext
  B : Ext
  options : Nat := 0
  sigMode : Nat := 0
  account : Nat := 0
  ctxH : Bytes := []
  H : Option Bytes := none
  c : Option Int := none
  ctxAmount : Bytes := []
  KV : Option Bytes := none
  ctxCommitment : Bytes := []
  C : Option Bytes := none
  msg : Bytes := []
  off : Nat := 0
  p1 : Nat := 0
  p2 : Nat := 0
  resp : Bytes := []
  rnd : List Int := []
  asked : List (Ext × Ext × Int × Bool) := []

/-- Feeding the three hashing contexts. -/
def St.addH (s : St) (b : Bytes) : St := { s with ctxH := s.ctxH ++ b }
def St.addAmount (s : St) (b : Bytes) : St := { s with ctxAmount := s.ctxAmount ++ b }
def St.addCommitment (s : St) (b : Bytes) : St := { s with ctxCommitment := s.ctxCommitment ++ b }

/-- A computation on the protocol object; `none` is an exception. -/
structure LM (α : Type) where
  run : St → Option α × St

instance : Monad LM where
  pure a := ⟨fun s => (some a, s)⟩
  bind x f := ⟨fun s =>
    match x.run s with
    | (some a, s') => (f a).run s'
    | (none, s') => (none, s')⟩

def fail {α : Type} : LM α := ⟨fun s => (none, s)⟩
def get : LM St := ⟨fun s => (some s, s)⟩
def modify (f : St → St) : LM Unit := ⟨fun s => (some (), f s)⟩

/-- An exception unless there is a value. -/
def lift {α : Type} (o : Option α) : LM α := ⟨fun s => (o, s)⟩

/-- A new random scalar (`crypto.random_scalar()`). -/
def random : LM Int := ⟨fun s =>
  match s.rnd with
  | [] => (none, s)
  | x :: xs => (some x, { s with rnd := xs })⟩

/-! ## Reading the message -/

/-- lite.py 138: `self.c_offset += ln`. -/
def St.adv (s : St) (n : Nat) : St := { s with off := s.off + n }

/-- lite.py 132-139 `_fetch`. -/
def fetch (n : Nat) : LM Bytes := ⟨fun s =>
  let data := (s.msg.drop s.off).take n
  if data.length ≠ n then (none, s) else (some data, s.adv n)⟩

/-- lite.py 141-143 `_fetch_decrypt`. -/
def fetchDecrypt (e : Env) (n : Nat) : LM Bytes := do
  let data ← fetch n
  pure (e.dec data)

/-- `crypto.decodeint(...)` of fetched bytes. -/
def scalar (b : Bytes) : LM Int := lift (decodeScalar b)

/-- `crypto.decodepoint(...)` of fetched bytes. -/
def point (b : Bytes) : LM Ext := lift (decodePoint b)

/-- lite.py 145-152 `_fetch_decrypt_key`. -/
def fetchDecryptKey (e : Env) : LM Int := do
  let buff ← fetch 32
  let s ← get
  if buff = List.replicate 32 0 then pure s.a
  else if buff = List.replicate 32 0xff then pure s.b
  else scalar (e.dec buff)

/-- lite.py 165-167 `_fetch_u8`. -/
def fetchU8 : LM Nat := do
  let d ← fetch 1
  pure (d.headD 0).toNat

/-- lite.py 162-163 `_fetch_u16`. -/
def fetchU16 : LM Nat := do
  let a ← fetchU8
  let b ← fetchU8
  pure (a * 256 + b)

/-- lite.py 154-160 `_fetch_u32`. -/
def fetchU32 : LM Nat := do
  let a ← fetchU8
  let b ← fetchU8
  let c ← fetchU8
  let d ← fetchU8
  pure (((a * 256 + b) * 256 + c) * 256 + d)

/-- lite.py 169-173 `_fetch_t`. -/
def fetchT : LM Nat := do
  let t ← fetchU8
  if t % 32 = 0x1f then do
    let u ← fetchU8
    pure (t * 256 + u)
  else pure t

/-- lite.py 175-185 `_fetch_l`; -1 is a value, not an exception. -/
def fetchL : LM Int := do
  let l ← fetchU8
  if l % 128 = 1 then do
    let v ← fetchU8
    pure (v : Int)
  else if l % 128 = 2 then do
    let v ← fetchU16
    pure (v : Int)
  else pure (-1)

/-! ## Writing the response -/

/-- The response with bytes appended. -/
def St.put (s : St) (b : Bytes) : St := { s with resp := s.resp ++ b }

/-- lite.py 187-191 `_insert`. -/
def insert (b : Bytes) : LM Unit := modify fun s => s.put b

/-- lite.py 193-195 `_insert_encrypt`. -/
def insertEncrypt (e : Env) (b : Bytes) : LM Unit := do
  let c ← lift (e.enc b)
  insert c

/-- lite.py 197-199 `_insert_u8`. -/
def insertU8 (x : Nat) : LM Unit := insert [UInt8.ofNat x]

/-- lite.py 201-203 `_insert_u16`. -/
def insertU16 (x : Nat) : LM Unit := do
  insertU8 (x / 256)
  insertU8 x

/-- lite.py 205-209 `_insert_u32`. -/
def insertU32 (x : Nat) : LM Unit := do
  insertU8 (x / 16777216)
  insertU8 (x / 65536)
  insertU8 (x / 256)
  insertU8 x

/-- lite.py 211-215 `_insert_t`. -/
def insertT (t : Nat) : LM Unit := if t / 256 % 256 ≠ 0 then insertU16 t else insertU8 t

/-- lite.py 217-225 `_insert_tl` (`0x8100 | l` is the sum for `l < 256`). -/
def insertTL (t l : Nat) : LM Unit := do
  insertT t
  if l < 128 then insertU8 l
  else if l < 256 then insertU16 (0x8100 + l)
  else do
    insertU8 0x82
    insertU16 l

/-! ## Status words and modes, consts.py -/

def swOk : Nat := 0x9000
def swWrongData : Nat := 0x6A80
def swWrongP1P2 : Nat := 0x6B00

/-- lite.py 651, 663: the status word when no branch sets one. -/
def swNone : Nat := 0x6F01

def createReal : Nat := 1
def createFake : Nat := 2

/-! ## Commands -/

/-- lite.py 227-244 `blind`. -/
def blind (e : Env) : LM Nat := do
  let ak ← fetchDecrypt e 32
  let k ← fetch 32
  let v ← fetch 32
  modify fun s => s.addAmount (ak ++ k ++ v)
  let ak1 := hs e.H ak
  let k ← scalar k
  let ak2 := hs e.H (encodeInt ak1)
  let v ← scalar v
  insert (encodeInt (scAdd v ak2))
  insert (encodeInt (scAdd k ak1))
  pure swOk

/-- lite.py 246-253 `unblind_int`. -/
def unblindInt (e : Env) (v k ak : Bytes) : LM (Int × Int) := do
  let ak1 := hs e.H ak
  let k ← scalar k
  let ak2 := hs e.H (encodeInt ak1)
  let v ← scalar v
  pure (scSub v ak2, scSub k ak1)

/-- lite.py 255-264 `unblind`. -/
def unblind (e : Env) : LM Nat := do
  let ak ← fetchDecrypt e 32
  let k ← fetch 32
  let v ← fetch 32
  let vk ← unblindInt e v k ak
  insert (encodeInt vk.1)
  insert (encodeInt vk.2)
  pure swOk

/-- lite.py 266-278 `put_key`: `self.A` and `self.B` stay. -/
def putKey : LM Nat := do
  let sec ← fetch 32 >>= scalar
  let pub ← fetch 32 >>= point
  let ok ← lift (pointEq pub (scalarmultB sec))
  if !ok then pure swWrongData
  else do
    modify fun s => { s with a := sec }
    let sec ← fetch 32 >>= scalar
    let pub ← fetch 32 >>= point
    let ok ← lift (pointEq pub (scalarmultB sec))
    if !ok then pure swWrongData
    else do
      modify fun s => { s with b := sec }
      pure swOk

/-- lite.py 280-292 `get_key`. -/
def getKey (e : Env) : LM Nat := do
  let s ← get
  if s.p1 = 1 then do
    insert (encodePoint s.A)
    insert (encodePoint s.B)
    insert e.address
    pure swOk
  else if s.p1 = 2 then do
    insert (encodeInt s.a)
    pure swOk
  else pure swWrongP1P2

/-- lite.py 294-314 `verify_key`; the point read from the message is replaced for `p1` 1 and 2, the computed one stays the identity. -/
def verifyKey (e : Env) : LM Nat := do
  let priv ← fetchDecryptKey e
  let pub ← fetch 32 >>= point
  let s ← get
  let pair : Option (Ext × Ext) :=
    if s.p1 = 0 then some (scalarmultB priv, pub) else if s.p1 = 1 then some (ident, s.A) else if s.p1 = 2 then some (ident, s.B) else none
  match pair with
  | none => pure swWrongP1P2
  | some (computed, pub) => do
    let ok ← lift (pointEq computed pub)
    insertU32 (if ok then 1 else 0)
    insert e.address
    pure swOk

/-- lite.py 316-327 `chacha8_prekey`. -/
def chacha8Prekey (e : Env) : LM Nat := do
  let s ← get
  let pre := e.H (encodeInt s.a ++ encodeInt s.b ++ [0x8c])
  insert ((List.replicate 6 pre).flatten ++ pre.take 8)
  pure swOk

/-- lite.py 329-333 `sc_add`. -/
def cmdAdd : LM Nat := do
  let s1 ← fetch 32 >>= scalar
  let s2 ← fetch 32 >>= scalar
  insert (encodeInt (scAdd s1 s2))
  pure swOk

/-- lite.py 335-339 `sc_sub`. -/
def cmdSub : LM Nat := do
  let s1 ← fetch 32 >>= scalar
  let s2 ← fetch 32 >>= scalar
  insert (encodeInt (scSub s1 s2))
  pure swOk

/-- lite.py 341-345 `scal_mul_key`. -/
def scalMulKey (e : Env) : LM Nat := do
  let pub ← fetch 32 >>= point
  let sec ← fetchDecrypt e 32 >>= scalar
  insert (encodePoint (smul pub sec))
  pure swOk

/-- lite.py 347-350 `scal_mul_base`, 359-360 `secret_key_to_public_key`. -/
def scalMulBase (e : Env) : LM Nat := do
  let sec ← fetchDecrypt e 32 >>= scalar
  insert (encodePoint (scalarmultB sec))
  pure swOk

/-- lite.py 352-357 `generate_keypair`. -/
def generateKeypair (e : Env) : LM Nat := do
  let sec ← random
  insert (encodePoint (scalarmultB sec))
  insertEncrypt e (encodeInt sec)
  pure swOk

/-- lite.py 362-367 `generate_key_derivation`. -/
def genKeyDerivation (e : Env) : LM Nat := do
  let pub ← fetch 32 >>= point
  let sec ← fetchDecryptKey e
  let der ← lift (keyDerivation pub sec)
  insertEncrypt e (encodePoint der)
  pure swOk

/-- lite.py 369-374 `derivation_to_scalar`. -/
def cmdDerivationToScalar (e : Env) : LM Nat := do
  let der ← fetchDecrypt e 32 >>= point
  let i ← fetchU32
  let res ← lift (derivationToScalar e.H der i)
  insertEncrypt e (encodeInt res)
  pure swOk

/-- lite.py 376-382 `derive_public_key`. -/
def cmdDerivePublicKey (e : Env) : LM Nat := do
  let der ← fetchDecrypt e 32 >>= point
  let i ← fetchU32
  let pub ← fetch 32 >>= point
  let res ← lift (derivePublicKey e.H der i pub)
  insert (encodePoint res)
  pure swOk

/-- lite.py 384-390 `derive_secret_key`. -/
def cmdDeriveSecretKey (e : Env) : LM Nat := do
  let der ← fetchDecrypt e 32 >>= point
  let i ← fetchU32
  let sec ← fetchDecryptKey e
  let res ← lift (deriveSecretKey e.H der i sec)
  insertEncrypt e (encodeInt res)
  pure swOk

/-- lite.py 392-397 `generate_key_image`. -/
def cmdKeyImage (e : Env) : LM Nat := do
  let pub ← fetch 32
  let sec ← fetchDecrypt e 32 >>= scalar
  insert (encodePoint (keyImage e.H pub sec))
  pure swOk

/-- lite.py 399-405 `derive_subaddress_public_key`. -/
def cmdDeriveSubPublic (e : Env) : LM Nat := do
  let pub ← fetch 32 >>= point
  let der ← fetchDecrypt e 32 >>= point
  let i ← fetchU32
  let res ← lift (deriveSubPublic e.H pub der i)
  insert (encodePoint res)
  pure swOk

/-- lite.py 407-410 `_idx_parse`. -/
def idxParse (b : Bytes) : Nat × Nat :=
  let d := fun (l : Bytes) => l.foldr (fun x n => x.toNat + 256 * n) 0
  (d (b.take 4), d ((b.drop 4).take 4))

/-- lite.py 412-418 `get_subaddress`: the second key first. -/
def getSubaddress (e : Env) : LM Nat := do
  let idx ← fetch 8
  let s ← get
  let r ← lift (subAddressKeys e.H s.a s.B (idxParse idx).1 (idxParse idx).2)
  insert (encodePoint r.2)
  insert (encodePoint r.1)
  pure swOk

/-- lite.py 420-425 `get_subaddress_spend_public_key`. -/
def getSubSpend (e : Env) : LM Nat := do
  let idx ← fetch 8
  let s ← get
  let D ← lift (subSpendPub e.H s.a s.B (idxParse idx).1 (idxParse idx).2)
  insert (encodePoint D)
  pure swOk

/-- lite.py 427-433 `get_subaddress_secret_key`. -/
def getSubSecret (e : Env) : LM Nat := do
  let sec ← fetchDecrypt e 32 >>= scalar
  let idx ← fetch 8
  let r ← lift (subSecret e.H sec (idxParse idx).1 (idxParse idx).2)
  insertEncrypt e (encodeInt r)
  pure swOk

/-- lite.py 443-446: the secret for the second row comes in the clear when bit 0x40 of the options is set. -/
def fetchXin (e : Env) : LM Int := do
  let s ← get
  if s.options / 0x40 % 2 = 1 then fetch 32 >>= scalar else fetchDecrypt e 32 >>= scalar

/-- lite.py 435-459 `mlsag_prepare`. -/
def mlsagPrepare (e : Env) : LM Nat := do
  let s ← get
  if s.msg.length > 1 then do
    let Hi ← fetch 32 >>= point
    let xin ← fetchXin e
    let alpha ← random
    insertEncrypt e (encodeInt alpha)
    insert (encodePoint (scalarmultB alpha))
    insert (encodePoint (smul Hi alpha))
    insert (encodePoint (smul Hi xin))
    pure swOk
  else do
    let alpha ← random
    insertEncrypt e (encodeInt alpha)
    insert (encodePoint (scalarmultB alpha))
    pure swOk

/-- lite.py 462-466: the bytes to be hashed; `None` makes `update` raise. -/
def mlsagMsg : LM Bytes := do
  let s ← get
  if s.p2 = 1 then do
    modify fun s => { s with ctxH := [] }
    lift s.H
  else fetch 32

/-- lite.py 461-473 `mlsag_hash`. -/
def mlsagHash (e : Env) : LM Nat := do
  let m ← mlsagMsg
  modify fun s => s.addH m
  let s ← get
  if s.options / 0x80 % 2 = 0 then do
    let c ← scalar (e.H s.ctxH)
    modify fun s => { s with c := some c }
    insert (encodeInt c)
    pure swOk
  else pure swOk

/-- lite.py 475-488 `mlsag_sign`. -/
def mlsagSign (e : Env) : LM Nat := do
  let s ← get
  if s.sigMode = createFake then do
    let xin ← fetch 32 >>= scalar
    let alpha ← fetch 32 >>= scalar
    let c ← lift s.c
    insert (encodeInt (scMulsub c xin alpha))
    insertU32 s.sigMode
    pure swOk
  else if s.sigMode = createReal then do
    let xin ← fetchDecrypt e 32 >>= scalar
    let alpha ← fetchDecrypt e 32 >>= scalar
    let c ← lift s.c
    insert (encodeInt (scMulsub c xin alpha))
    insertU32 s.sigMode
    pure swOk
  else fail

/-- lite.py 490-499 `open_tx`. -/
def openTx (e : Env) : LM Nat := do
  modify fun s => { s with ctxAmount := [] }
  let acc ← fetchU32
  modify fun s => { s with account := acc }
  let r ← random
  insert (encodePoint (scalarmultB r))
  insertEncrypt e (encodeInt r)
  pure swOk

/-- lite.py 509-516 `set_signature_mode`. -/
def setSignatureMode : LM Nat := do
  modify fun s => { s with sigMode := createFake }
  let m ← fetchU8
  if m ≠ createFake ∧ m ≠ createReal then fail
  else do
    modify fun s => { s with sigMode := m }
    insertU32 m
    pure swOk

/-- lite.py 518-531 `mlsag_prehash_init`. -/
def prehashInit (e : Env) : LM Nat := do
  let s ← get
  if s.p2 = 1 then do
    modify fun s => { s with KV := some (e.sha s.ctxAmount), ctxAmount := [], ctxCommitment := [], ctxH := [] }
    modify fun s => s.addH (s.msg.drop s.off)
    if s.sigMode = createReal then do
      let _ ← fetchU8
      let s ← get
      if e.fee (s.msg.drop s.off) then pure swOk else fail
    else pure swOk
  else do
    modify fun s => s.addH (s.msg.drop s.off)
    pure swOk

/-- lite.py 545-547: is the destination the own main address? -/
def isChange (Aout Bout : Ext) : LM Bool := do
  let s ← get
  if s.sigMode = createReal then do
    let x ← lift (pointEq Aout s.A)
    if x then lift (pointEq Bout s.B) else pure false
  else pure false

/-- lite.py 571-577: the last output closes the chain of amounts and of commitments. -/
def closeAmounts (e : Env) : LM Unit := do
  let s ← get
  if s.options / 0x80 % 2 = 0 then
    if some (e.sha s.ctxAmount) = s.KV then modify fun s => { s with C := some (e.sha s.ctxCommitment), ctxCommitment := [] }
    else fail
  else pure ()

/-- lite.py 579-581, 585-588: the user is asked about every destination that is not the own main address. -/
def askUser (e : Env) (Aout Bout : Ext) (v : Int) (isSub change : Bool) : LM Unit := do
  let s ← get
  if s.sigMode = createReal ∧ change = false then
    if e.confirm Aout Bout v isSub then modify fun s => { s with asked := s.asked ++ [(Aout, Bout, v, isSub)] } else fail
  else pure ()

/-- lite.py 533-583 `mlsag_prehash_update`. -/
def prehashUpdate (e : Env) : LM Nat := do
  let isSub ← fetchU8
  let Aout ← fetch 32 >>= point
  let Bout ← fetch 32 >>= point
  let change ← isChange Aout Bout
  let ak ← fetchDecrypt e 32
  let C ← fetch 32
  let k ← fetch 32
  let v ← fetch 32
  modify fun s => (s.addH (k ++ v)).addAmount ak
  let vk ← unblindInt e v k ak
  modify fun s => s.addAmount (encodeInt vk.2 ++ encodeInt vk.1)
  let Cp ← point C
  let ok ← lift (pointEq (genC vk.2 vk.1) Cp)
  if !ok then fail
  else do
    modify fun s => s.addCommitment C
    closeAmounts e
    askUser e Aout Bout vk.1 (decide (isSub ≠ 0)) change
    pure swOk

/-- lite.py 590-614 `mlsag_prehash_finalize`. -/
def prehashFinalize (e : Env) : LM Nat := do
  let s ← get
  if s.options / 0x80 % 2 = 1 then do
    let h ← fetch 32
    modify fun s => (s.addH h).addCommitment h
    pure swOk
  else if some (e.sha s.ctxCommitment) ≠ s.C then fail
  else do
    let m ← fetch 32
    let proof ← fetch 32
    modify fun s' => { s' with ctxH := m ++ e.H s.ctxH ++ proof, H := some (e.H (m ++ e.H s.ctxH ++ proof)) }
    insert (e.H (m ++ e.H s.ctxH ++ proof))
    pure swOk

/-- lite.py 616-628 `stealth`: `drv += b"\x8d"` adds bytes to a point and raises. -/
def stealth (e : Env) : LM Nat := do
  let pub ← fetch 32 >>= point
  let sec ← fetchDecryptKey e
  let _ ← fetch 8
  let _ ← lift (keyDerivation pub sec)
  fail

/-- lite.py 725-733, 735-743 and 666-723: the command table, with the codes of consts.py 5-37. -/
def subDispatch (e : Env) (ins p1 : Nat) : LM Nat :=
  if ins = 0x00 then pure swNone
  else if ins = 0x70 then openTx e
  else if ins = 0x80 then pure swOk
  else if ins = 0x72 then setSignatureMode
  else if ins = 0x76 then stealth e
  else if ins = 0x22 then putKey
  else if ins = 0x20 then getKey e
  else if ins = 0x28 then pure swOk
  else if ins = 0x26 then verifyKey e
  else if ins = 0x24 then chacha8Prekey e
  else if ins = 0x30 then scalMulBase e
  else if ins = 0x32 then genKeyDerivation e
  else if ins = 0x34 then cmdDerivationToScalar e
  else if ins = 0x36 then cmdDerivePublicKey e
  else if ins = 0x38 then cmdDeriveSecretKey e
  else if ins = 0x3A then cmdKeyImage e
  else if ins = 0x3C then cmdAdd
  else if ins = 0x3E then cmdSub
  else if ins = 0x40 then generateKeypair e
  else if ins = 0x42 then scalMulKey e
  else if ins = 0x44 then scalMulBase e
  else if ins = 0x46 then cmdDeriveSubPublic e
  else if ins = 0x48 then getSubaddress e
  else if ins = 0x4A then getSubSpend e
  else if ins = 0x4C then getSubSecret e
  else if ins = 0x78 then blind e
  else if ins = 0x7A then unblind e
  else if ins = 0x7C then
    if p1 = 1 then prehashInit e else if p1 = 2 then prehashUpdate e else if p1 = 3 then prehashFinalize e else fail
  else if ins = 0x7E then
    if p1 = 1 then mlsagPrepare e else if p1 = 2 then mlsagHash e else if p1 = 3 then mlsagSign e else fail
  else pure swNone

/-- lite.py 630-664 `dispatch`: the first byte of the message are the options. -/
def body (e : Env) (ins : Nat) : LM Nat := do
  let o ← fetchU8
  modify fun s => { s with options := o }
  let s ← get
  subDispatch e ins s.p1

/-- A command of the host. -/
structure Cmd where
  ins : Nat
  p1 : Nat := 0
  p2 : Nat := 0
  input : Bytes

/-- lite.py 640-644. -/
def St.start (s : St) (c : Cmd) : St := { s with p1 := c.p1, p2 := c.p2, msg := c.input, off := 0, resp := [] }

/-- What the host gets: the status word and the response, or an exception (`none`). -/
def dispatch (e : Env) (s : St) (c : Cmd) : Option (Nat × Bytes) × St :=
  match (body e c.ins).run (s.start c) with
  | (some sw, s') => (some (sw, s'.resp), s')
  | (none, s') => (none, s')

/-- A session: the commands in order; after an exception the object is still there and takes the next command. -/
def session (e : Env) : St → List Cmd → List (Option (Nat × Bytes)) × St
  | s, [] => ([], s)
  | s, c :: cs =>
    let r := dispatch e s c
    let rest := session e r.2 cs
    (r.1 :: rest.1, rest.2)

end Verif.Lite

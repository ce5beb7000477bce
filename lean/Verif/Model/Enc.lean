import Verif.Model.Sig

/-!
Encryption of wallet data and of secrets handed to the host: xmr/enc/chacha.py, xmr/enc/chacha_poly.py, xmr/enc/aescbc.py and the encrypted
files of xmr/wallet.py 185-253, 292-346. Exceptions are `none`. The ciphers themselves (PyCryptodome, cryptography, pycryptonight) are parameters.
-/

namespace Verif.Enc
open Verif Ed Key Sig

/-! ## xmr/enc/chacha.py -/

/-- The external functions: `slow` is `pycryptonight.cn_slow_hash`, `stream key nonce data` the ChaCha20 of PyCryptodome, `H` is Keccak-256. -/
structure Ciphers where
  H : Bytes → Bytes
  slow : Bytes → Bytes
  stream : Bytes → Bytes → Bytes → Bytes

/-- chacha.py 65-77 `encrypt`; `ChaCha20.new` draws `nonce`. -/
def encrypt (x : Ciphers) (nonce key plain : Bytes) : Bytes := nonce ++ x.stream key nonce plain

/-- chacha.py 80-89 `decrypt`; `ChaCha20.new` refuses a nonce cut short. -/
def decrypt (x : Ciphers) (key ct : Bytes) : Option Bytes :=
  if (ct.take 8).length = 8 then some (x.stream key (ct.take 8) (ct.drop 8)) else none

/-- chacha.py 10-16 `generate_key`. -/
def generateKey (x : Ciphers) (data : Bytes) : Bytes := x.slow data

/-- chacha.py 19-37 `encrypt_xmr`; `k` is the random scalar of the signature. -/
def encryptXmr (x : Ciphers) (nonce : Bytes) (k priv : Int) (plain : Bytes) (auth : Bool) : Bytes :=
  let ct := encrypt x nonce (generateKey x (encodeInt priv)) plain
  if !auth then ct
  else
    let sig := genSignature x.H (x.H ct) priv k
    ct ++ (encodeInt sig.1 ++ encodeInt sig.2.1)

/-- chacha.py 49-57: the signature check. -/
def checkTail (x : Ciphers) (priv : Int) (ct sig : Bytes) : Option Unit :=
  match decodeScalar (sig.take 32), decodeScalar (sig.drop 32) with
  | some c, some r =>
    match checkSignature x.H (x.H ct) c r (scalarmultB priv) with
    | some true => some ()
    | _ => none
  | _, _ => none

/-- chacha.py 40-62 `decrypt_xmr`; `ciphertext[:-64]` and `ciphertext[-64:]` are empty and everything when there are fewer than 64 bytes. -/
def decryptXmr (x : Ciphers) (priv : Int) (data : Bytes) (auth : Bool) : Option Bytes :=
  if auth then
    let ct := data.take (data.length - 64)
    match checkTail x priv ct (data.drop (data.length - 64)) with
    | none => none
    | some _ => decrypt x (generateKey x (encodeInt priv)) ct
  else decrypt x (generateKey x (encodeInt priv)) data

/-! ## Encrypted files of xmr/wallet.py -/

/-- wallet.py 17: `b"Monero unsigned tx set\004"`. -/
def unsignedPrefix : Bytes := [77, 111, 110, 101, 114, 111, 32, 117, 110, 115, 105, 103, 110, 101, 100, 32, 116, 120, 32, 115, 101, 116, 4]

/-- wallet.py 20: `b"Monero output export\003"`. -/
def outputsPrefix : Bytes := [77, 111, 110, 101, 114, 111, 32, 111, 117, 116, 112, 117, 116, 32, 101, 120, 112, 111, 114, 116, 3]

/-- wallet.py 193-201, 298-306: the header is cut off and compared, the version byte looked up among the supported ones. -/
def header (pre : Bytes) (versions : List UInt8) (data : Bytes) : Option (UInt8 × Bytes) :=
  match data[pre.length - 1]? with
  | none => none
  | some v =>
    if data.take (pre.length - 1) ≠ pre.dropLast then none
    else if v ∉ versions then none
    else some (v, data.drop pre.length)

/-- wallet.py 227-230: what `dump_unsigned_tx` does with the serialised transaction set. -/
def dumpUnsigned (x : Ciphers) (nonce : Bytes) (k priv : Int) (ser : Bytes) : Bytes := unsignedPrefix ++ encryptXmr x nonce k priv ser true

/-- wallet.py 193-203: `load_unsigned_tx` up to the parser, which gets the returned bytes. -/
def loadUnsigned (x : Ciphers) (priv : Int) (data : Bytes) : Option Bytes :=
  match header unsignedPrefix [4] data with
  | none => none
  | some (_, d) => decryptXmr x priv d true

/-- wallet.py 340-346: what `save_exported_outputs` does with the serialised outputs. -/
def saveOutputs (x : Ciphers) (nonce : Bytes) (k spend view : Int) (ser : Bytes) : Bytes :=
  outputsPrefix ++ encryptXmr x nonce k view (encodePoint (scalarmultB spend) ++ encodePoint (scalarmultB view) ++ ser) true

/-- wallet.py 298-313: `load_exported_outputs` up to the parser: version, spend key, view key and the bytes to be parsed. -/
def loadOutputs (x : Ciphers) (priv : Int) (data : Bytes) : Option (UInt8 × Bytes × Bytes × Bytes) :=
  match header outputsPrefix [3, 4] data with
  | none => none
  | some (v, d) => (decryptXmr x priv d true).map fun p => (v, p.take 32, (p.drop 32).take 32, p.drop 64)

/-! ## xmr/enc/chacha_poly.py -/

/-- `ChaCha20Poly1305` of the cryptography package; no associated data is the same as empty associated data. -/
structure Aead where
  lock : (key nonce plain ad : Bytes) → Bytes
  unlock : (key nonce ct ad : Bytes) → Option Bytes

/-- chacha_poly.py 16-27 `encrypt`, 43-44 `encrypt_pack`; `nonce` are the 12 random bytes. -/
def encryptPack (a : Aead) (nonce key plain : Bytes) (ad : Bytes := []) : Bytes := nonce ++ a.lock key nonce plain ad ++ []

/-- chacha_poly.py 30-40 `decrypt`, 47-48 `decrypt_pack`. -/
def decryptPack (a : Aead) (key ct : Bytes) : Option Bytes := a.unlock key (ct.take 12) (ct.drop 12) []

/-! ## xmr/enc/aescbc.py -/

/-- Byte-wise exclusive or. -/
def xorBytes (a b : Bytes) : Bytes := List.zipWith (· ^^^ ·) a b

/-- aescbc.py 8-18 `encrypt`: `AES.new(key, AES.MODE_ECB, iv=iv)`, read as electronic codebook mode with the `iv` ignored (PyCryptodome refuses the
argument with a TypeError). `E` is the block cipher under the key; `n` the number of 16-byte blocks. -/
def aesEncrypt (E : Bytes → Bytes) : Nat → Bytes → Bytes
  | 0, _ => []
  | n + 1, m => E (m.take 16) ++ aesEncrypt E n (m.drop 16)

/-- aescbc.py 21-30 `decrypt`: cipher block chaining. -/
def aesDecrypt (D : Bytes → Bytes) : Nat → (iv ct : Bytes) → Bytes
  | 0, _, _ => []
  | n + 1, iv, c => xorBytes (D (c.take 16)) iv ++ aesDecrypt D n (c.take 16) (c.drop 16)

end Verif.Enc

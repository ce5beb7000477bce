import Verif.Model.Hd
import Verif.Model.Key
import Verif.Model.Bip39Words

/-!
Wallet seeds: monero_glue/xmr/sub/seed.py, misc/bip/bip39_deriv.py, bip32.py 258-272, and the wallet generator and account file of
monero_poc/trezor.py 624-773.

Texts are lists of characters, and `lower` and `strip` are modelled for ASCII.
-/

namespace Verif.Seed
open Verif Hd
open Verif.Mnemonic (hexlify words)

/-- External functions: HMAC-SHA512, RIPEMD160 ∘ SHA256, SHA256, PBKDF2 with HMAC-SHA512, 2048 rounds and 64 bytes (password, salt), Keccak, and the
CRC of the prefixes of words. -/
structure Outside where
  hm : Bytes → Bytes → Bytes
  h160 : Bytes → Bytes
  sha256 : Bytes → Bytes
  pbkdf2 : Bytes → Bytes → Bytes
  keccak : Bytes → Bytes
  crc : List Nat → Nat
  prefixOf : Nat → Nat

/-- The text of a word that is written as one number of `k` bytes, filled with zeros. -/
def wordText : Nat → Nat → List Char
  | 0, _ => []
  | k + 1, v => if v / 256 ^ k = 0 then [] else Char.ofNat (v / 256 ^ k) :: wordText k (v % 256 ^ k)

/-- The Monero words as texts. -/
def moneroTexts : List (List Char) := words.map (wordText 12)

/-- The BIP39 words as texts. -/
def englishTexts : List (List Char) := english.map (wordText 8)

/-- `" ".join(ws)`. -/
def joinSpace : List (List Char) → List Char
  | [] => []
  | [w] => w
  | w :: ws => w ++ ' ' :: joinSpace ws

/-- `text.split(" ")`. -/
def splitSpace : List Char → List (List Char)
  | [] => [[]]
  | c :: cs => if c = ' ' then [] :: splitSpace cs else
    match splitSpace cs with
    | [] => [[c]]
    | w :: ws => (c :: w) :: ws

/-- `text.strip()`. -/
def strip (s : List Char) : List Char := ((s.dropWhile isSpace).reverse.dropWhile isSpace).reverse

/-- `text.lower()`. -/
def lower (s : List Char) : List Char := s.map Char.toLower

/-- The argument of `from_mnemonics`: one string, or a list of strings. -/
inductive Input
  | text (s : List Char)
  | list (ws : List (List Char))

/-- seed.py 83-94 `clean_input`. -/
def cleanInput (inp : Input) : List (List Char) :=
  (match inp with
    | .text s => [s]
    | .list ws => ws.flatMap splitSpace).map fun x => lower (strip x)

/-- A seed derivation object after `set_monero_seed`; the secrets and public keys are those of `generate_monero_keys`. -/
structure Sd where
  moneroMaster : Bytes
  electrumWords : List Char
  spendSec : Int
  spendPub : Ed.Ext
  viewSec : Int
  viewPub : Ed.Ext

/-- seed.py 63-74 `set_monero_seed`. -/
def setMoneroSeed (o : Outside) (seed : Bytes) : Option Sd :=
  (Mnemonic.encode o.crc seed true).bind fun ws =>
    (Key.moneroKeys o.keccak seed).map fun k => ⟨seed, joinSpace (ws.map (wordText 12)), k.1, k.2.1, k.2.2.1, k.2.2.2⟩

/-- seed.py 13-14. -/
def defaultBip44Path : List Char := "m/44'/128'/0'/0/0".toList
def defaultSlip0010Path : List Char := "m/44'/128'/0'".toList

/-- seed.py 33-61 `set_seed`. A node without private key (path with `M` or `.pub`) raises in line 51. -/
def setSeed (o : Outside) (seed : Bytes) (path : Option (List Char)) (slip0010 : Bool) : Option Sd :=
  let path := path.getD (if slip0010 then defaultSlip0010Path else defaultBip44Path)
  (fromMasterSecret o.hm seed xmr slip0010).bind fun wl =>
    (wl.getChildForPath o.hm o.h160 path).bind fun data =>
      data.privateKey.bind fun k =>
        (unhexlify k.getKey).bind fun preHash =>
          if slip0010 then (Ed.decodeScalar preHash).bind fun s => setMoneroSeed o (Ed.encodeInt s)
          else setMoneroSeed o (o.keccak preHash)

/-- The text as bytes. -/
def utf8 (s : List Char) : Bytes := s.map fun c => UInt8.ofNat c.toNat

/-- bip39_deriv.py 7-15 `mnemonics_to_seed`. -/
def mnemonicsToSeed (o : Outside) (s : List Char) (passphrase : Bytes) : Bytes :=
  o.pbkdf2 (utf8 s) ([0x6d, 0x6e, 0x65, 0x6d, 0x6f, 0x6e, 0x69, 0x63] ++ passphrase)

/-- seed.py 96-114 `from_mnemonics`. -/
def fromMnemonics (o : Outside) (inp : Input) (asIndex : Bool) (passphrase : Bytes) (path : Option (List Char)) (slip0010 : Bool) : Option Sd :=
  let mnems := cleanInput inp
  if asIndex then
    if passphrase ≠ [] then none else
      (mnems.mapM fun x => englishTexts.idxOf? x).bind fun indices => (Bip.indicesToBytes indices).bind fun seed => setSeed o seed path slip0010
  else setSeed o (mnemonicsToSeed o (joinSpace mnems) passphrase) path slip0010

/-- The number of a word in the list of the model of mnemonic.py; 0 is not in the list. -/
def moneroWord (t : List Char) : Nat :=
  match moneroTexts.idxOf? t with
  | some i => words.getD i 0
  | none => 0

/-- seed.py 128-135 `from_monero_mnemonics`. -/
def fromMoneroMnemonics (o : Outside) (inp : Input) : Option Sd :=
  (Mnemonic.decode o.crc o.prefixOf ((cleanInput inp).map moneroWord)).bind fun hex => (unhexlify hex).bind (setMoneroSeed o)

/-! ## The wallet generator -/

/-- bip32.py 258-272 `to_seed_words` of a wallet made from a secret: the words. -/
def toSeedWords (o : Outside) (w : Wallet) : Option (List (List Char)) :=
  w.seedSecret.bind fun secret => (Bip.bytesToIndices (secret ++ (o.sha256 secret).take 1)).mapM fun i => englishTexts[i]?

/-- trezor.py 652-704: what is printed and written to the account file. -/
structure Generated where
  seed : Bytes
  bip39Words : List Char
  bip32b58 : Bytes
  moneroSeed : Bytes
  moneroWords : List Char
  spendSec : Int
  spendPub : Ed.Ext
  viewSec : Int
  viewPub : Ed.Ext

/-- trezor.py 635-650 `create_wallet`; `seed` is random and `H` the double SHA256 of Base58Check. -/
def createWallet (o : Outside) (H : Bytes → Bytes) (seed : Bytes) : Option Generated :=
  (fromMasterSecret o.hm seed xmr false).bind fun wl =>
    (toSeedWords o wl).bind fun ws => (wl.serializeB58 H true).bind fun b58 =>
      (wl.getChildForPath o.hm o.h160 "m/44'/128'/0'/0/0".toList).bind fun data =>
        data.privateKey.bind fun k => (unhexlify k.getKey).bind fun toHash =>
          let hashed := o.keccak toHash
          (Mnemonic.encode o.crc hashed false).bind fun ew =>
            (Key.moneroKeys o.keccak hashed).map fun k =>
              ⟨seed, joinSpace ws, b58, hashed, joinSpace (ew.map (wordText 12)), k.1, k.2.1, k.2.2.1, k.2.2.2⟩

/-- trezor.py 682-703: the two keys in the account file, as hex texts. -/
def Generated.file (g : Generated) : List Nat × List Nat := (hexlify (Ed.encodeInt g.spendSec), hexlify (Ed.encodeInt g.viewSec))

/-- trezor.py 730-738, 760-767: the keys read back from an account file. -/
def openAccount (file : List Nat × List Nat) : Option (Int × Int) :=
  (unhexlify file.1).bind fun s => (Ed.decodeScalar s).bind fun spend =>
    (unhexlify file.2).bind fun v => (Ed.decodeScalar v).map fun view => (spend, view)

end Verif.Seed

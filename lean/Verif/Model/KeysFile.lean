import Verif.Model.Enc

/-!
The wallet keys file: xmr/wallet.py 95-125 `load_keys_data`, 143-182 `gen_keys_file`. Exceptions are `none`. The serialisers of monero_serialize and the
standard json module are parameters; the regular expression is modelled as Python matches it.
-/

namespace Verif.KeysFile
open Verif Enc

/-- The external codecs: `ser`/`parse` the key-value serialisation of the key data, `esc`/`unesc` the JSON string escaping of xmrjson, `dump`/`load` the json
module on the other fields, `pack`/`unpack` the archive of `KeysFileData`. -/
structure Codec (K J : Type) where
  ser : K → Bytes
  parse : Bytes → Option K
  esc : Bytes → Bytes
  unesc : Bytes → Option Bytes
  dump : J → Bytes
  load : Bytes → Option J
  pack : Bytes → Bytes → Bytes
  unpack : Bytes → Option (Bytes × Bytes)

/-- wallet.py 33-61 `WalletKeyFile`: the attribute `key_data`, which may be missing, and the other ones. -/
structure Wallet (K J : Type) where
  keyData : Option K
  rest : J

/-- wallet.py 111, 170: `"key_data":"`. -/
def tag : Bytes := [0x22, 0x6b, 0x65, 0x79, 0x5f, 0x64, 0x61, 0x74, 0x61, 0x22, 0x3a, 0x22]

/-- wallet.py 170: `b'{"key_data":"' + ser2 + b'",' + enc[1:]`. -/
def compose (e enc : Bytes) : Bytes := 0x7b :: (tag ++ (e ++ (0x22 :: 0x2c :: enc.drop 1)))

/-- wallet.py 143-182 `gen_keys_file`: `del js["key_data"]` deletes the attribute, as `to_json` returns the `__dict__` of the object. -/
def gen {K J : Type} (x : Ciphers) (c : Codec K J) (nonce password : Bytes) (w : Wallet K J) : Option Bytes × Wallet K J :=
  match w.keyData with
  | none => (none, w)
  | some k =>
    let ct := encrypt x nonce (generateKey x password) (compose (c.esc (c.ser k)) (c.dump w.rest))
    (some (c.pack (ct.take 8) (ct.drop 8)), { w with keyData := none })

/-- `(.+?)",`: at least one byte other than a newline, as few as possible; the bytes and what follows the quote and the comma. -/
def lazyKey : Bytes → Option (Bytes × Bytes)
  | [] => none
  | b :: rest =>
    if b = 0x0a then none
    else if rest.take 2 = [0x22, 0x2c] then some ([b], rest.drop 2)
    else (lazyKey rest).map fun r => (b :: r.1, r.2)

/-- `.*` at most: up to the next newline. -/
def line (d : Bytes) : Bytes := d.takeWhile (fun b => b ≠ 0x0a)

/-- The greedy first group: the longest prefix, of at most `n` bytes, after which the rest of the expression matches. -/
def matchFrom (d : Bytes) : Nat → Option (Bytes × Bytes × Bytes)
  | 0 =>
    if d.take 12 = tag then (lazyKey (d.drop 12)).map fun r => ([], r.1, line r.2) else none
  | n + 1 =>
    match (if (d.drop (n + 1)).take 12 = tag then (lazyKey (d.drop (n + 1 + 12))).map fun r => (d.take (n + 1), r.1, line r.2) else none) with
    | some r => some r
    | none => matchFrom d n

/-- wallet.py 111: `re.search(b'(.*)"key_data":"(.+?)",(.*)', dec)`, the three groups. -/
def search : Bytes → Option (Bytes × Bytes × Bytes)
  | [] => matchFrom [] 0
  | b :: d =>
    match matchFrom (b :: d) (line (b :: d)).length with
    | some r => some r
    | none => search d

/-- wallet.py 95-125 `load_keys_data`. -/
def load {K J : Type} (x : Ciphers) (c : Codec K J) (password data : Bytes) : Option (Wallet K J) :=
  match c.unpack data with
  | none => none
  | some (iv, account) =>
    match decrypt x (generateKey x password) (iv ++ account) with
    | none => none
    | some dec =>
      match search dec with
      | none => none
      | some (g1, g2, g3) =>
        match c.unesc g2 with
        | none => none
        | some dat =>
          match c.parse dat, c.load (g1 ++ g3) with
          | some k, some j => some ⟨some k, j⟩
          | _, _ => none

end Verif.KeysFile

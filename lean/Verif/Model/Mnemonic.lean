import Verif.Model.Basic
import Verif.Model.MnemonicWords

/-! Electrum-style seed words: monero_glue/xmr/core/mnemonic.py 1637-1725. Hex strings are lists of digits 0 … 15. -/

namespace Verif.Mnemonic
open Verif

/-- mnemonic.py 1637 `n = len(words)`. -/
def n : Nat := 1626

/-- `binascii.hexlify`. -/
def hexlify : Bytes → List Nat
  | [] => []
  | b :: bs => b.toNat / 16 :: b.toNat % 16 :: hexlify bs

/-- mnemonic.py 1652-1655 `mn_swap_endian_4byte`: `st[6:8] + st[4:6] + st[2:4] + st[0:2]`. -/
def swap (st : List Nat) : List Nat :=
  (st.drop 6).take 2 ++ ((st.drop 4).take 2 ++ ((st.drop 2).take 2 ++ st.take 2))

/-- `int(word, 16)`. -/
def parseHex (w : List Nat) : Nat := w.foldl (fun a d => a * 16 + d) 0

/-- Digits of `"%x" % x` for `x > 0`. -/
def hexNat (x : Nat) : List Nat := if x = 0 then [] else hexNat (x / 16) ++ [x % 16]
termination_by x

/-- `"%08x" % x`: at least eight digits. -/
def fmt08 (x : Nat) : List Nat := List.replicate (8 - (hexNat x).length) 0 ++ hexNat x

/-- mnemonic.py 1662-1673: every group of eight digits is swapped and becomes three words; digits behind the last full group are not used. (The
code first swaps the groups of the whole string in place, then cuts it into the same groups.) -/
def encodeGroups : Nat → List Nat → List Nat
  | 0, _ => []
  | k + 1, message =>
    let x := parseHex (swap (message.take 8))
    let w1 := x % n
    let w2 := (x / n + w1) % n
    let w3 := (x / n / n + w2) % n
    [words.getD w1 0, words.getD w2 0, words.getD w3 0] ++ encodeGroups k (message.drop 8)

/-- mnemonic.py 1658-1678 `mn_encode`. `crc` is the CRC of the word prefixes (1703-1709); `crc % len(wlist)` raises for no words. -/
def encode (crc : List Nat → Nat) (message : Bytes) (checksum : Bool) : Option (List Nat) :=
  let hex := hexlify message
  let out := encodeGroups (hex.length / 8) hex
  if checksum then
    if out.length = 0 then none else some (out ++ [out.getD (crc out % out.length) 0])
  else some out

/-- mnemonic.py 1691-1698. -/
def decodeGroups : Nat → List Nat → Option (List Nat)
  | 0, _ => some []
  | k + 1, wlist =>
    match wlist with
    | word1 :: word2 :: word3 :: rest =>
      match words.idxOf? word1, words.idxOf? word2, words.idxOf? word3 with
      | some w1, some w2, some w3 =>
        let x := w1 + n * ((n + w2 - w1) % n) + n * n * ((n + w3 - w2) % n)
        (decodeGroups k rest).map (swap (fmt08 x) ++ ·)
      | _, _, _ => none
    | _ => none

/-- mnemonic.py 1713-1725 `checksum_test` on the word list; `pre` cuts a word to its unique prefix. -/
def checksumTest (crc : List Nat → Nat) (pre : Nat → Nat) (wlist : List Nat) : Bool :=
  let ws := wlist.dropLast
  pre (ws.getD (crc ws % ws.length) 0) == pre (wlist.getLastD 0)

/-- mnemonic.py 1681-1700 `mn_decode`: the hex digits. `has_checksum = (n % 3) == 1` looks at the size of the word list. -/
def decode (crc : List Nat → Nat) (pre : Nat → Nat) (wlist : List Nat) : Option (List Nat) :=
  if n % 3 = 1 then
    if checksumTest crc pre wlist then decodeGroups (wlist.dropLast.length / 3) wlist.dropLast else none
  else decodeGroups (wlist.length / 3) wlist

end Verif.Mnemonic

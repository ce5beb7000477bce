import Verif.Spec.Agent
import Verif.Lemmas.SignerDemo
import Mathlib.Data.ZMod.Basic

/-!
Concrete external parts and requests that meet the hypotheses of the theorems about the host. Scalars and points are the integers modulo 7, `G = 1`,
`H = 3`, written in 32 bytes; ciphers keep the plain text; hashes keep the first bytes.
-/

namespace Verif.Agent.Demo
open Verif Verif.Signer Verif.Signer.Demo

abbrev F := ZMod 7

def enc (x : F) : Bytes := UInt8.ofNat x.val :: List.replicate 31 1
def all : List F := [0, 1, 2, 3, 4, 5, 6]
def dec (b : Bytes) : Option F := all.find? fun x => enc x == b
def first32 (b : Bytes) : Bytes := (b ++ List.replicate 32 0).take 32

def proof : Bp := ⟨[1], [], [], [], [], [], [], [], [], [], []⟩

/-- External parts. -/
def parts : Env F F where
  keccak := first32
  keccak2 := first32
  mac k m := k ++ m
  encPack _ m _ := m
  decPack _ m := some m
  scEnc := enc
  scDec b := (dec b).getD 0
  ptEnc := enc
  ptDec := dec
  hashToScalar b := ((b.headD 0).toNat : F)
  G := 1
  H := 3
  pbSrc := encSrc
  pbDst := encDst
  pbTsx _ := []
  serTxin a ki o := encNat a ++ (encBytes ki ++ encList encInt o)
  keyImage _ outKey _ _ _ := some (outKey, outKey)
  subaddresses _ _ := []
  primaryAddr _ := ⟨enc 5, enc 5⟩
  ecdh _ _ _ v2 := some (List.replicate (if v2 then 8 else 64) 9)
  bpProve _ _ _ := some proof
  bpDump _ := some [7]
  bpParse _ := some proof
  bpVerify _ _ _ := true
  mlsag msg _ _ _ _ _ _ _ := some msg
  viewPriv := 5
  spendPriv := 5
  msgOk _ := true
  respOk _ := true

open Classical in
/-- Parsers that undo the serialisation. -/
noncomputable def codec : Codec where
  parseVin b := if h : ∃ v, dumpVin parts v = b then some h.choose else none
  parseVout b := some ⟨0, b.drop 2⟩

def draws : Rand F where
  confirm := true
  uiOk := true
  r := 2
  master := 1
  alpha := 3
  nonceAlpha := []
  nonceSpend := []
  addKey := 4
  bpRand := []
  mlsagRand := []
  salt := []
  randMult := 0
  nonceFinal := []

/-- A source with two ring members, the second of which is real; amount `a`, one-time key `x`, mask 1. -/
def source (a : Nat) (x : F) : Src where
  outputs := [⟨8, enc 1, enc 2⟩, ⟨5, enc x, enc (1 + a * 3)⟩]
  realOutput := 1
  txKey := enc 1
  addKeys := []
  inTxIndex := 0
  amount := a
  rct := true
  mask := enc 1
  subaddrMinor := none

/-- A standard payee with spend key 4 and view secret 2, a subaddress payee with spend key 3 and view secret 6, and the wallet's own address. -/
def payee (a : Nat) : Dst := ⟨a, ⟨enc 4, enc 2⟩, false⟩
def subPayee (a : Nat) : Dst := ⟨a, ⟨enc 3, enc (6 * 3)⟩, true⟩
def own (a : Nat) : Dst := ⟨a, ⟨enc 5, enc 5⟩, false⟩

/-- Two sources, three outputs, a fee of 4. -/
def request : TxData where
  sources := [source 10 4, source 20 6]
  dsts := [payee 7, subPayee 9, own 10]
  change := own 10
  paymentId := []
  unlockTime := 0
  account := 0
  indices := []
  useBp := true

end Verif.Agent.Demo

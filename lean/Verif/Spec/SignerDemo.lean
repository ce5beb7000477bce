import Verif.Spec.Signer
import Mathlib.Algebra.Module.NatInt

/-!
A concrete instance of the abstract primitives and a scripted host, used to show that the hypotheses of
the theorems about the signer are met by real sessions, and to exhibit sessions that violate a property.
Scalars and points are both integers, `G = 1`, `H = 3`; `keccak` is the identity, `keccak2` keeps
the last 16 bytes of a 48-byte buffer and otherwise the first 32 bytes.
-/

namespace Verif.Signer.Demo
open Verif Verif.Signer

/-! Prefix-free encodings -/

def encNat (n : Nat) : Bytes := List.replicate n 1 ++ [0]
def encList {α} (f : α → Bytes) (l : List α) : Bytes := encNat l.length ++ (l.map f).flatten
def encBytes (b : Bytes) : Bytes := encList (fun x => encNat x.toNat) b
def encBool (b : Bool) : Bytes := encNat b.toNat

/-- An absent optional field leaves no trace, as in protobuf. -/
def encOpt : Option Nat → Bytes
  | none => []
  | some n => encNat n

def encAddr (a : Addr) : Bytes := encBytes a.spend ++ encBytes a.view
def encDst (d : Dst) : Bytes := encNat d.amount ++ encAddr d.addr ++ encBool d.isSub
def encRing (r : RingMember) : Bytes := encNat r.idx ++ encBytes r.dest ++ encBytes r.commitment
def encSrc (s : Src) : Bytes :=
  encList encRing s.outputs ++ encNat s.realOutput ++ encBytes s.txKey ++ encList encBytes s.addKeys ++
  encNat s.inTxIndex ++ encNat s.amount ++ encBool s.rct ++ encBytes s.mask ++ encOpt s.subaddrMinor

/-- Integers as sign byte and unary absolute value, terminated. -/
def encInt (z : Int) : Bytes := (if z < 0 then 1 else 0) :: encNat z.natAbs
def decInt : Bytes → Int
  | 1 :: b => -((b.takeWhile (· == 1)).length : Int)
  | _ :: b => ((b.takeWhile (· == 1)).length : Int)
  | [] => 0

def bp0 : Bp := ⟨[1], [], [], [], [], [], [], [], [], [], []⟩

/-- Demo primitives. Only elements written by `encInt` decode as points. -/
def env : Env Int Int where
  keccak := id
  keccak2 b := if b.length = 48 then b.drop 32 ++ List.replicate 16 0 else (b ++ List.replicate 32 0).take 32
  mac k m := encNat k.length ++ (k ++ m)
  encPack k m _ := encNat k.length ++ (k ++ m)
  decPack k c := let p := encNat k.length ++ k
    if c.take p.length = p then some (c.drop p.length) else none
  scEnc := encInt
  scDec := decInt
  ptEnc := encInt
  ptDec b := if encInt (decInt b) = b then some (decInt b) else none
  hashToScalar b := b.length
  G := 1
  H := 3
  pbSrc := encSrc
  pbDst := encDst
  pbTsx _ := []
  serTxin _ ki _ := ki
  keyImage _ outKey _ _ _ := some (outKey, outKey)
  subaddresses _ _ := []
  primaryAddr _ := ⟨encInt 5, encInt 5⟩
  ecdh _ _ _ _ := some [9]
  bpProve _ _ _ := some bp0
  bpDump _ := some [7]
  bpParse _ := some bp0
  bpVerify _ _ _ := true
  mlsag msg _ _ _ _ _ _ _ := some msg
  viewPriv := 5
  spendPriv := 5
  msgOk _ := true
  respOk _ := true

def rnd (alpha : Int) : Rand Int where
  confirm := true
  uiOk := true
  r := 1
  master := 1
  alpha := alpha
  nonceAlpha := []
  nonceSpend := []
  addKey := 1
  bpRand := []
  mlsagRand := []
  salt := []
  randMult := 0
  nonceFinal := []

/-- A source with one ring member; amount `a`, one-time key `x`, mask 1. -/
def src (a : Nat) (x : Int) : Src where
  outputs := [⟨a, encInt x, encInt (1 + a * 3)⟩]
  realOutput := 0
  txKey := encInt 1
  addKeys := []
  inTxIndex := 0
  amount := a
  rct := true
  mask := encInt 1
  subaddrMinor := none

def dst (a : Nat) : Dst := ⟨a, ⟨encInt 4, encInt 4⟩, false⟩
def dst2 (a : Nat) : Dst := ⟨a, ⟨encInt 6, encInt 6⟩, false⟩

/-- Init data: number of inputs, outputs, grouping, bulletproof version. Fee 1, bulletproofs. -/
def tsx (n : Nat) (outs : List Dst) (grp : List Nat) (bpv : Nat) : TsxData where
  numInputs := n
  outputs := outs
  change := none
  mixin := 1
  fee := 1
  clientVersion := 0
  account := 0
  minorIndices := []
  rsigType := 1
  grouping := grp
  bpVersion := bpv
  unlockTime := 0
  paymentId := List.replicate 32 1

/-- A host: the next message may depend on the log so far. -/
abbrev Host := List (List (Event Int) → Msg × Rand Int)

/-- Drive the device with a host. -/
def drive (env : Env Int Int) : Host → List (Event Int) → Device Int Int → List (Event Int) × Device Int Int
  | [], log, d => (log, d)
  | h :: hs, log, d =>
    drive env hs (log ++ [⟨(h log).1, (h log).2, (tsxSign env d (h log).1 (h log).2).2⟩])
      (tsxSign env d (h log).1 (h log).2).1

theorem drive_reach {env : Env Int Int} (hs : Host) : ∀ {log : List (Event Int)} {d : Device Int Int},
    Reach env log d → Reach env (drive env hs log d).1 (drive env hs log d).2 := by
  induction hs with
  | nil => intro log d h; exact h
  | cons h hs ih => intro log d hr; exact ih (Reach.step _ _ hr)

/-! Host moves that replay what the device handed out. -/

def mInit (t : TsxData) : List (Event Int) → Msg × Rand Int := fun _ => (.init t, rnd 0)
def mInput (s : Src) (alpha : Int) : List (Event Int) → Msg × Rand Int := fun _ => (.setInput s, rnd alpha)
def mPerm (p : List Nat) : List (Event Int) → Msg × Rand Int := fun _ => (.permutation p, rnd 0)
/-- replay registered input `i` -/
def mVini (i : Nat) : List (Event Int) → Msg × Rand Int := fun log =>
  match (inputs log)[i]? with
  | some r => (.inputVini r.src r.vini r.viniHmac, rnd 0)
  | none => (.malformed, rnd 0)
def mAllIn : List (Event Int) → Msg × Rand Int := fun _ => (.allInputsSet, rnd 0)
/-- output `i` with the tag from the init answer -/
def mOut (d : Dst) (i : Nat) : List (Event Int) → Msg × Rand Int := fun log =>
  match (initOf log) with
  | some (_, _, hmacs) => (.setOutput d (hmacs.getD i []) [] false, rnd 0)
  | none => (.malformed, rnd 0)
/-- upload of an offloaded range proof -/
def mProof (rsig : Bytes) : List (Event Int) → Msg × Rand Int := fun _ => (.setOutput (dst 0) [] rsig true, rnd 0)
def mAllOut : List (Event Int) → Msg × Rand Int := fun _ => (.allOutSet, rnd 0)
def mSign (i : Nat) : List (Event Int) → Msg × Rand Int := fun log =>
  match (inputs log)[i]? with
  | some r => (.signInput r.src r.vini r.viniHmac r.pseudoOut r.pseudoOutHmac r.alphaEnc r.spendEnc, rnd 0)
  | none => (.malformed, rnd 0)
def mFinal : List (Event Int) → Msg × Rand Int := fun _ => (.final, rnd 0)

/-- The log of a host against a fresh demo device. -/
def demoLog (hs : Host) : List (Event Int) := (drive env hs [] {}).1
def demoDev (hs : Host) : Device Int Int := (drive env hs [] {}).2

theorem demo_reach (hs : Host) : Reach env (demoLog hs) (demoDev hs) := drive_reach hs .start

/-- A complete honest session: two inputs (amounts 2 and 3), two outputs (1 and 3), fee 1. -/
def honest (bpv : Nat) : Host :=
  [mInit (tsx 2 [dst 1, dst2 3] [2] bpv), mInput (src 2 7) 10, mInput (src 3 8) 20, mPerm [1, 0], mVini 1, mVini 0,
   mAllIn, mOut (dst 1) 0, mOut (dst2 3) 1, mAllOut, mSign 1, mSign 0, mFinal]

end Verif.Signer.Demo

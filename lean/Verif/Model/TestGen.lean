import Verif.Model.TxBuilder
import Verif.Model.Common

/-!
The tool that rewrites unsigned transactions for another wallet, with more or fewer inputs and outputs: monero_poc/tools/test_gen.py. Random numbers are
parameters. Exceptions are `none`.

Not modelled: reading and writing the files, `describe`, the command line, and fields that the rewriting does not touch (`m_key_image` and the like).
`--inputs` and `--outs` are taken to be natural numbers. The loop over several transactions (490-527) treats each on its own; one is modelled.
-/

namespace Verif.TestGen
open Verif Ed
open Verif.Key hiding Dst
open Verif.Builder (Creds checkInput)
open Verif.Signer (Src Dst Addr RingMember addrEq)

/-- The command line, 694-: `--inputs` (absent is 0), `--outs`, `--outs-subs`, `--major`, `--minors`, `--mixin` (absent is 0), `--add-extra`,
`--add-nonce`, `--add-long-nonce`. -/
structure Args where
  inputs : Nat := 0
  outs : Option Nat := none
  outsSubs : Bool := false
  major : Nat := 0
  minors : List Nat := [0]
  mixin : Nat := 0
  addExtra : Bool := false
  nonce : Option Bytes := none
  longNonce : Option Bytes := none

/-- The parts of `TxConstructionData` that are rewritten. -/
structure Tx where
  sources : List Src
  dsts : List Dst
  change : Option Dst
  account : Nat
  indices : List Nat
  extra : Bytes

/-! ## Inputs -/

/-- Random points for the ring place `j` of a new input: commitment, key, additional key (test_gen.py 351-358). -/
abbrev Decoys := Nat → Bytes × Bytes × Bytes

/-- test_gen.py 348-355: the ring of a new input. -/
def newRing (ring : List RingMember) (real : Nat) (commitment : Bytes) (rnd : Decoys) : List RingMember :=
  ring.mapIdx fun j m => if j < real then m else if j = real then ⟨0, m.dest, commitment⟩ else ⟨0, (rnd j).2.1, (rnd j).1⟩

/-- test_gen.py 357-358: the additional keys, one list shared by all the copies; an index beyond its end raises. -/
def newAdds (ring : List RingMember) (real : Nat) (adds : List Bytes) (rnd : Decoys) : Option (List Bytes) :=
  if adds = [] then some []
  else if real + 1 < ring.length ∧ adds.length < ring.length then none
  else some (adds.mapIdx fun j a => if real < j ∧ j < ring.length then (rnd j).2.2 else a)

/-- The loop test_gen.py 331-367: `orig` the amount of the input that is split, `part` the share, `sum` what was given away so far. The subtraction is
never negative. -/
def ampLoop (H : Bytes → Bytes) (c : Creds) (t : Table) (lst : Src) (m : Int) (orig part n : Nat) (rnd : Nat → Decoys) :
    List Nat → Nat → List Bytes → List Src → Option (List Bytes × List Src)
  | [], _, adds, acc => some (adds, acc)
  | i :: is, sum, adds, acc =>
    let amount := if n ≤ i then orig - sum else part
    let ring := newRing lst.outputs lst.realOutput (encodePoint (genC m amount)) (rnd i)
    (newAdds lst.outputs lst.realOutput adds (rnd i)).bind fun adds =>
      let src := { lst with outputs := ring, amount := amount, addKeys := adds }
      (checkInput H c t src).bind fun _ =>
        (src.outputs[src.realOutput]?.bind fun e => decodePoint e.commitment).bind fun P =>
          (pointEq P (genC m amount)).bind fun e => (Builder.guard e).bind fun _ =>
            ampLoop H c t lst m orig part n rnd is (sum + part) adds (acc ++ [src])

/-- test_gen.py 321-367 `amplify_inputs`; the shared list of additional keys is put into every copy at the end. -/
def amplifyInputs (H : Bytes → Bytes) (c : Creds) (t : Table) (n : Nat) (rnd : Nat → Decoys) (sources : List Src) : Option (List Src) :=
  sources.getLast?.bind fun lst => (decodeScalar lst.mask).bind fun m => lst.outputs[lst.realOutput]?.bind fun real =>
    let part := lst.amount / (n + 1)
    let first := { lst with
      amount := part
      outputs := lst.outputs.set lst.realOutput { real with commitment := encodePoint (genC m part) } }
    (ampLoop H c t first m lst.amount part n rnd (List.range' 1 n) part lst.addKeys []).map fun r =>
      sources.dropLast ++ ({ first with addKeys := r.1 } :: r.2.map fun s => { s with addKeys := r.1 })

/-- What `rekey_input` draws: the transaction scalar, the scalar of the additional key, the minor index, scalars for other additional keys, and
the points added to the ring (key, commitment, additional key). -/
structure Draws where
  r : Int
  ri : Int
  minor : Nat
  others : List Int
  decoys : List (Bytes × Bytes × Ext)

/-- test_gen.py 545-547. -/
def isDstSub (a : Args) : Option Bool :=
  if a.major = 0 then some false else a.minors.head?.map fun m => decide (m ≠ 0 ∨ a.minors.length > 1)

/-- test_gen.py 555-563: the sub-address `minor`: secret, spend and view keys. -/
def subKeys (H : Bytes → Bytes) (c : Creds) (major minor : Nat) : Option (Int × Ext × Ext) :=
  (subSecret H c.view major minor).map fun m =>
    let D := add (scalarmultB c.spend) (scalarmultB m)
    (scAdd m c.spend, D, smul D c.view)

/-- test_gen.py 565-621: the new transaction key, one-time key and additional keys. -/
def newKeys (H : Bytes → Bytes) (c : Creds) (a : Args) (w : Draws) (i : Nat) (adds : List Ext) (isSub : Bool) : Option (Ext × Ext × List Ext) :=
  let need := adds.length > 0 || (isSub && a.addExtra)
  if !isSub then
    (keyDerivation (scalarmultB c.view) w.r).bind fun deriv => (deriveSecretKey H deriv i c.spend).bind fun x =>
      if !need then some (scalarmultB w.r, scalarmultB x, adds)
      else
        let gen := min 2 (i + 1)
        let adds := if adds.length < gen then (w.others.take gen).map scalarmultB else adds
        if i < adds.length then some (scalarmultB w.r, scalarmultB x, adds.set i (scalarmultB w.ri)) else none
  else (subKeys H c a.major w.minor).bind fun K =>
    if !need then
      (keyDerivation K.2.2 w.r).bind fun deriv => (deriveSecretKey H deriv i K.1).map fun x => (smul K.2.1 w.r, scalarmultB x, adds)
    else
      let gen := min 2 (i + 1)
      let adds := if adds.length < gen then (w.others.take gen).map scalarmultB else adds
      (keyDerivation K.2.2 w.ri).bind fun deriv => (deriveSecretKey H deriv i K.1).bind fun x =>
        (derivePublicKey H deriv i K.2.1).bind fun P => (pointEq (scalarmultB x) P).bind fun e => (Builder.guard e).bind fun _ =>
          if i < adds.length then some (scalarmultB w.r, scalarmultB x, adds.set i (smul K.2.1 w.ri)) else none

/-- test_gen.py 529-641 `rekey_input`. -/
def rekeyInput (H : Bytes → Bytes) (cur : Creds) (curT : Table) (dst : Creds) (dstT : Table) (a : Args) (w : Draws) (src : Src) : Option Src :=
  (checkInput H cur curT src).bind fun _ => (src.addKeys.mapM decodePoint).bind fun adds => (isDstSub a).bind fun isSub =>
    (newKeys H dst a w src.inTxIndex adds isSub).bind fun k => src.outputs[src.realOutput]?.bind fun real =>
      let decoys := w.decoys.take (a.mixin - src.outputs.length)
      let adds := if k.2.2.length > 0 then k.2.2 ++ decoys.map (·.2.2) else k.2.2
      let src := { src with
        outputs := src.outputs.set src.realOutput { real with dest := encodePoint k.2.1 } ++ decoys.map fun d => ⟨0, d.1, d.2.1⟩
        txKey := encodePoint k.1
        addKeys := adds.map encodePoint }
      (checkInput H dst dstT src).map fun _ => src

/-! ## Outputs -/

/-- `get_change_addr_idx`, xmr/sub/addr.py 172-191: the last output with the amount and address of the change. -/
def changeIdx (dsts : List Dst) : Option Dst → Option Nat
  | none => none
  | some c => (dsts.zipIdx.filter fun d => c.amount != 0 && c.amount == d.1.amount && addrEq c.addr d.1.addr).getLast?.map (·.2)

/-- `find_change_idx`, test_gen.py 369-376. -/
def findChangeIdx (tx : Tx) (idx : Option Nat) : Option Nat := idx.or (changeIdx tx.dsts tx.change)

/-- test_gen.py 275-319 `adjust_change`; `mine` is the first address of the destination account (263-273). Without `change_dts` the comparison in 288
raises as soon as there is an output. -/
def adjustChange (outsSubs : Bool) (mine : Addr) (tx : Tx) : Option (Tx × Option Nat) :=
  let found : Option (Option (Nat × Nat)) :=
    match changeIdx tx.dsts tx.change, tx.change with
    | some i, some c => some (some (i, c.amount))
    | _, some c => some ((tx.dsts.zipIdx.find? fun d => addrEq c.addr d.1.addr).map fun d => (d.2, d.1.amount))
    | _, none => if tx.dsts = [] then some none else none
  found.map fun f =>
    let dsts := if outsSubs then tx.dsts.mapIdx fun i d => if f.map (·.1) = some i then d else { d with isSub := true } else tx.dsts
    match f with
    | none => ({ tx with dsts := dsts }, none)
    | some (i, amount) =>
      ({ tx with
          change := tx.change.map fun c => { c with amount := amount, addr := mine }
          dsts := dsts.modify i fun d => { d with addr := mine } }, some i)

/-- test_gen.py 378-389 `shuffle_outs`, `perm` what `random.shuffle` made of the indices. The message (388) wants a number: without a change index it
raises. `list.index` raises if the index is not there. -/
def shuffleOuts (perm : List Nat) (tx : Tx) (idx : Option Nat) : Option (Tx × Option Nat) :=
  (Common.applyPermutation (perm.length + 1) perm).bind fun calls =>
    (findChangeIdx tx idx).bind fun c => if c ∈ perm then some ({ tx with dsts := Common.doSwaps calls tx.dsts }, some (perm.idxOf c)) else none

/-- test_gen.py 391-412 `reduce_outs`. With `n = 0` the amounts go to `splitted_dsts[-1]`, and then nothing is left. -/
def reduceOuts (n : Nat) (perm : List Nat) (tx : Tx) (idx : Option Nat) : Option (Tx × Option Nat) :=
  if tx.dsts.length ≤ n then some (tx, idx)
  else
    let idx := findChangeIdx tx idx
    let moved : Option (List Dst) := match idx with
      | none => some tx.dsts
      | some i => tx.dsts[i]?.map fun c => c :: tx.dsts.eraseIdx i
    moved.bind fun dsts =>
      let leftover := ((dsts.drop n).map (·.amount)).sum
      let dsts := (dsts.modify (n - 1) fun d => { d with amount := d.amount + leftover }).take n
      let change := if n = 1 then tx.change.map fun c => { c with amount := (dsts.head?.map (·.amount)).getD 0 } else tx.change
      shuffleOuts perm { tx with dsts := dsts, change := change } idx

/-- The loop test_gen.py 427-438. -/
def splitLoop (lst : Dst) (orig part toadd : Nat) : List Nat → Nat → List Dst
  | [], _ => []
  | i :: is, sum => { lst with amount := if toadd - 1 ≤ i then orig - sum else part } :: splitLoop lst orig part toadd is (sum + part)

/-- test_gen.py 414-443 `amplify_outs`. -/
def amplifyOuts (n : Nat) (perm : List Nat) (tx : Tx) (idx : Option Nat) : Option (Tx × Option Nat) :=
  if n ≤ tx.dsts.length then some (tx, idx)
  else
    let idx := findChangeIdx tx idx
    tx.dsts.getLast?.bind fun lst =>
      let toadd := n - tx.dsts.length
      let part := lst.amount / (toadd + 1)
      let dsts := tx.dsts.dropLast ++ ({ lst with amount := part } :: splitLoop lst lst.amount part toadd (List.range toadd) part)
      let change := if idx = some (tx.dsts.length - 1) then tx.change.map fun c => { c with amount := (dsts.head?.map (·.amount)).getD 0 } else tx.change
      shuffleOuts perm { tx with dsts := dsts, change := change } idx

/-- test_gen.py 445-474 `subadress_outs`: the new address of one output. -/
def subAddr (H : Bytes → Bytes) (cur : Creds) (curT : Table) (dst : Creds) (dstT : Table) (major ix : Nat) (d : Dst) : Option Dst :=
  let k : Creds × Nat := match curT.get d.addr.spend with
    | some i => (cur, i.1)
    | none => match dstT.get d.addr.spend with
      | some i => (dst, i.1)
      | none => (dst, major)
  (subAddressKeys H k.1.view (scalarmultB k.1.spend) k.2 (ix + 1)).map fun K => { d with addr := ⟨encodePoint K.1, encodePoint K.2⟩, isSub := true }

def subOuts (H : Bytes → Bytes) (cur : Creds) (curT : Table) (dst : Creds) (dstT : Table) (major : Nat) (tx : Tx) (idx : Option Nat) : Option (Tx × Option Nat) :=
  let idx := findChangeIdx tx idx
  (tx.dsts.zipIdx.mapM fun d => if idx = some d.2 then some d.1 else subAddr H cur curT dst dstT major d.2 d.1).map fun dsts =>
    ({ tx with dsts := dsts }, idx)

/-- test_gen.py 476-488 `add_nonce`, `add_long_nonce`: `tag` 1 with 8 bytes, 0 with 32. -/
def addNonce (len : Nat) (tag : UInt8) (nonce : Option Bytes) (extra : Bytes) : Option Bytes :=
  match nonce with
  | none => some extra
  | some b => if b.length = len then some (extra ++ [2, UInt8.ofNat (len + 1), tag] ++ b) else none

/-- What is drawn for a transaction: for the new inputs, for each input, and the two shuffles. -/
structure Rnd where
  decoys : Nat → Decoys
  draws : Nat → Draws
  perm1 : List Nat
  perm2 : List Nat

/-- test_gen.py 490-527 `rekey_unsigned`, one transaction. `dest_keys != cur_keys` (508) compares two objects without `__eq__` and is always true, so
the change is always adjusted. -/
def rekey (H : Bytes → Bytes) (cur : Creds) (curT : Table) (dst : Creds) (dstT : Table) (a : Args) (w : Rnd) (tx : Tx) : Option Tx :=
  (if a.inputs = 0 then some tx.sources else amplifyInputs H dst dstT a.inputs w.decoys tx.sources).bind fun sources =>
    (sources.zipIdx.mapM fun s => rekeyInput H cur curT dst dstT a (w.draws s.2) s.1).bind fun sources =>
      (subAddressKeys H dst.view (scalarmultB dst.spend) a.major 0).bind fun K =>
        (adjustChange a.outsSubs ⟨encodePoint K.1, encodePoint K.2⟩ { tx with sources := sources }).bind fun s =>
          let tx := { s.1 with account := a.major, indices := a.minors }
          (match a.outs with
            | none => some (tx, s.2)
            | some n => (reduceOuts n w.perm1 tx s.2).bind fun s => amplifyOuts n w.perm2 s.1 s.2).bind fun s =>
            (if a.outsSubs then subOuts H cur curT dst dstT a.major s.1 s.2 else some s).bind fun s =>
              (addNonce 8 1 a.nonce s.1.extra).bind fun e => (addNonce 32 0 a.longNonce e).map fun e => { s.1 with extra := e }

end Verif.TestGen

import Verif.Model.Addr
import Verif.Model.Amount
import Verif.Model.Seed

/-!
Commands that move money: monero_poc/utils/misc.py 136-276, monero_poc/agent.py 296-360 and 1177-1407, monero_poc/utils/cli.py 69-104. Text is a list
of characters (ASCII where numbers are read). `parse_sweep_single` (279-295) is left out: no command calls it. An exception is `none` in the parsers and ends the run of a command.
-/

namespace Verif.Cmd
open Verif

/-- A word or a line. -/
abbrev Text := List Char

/-- misc.py 136-146 `TransferArgs`. -/
structure Args where
  indices : List Int := []
  priority : Option Nat := none
  mixin : Option Int := none
  dests : List (Text × Amount.Double) := []
  address : Option Text := none
  paymentId : Option Text := none
  threshold : Option Amount.Double := none
  keyImage : Option Bytes := none

/-- `text.split(",")`. -/
def splitComma : Text → List Text
  | [] => [[]]
  | c :: cs => if c = ',' then [] :: splitComma cs else
    match splitComma cs with
    | [] => [[c]]
    | p :: ps => (c :: p) :: ps

/-- `"index="`. -/
def indexTag : Text := "index=".toList

/-- misc.py 149-153 `cut_index`. -/
def cutIndex : List Text → Option (List Int × List Text)
  | [] => none
  | w :: ws => if indexTag.isPrefixOf w then ((splitComma (w.drop 6)).mapM fun x => Hd.pyInt (Seed.strip x)).map fun l => (l, ws) else some ([], w :: ws)

/-- misc.py 32 `PRIORITIES`. -/
def priorities : List Text := ["default".toList, "unimportant".toList, "normal".toList, "elevated".toList, "priority".toList]

/-- misc.py 156-165 `cut_priority`. -/
def cutPriority : List Text → Option (Option Nat × List Text)
  | [] => none
  | w :: ws => if priorities.contains w then some (some (priorities.idxOf w), ws) else some (none, w :: ws)

/-- misc.py 168-172 `cut_mixin`: every exception means that there is no number. -/
def cutMixin : List Text → Option Int × List Text
  | [] => (none, [])
  | w :: ws => match Hd.pyInt w with
    | some n => (some n, ws)
    | none => (none, w :: ws)

/-- misc.py 175-176 `cut_addr`. -/
def cutAddr : List Text → Option (Text × List Text)
  | [] => none
  | w :: ws => some (w, ws)

/-- misc.py 179-183 `cut_amount`. -/
def cutAmount : List Text → Option (Amount.Double × List Text)
  | [] => none
  | w :: ws => (Amount.float w).map fun x => (x, ws)

/-- misc.py 186-190 and 229-234: `cut_addr_amount` until it finds no further pair. -/
def cutDests : List Text → List (Text × Amount.Double) × List Text
  | a :: x :: ws => match Amount.float x with
    | some v => let r := cutDests ws
      ((a, v) :: r.1, r.2)
    | none => ([], a :: x :: ws)
  | ws => ([], ws)

/-- The bytes of a hex text (`binascii.unhexlify`). -/
def unhex (w : Text) : Option Bytes := if w.all (·.toNat < 128) then Hd.unhexText (w.map fun c => UInt8.ofNat c.toNat) else none

/-- misc.py 203-209 `cut_payment_id`. -/
def cutPaymentId : List Text → Option (Option Text × List Text)
  | [] => some (none, [])
  | w :: ws => if w.length ≠ 16 ∧ w.length ≠ 64 then none else some (some w, ws)

/-- `[x for x in line.split(" ") if len(x.strip()) > 0]`. -/
def words (line : Text) : List Text := (Seed.splitSpace line).filter fun x => (Seed.strip x).length > 0

/-- misc.py 212-240 `parse_transfer_cmd`. What is left of the words in the end is dropped. -/
def parseTransfer (ws : List Text) : Option Args := do
  if ws.length < 2 then none
  let (indices, ws) ← cutIndex ws
  let (priority, ws) ← cutPriority ws
  let (mixin, ws) := cutMixin ws
  let (dests, ws) := cutDests ws
  if dests = [] then none
  let (paymentId, _) ← cutPaymentId ws
  return { indices, priority, mixin, dests, paymentId }

/-- misc.py 243-256 `parse_sweep_all`, from the words on. -/
def parseSweepAll (ws : List Text) : Option Args := do
  let (indices, ws) ← cutIndex ws
  let (priority, ws) ← cutPriority ws
  let (mixin, ws) := cutMixin ws
  let (address, ws) ← cutAddr ws
  let (paymentId, _) ← cutPaymentId ws
  return { indices, priority, mixin, address := some address, paymentId }

/-- misc.py 259-276 `parse_sweep_below`, from the words on. -/
def parseSweepBelow (ws : List Text) : Option Args := do
  if ws.length < 2 then none
  let (threshold, ws) ← cutAmount ws
  let (indices, ws) ← cutIndex ws
  let (priority, ws) ← cutPriority ws
  let (mixin, ws) := cutMixin ws
  let (address, ws) ← cutAddr ws
  let (paymentId, _) ← cutPaymentId ws
  return { indices, priority, mixin, address := some address, paymentId, threshold := some threshold }

/-! ## What is requested from the wallet -/

/-- The parameters of a request (constant entries are left out). Amounts are integers, texts are ASCII bytes; `ringSize` and `mixin` are two different
parameters. -/
structure Params where
  dests : List (Int × Bytes) := []
  account : Option Nat := none
  indices : List Int := []
  priority : Option Nat := none
  mixin : Option Int := none
  ringSize : Option Int := none
  /-- as bytes; sent in hex -/
  paymentId : Option Bytes := none
  /-- of the sweep commands: sent as typed -/
  paymentText : Option Text := none
  address : Option Text := none
  belowAmount : Option Int := none
  keyImage : Option Bytes := none
deriving DecidableEq

/-- agent.py 1177-1202 `handle_address_input`. (Text outside ASCII is never an address: the alphabet of the encoding is ASCII.) -/
def handleAddress (H : Bytes → Bytes) (address : Text) (pid : Option Text) : Option (Addr.Info × Option Bytes) :=
  if (pid.isSome && pid ≠ some []) && ((pid.getD []).length ≠ 16 && (pid.getD []).length ≠ 64) then none
  else if !address.all (·.toNat < 128) then none
  else (Addr.decodeAddr H (address.map fun c => UInt8.ofNat c.toNat)).bind fun info =>
    match pid with
    | some (c :: cs) => if info.isIntegrated then none else (unhex (c :: cs)).map fun b => (info, some b)
    | _ => some (info, none)

/-- agent.py 1218-1227: the destinations, with the address as decoded and encoded again, and the last payment id that is not empty. -/
def transferDests (H : Bytes → Bytes) (pid : Option Text) : List (Text × Amount.Double) → Option (List (Addr.Info × Int) × Option Bytes)
  | [] => some ([], none)
  | (a, x) :: r =>
    (handleAddress H a pid).bind fun i =>
      (Amount.amountToUint64 x).bind fun n =>
        (transferDests H pid r).map fun t => ((i.1, n) :: t.1, if t.2.isSome then t.2 else i.2)

/-- agent.py 1204-1267 `transfer_cmd`: parameters and destinations for the signer. -/
def transferParams (H : Bytes → Bytes) (account : Nat) (a : Args) : Option (Params × List (Addr.Info × Int)) :=
  (transferDests H a.paymentId a.dests).map fun t =>
    ({ dests := t.1.map fun d => (d.2, d.1.addr), account := some account, indices := a.indices, priority := a.priority, mixin := a.mixin,
       paymentId := t.2 }, t.1)

/-- agent.py 1269-1292 `sweep_params`. -/
def sweepParams (account : Nat) (a : Args) (single : Bool) : Option Params :=
  (match a.threshold with
    | none => some none
    | some t => (Amount.amountToUint64 t).map some).map fun below =>
      { priority := a.priority, ringSize := a.mixin, paymentText := a.paymentId, belowAmount := below, keyImage := a.keyImage,
        account := if single then none else some account, indices := if single then [] else a.indices,
        address := if single then none else a.address }

/-! ## Running a command -/

/-- The methods of the wallet. -/
inductive Method
  | transferSplit
  | sweepAll
  | sweepSingle
  | sweepDust
deriving DecidableEq

/-- The answer of the wallet: no result; or a result with amounts and fees (`false`: they cannot be printed and an exception is raised) and, if there is
one, the unsigned set. -/
inductive Reply
  | error
  | result (printable : Bool) (txset : Option Text)

/-- The outcome of `sign_wrap` (agent.py 1385-1407): data, an error number, or an exception. -/
inductive Signed
  | data (b : Bytes)
  | code
  | raised

/-- What a command does that others can see. -/
inductive Effect
  /-- a question and its answer; `none`: not interactive -/
  | asked (yes : Option Bool)
  | request (m : Method) (p : Params)
  | sign (txset : Bytes) (dests : Option (List (Addr.Info × Int)))
  | submit (b : Bytes)

/-- What the command meets. -/
structure World where
  H : Bytes → Bytes
  account : Nat
  /-- `check_rpc` -/
  rpc : Bool
  /-- `check_address`: the device has the wallet's address -/
  address : Bool
  /-- the answer to the n-th question: yes, something else, or an exception (cli.py 91-104) -/
  answer : Nat → Option Bool
  reply : Method → Params → Reply
  signer : Bytes → Option (List (Addr.Info × Int)) → Signed

/-- agent.py 1356-1383 `sign_unsigned`; `n` questions were asked before. -/
def signUnsigned (w : World) (n : Nat) (u : Bytes) (aux : Option (List (Addr.Info × Int))) : List Effect :=
  .sign u aux :: match w.signer u aux with
    | .data b => .asked (w.answer n) :: if w.answer n = some true then [.submit b] else []
    | .code => []
    | .raised => []

/-- agent.py 1323-1354 `transfer_params`, 1294-1321 `sweep_cmd` from the request on. (Without an unsigned set the one returns, the other raises.) -/
def prepare (w : World) (n : Nat) (m : Method) (p : Params) (aux : Option (List (Addr.Info × Int))) : List Effect :=
  .request m p :: match w.reply m p with
    | .error => []
    | .result false _ => []
    | .result true t => .asked (w.answer n) :: if w.answer n = some true then
        match t.bind unhex with
        | some u => signUnsigned w (n + 1) u aux
        | none => []
      else []

/-- agent.py 296-308 `do_transfer` and 1204-1267 `transfer_cmd`. -/
def doTransfer (w : World) (line : Text) : List Effect :=
  if !w.rpc || !w.address then [] else
    match (parseTransfer (words line)).bind (transferParams w.H w.account) with
    | none => []
    | some (p, aux) => .asked (w.answer 0) :: if w.answer 0 = some true then prepare w 1 .transferSplit p (some aux) else []

/-- agent.py 310-321 `do_sweep_dust`. -/
def doSweepDust (w : World) : List Effect :=
  if !w.rpc then [] else
    .request .sweepDust {} :: match w.reply .sweepDust {} with
      | .error => []
      | .result _ t => match t.bind unhex with
        | some u => signUnsigned w 0 u none
        | none => []

/-- agent.py 323-334 `do_sweep_all`. -/
def doSweepAll (w : World) (line : Text) : List Effect :=
  if !w.rpc || line = [] then [] else
    match (parseSweepAll (words line)).bind fun a => sweepParams w.account a false with
    | none => []
    | some p => prepare w 0 .sweepAll p none

/-- agent.py 336-347 `do_sweep_below`. -/
def doSweepBelow (w : World) (line : Text) : List Effect :=
  if !w.rpc || line = [] then [] else
    match (parseSweepBelow (words line)).bind fun a => sweepParams w.account a false with
    | none => []
    | some p => prepare w 0 .sweepAll p none

/-- agent.py 349-360 `do_sweep_single`: the words are parsed as those of `sweep_below`. -/
def doSweepSingle (w : World) (line : Text) : List Effect :=
  if !w.rpc || line = [] then [] else
    match (parseSweepBelow (words line)).bind fun a => sweepParams w.account a true with
    | none => []
    | some p => prepare w 0 .sweepSingle p none

end Verif.Cmd

import Verif.Model.Messages
import Verif.Model.Account

/-!
Model of how messages travel between the agent and the emulated device: `monero_poc/utils/trezor_server_proxy.py:34-97` (host),
`monero_poc/trezor.py:224-393` (device) and `monero_glue/protocol_base/messages.py:9-25`.

Not modelled: HTTP and JSON themselves, which are taken to deliver the text and the number of a payload unchanged; what the device does with
a message (any function of the message and the device's state, which may raise); requests without payload.
Simplification: a class one of whose nested classes has no usable `get_fields` counts as unusable even when that nested value is absent.
-/

namespace Verif.Msgs
open Verif Pb

/-- A message object: its class and, per field, its values. -/
structure Msg where
  cls : Nat
  slots : List (List Value)

/-- What is sent: the text in hexadecimal, and the number of the class. -/
structure Payload where
  msg : Bytes
  type : Nat

/-- `get_fields` of the classes of `monero_glue/messages/`, those that raise taken as empty (they are excluded by `usable`). -/
def schema : Schema := fun n => ((classes[n]?).bind (·.fields)).getD []

/-- `get_fields` of the class and of the classes of its fields, nested at most `k` deep, do not raise. -/
def usableIn : Nat → Nat → Bool
  | 0, _ => false
  | k + 1, n =>
    match (classes[n]?).bind (·.fields) with
    | none => false
    | some fs => fs.all fun f => match f.ty with | .msg m => usableIn k m | _ => true

/-- The classes are nested less than eight deep. -/
def usable (n : Nat) : Bool := usableIn 8 n

/-- `get_message_type`, messages.py:9-16: an attribute error without an entry in MessageType. -/
def typeOf (c : Nat) : Option Nat := (classes[c]?).bind (·.wire)

/-- `get_message_from_type`, messages.py:19-25: the first class, in alphabetical order, with the number. -/
def classOf (id : Nat) : Option Nat := classes.findIdx? (·.wire == some id)

/-- trezor_server_proxy.py:60-65 and `proto_res`, trezor.py:387-393; `none`: raises. -/
def pack (m : Msg) : Option Payload :=
  if usable m.cls then
    match dumpMessage schema m.cls m.slots, typeOf m.cls with
    | some b, some t => some ⟨Acct.hexOf b, t⟩
    | _, _ => none
  else none

/-- trezor_server_proxy.py:68-76 and `unproto_req`, trezor.py:375-385; `none`: raises. -/
def unpack (utf8 : Bytes → Bool) (p : Payload) : Option Msg :=
  match Hd.unhexText p.msg, classOf p.type with
  | some b, some c => if usable c then (loadMessage schema utf8 c b).map (⟨c, ·⟩) else none
  | _, _ => none

/-- The device behind the server: whether it is initialised (`self.trez`), what its two handlers do (`none`: they raise), and the dialogue for the
view key (`on_watch_only`, trezor.py:293-321), which does not read the request: an HTTP status or the answer. -/
structure Device (σ : Type) where
  ready : σ → Bool
  sign : Msg → σ → σ × Option Msg
  sync : Msg → σ → σ × Option Msg
  watch : σ → σ × Except Nat Msg

/-- The paths the host uses, trezor_server_proxy.py:79-97. -/
inductive Method
  | call | watchOnly | txSign | kiSync

inductive Reply
  | json (p : Payload)
  | status (code : Nat)

/-- `on_tx_sign` and `on_ki_sync`, trezor.py:325-373. Every exception, and `abort(404)` which is one, ends in the outer `except`; the inner one puts the
exception object into `jsonify`, which raises again. Then the view function returns None, which Flask answers with 500. -/
def handle {σ : Type} (utf8 : Bytes → Bool) (ready : σ → Bool) (f : Msg → σ → σ × Option Msg) (p : Payload) (s : σ) : σ × Reply :=
  match unpack utf8 p with
  | none => (s, .status 500)
  | some m =>
    if ready s then
      match f m s with
      | (s, none) => (s, .status 500)
      | (s, some a) =>
        match pack a with
        | none => (s, .status 500)
        | some q => (s, .json q)
    else (s, .status 500)

/-- The routes, trezor.py:230-248: there is none for `call`. -/
def serve {σ : Type} (utf8 : Bytes → Bool) (d : Device σ) (w : Method) (p : Payload) (s : σ) : σ × Reply :=
  match w with
  | .call => (s, .status 404)
  | .txSign => handle utf8 d.ready d.sign p s
  | .kiSync => handle utf8 d.ready d.sync p s
  | .watchOnly =>
    match d.watch s with
    | (s, .error c) => (s, .status c)
    | (s, .ok a) =>
      match pack a with
      | none => (s, .status 500)
      | some q => (s, .json q)

/-- Why the host's call raises. -/
inductive HostErr
  | unsendable | status (code : Nat) | unreadable
deriving DecidableEq

/-- `transfer_protobuf`, trezor_server_proxy.py:56-77, with `raise_for_status` (38). -/
def exchange {σ : Type} (utf8 : Bytes → Bool) (d : Device σ) (w : Method) (m : Msg) (s : σ) : σ × Except HostErr Msg :=
  match pack m with
  | none => (s, .error .unsendable)
  | some p =>
    match serve utf8 d w p s with
    | (s, .status c) => (s, .error (.status c))
    | (s, .json q) =>
      match unpack utf8 q with
      | none => (s, .error .unreadable)
      | some a => (s, .ok a)

end Verif.Msgs

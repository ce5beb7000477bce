import Verif.Model.Basic

/-!
Choosing the device, monero_poc/agent.py 392-415, 451-453, 530-546 and 575-599.
-/

namespace Verif.Connect
open Verif

abbrev Text := List Char

/-- What the agent speaks to: the emulator (594) or a device opened at a path with the debug flag (591). -/
inductive Proxy
  | emulator
  | device (path : Text) (debug : Bool)
deriving DecidableEq

/-- Command line arguments `--poc` and `--trezor-path`. -/
structure Args where
  poc : Bool
  trezorPath : Option Text

/-- Fields of the agent application: `network_type`, `token_path`, `token_debug`, `trezor_proxy`, and `agent` with the proxy and network it was made with. -/
structure St where
  net : Option Nat
  path : Option Text
  debug : Bool
  proxy : Option Proxy
  agent : Option (Proxy × Option Nat)
deriving DecidableEq

/-- agent.py 50-88: before the first connection. -/
def fresh : St := ⟨none, none, false, none, none⟩

/-- What is found outside: the connected devices as texts, the one the user selects, and which paths can be opened. -/
structure World where
  devices : List Text
  pick : Nat
  opens : Text → Bool

/-- agent.py 530-546 `choose_trezor`; `none`: it raises. -/
def choose (w : World) : Option Text :=
  match w.devices with
  | [] => none
  | [d] => some d
  | ds => ds[w.pick]?

/-- Truth of a path. -/
def truthy : Option Text → Bool
  | none => false
  | some t => t != []

/-- agent.py 596-599: a new agent for the proxy, with the network of the former agent. -/
def finish (st : St) (p : Proxy) : St :=
  { st with proxy := some p, agent := some (p, match st.agent with | some a => a.2 | none => st.net) }

/-- agent.py 591, 596-599. The flag says whether all went well. -/
def openAt (w : World) (st : St) (t : Text) : St × Bool :=
  if w.opens t then (finish st (.device t st.debug), true) else (st, false)

/-- agent.py 575-599 `connect` (without patching of the library). -/
def connect (args : Args) (w : World) (path : Option Text) (st : St) : St × Bool :=
  if !args.poc || (truthy args.trezorPath || truthy path) then
    match (if truthy path then path else args.trezorPath) with
    | some (c :: t) => openAt w st (c :: t)
    | _ => match choose w with
      | none => (st, false)
      | some d => openAt w { st with path := some d } d
  else (finish st .emulator, true)

/-- `str.strip`; `ws` tells which characters are white space. -/
def strip (ws : Char → Bool) (t : Text) : Text := ((t.dropWhile ws).reverse.dropWhile ws).reverse

/-- agent.py 398-405. -/
def switchPath (ws : Char → Bool) (w : World) (line : Text) : Option Text :=
  if strip ws line = "udp".toList then some "udp:127.0.0.1:21324".toList
  else if ':' ∈ strip ws line then some (strip ws line)
  else if (strip ws line).length = 0 then choose w
  else some "bridge:web01".toList

/-- agent.py 397-412 `do_switch`. -/
def doSwitch (ws : Char → Bool) (args : Args) (w : World) (line : Text) (st : St) : St × Bool :=
  match switchPath ws w line with
  | none => (st, false)
  | some p => connect args w (some p) { st with debug := if "bridge".toList <:+: p then false else st.debug, path := some p }

/-- agent.py 414-415 `do_reconnect`. -/
def doReconnect (args : Args) (w : World) (st : St) : St × Bool := connect args w st.path st

/-- agent.py 451-453 `set_network_type`. -/
def setNet (n : Option Nat) (st : St) : St × Bool :=
  match st.agent with
  | none => ({ st with net := n }, false)
  | some a => ({ st with net := n, agent := some (a.1, n) }, true)

/-- What happens to the application: the connection of the start (1159), the commands, and a network set by loading a wallet (480, 863, 903). -/
inductive Event
  | start (w : World)
  | switch (w : World) (line : Text)
  | reconnect (w : World)
  | net (n : Option Nat)
  | tdeb (b : Bool)

/-- One event. An exception ends the command, and the application goes on with the fields as they are. -/
def step (ws : Char → Bool) (args : Args) (st : St) : Event → St × Bool
  | .start w => connect args w none st
  | .switch w line => doSwitch ws args w line st
  | .reconnect w => doReconnect args w st
  | .net n => setNet n st
  | .tdeb b => ({ st with debug := b }, true)

def run (ws : Char → Bool) (args : Args) (st : St) (es : List Event) : St := es.foldl (fun s e => (step ws args s e).1) st

end Verif.Connect

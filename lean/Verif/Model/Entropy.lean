import Verif.Model.Basic

/-!
The command that writes entropy of the device to a file, monero_poc/agent.py 386-390 and 498-516, and the clients for the wallet and the daemon,
monero_glue/xmr/wallet_rpc.py 14-52 and daemon_rpc.py 25-69.
-/

namespace Verif.Host
open Verif

/-- agent.py 506-515: what the loop holds. `failed` is an exception of the call; the file stays as it is. -/
inductive Phase
  | asking
  | done
  | failed
deriving DecidableEq

/-- The file, `csize`, the sizes asked for so far, and the phase. -/
structure Download where
  file : Bytes
  csize : Nat
  asked : List Nat
  phase : Phase
deriving DecidableEq

/-- agent.py 508: the test of the loop; a request is sent if it goes on (509-510). -/
def check (size : Int) (file : Bytes) (csize : Nat) (asked : List Nat) : Download :=
  if (csize : Int) < size then ⟨file, csize, asked ++ [1024 * 10], .asking⟩ else ⟨file, csize, asked, .done⟩

/-- agent.py 506-508: the file is emptied, whatever it held. -/
def begin (size : Int) (_old : Bytes) : Download := check size [] 0 []

/-- agent.py 510-515: one answer of the device (`none`: the call raises). -/
def answer (size : Int) (d : Download) (a : Option Bytes) : Download :=
  match d.phase, a with
  | .asking, some e => check size (d.file ++ e) (d.csize + e.length) d.asked
  | .asking, none => { d with phase := .failed }
  | _, _ => d

/-- agent.py 498-516 `get_entropy` over the answers that the device gives. -/
def getEntropy (size : Int) (old : Bytes) (answers : List (Option Bytes)) : Download := answers.foldl (answer size) (begin size old)

/-! ## Clients -/

/-- What is handed over as credentials: nothing, a list or tuple of texts, a text, or another object. -/
inductive Given
  | none
  | list (l : List (List Char))
  | text (t : List Char)
  | other
deriving DecidableEq

/-- `text.split(":", 1)`. -/
def splitColon : List Char → List (List Char)
  | [] => [[]]
  | c :: t => if c = ':' then [[], t] else
    match splitColon t with
    | [] => [[c]]
    | p :: ps => (c :: p) :: ps

/-- wallet_rpc.py 29-35, daemon_rpc.py 41-47 `set_creds`: the stored credentials; `none` is ValueError. -/
def setCreds : Given → Option (Option (List (List Char)))
  | .none => some none
  | .list l => if l.length = 2 then some (some l) else none
  | .text t => some (some (splitColon t))
  | .other => none

/-- A request as it is sent. -/
structure Post (J : Type) where
  url : List Char
  auth : Option (List Char × List Char)
  method : List Char
  params : Option J

/-- wallet_rpc.py 45-50, daemon_rpc.py 57-62 `request`: user and password from the stored credentials (`none`: IndexError); parameters that are false
(`truthy` is Python's truth value) are left out. -/
def request {J : Type} (truthy : J → Bool) (creds : Option (List (List Char))) (url method : List Char) (params : Option J) : Option (Post J) :=
  (match creds with
    | none => some none
    | some [] => some none
    | some [_] => none
    | some (u :: p :: _) => some (some (u, p))).map fun auth => ⟨url, auth, method, params.filter truthy⟩

end Verif.Host

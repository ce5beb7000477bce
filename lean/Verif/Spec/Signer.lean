import Verif.Model.Signer

/-!
What the outside world sees of a signing device: the log of exchanges, the current session in that
log, and what was accepted in the session. Nothing here looks inside the device.
-/

namespace Verif.Signer
open Verif

/-- One exchange: the host's message, the randomness / user decisions of that step, the answer. -/
structure Event (S : Type) where
  msg : Msg
  rnd : Rand S
  resp : Resp

section
variable {S P : Type} [CommRing S] [AddCommGroup P] [Module S P] [DecidableEq S] [DecidableEq P]

/-- `Reach env log d`: a device that started without any signing state and received the messages of
`log`, in that order, from an arbitrary host, with arbitrary user decisions and arbitrary randomness,
answered as in `log` and ended in `d`. -/
inductive Reach (env : Env S P) : List (Event S) → Device S P → Prop
  | start : Reach env [] {}
  | step {log : List (Event S)} {d : Device S P} (m : Msg) (rnd : Rand S) : Reach env log d →
      Reach env (log ++ [⟨m, rnd, (tsxSign env d m rnd).2⟩]) (tsxSign env d m rnd).1
end

variable {S P : Type}

def Resp.isFailure : Resp → Bool
  | .failure _ => true
  | _ => false

/-- The current session after one more exchange. A message the device cannot even parse (`msgOk` false)
is ignored; a failure ends the session; an accepted init starts a new one. -/
def sessionStep (env : Env S P) (s : List (Event S)) (e : Event S) : List (Event S) :=
  if !env.msgOk e.msg then s
  else match e.resp with
    | .failure _ => []
    | .initAck _ _ => [e]
    | _ => s ++ [e]

/-- The exchanges accepted since (and including) the last accepted init, if no failure came after it. -/
def session (env : Env S P) (log : List (Event S)) : List (Event S) :=
  log.foldl (sessionStep env) []

/-! ### What was accepted -/

/-- An accepted input together with everything the device handed out for it. -/
structure InputRec (S : Type) where
  src : Src
  rnd : Rand S
  vini : Bytes
  viniHmac : Bytes
  pseudoOut : Bytes
  pseudoOutHmac : Bytes
  alphaEnc : Bytes
  spendEnc : Bytes

structure ViniRec where
  src : Src
  vini : Bytes
  hmac : Bytes

structure OutputRec where
  dst : Dst
  hmac : Bytes
  ack : OutAck

/-- An accepted signing request and its answer. -/
structure SignRec where
  src : Src
  vini : Bytes
  viniHmac : Bytes
  pseudoOut : Bytes
  pseudoOutHmac : Bytes
  alphaEnc : Bytes
  spendEnc : Bytes
  signature : Bytes
  resultPseudoOut : Bytes

namespace Event

def input? (e : Event S) : Option (InputRec S) :=
  match e.msg, e.resp with
  | .setInput src, .inputAck a b c d f g => some ⟨src, e.rnd, a, b, c, d, f, g⟩
  | _, _ => none

def perm? (e : Event S) : Option (List Nat) :=
  match e.msg, e.resp with
  | .permutation p, .permutationAck => some p
  | _, _ => none

def vini? (e : Event S) : Option ViniRec :=
  match e.msg, e.resp with
  | .inputVini a b c, .viniAck => some ⟨a, b, c⟩
  | _, _ => none

def output? (e : Event S) : Option OutputRec :=
  match e.msg, e.resp with
  | .setOutput d h _ _, .outputAck (some a) => some ⟨d, h, a⟩
  | _, _ => none

def sign? (e : Event S) : Option SignRec :=
  match e.msg, e.resp with
  | .signInput a b c d f g h, .signAck x y => some ⟨a, b, c, d, f, g, h, x, y⟩
  | _, _ => none

/-- The upload of a host-computed range proof (answered with an empty ack). -/
def isProofUpload (e : Event S) : Bool :=
  match e.msg, e.resp with
  | .setOutput _ _ _ true, .outputAck none => true
  | _, _ => false

end Event

def inputs (s : List (Event S)) : List (InputRec S) := s.filterMap Event.input?
def perms (s : List (Event S)) : List (List Nat) := s.filterMap Event.perm?
def vinis (s : List (Event S)) : List ViniRec := s.filterMap Event.vini?
def outputs (s : List (Event S)) : List OutputRec := s.filterMap Event.output?
def signs (s : List (Event S)) : List SignRec := s.filterMap Event.sign?

/-! ### The documented order of the protocol -/

inductive Kind
  | init | input | perm | vini | allIn | output | allOut | sign | final
deriving DecidableEq

def Event.kind? (e : Event S) : Option Kind :=
  match e.msg, e.resp with
  | .init _, .initAck _ _ => some .init
  | .setInput _, .inputAck .. => some .input
  | .permutation _, .permutationAck => some .perm
  | .inputVini .., .viniAck => some .vini
  | .allInputsSet, .allInputsAck _ => some .allIn
  | .setOutput .., .outputAck (some _) => some .output
  | .allOutSet, .allOutAck .. => some .allOut
  | .signInput .., .signAck .. => some .sign
  | .final, .finalAck .. => some .final
  | _, _ => none

/-- The kinds of the accepted exchanges, range-proof uploads left out. -/
def kinds (s : List (Event S)) : List Kind := s.filterMap Event.kind?

/-- The protocol for `n` inputs and `m` outputs, with `k` vini messages. -/
def protocol (n k m : Nat) : List Kind :=
  [.init] ++ List.replicate n .input ++ [.perm] ++ List.replicate k .vini ++ [.allIn] ++
  List.replicate m .output ++ [.allOut] ++ List.replicate n .sign ++ [.final]

/-- The init request and the answer that opened the session. -/
def initOf (s : List (Event S)) : Option (TsxData × Rand S × List Bytes) :=
  match s with
  | ⟨.init tsx, rnd, .initAck h _⟩ :: _ => some (tsx, rnd, h)
  | _ => none

end Verif.Signer

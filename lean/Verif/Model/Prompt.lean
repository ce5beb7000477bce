/-! The prompts of the emulated device: requests run in the threads of the server, the user answers in the terminal. monero_poc/trezor.py 45-101,
293-323, 441-456, 461-468, 513-564 and monero_poc/utils/misc.py 50-85.

A thread is a list of instructions still to run; each is one access to the shared attributes, which Python runs without interruption. Any schedule of the
threads is possible. What is printed is one event; the text of it is not modelled here (see `Model/Amount.lean`). -/

namespace Verif.Prompt

variable {D : Type}

/-- The attributes of `TokenInterface` (trezor.py 46-51) and of its `CliPrompt` (misc.py 55-59). Events are numbered; `fired` are those that are set. -/
structure Shared (D : Type) where
  /-- `tsx_data` or `ki_sync_data` -/
  data : Option D
  /-- `TokenInterface.confirmed_result` -/
  granted : Bool
  /-- `in_confirmation` -/
  waiting : Bool
  /-- `CliPrompt.confirmed_result` -/
  result : Bool
  /-- `conf_evt` -/
  event : Option Nat
  fired : List Nat
  next : Nat

/-- What the thread of a request does. -/
inductive Instr
  /-- trezor.py 65 -/
  | clearGranted
  /-- trezor.py 66, 454 -/
  | setData
  /-- trezor.py 68, 310, 455-456 -/
  | announce
  /-- trezor.py 305-307 -/
  | guardFree
  /-- misc.py 67 -/
  | enter
  /-- misc.py 68 -/
  | clearResult
  /-- misc.py 69 -/
  | newEvent
  /-- misc.py 77-78: the text of the prompt -/
  | hook
  /-- misc.py 81: `self.conf_evt` -/
  | loadEvent
  /-- misc.py 81: `wait()` -/
  | await
  /-- misc.py 82 and trezor.py 90: `self.confirmed_result` of the prompt -/
  | readResult
  /-- misc.py 85 -/
  | leave
  /-- trezor.py 70 -/
  | readGranted
  /-- trezor.py 73 -/
  | dropData
deriving DecidableEq

/-- trezor.py 64-73 `confirm_transaction`, with misc.py 71-85. -/
def tx : List Instr :=
  [.clearGranted, .setData, .announce, .enter, .clearResult, .newEvent, .hook, .loadEvent, .await, .readResult, .leave, .readGranted, .dropData]

/-- trezor.py 87-90 `confirm_ki_sync`, with misc.py 71-85. -/
def ki : List Instr :=
  [.setData, .announce, .enter, .clearResult, .newEvent, .hook, .loadEvent, .await, .readResult, .leave, .readResult]

/-- trezor.py 305-315 of `on_watch_only`, with misc.py 71-85. -/
def watch : List Instr :=
  [.guardFree, .announce, .enter, .clearResult, .newEvent, .hook, .loadEvent, .await, .readResult, .leave]

/-- The thread of a request: what it asks for, what is still to run, the event it waits for, and the answer. -/
structure Thread (D : Type) where
  data : D
  todo : List Instr
  event : Option Nat
  answer : Bool
  done : Bool

/-- One instruction of a request; `th` has it removed already. `none`: it has to wait. -/
def exec (op : Instr) (sh : Shared D) (th : Thread D) : Option (Shared D × Thread D) :=
  match op with
  | .clearGranted => some ({ sh with granted := false }, th)
  | .setData => some ({ sh with data := some th.data }, th)
  | .announce => some (sh, th)
  | .guardFree => some (sh, if sh.waiting then { th with todo := [], answer := false } else th)
  | .enter => some ({ sh with waiting := true }, th)
  | .clearResult => some ({ sh with result := false }, th)
  | .newEvent => some ({ sh with event := some sh.next, next := sh.next + 1 }, th)
  | .hook => some (sh, th)
  | .loadEvent => some (sh, { th with event := sh.event })
  | .await => match th.event with
    | none => none
    | some e => if e ∈ sh.fired then some (sh, th) else none
  | .readResult => some (sh, { th with answer := sh.result })
  | .leave => some ({ sh with waiting := false }, th)
  | .readGranted => some (sh, { th with answer := sh.granted })
  | .dropData => some ({ sh with data := none }, th)

/-- What the command of the user does. -/
inductive UInstr
  /-- trezor.py 462, 523, 551 -/
  | check
  /-- trezor.py 466, 556 -/
  | fetch
  /-- trezor.py 467-513, 555-556 -/
  | print
  /-- trezor.py 514-517, 527-530, 558-560 -/
  | select
  /-- trezor.py 61 -/
  | setGranted
  /-- misc.py 62 -/
  | setResult
  /-- misc.py 63 -/
  | unset
  /-- misc.py 64 -/
  | fire
deriving DecidableEq

/-- trezor.py 461-520 `do_T`, with 60-62 and misc.py 61-64. -/
def userTx : List UInstr := [.check, .fetch, .print, .select, .setGranted, .setResult, .unset, .fire]

/-- trezor.py 550-564 `do_K`, with misc.py 61-64. -/
def userKi : List UInstr := [.check, .fetch, .print, .select, .setResult, .unset, .fire]

/-- trezor.py 522-534 `do_W`, with misc.py 61-64. -/
def userWatch : List UInstr := [.check, .select, .setResult, .unset, .fire]

/-- The terminal: what is still to run of a command, its local variables. -/
structure User (D : Type) where
  todo : List UInstr
  data : Option D
  answer : Bool

/-- What can be seen. -/
inductive Ev (D : Type)
  | arrived (i : Nat) (d : D)
  | shown (d : D)
  | answered (yes : Bool)
  | gaveUp
  | returned (i : Nat) (yes : Bool)
deriving DecidableEq

/-- One instruction of the command; `u` has it removed already; `b` is the choice of the user. An exception ends the command. -/
def uexec (op : UInstr) (b : Bool) (sh : Shared D) (u : User D) : Shared D × User D × List (Ev D) :=
  match op with
  | .check => (sh, if sh.waiting then u else { u with todo := [] }, [])
  | .fetch => (sh, if sh.data.isSome then { u with data := sh.data } else { u with todo := [] }, [])
  | .print => match u.data with
    | some d => (sh, u, [.shown d])
    | none => (sh, { u with todo := [] }, [])
  | .select => (sh, { u with answer := b }, [.answered b])
  | .setGranted => ({ sh with granted := u.answer }, u, [])
  | .setResult => ({ sh with result := u.answer }, u, [])
  | .unset => ({ sh with waiting := false }, u, [])
  | .fire => match sh.event with
    | some e => ({ sh with fired := e :: sh.fired }, u, [])
    | none => (sh, { u with todo := [] }, [])

/-- The device: the shared attributes, all threads there ever were, the terminal, and what happened. -/
structure Sys (D : Type) where
  sh : Shared D
  threads : List (Thread D)
  user : User D
  log : List (Ev D)

/-- What can happen next. -/
inductive Label (D : Type)
  /-- a request arrives -/
  | arrive (d : D)
  /-- thread `i` runs its next instruction -/
  | run (i : Nat)
  /-- the user types the command -/
  | type
  /-- the command runs its next instruction -/
  | act (b : Bool)
  /-- the command, having found that there is something to confirm, is interrupted before the user chose -/
  | giveUp

/-- A step of the device with the given program of a request and command of the user. `seq`: the next request is served when the one before is answered,
as by `serve_eventlet` (trezor.py 268-279, where `wait()` blocks the only thread); otherwise every request has its own thread, as by `serve_werkzeug`
(260-266). -/
def step (rp : List Instr) (up : List UInstr) (seq : Bool) (s : Sys D) : Label D → Option (Sys D)
  | .arrive d =>
    if seq && s.threads.any (!·.done) then none
    else some { s with threads := s.threads ++ [⟨d, rp, none, false, false⟩], log := s.log ++ [.arrived s.threads.length d] }
  | .run i =>
    match s.threads[i]? with
    | none => none
    | some th =>
      if th.done then none else
      match th.todo with
      | [] => some { s with threads := s.threads.set i { th with done := true }, log := s.log ++ [.returned i th.answer] }
      | op :: rest => (exec op s.sh { th with todo := rest }).map fun r => { s with sh := r.1, threads := s.threads.set i r.2 }
  | .type => if s.user.todo = [] then some { s with user := { s.user with todo := up } } else none
  | .act b =>
    match s.user.todo with
    | [] => none
    | op :: rest =>
      let r := uexec op b s.sh { s.user with todo := rest }
      some { s with sh := r.1, user := r.2.1, log := s.log ++ r.2.2 }
  | .giveUp => if .select ∈ s.user.todo ∧ .check ∉ s.user.todo then some { s with user := { s.user with todo := [] }, log := s.log ++ [.gaveUp] } else none

/-- The device at the start, trezor.py 46-51 and misc.py 55-59. -/
def start : Sys D := ⟨⟨none, false, false, false, none, [], 0⟩, [], ⟨[], none, false⟩, []⟩

/-- A run. -/
def run (rp : List Instr) (up : List UInstr) (seq : Bool) : Sys D → List (Label D) → Option (Sys D)
  | s, [] => some s
  | s, l :: ls => (step rp up seq s l).bind fun s' => run rp up seq s' ls

end Verif.Prompt

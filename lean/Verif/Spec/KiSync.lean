import Verif.Model.KiSync

/-! Histories of a device during key image synchronisation. -/

namespace Verif.KiSync
open Verif

/-- One message handled by the device. -/
structure Event where
  msg : Msg
  rnd : Rand
  resp : Resp

/-- A device, started without a session, handled `log` and now holds `d`. -/
inductive Reach (env : Env) : List Event → Option Sync → Prop
  | start : Reach env [] none
  | step {log d} (m : Msg) (rnd : Rand) : Reach env log d →
      Reach env (log ++ [⟨m, rnd, (device env d m rnd).2⟩]) (device env d m rnd).1

/-- The outputs carried by the step messages of a list of events. -/
def stepTds (es : List Event) : List Td :=
  es.flatMap fun e => match e.msg with | .step tds => tds | _ => []

/-- Event of a batch that was answered with key images. -/
def Event.isGoodStep (e : Event) : Prop := ∃ tds kis, e.msg = .step tds ∧ e.resp = .stepAck kis

end Verif.KiSync

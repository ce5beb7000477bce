import Verif.Model.Transport
import Verif.Spec.Protobuf

/-!
C101: what should travel, and what a direct call of the device gives.
-/

namespace Verif.Msgs
open Verif Pb

/-- A message whose class has a number and usable descriptions, with values of the described types. -/
def Sendable (utf8 : Bytes → Bool) (m : Msg) : Prop :=
  usable m.cls = true ∧ (∃ t, typeOf m.cls = some t) ∧ WTMessage schema utf8 m.cls m.slots

/-- A session without transport: the messages one after the other, each with its answer. -/
def direct {σ : Type} (f : Msg → σ → σ × Option Msg) : List Msg → σ → σ × List (Option Msg)
  | [], s => (s, [])
  | m :: ms, s => ((direct f ms (f m s).1).1, (f m s).2 :: (direct f ms (f m s).1).2)

/-- The same through the transport. -/
def remote {σ : Type} (utf8 : Bytes → Bool) (d : Device σ) (w : Method) : List Msg → σ → σ × List (Except HostErr Msg)
  | [], s => (s, [])
  | m :: ms, s => ((remote utf8 d w ms (exchange utf8 d w m s).1).1,
      (exchange utf8 d w m s).2 :: (remote utf8 d w ms (exchange utf8 d w m s).1).2)

/-- The handler behind a path. -/
def Device.of {σ : Type} (d : Device σ) : Method → Option (Msg → σ → σ × Option Msg)
  | .txSign => some d.sign
  | .kiSync => some d.sync
  | .watchOnly | .call => none

end Verif.Msgs

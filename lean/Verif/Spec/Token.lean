import Verif.Model.Token
import Verif.Spec.Signer
import Verif.Spec.KiSync

/-!
C107: requests of one kind among all requests.
-/

namespace Verif.Token
open Verif

variable {S P : Type} [CommRing S] [AddCommGroup P] [Module S P] [DecidableEq S] [DecidableEq P]

def isSign : Req S → Bool
  | .sign _ _ => true
  | _ => false

def isKi : Req S → Bool
  | .keyImages _ _ => true
  | _ => false

/-- What a host sees of signing. -/
def signLog (qs : List (Req S)) (as : List Ans) : List (Signer.Event S) :=
  (qs.zip as).filterMap fun x => match x with
    | (.sign m rnd, .sign r) => some ⟨m, rnd, r⟩
    | _ => none

/-- What a host sees of key image synchronisation. -/
def kiLog (qs : List (Req S)) (as : List Ans) : List KiSync.Event :=
  (qs.zip as).filterMap fun x => match x with
    | (.keyImages m rnd, .keyImages r) => some ⟨m, rnd, r⟩
    | _ => none

end Verif.Token

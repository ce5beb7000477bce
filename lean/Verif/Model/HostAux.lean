import Verif.Model.Basic

/-! What the host adds to a signing request beside the construction data. -/

namespace Verif.HostAux
open Verif

/-- An address as `PubAddress` holds it: the encoded spend and view keys. -/
abbrev Addr := Bytes × Bytes

/-- A destination the caller of the agent gave (`aux_data.destinations`): decoded address with its `is_integrated` flag, and amount. -/
structure Dest where
  spend : Bytes
  view : Bytes
  integrated : Bool
  amount : Nat

/-- An output of the transaction to be signed. -/
structure Out where
  addr : Addr
  amount : Nat

/-- addr.py 159-169 `addr_eq`. -/
def addrEq (a b : Addr) : Bool := a.1 == b.1 && a.2 == b.2

/-- agent_lite.py 278-283: the pairs of address and amount of the integrated destinations. -/
def pairs : List Dest → List (Addr × Nat)
  | [] => []
  | d :: ds => if d.integrated then ((d.spend, d.view), d.amount) :: pairs ds else pairs ds

/-- agent_lite.py 286-288: one entry of the result for every matching pair. -/
def hits (idx : Nat) (o : Out) : List (Addr × Nat) → List Nat
  | [] => []
  | p :: ps => if addrEq p.1 o.addr && o.amount == p.2 then idx :: hits idx o ps else hits idx o ps

/-- agent_lite.py 285-288. -/
def scan (ps : List (Addr × Nat)) : Nat → List Out → List Nat
  | _, [] => []
  | idx, o :: os => hits idx o ps ++ scan ps (idx + 1) os

/-- agent_lite.py 273-291 `_get_integrated_idx`; `none` stands for missing auxiliary data or missing destinations. -/
def integratedIdx (outs : List Out) (dests : Option (List Dest)) : List Nat :=
  match dests with
  | none => []
  | some ds => scan (pairs ds) 0 outs

/-- A ring member of a source entry: global index and the two keys, absent in an empty `MoneroOutputEntry`. -/
structure Member where
  idx : Option Nat
  key : Option (Bytes × Bytes)

/-- agent_lite.py 293-317 `_strip_sources`: loop over the positions from `i` on. -/
def strip (real : Nat) (keepIdx : Bool) : Nat → List Member → List Member
  | _, [] => []
  | i, m :: ms => (if i = real then m else if keepIdx then ⟨m.idx, none⟩ else ⟨none, none⟩) :: strip real keepIdx (i + 1) ms

end Verif.HostAux

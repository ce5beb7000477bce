import Verif.Model.Signer
import Verif.Model.KiSync
import Verif.Model.Ed25519

/-!
monero_glue/hwtoken/token.py 22-154: the whole device. It serves transaction signing, key image synchronisation and requests for the view key, in any
order and from any number of hosts.
-/

namespace Verif.Token
open Verif

variable {S P : Type} [CommRing S] [AddCommGroup P] [Module S P] [DecidableEq S] [DecidableEq P]

/-- token.py 28-36: what the device keeps. The counters are left out: `tsx_ctr` never changes and `err_ctr` is never read. -/
structure Whole (S P : Type) where
  tsx : Signer.Device S P := {}
  ki : Option KiSync.Sync := none

/-- The credentials: the network and what belongs to them. -/
structure Creds where
  network : Nat
  viewKey : Ed.Ext ⊕ Int
  address : Bytes

/-- Requests, with the device's randomness and the user's answers. -/
inductive Req (S : Type)
  | sign (m : Signer.Msg) (rnd : Signer.Rand S)
  | keyImages (m : KiSync.Msg) (rnd : KiSync.Rand)
  | viewKey (network : Nat)
  | call
  | ping

/-- Answers; `raised` is an exception that reaches the caller. -/
inductive Ans
  | sign (r : Signer.Resp)
  | keyImages (r : KiSync.Resp)
  | watchKey (key address : Bytes)
  | wrongNetwork
  | unsupported
  | diag
  | raised

/-- `crypto.encodepoint` given a point or a number: a number has no coordinates, the subscript raises (ec_py.py 27-89, ed25519.py 127-129). -/
def encodePointOf : Ed.Ext ⊕ Int → Option Bytes
  | .inl p => some (Ed.encodePoint p)
  | .inr _ => none

/-- token.py 103-110 `get_view_key`. -/
def getViewKey (c : Creds) (network : Nat) : Ans :=
  if network ≠ c.network then .wrongNetwork
  else match encodePointOf c.viewKey with
    | some k => .watchKey k c.address
    | none => .raised

/-- token.py 94-154: one request. -/
def serve (env : Signer.Env S P) (kenv : KiSync.Env) (c : Creds) (t : Whole S P) : Req S → Whole S P × Ans
  | .sign m rnd => let r := Signer.tsxSign env t.tsx m rnd; ({ t with tsx := r.1 }, .sign r.2)
  | .keyImages m rnd => let r := KiSync.device kenv t.ki m rnd; ({ t with ki := r.1 }, .keyImages r.2)
  | .viewKey n => (t, getViewKey c n)
  | .call => (t, .unsupported)
  | .ping => (t, .diag)

/-- A sequence of requests: the device at the end and the answers. -/
def run (env : Signer.Env S P) (kenv : KiSync.Env) (c : Creds) : Whole S P → List (Req S) → Whole S P × List Ans
  | t, [] => (t, [])
  | t, q :: qs =>
    let r := serve env kenv c t q
    let x := run env kenv c r.1 qs
    (x.1, r.2 :: x.2)

end Verif.Token

import Verif.Spec.SignerCrypto

/-!
What pinning by tags means for hash and tag functions of finite length. `Binding` asks for functions that never collide, which no function with 32-byte
results satisfies. Here nothing is asked: a substitution is shown to be a forged tag, or two different items of the session with the same tag, and the
latter to be a collision of named strings.
-/

namespace Verif.Signer
open Verif
variable {S P : Type}

/-- Something the device makes a tag for: the purpose, the position, and the string itself. -/
structure Item where
  purpose : Purpose
  index : Nat
  content : Bytes
deriving DecidableEq

/-- What goes into the tag function: the hash of the string, and for a pseudo output the string. -/
def Item.digest (env : Env S P) (a : Item) : Bytes := if a.purpose = .txinComm then a.content else env.keccak a.content

/-- `t` is the tag of the item under a secret. -/
def Item.Tagged (env : Env S P) (secret : Bytes) (a : Item) (t : Bytes) : Prop :=
  ∃ key, KeyFor env secret a.purpose a.index key ∧ t = env.mac key (a.digest env)

/-- A destination as output `i`. -/
def dstItem (env : Env S P) (i : Nat) (d : Dst) : Item := ⟨.txdst, i, env.pbDst d⟩
/-- A source entry and its prefix input as input `i`. -/
def viniItem (env : Env S P) (i : Nat) (src : Src) (vini : Bytes) : Item := ⟨.txin, i, env.pbSrc src ++ vini⟩
/-- The pseudo output of input `i`. -/
def commItem (i : Nat) (po : Bytes) : Item := ⟨.txinComm, i, po⟩
/-- A destination and the output made for it as output `i`. -/
def voutItem (env : Env S P) (i : Nat) (d : Dst) (out : Bytes) : Item := ⟨.txout, i, env.pbDst d ++ out⟩

/-- The secret under which the tags of a session are made: from what was confirmed and the two random scalars drawn at the start
(tsx_sign_builder.py:578-594), with the payment id the device settled on. -/
def secretOf [CommRing S] [AddCommGroup P] [Module S P] (env : Env S P) (s : List (Event S)) : Option Bytes :=
  (initOf s).bind fun x =>
    (processPaymentId env x.1 (x.1.change.map Dst.addr) x.2.1.r []).map fun p =>
      env.keccak2 (ascii "hmac" ++ env.keccak2 (env.keccak (env.pbTsx { x.1 with paymentId := p.1 } ++ env.scEnc x.2.1.r) ++ env.scEnc x.2.1.master))

/-- The secret under which masks and spend keys are sealed in a session (tsx_sign_builder.py:578-594). -/
def sealSecretOf [CommRing S] [AddCommGroup P] [Module S P] (env : Env S P) (s : List (Event S)) : Option Bytes :=
  (initOf s).bind fun x =>
    (processPaymentId env x.1 (x.1.change.map Dst.addr) x.2.1.r []).map fun p =>
      env.keccak2 (ascii "enc" ++ env.keccak2 (env.keccak (env.pbTsx { x.1 with paymentId := p.1 } ++ env.scEnc x.2.1.r) ++ env.scEnc x.2.1.master))

/-- Everything the device issued a tag for in a session: the destinations the user confirmed, the registered inputs and their pseudo outputs, the outputs. -/
def items (env : Env S P) (s : List (Event S)) : List Item :=
  (match initOf s with | some (tsx, _, _) => tsx.outputs.mapIdx (dstItem env) | none => []) ++
  (inputs s).mapIdx (fun i r => viniItem env i r.src r.vini) ++ (inputs s).mapIdx (fun i r => commItem i r.pseudoOut) ++
  (outputs s).mapIdx (fun i r => voutItem env i r.dst r.ack.txOut)

/-- The host broke the tags with this item and tag: the tag is right, the device never issued one for the item, and either the tag is not one the device
issued at all (a forgery) or it issued the same tag for another item (a clash). -/
structure Broken (env : Env S P) (secret : Bytes) (s : List (Event S)) (a : Item) (t : Bytes) : Prop where
  tagged : a.Tagged env secret t
  fresh : a ∉ items env s
  how : t ∉ issued s ∨ ∃ b ∈ items env s, b ≠ a ∧ b.Tagged env secret t

/-- The host broke the seal of the mask at a position: what it presented opens under the key of the mask at that position, and is not what the device
sealed there. -/
structure SealBroken (env : Env S P) (secret : Bytes) (s : List (Event S)) (pos : Nat) (blob : Bytes) : Prop where
  opens : ∃ key mask, KeyFor env secret .txinAlpha pos key ∧ env.decPack key blob = some mask
  other : ∃ r, (inputs s)[pos]? = some r ∧ r.alphaEnc ≠ blob

/-- Two items exhibit a collision: of the hash that makes the keys, of the hash of the contents, or of the tag function. -/
inductive Collides (env : Env S P) (secret : Bytes) (a b : Item) : Prop
  | keys (x y : Bytes) (hx : keyBuf secret a.purpose.label (some a.index) = some x) (hy : keyBuf secret b.purpose.label (some b.index) = some y)
      (hne : x ≠ y) (he : env.keccak2 x = env.keccak2 y)
  | contents (hne : a.content ≠ b.content) (he : env.keccak a.content = env.keccak b.content)
  | tags (x y : Bytes) (hx : keyBuf secret a.purpose.label (some a.index) = some x) (hy : keyBuf secret b.purpose.label (some b.index) = some y)
      (hne : ¬ (env.keccak2 x = env.keccak2 y ∧ a.digest env = b.digest env))
      (he : env.mac (env.keccak2 x) (a.digest env) = env.mac (env.keccak2 y) (b.digest env))

end Verif.Signer

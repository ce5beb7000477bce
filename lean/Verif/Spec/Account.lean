import Verif.Model.Account

/-! What a user expects of an account. -/

namespace Verif.Acct
open Verif Verif.Ed

/-- The text `t` is an address of network `net` with these public keys: a standard address, an integrated one or a sub-address. -/
def IsAddress (H : Bytes → Bytes) (t : Bytes) (spend view : Bytes) (net : Nat) (sub : Bool) (pid : Option Bytes) : Prop :=
  spend.length = 32 ∧ view.length = 32 ∧ (∀ p, pid = some p → p.length = 8) ∧ Addr.publicAddrEncode H spend view sub (some net) pid = some t

/-- The account is that of address `t` with view key `a` and public spend key `P`. -/
structure Holds (acct : Account) (a : Int) (P : Ext) (t : Bytes) : Prop where
  view : acct.view = a
  address : acct.address = t
  pubView : encodePoint acct.pubView = encodePoint (scalarmultB a)
  pubSpend : encodePoint acct.pubSpend = encodePoint P

/-- The external functions are what they should be: checksums are long enough and decryption undoes encryption. -/
structure Outside.Ok (o : Outside) : Prop where
  hash : ∀ x, 4 ≤ (o.hash x).length
  decrypt : ∀ k n m, o.decrypt k n (o.encrypt k n m) = some m

/-- Nothing decrypts under a key but what was encrypted with it. -/
def Outside.Authentic (o : Outside) : Prop := ∀ k k' n m m', o.decrypt k n (o.encrypt k' n m') = some m → k = k'

end Verif.Acct

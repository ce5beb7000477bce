import Verif.Model.Scan
import Verif.Spec.Keys
import Verif.Props.Curve
import Verif.Spec.Real

/-! What it means that a wallet has received an output. -/

namespace Verif.Scan
open Verif Verif.Ed Verif.Key

/-- The secret key `x` belongs to the output key `k`, and `ki` is its key image. -/
structure Spends (H : Bytes → Bytes) (k : Bytes) (x : Int) (ki : Ext) : Prop where
  range : 0 ≤ x ∧ x < l
  secret : ∃ P, decodePoint k = some P ∧ Spec.times (affine B) x.toNat = affine P ∧
    isOnCurve ki = true ∧ affine ki = Spec.times (affine (hp H (encodePoint P))) x.toNat

/-- `amount` and `mask` open the commitment: it is `mask` times the base point plus `amount` times the second generator. -/
def Opens (c : Bytes) (amount mask : Int) : Prop :=
  ∃ C, decodePoint c = some C ∧ (0 ≤ amount ∧ amount < l) ∧ (0 ≤ mask ∧ mask < l) ∧
    affine C = Spec.plus (Spec.times (affine B) mask.toNat) (Spec.times (affine hPt) amount.toNat)

/-- The output key was made for the address with index `idx`: it is the spend key of the address plus the shared scalar times the base point. -/
def PaidTo (H : Bytes → Bytes) (c : Creds) (k : Bytes) (txPub : Ext) (adds : List Ext) (i : Nat) (idx : Nat × Nat) : Prop :=
  ∃ R D P A s, (R = txPub ∨ adds[i]? = some R) ∧ keyDerivation R c.view = some D ∧ derivationToScalar H D i = some s ∧ 0 ≤ s ∧
    decodePoint k = some P ∧ subSpendPub H c.view (scalarmultB c.spend) idx.1 idx.2 = some A ∧
    affine P = Spec.plus (affine A) (Spec.times (affine B) s.toNat)

/-- Output `i` of the transaction is credited rightly. -/
structure Mine (H : Bytes → Bytes) (c : Creds) (tx : Tx) (txPub : Ext) (adds : List Ext) (g : Got) : Prop where
  out : ∃ o k, tx.vout[g.index]? = some o ∧ o.key = some k ∧ Spends H k g.x g.ki ∧ PaidTo H c k txPub adds g.index g.idx ∧
    ((o.amount = 0 ∧ ∃ cm m, tx.rct.outPk[g.index]? = some cm ∧ g.mask = some m ∧ Opens cm g.amount m) ∨
     (o.amount ≠ 0 ∧ g.amount = o.amount))

/-- No address in the table fits output `i`. -/
def Foreign (H : Bytes → Bytes) (c : Creds) (t : Table) (txPub : Ext) (adds : List Ext) (o : Out) (i : Nat) : Prop :=
  ∃ k P, o.key = some k ∧ decodePoint k = some P ∧ ∀ R D K, (R = txPub ∨ adds[i]? = some R) → keyDerivation R c.view = some D →
    deriveSubPublic H P D i = some K → t.get (encodePoint K) = none

/-- An address in the table fits output `i` with key `P`, with the derivation `D`. -/
def FitsWith (H : Bytes → Bytes) (t : Table) (P D : Ext) (i : Nat) : Prop :=
  ∃ K, deriveSubPublic H P D i = some K ∧ t.get (encodePoint K) ≠ none

/-- The outputs of a transaction of the agent, as a wallet reads them. -/
structure Shows (cfg : Agent.Config) (tx : Agent.Tx) (s : Tx) : Prop where
  vout : s.vout = tx.vout.map fun o => ⟨0, some o.2⟩
  outPk : s.rct.outPk = tx.rv.outPk
  ecdh : List.Forall₂ (fun b e => ecdhParse b (cfg.hf == 9) = some e) tx.rv.ecdhInfo s.rct.ecdhInfo
  type : s.rct.type = if 10 ≤ cfg.hf then .bulletproof2 else .bulletproof

/-- The points of published keys. -/
def Decoded (keys : List Bytes) (pts : List Ext) : Prop := List.Forall₂ (fun k P => decodePoint k = some P) keys pts

/-- Destination `n` is the address `i`, `j` of the wallet, which is in the table, and if the output fits
with the key of the transaction and with its own key, the shared scalars are the same. `device` is the view key of
the sender, with which change is made. -/
structure Ours (o : Real.Outside) (device : Fl) (change : Signer.Addr) (t : Table) (tx : Tx) (txPub : Ext) (adds : List Ext) (n : Nat)
    (dst : Signer.Dst) (i j : Nat) : Prop where
  addr : Real.address o i j = some dst.addr
  sub : dst.isSub = true ↔ ¬ (i = 0 ∧ j = 0)
  own : dst.addr = change → o.view = device
  known : ∀ D, subSpendPub o.hash (Bp.num o.view) (scalarmultB (Bp.num o.spend)) i j = some D → t.get (encodePoint D) ≠ none
  once : ∀ k P A D D', (tx.vout[n]?).bind (·.key) = some k → decodePoint k = some P → adds[n]? = some A → keyDerivation txPub (Bp.num o.view) = some D →
    keyDerivation A (Bp.num o.view) = some D' → FitsWith o.hash t P D n → FitsWith o.hash t P D' n →
    derivationToScalar o.hash D n = derivationToScalar o.hash D' n

/-- A wallet with nothing. -/
def empty : Wallet := ⟨fun _ => 0, [], []⟩

/-- The outputs credited to an index. -/
def credited (w : Wallet) (idx : Nat × Nat) : Int := ((w.got.filter fun g => g.idx = idx).map (·.amount)).sum

end Verif.Scan

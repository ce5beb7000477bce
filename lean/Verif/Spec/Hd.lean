import Verif.Lemmas.Secp

/-!
Hierarchical keys as BIP32 (https://github.com/bitcoin/bips/blob/master/bip-0032.mediawiki) and SLIP-0010 describe them, over the group of points of
secp256k1. `hm` is HMAC-SHA512, `h160` is RIPEMD160 ∘ SHA256. Independent of the model of the code.
-/

namespace Verif.HdSpec
open Verif Secp

/-- `k` bytes, most significant first (ser32, ser256). -/
def be : Nat → Nat → Bytes
  | 0, _ => []
  | k + 1, v => be k (v / 256) ++ [UInt8.ofNat (v % 256)]

/-- The number written by bytes, most significant first (parse256). -/
def num (b : Bytes) : Nat := b.foldl (fun a x => a * 256 + x.toNat) 0

/-- serP: the compressed form of a point, a byte for the parity of `y` and `x`. -/
def serP : Point → Bytes
  | .zero => [0]
  | .some x y _ => (if y.val % 2 = 0 then 2 else 3) :: be 32 x.val

/-- Extended private key: key and chain code. -/
structure XPrv where
  k : Nat
  c : Bytes

/-- Extended public key. -/
structure XPub where
  K : Point
  c : Bytes

/-- The public key of a private key, with the same chain code (N of BIP32). -/
noncomputable def XPrv.neuter (x : XPrv) : XPub := ⟨x.k • G, x.c⟩

/-- The ASCII text. -/
def ascii (s : String) : Bytes := s.toList.map fun c => UInt8.ofNat c.toNat

/-- Master key of a seed. -/
def master (hm : Bytes → Bytes → Bytes) (seed : Bytes) : Option XPrv :=
  let I := hm (ascii "Bitcoin seed") seed
  if num (I.take 32) = 0 ∨ num (I.take 32) ≥ n then none else some ⟨num (I.take 32), I.drop 32⟩

/-- CKDpriv; indices from 2³¹ are hardened. -/
noncomputable def ckdPriv (hm : Bytes → Bytes → Bytes) (x : XPrv) (i : Nat) : Option XPrv :=
  let I := hm x.c (if 2 ^ 31 ≤ i then 0 :: (be 32 x.k ++ be 4 i) else serP (x.k • G) ++ be 4 i)
  if num (I.take 32) ≥ n ∨ (num (I.take 32) + x.k) % n = 0 then none else some ⟨(num (I.take 32) + x.k) % n, I.drop 32⟩

/-- CKDpub: not for hardened indices. -/
noncomputable def ckdPub (hm : Bytes → Bytes → Bytes) (x : XPub) (i : Nat) : Option XPub :=
  open Classical in
  if 2 ^ 31 ≤ i then none else
    let I := hm x.c (serP x.K ++ be 4 i)
    if num (I.take 32) ≥ n ∨ num (I.take 32) • G + x.K = 0 then none else some ⟨num (I.take 32) • G + x.K, I.drop 32⟩

/-- A step of a path: number and "hardened". -/
abbrev Step := Nat × Bool

/-- The index of a step. -/
def Step.index (s : Step) : Nat := s.1 + if s.2 then 2 ^ 31 else 0

/-- A node of the tree: the key, its depth, the fingerprint of its parent and its index. -/
structure Node where
  key : XPrv
  depth : Nat
  fp : Bytes
  index : Nat

/-- The root. -/
def root (hm : Bytes → Bytes → Bytes) (seed : Bytes) : Option Node := (master hm seed).map fun x => ⟨x, 0, [0, 0, 0, 0], 0⟩

/-- The child with an index. -/
noncomputable def Node.child (hm : Bytes → Bytes → Bytes) (h160 : Bytes → Bytes) (N : Node) (i : Nat) : Option Node :=
  (ckdPriv hm N.key i).map fun x => ⟨x, N.depth + 1, (h160 (serP (N.key.k • G))).take 4, i⟩

/-- Along a path. -/
noncomputable def Node.follow (hm : Bytes → Bytes → Bytes) (h160 : Bytes → Bytes) : List Step → Node → Option Node
  | [], N => some N
  | s :: ss, N => (N.child hm h160 (Step.index s)).bind (Node.follow hm h160 ss)

/-- Public derivation along a path. -/
noncomputable def followPub (hm : Bytes → Bytes → Bytes) : List Nat → XPub → Option XPub
  | [], x => some x
  | i :: is, x => (ckdPub hm x i).bind (followPub hm is)

/-- The 78 bytes of an extended private key. -/
def Node.xprv (N : Node) (version : Nat) : Bytes :=
  be 4 version ++ (be 1 N.depth ++ (N.fp ++ (be 4 N.index ++ (N.key.c ++ (0 :: be 32 N.key.k)))))

/-- The 78 bytes of the extended public key. -/
noncomputable def Node.xpub (N : Node) (version : Nat) : Bytes :=
  be 4 version ++ (be 1 N.depth ++ (N.fp ++ (be 4 N.index ++ (N.key.c ++ serP (N.key.k • G)))))

/-- Decimal digits. -/
def dec (n : Nat) : List Char := if n < 10 then [Char.ofNat (48 + n)] else dec (n / 10) ++ [Char.ofNat (48 + n % 10)]
termination_by n

example : dec 0 = "0".toList ∧ dec 128 = "128".toList := by decide +kernel

/-- A path as text: `44'/128'/0`, after `m` or `M`. -/
def pathText (first : Char) (mark : Char) (steps : List Step) : List Char :=
  first :: steps.flatMap fun s => '/' :: (dec s.1 ++ if s.2 then [mark] else [])

example : pathText 'm' '\'' [(44, true), (128, true), (0, false)] = "m/44'/128'/0".toList := by decide +kernel

/-! SLIP-0010 for ed25519: key and chain code are the two halves, all indices hardened. -/

/-- Master key. -/
def slipMaster (hm : Bytes → Bytes → Bytes) (seed : Bytes) : Bytes × Bytes :=
  let I := hm (ascii "ed25519 seed") seed
  (I.take 32, I.drop 32)

/-- Hardened child number `i`. -/
def slipChild (hm : Bytes → Bytes → Bytes) (x : Bytes × Bytes) (i : Nat) : Bytes × Bytes :=
  let I := hm x.2 (0 :: (x.1 ++ be 4 (i + 2 ^ 31)))
  (I.take 32, I.drop 32)

/-- Along a path of hardened steps. -/
def slipFollow (hm : Bytes → Bytes → Bytes) : List Nat → Bytes × Bytes → Bytes × Bytes
  | [], x => x
  | i :: is, x => slipFollow hm is (slipChild hm x i)

end Verif.HdSpec

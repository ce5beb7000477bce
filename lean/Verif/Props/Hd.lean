import Verif.Lemmas.HdMore

/-! Hierarchical keys: C79, C80. -/

namespace Verif.Hd
open Verif HdSpec Secp
open Verif.Mnemonic (hexlify)

/-- The wallet of a seed, and its node at a path. -/
def atPath (hm : Bytes → Bytes → Bytes) (h160 : Bytes → Bytes) (seed : Bytes) (net : Network) (path : List Char) : Option Wallet :=
  (fromMasterSecret hm seed net false).bind fun w => w.getChildForPath hm h160 path

/-- C79. Deriving a path from a seed follows BIP32: it succeeds exactly when BIP32 has a node at the path, and then the private key, the public key,
the chain code, the depth, the fingerprint of the parent and the child number are those of BIP32. Hardened steps are written with `'` or `p`. -/
theorem C79_derivation (hm : Bytes → Bytes → Bytes) (hl : ∀ k m, (hm k m).length = 64) (h160 : Bytes → Bytes) (hh : ∀ m, (h160 m).length = 20)
    (seed : Bytes) (net : Network) (mark : Char) (hk : mark = '\'' ∨ mark = 'p') (steps : List Step) (hs : ∀ s ∈ steps, s.1 < 2 ^ 31) :
    match (root hm seed).bind (Node.follow hm h160 steps) with
    | none => atPath hm h160 seed net (pathText 'm' mark steps) = none
    | some N => ∃ w, atPath hm h160 seed net (pathText 'm' mark steps) = some w ∧ w.privateKey.map PrivateKey.getKey = some (hexlify (be 32 N.key.k)) ∧
        w.publicKey.getKey true = hexlify (serP (N.key.k • G)) ∧ w.chainCode = hexlify N.key.c ∧ w.depth = N.depth ∧
        w.parentFingerprint = hexlify N.fp ∧ w.childNumber = N.index ∧ w.network = net := by
  have h := atPath_eq hm hl h160 hh seed net mark hk steps hs
  rw [atPath, atPath_m hm h160 seed net mark hk]
  cases hN : (root hm seed).bind (Node.follow hm h160 steps) with
  | none => rw [hN] at h; exact h
  | some N =>
    rw [hN] at h
    obtain ⟨w, hw, hr⟩ := h
    obtain ⟨net', c, hp⟩ := hr.priv
    obtain ⟨x, y, net2, c2, hpub, hR⟩ := hr.pub
    refine ⟨w, hw, ?_, ?_, hr.chain, hr.depth, hr.fp, hr.index, hr.network⟩
    · rw [hp, Option.map_some, privKey_hex hr.klt]
    · rw [hpub, pubKey_hex hR]

/-- C79. Up to depth 255 the serialized private and public forms are the 78 bytes of BIP32, and the address is the Base58Check text of the network's byte
and the hash of the compressed public key. -/
theorem C79_serialized (hm : Bytes → Bytes → Bytes) (hl : ∀ k m, (hm k m).length = 64) (h160 : Bytes → Bytes) (hh : ∀ m, (h160 m).length = 20)
    (H : Bytes → Bytes) (seed : Bytes) (net : Network) (hnet : net ∈ networks) (mark : Char) (hk : mark = '\'' ∨ mark = 'p') (steps : List Step)
    (hs : ∀ s ∈ steps, s.1 < 2 ^ 31) (hd : steps.length ≤ 255) {N : Node} (hN : (root hm seed).bind (Node.follow hm h160 steps) = some N) {w : Wallet}
    (hw : atPath hm h160 seed net (pathText 'm' mark steps) = some w) :
    w.serialize true = some (hexlify (N.xprv net.extSecret)) ∧ w.serialize false = some (hexlify (N.xpub net.extPublic)) ∧
      w.serializeB58 H true = some (B58.Btc.encodeCheck H (N.xprv net.extSecret)) ∧
      w.serializeB58 H false = some (B58.Btc.encodeCheck H (N.xpub net.extPublic)) ∧
      w.toAddress H h160 = some (B58.Btc.encodeCheck H (UInt8.ofNat net.pubkeyAddress :: h160 (serP (N.key.k • G)))) := by
  have h := atPath_eq hm hl h160 hh seed net mark hk steps hs
  rw [atPath, atPath_m hm h160 seed net mark hk] at hw
  rw [hN, hw] at h
  obtain ⟨v, hv, hr⟩ := h
  have hv' := Option.some.inj hv
  subst hv'
  have hdep : N.depth < 256 := by rw [nodeAt_depth hm h160 seed steps hN]; omega
  obtain ⟨⟨-, h1, -, -⟩, ⟨-, h2, -, -⟩⟩ := networks_good net hnet
  have s1 := serialize_priv hr hdep h1
  have s2 := serialize_pub hr hdep h2
  have hb : ∀ m ∈ networks, m.pubkeyAddress < 256 := by decide
  obtain ⟨x, y, net2, c2, hpub, hR⟩ := hr.pub
  refine ⟨s1, s2, ?_, ?_, ?_⟩
  · rw [Wallet.serializeB58, s1, Option.bind_some, unhexlify_hexlify, Option.map_some]
  · rw [Wallet.serializeB58, s2, Option.bind_some, unhexlify_hexlify, Option.map_some]
  · rw [Wallet.toAddress, hpub, pubKey_hex hR, unhexlify_hexlify]
    dsimp only
    rw [hr.network, if_pos (hb net hnet)]

/-- C79. Single steps from a node of the tree: a number below 2³¹ gives the ordinary child (the default), a positive number with `is_prime` or a negative
number the hardened one. -/
theorem C79_child (hm : Bytes → Bytes → Bytes) (hl : ∀ k m, (hm k m).length = 64) (h160 : Bytes → Bytes) (hh : ∀ m, (h160 m).length = 20)
    (seed : Bytes) (net : Network) (mark : Char) (hk : mark = '\'' ∨ mark = 'p') (steps : List Step) (hs : ∀ s ∈ steps, s.1 < 2 ^ 31) {w : Wallet}
    (hw : atPath hm h160 seed net (pathText 'm' mark steps) = some w) (m : Nat) (hm31 : m < 2 ^ 31) :
    w.getChild hm h160 m none true = atPath hm h160 seed net (pathText 'm' mark (steps ++ [(m, false)])) ∧
      w.getChild hm h160 m (some false) true = atPath hm h160 seed net (pathText 'm' mark (steps ++ [(m, false)])) ∧
      w.getChild hm h160 m (some true) true = atPath hm h160 seed net (pathText 'm' mark (steps ++ [(m, true)])) ∧
      (0 < m → w.getChild hm h160 (-m) none true = atPath hm h160 seed net (pathText 'm' mark (steps ++ [(m, true)]))) := by
  have hwalk : ∀ (l : List Step) (v : Wallet) (s : Step), walk hm h160 ((l ++ [s]).map (stepText mark)) v =
      (walk hm h160 (l.map (stepText mark)) v).bind fun u => u.getChild hm h160 s.1 (if s.2 then some true else none) true := by
    intro l
    induction l with
    | nil =>
      intro v s
      have hne : ¬ (stepText mark s = ['m'] ∨ stepText mark s = ['M']) := by simp [stepText_m mark s]
      simp only [List.nil_append, List.map_cons, List.map_nil, walk, if_neg hne, parsePart_step mark hk, Option.bind_some]
      cases hc : v.getChild hm h160 s.1 (if s.2 then some true else none) true with
      | none => simp [walk, hc]
      | some c => simp [walk, hc]
    | cons t l ih =>
      intro v s
      rw [List.cons_append, List.map_cons, List.map_cons, walk, if_neg (by simp [stepText_m mark t]), walk, if_neg (by simp [stepText_m mark t]),
        parsePart_step mark hk]
      dsimp only
      cases v.getChild hm h160 t.1 (if t.2 then some true else none) true with
      | none => rfl
      | some c => exact ih c s
  rw [atPath, atPath_m hm h160 seed net mark hk] at hw
  have key : ∀ s : Step, atPath hm h160 seed net (pathText 'm' mark (steps ++ [s])) = w.getChild hm h160 s.1 (if s.2 then some true else none) true := by
    intro s
    rw [atPath, atPath_m hm h160 seed net mark hk]
    cases hf : fromMasterSecret hm seed net false with
    | none => rw [hf] at hw; cases hw
    | some r =>
      rw [hf] at hw
      rw [Option.bind_some] at hw ⊢
      rw [hwalk, hw, Option.bind_some]
  have hR := atPath_eq hm hl h160 hh seed net mark hk steps hs
  have hrepr : ∃ N, Repr w N net := by
    cases hN : (root hm seed).bind (Node.follow hm h160 steps) with
    | none => rw [hN, hw] at hR; cases hR
    | some N =>
      rw [hN, hw] at hR
      obtain ⟨v, hv, hr⟩ := hR
      rw [Option.some.inj hv]
      exact ⟨N, hr⟩
  obtain ⟨N, hr⟩ := hrepr
  obtain ⟨net', c, hpriv⟩ := hr.priv
  have hidx : ∀ (a b : ℤ) (p q : Option Bool), Bip.childIndex true false a p = Bip.childIndex true false b q →
      w.getChild hm h160 a p true = w.getChild hm h160 b q true := by
    intro a b p q h
    simp only [Wallet.getChild, hpriv, Option.isSome_some, hr.ed, h]
  have c0 := childIndex_step (m, false) hm31
  have c1 := childIndex_step (m, true) hm31
  simp only [Bool.false_eq_true, if_false, if_true] at c0 c1
  refine ⟨?_, ?_, ?_, ?_⟩
  · rw [key]; rfl
  · rw [key]
    apply hidx
    simp only [Bool.false_eq_true, if_false]
    rw [c0]
    have h3 : ¬ ((m : ℤ) < 0 ∨ (m : ℤ) ≥ (0x80000000 : ℕ)) := by push_neg; constructor <;> omega
    simp only [Bip.childIndex, Int.natAbs_natCast]
    rw [if_neg (by omega), if_neg h3]
    simp [Step.index]
  · rw [key]; rfl
  · intro hpos
    rw [key]
    apply hidx
    simp only [if_true]
    rw [c1]
    have h3 : (-(m : ℤ)) < 0 := by omega
    simp only [Bip.childIndex, Int.natAbs_neg, Int.natAbs_natCast]
    rw [if_neg (by omega), if_pos h3]
    simp [Step.index]
    omega

/-! ### A case -/

theorem atPath_exists (hm : Bytes → Bytes → Bytes) (hl : ∀ k m, (hm k m).length = 64) (h160 : Bytes → Bytes) (hh : ∀ m, (h160 m).length = 20)
    (seed : Bytes) (net : Network) (mark : Char) (hk : mark = '\'' ∨ mark = 'p') (steps : List Step) (hs : ∀ s ∈ steps, s.1 < 2 ^ 31) {N : Node}
    (hN : (root hm seed).bind (Node.follow hm h160 steps) = some N) : ∃ w, atPath hm h160 seed net (pathText 'm' mark steps) = some w := by
  have h := C79_derivation hm hl h160 hh seed net mark hk steps hs
  rw [hN] at h
  obtain ⟨w, hw, -⟩ := h
  exact ⟨w, hw⟩

namespace Demo

/-- A stand-in for HMAC-SHA512: the left half is the number 1. -/
def hm (_ _ : Bytes) : Bytes := List.replicate 31 0 ++ (1 :: List.replicate 32 7)

/-- A stand-in for the hash of public keys. -/
def h160 (_ : Bytes) : Bytes := List.replicate 20 9

theorem hm_num (k m : Bytes) : num ((hm k m).take 32) = 1 := by
  show num ((List.replicate 31 (0 : UInt8) ++ (1 :: List.replicate 32 7)).take 32) = 1
  decide +kernel

theorem root_eq (seed : Bytes) : root hm seed = some ⟨⟨1, List.replicate 32 7⟩, 0, [0, 0, 0, 0], 0⟩ := by
  have h1 : ¬ ((1 : Nat) = 0 ∨ (1 : Nat) ≥ n) := by decide +kernel
  simp only [root, master, hm_num, if_neg h1]
  rfl

theorem child_eq (N : Node) (h : N.key.k + 1 < n) (i : Nat) : N.child hm h160 i = some ⟨⟨1 + N.key.k, List.replicate 32 7⟩, N.depth + 1, [9, 9, 9, 9], i⟩ := by
  have h1 : ¬ ((1 : Nat) ≥ n) := by decide +kernel
  simp only [Node.child, ckdPriv, hm_num]
  rw [Nat.mod_eq_of_lt (by omega), if_neg (by push_neg; exact ⟨by omega, by omega⟩)]
  rfl

theorem follow_eq (seed : Bytes) : (root hm seed).bind (Node.follow hm h160 [(44, true), (0, false)]) =
    some ⟨⟨3, List.replicate 32 7⟩, 2, [9, 9, 9, 9], 0⟩ := by
  rw [root_eq, Option.bind_some, Node.follow, child_eq _ (by decide +kernel), Option.bind_some, Node.follow, child_eq _ (by decide +kernel)]
  rfl

theorem hm_length (k m : Bytes) : (hm k m).length = 64 := by
  show (List.replicate 31 (0 : UInt8) ++ (1 :: List.replicate 32 7)).length = 64
  decide

theorem h160_length (m : Bytes) : (h160 m).length = 20 := by
  show (List.replicate 20 (9 : UInt8)).length = 20
  decide

/-- C79 has cases: a wallet has a node at `m/44'/0`. -/
theorem atPath_some (seed : Bytes) (net : Network) : ∃ w, atPath hm h160 seed net "m/44'/0".toList = some w :=
  have hp : pathText 'm' '\'' [(44, true), (0, false)] = "m/44'/0".toList := by decide +kernel
  hp ▸ atPath_exists hm hm_length h160 h160_length seed net '\'' (Or.inl rfl) [(44, true), (0, false)] (by decide) (follow_eq seed)

end Demo

example : ∃ (hm : Bytes → Bytes → Bytes) (h160 : Bytes → Bytes), (∀ k m, (hm k m).length = 64) ∧ (∀ m, (h160 m).length = 20) ∧
    ∃ N w, (root hm [5]).bind (Node.follow hm h160 [(44, true), (0, false)]) = some N ∧ atPath hm h160 [5] doge "m/44'/0".toList = some w ∧ N.depth = 2 := by
  obtain ⟨w, hw⟩ := Demo.atPath_some [5] doge
  exact ⟨Demo.hm, Demo.h160, Demo.hm_length, Demo.h160_length, _, w, Demo.follow_eq [5], hw, rfl⟩

/-! ## C80 -/

/-- C80. A path that starts with `M`, ends with `.pub`, or both, gives a node without private key, whose public form is that of the node at the path. -/
theorem C80_public_path_partial (hm : Bytes → Bytes → Bytes) (hl : ∀ k m, (hm k m).length = 64) (h160 : Bytes → Bytes) (hh : ∀ m, (h160 m).length = 20)
    (seed : Bytes) (net : Network) (hnet : net ∈ networks) (mark : Char) (hk : mark = '\'' ∨ mark = 'p') (steps : List Step)
    (hs : ∀ s ∈ steps, s.1 < 2 ^ 31) (hd : steps.length ≤ 255) {path : List Char}
    (hp : path = pathText 'M' mark steps ∨ path = pathText 'm' mark steps ++ ".pub".toList ∨ path = pathText 'M' mark steps ++ ".pub".toList) :
    match (root hm seed).bind (Node.follow hm h160 steps) with
    | none => atPath hm h160 seed net path = none
    | some N => ∃ w, atPath hm h160 seed net path = some w ∧ w.privateKey = none ∧ w.serialize true = none ∧
        w.serialize false = some (hexlify (N.xpub net.extPublic)) := by
  have h := atPath_eq hm hl h160 hh seed net mark hk steps hs
  have hpath : atPath hm h160 seed net path = ((fromMasterSecret hm seed net false).bind fun w => walk hm h160 (steps.map (stepText mark)) w).bind
      Wallet.publicCopy := by
    rw [atPath, Option.bind_assoc]
    congr 1
    funext w
    have hpub : ".pub".toList = ['.', 'p', 'u', 'b'] := by decide
    rcases hp with rfl | rfl | rfl
    · rw [getChildForPath_eq hm h160 w mark hk 'M' (Or.inr rfl)]
      congr 1
    · rw [hpub, getChildForPath_pub hm h160 w mark hk 'm' (Or.inl rfl)]
    · rw [hpub, getChildForPath_pub hm h160 w mark hk 'M' (Or.inr rfl)]
  rw [hpath]
  cases hN : (root hm seed).bind (Node.follow hm h160 steps) with
  | none => rw [hN] at h; dsimp only at h ⊢; rw [h]; rfl
  | some N =>
    rw [hN] at h
    obtain ⟨w, hw, hr⟩ := h
    obtain ⟨v, x, y, hv, hrv⟩ := publicCopy_eq hr
    have hdep : N.depth < 256 := by rw [nodeAt_depth hm h160 seed steps hN]; omega
    dsimp only
    rw [hw, Option.bind_some]
    refine ⟨v, hv, hrv.priv, ?_, serialize_pub' hrv hdep (networks_good net hnet).2.2.1⟩
    simp [Wallet.serialize, hrv.priv]

/-- C80. BIP32's public derivation of ordinary children from the public key of a node gives the public keys of the private derivation: what a wallet shows
for `M/…` can be derived from the public key alone. -/
theorem C80_public_keys_partial (hm : Bytes → Bytes → Bytes) (h160 : Bytes → Bytes) (N : Node) (is : List Nat) (hi : ∀ i ∈ is, i < 2 ^ 31) :
    followPub hm is N.key.neuter = (N.follow hm h160 (is.map fun i => (i, false))).map fun M => M.key.neuter :=
  followPub_eq hm h160 is hi N

/-- C80 is false: a wallet without private key cannot derive any child at all, with whatever number and flags (line 448 makes a `PrivateKey(None)`). -/
theorem C80_false (hm : Bytes → Bytes → Bytes) (h160 : Bytes → Bytes) (w : Wallet) (hw : w.privateKey = none) (number : Int) (isPrime : Option Bool)
    (asPrivate : Bool) : w.getChild hm h160 number isPrime asPrivate = none := by
  have hc : ∀ IL, childKeys w IL = none := by
    intro IL
    rw [childKeys, hw]
    cases w.useEd <;> rfl
  unfold Wallet.getChild
  split
  · rfl
  · dsimp only
    split
    · split
      · rfl
      · simp only [hc]
    · rfl

theorem C80_false_of (hm : Bytes → Bytes → Bytes) (hl : ∀ k m, (hm k m).length = 64) (h160 : Bytes → Bytes) (hh : ∀ m, (h160 m).length = 20)
    (seed : Bytes) {N M : Node} (hN : root hm seed = some N) (hM : N.child hm h160 5 = some M) :
    ∃ w, atPath hm h160 seed btc "M".toList = some w ∧ (followPub hm [5] N.key.neuter).isSome ∧ w.getChild hm h160 5 none false = none := by
  have h := C80_public_path_partial hm hl h160 hh seed btc (by decide) '\'' (Or.inl rfl) [] (by simp) (by simp)
    (path := "M".toList) (Or.inl (by decide +kernel))
  rw [hN] at h
  obtain ⟨w, hw, hpriv, -⟩ := h
  refine ⟨w, hw, ?_, C80_false _ _ w hpriv 5 none false⟩
  rw [C80_public_keys_partial hm h160 _ [5] (by simp), List.map_cons, List.map_nil, Node.follow, show Step.index (5, false) = 5 from rfl, hM]
  rfl

/-- The failing case exists: the public node at `M`, of which BIP32 derives child 5. -/
example : ∃ (hm : Bytes → Bytes → Bytes) (h160 : Bytes → Bytes), ∃ N w, atPath hm h160 [5] btc "M".toList = some w ∧ root hm [5] = some N ∧
    (followPub hm [5] N.key.neuter).isSome ∧ w.getChild hm h160 5 none false = none := by
  obtain ⟨N, hN, hk⟩ : ∃ N, root Demo.hm [5] = some N ∧ N.key.k + 1 < n := ⟨_, Demo.root_eq [5], by decide +kernel⟩
  obtain ⟨w, h1, h2, h3⟩ := C80_false_of Demo.hm Demo.hm_length Demo.h160 Demo.h160_length [5] hN (Demo.child_eq N hk 5)
  exact ⟨Demo.hm, Demo.h160, N, w, h1, hN, h2, h3⟩

/-- C80. A wallet with a private key does give public children: they have the public key of the child and no private key. -/
theorem C80_private_parent_partial (hm : Bytes → Bytes → Bytes) (hl : ∀ k m, (hm k m).length = 64) (h160 : Bytes → Bytes) (hh : ∀ m, (h160 m).length = 20)
    (seed : Bytes) (net : Network) (hnet : net ∈ networks) (mark : Char) (hk : mark = '\'' ∨ mark = 'p') (steps : List Step)
    (hs : ∀ s ∈ steps, s.1 < 2 ^ 31) (hd : steps.length < 255) {N : Node} (hN : (root hm seed).bind (Node.follow hm h160 steps) = some N) {w : Wallet}
    (hw : atPath hm h160 seed net (pathText 'm' mark steps) = some w) (m : Nat) (hm31 : m < 2 ^ 31) :
    match N.child hm h160 m with
    | none => w.getChild hm h160 m (some false) false = none
    | some M => ∃ v, w.getChild hm h160 m (some false) false = some v ∧ v.privateKey = none ∧
        v.serialize false = some (hexlify (M.xpub net.extPublic)) ∧ M.key.neuter.K = num ((hm N.key.c (serP (N.key.k • G) ++ be 4 m)).take 32) • G + N.key.k • G := by
  have h := atPath_eq hm hl h160 hh seed net mark hk steps hs
  rw [atPath, atPath_m hm h160 seed net mark hk] at hw
  rw [hN, hw] at h
  obtain ⟨v, hv, hr⟩ := h
  have hv' := Option.some.inj hv
  subst hv'
  have hidx : Bip.childIndex true false (m : ℤ) (some false) = some (m, false) := by
    have h3 : ¬ ((m : ℤ) < 0 ∨ (m : ℤ) ≥ (0x80000000 : ℕ)) := by push_neg; constructor <;> omega
    simp only [Bip.childIndex, Int.natAbs_natCast]
    rw [if_neg (by omega), if_neg h3]
    simp
  have hg := getChild_eq hm hl h160 hh hr m false (by omega) (by simp; omega) hidx
  have hpub : ∀ a p, w.getChild hm h160 a p false = (w.getChild hm h160 a p true).bind Wallet.publicCopy := by
    intro a p
    unfold Wallet.getChild
    split
    · rfl
    · dsimp only
      split
      · split
        · rfl
        · split
          · split
            · rfl
            · rfl
          · rfl
      · rfl
  rw [hpub]
  cases hc : N.child hm h160 m with
  | none => rw [hc] at hg; dsimp only at hg ⊢; rw [hg]; rfl
  | some M =>
    rw [hc] at hg
    obtain ⟨c, hcc, hrc⟩ := hg
    obtain ⟨u, x, y, hu, hru⟩ := publicCopy_eq hrc
    have hdep : M.depth < 256 := by
      have h1 := nodeAt_depth hm h160 seed steps hN
      rw [Node.child] at hc
      cases hx : ckdPriv hm N.key m with
      | none => rw [hx] at hc; simp at hc
      | some x' =>
        rw [hx] at hc
        rw [← Option.some.inj hc]
        show N.depth + 1 < 256
        omega
    dsimp only
    rw [hcc, Option.bind_some]
    refine ⟨u, hu, hru.priv, serialize_pub' hru hdep (networks_good net hnet).2.2.1, ?_⟩
    rw [Node.child] at hc
    have h31 : ¬ 2 ^ 31 ≤ m := by omega
    simp only [ckdPriv, if_neg h31] at hc
    split at hc
    · simp at hc
    · rw [← Option.some.inj hc, (sum_G _ _).1]
      rfl

end Verif.Hd

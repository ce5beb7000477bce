import Verif.Lemmas.HdHex

/-! Nodes of the wallet represent the nodes of BIP32. -/

namespace Verif.Hd
open Verif Dig HdSpec Secp
open Verif.Mnemonic (hexlify parseHex hexlify_length hexlify_lt)

theorem n_val : n = 115792089237316195423570985008687907852837564279074904382605163141518161494337 := by decide +kernel

theorem lt_256 {k : ℕ} (h : k < n) : k < 256 ^ 32 := lt_trans h (by decide +kernel)

theorem privKey_hex {k : ℕ} (h : k < n) (net : Network) (c : Bool) : (PrivateKey.secp k net c).getKey = hexlify (be 32 k) :=
  longToHex_be 32 k (lt_256 h)

theorem val_cast {y : ℤ} (h : 0 ≤ y ∧ y < p) : ((y : ℤ) : Fp).val = y.toNat := by
  obtain ⟨m, rfl⟩ := Int.eq_ofNat_of_zero_le h.1
  have : m < pN := by have := h.2; rw [p_eq] at this; exact Int.ofNat_lt.1 this
  rw [Int.cast_natCast, ZMod.val_natCast_of_lt this, Int.toNat_natCast]

theorem p_lt : p < 256 ^ 32 := by decide +kernel

theorem toNat_lt {y : ℤ} (h : 0 ≤ y ∧ y < p) : y.toNat < 256 ^ 32 := by
  have := p_lt
  have h2 : ((y.toNat : ℕ) : ℤ) < ((256 ^ 32 : ℕ) : ℤ) := by
    rw [Int.toNat_of_nonneg h.1]
    push_cast
    linarith [h.2]
  exact Int.ofNat_lt.1 h2

/-- The compressed key of a point. -/
theorem pubKey_hex {x y : ℤ} {W : Point} (h : Rep (some (x, y)) W) (net : Network) (c : Bool) :
    (PublicKey.secp x y net c).getKey true = hexlify (serP W) := by
  obtain ⟨hx, hy, hn, rfl⟩ := h
  rw [PublicKey.getKey, serP, val_cast hx, val_cast hy, show (64 : ℕ) = 2 * 32 from rfl, longToHex_be 32 _ (toNat_lt hx),
    show (2 : ℕ) = 2 * 1 from rfl]
  have e : (2 + y % 2).toNat = 2 + y.toNat % 2 := by omega
  rw [e]
  rcases Nat.mod_two_eq_zero_or_one y.toNat with h2 | h2
  · rw [h2, if_pos (by simpa using h2), longToHex_be 1 _ (by norm_num)]
    generalize be 32 x.toNat = X
    have : hexlify (be 1 (2 + 0)) = [0, 2] := by decide
    rw [this]; rfl
  · rw [h2, if_neg (by simp [h2]), longToHex_be 1 _ (by norm_num)]
    generalize be 32 x.toNat = X
    have : hexlify (be 1 (2 + 1)) = [0, 3] := by decide
    rw [this]; rfl

theorem serP_length {W : Point} (h : W ≠ 0) : (serP W).length = 33 := by
  match W, h with
  | .zero, h => exact absurd rfl h
  | .some x y hn, _ => rw [serP, List.length_cons, be_length]

/-- The wallet node `w` is the node `N` of the tree. -/
structure Repr (w : Wallet) (N : Node) (net : Network) : Prop where
  ed : w.useEd = false
  priv : ∃ net' c, w.privateKey = some (.secp N.key.k net' c)
  pub : ∃ x y net' c, w.publicKey = .secp x y net' c ∧ Rep (some (x, y)) (N.key.k • G)
  kpos : 1 ≤ N.key.k
  klt : N.key.k < n
  chain : w.chainCode = hexlify N.key.c
  clen : N.key.c.length = 32
  depth : w.depth = N.depth
  fp : w.parentFingerprint = hexlify N.fp
  fplen : N.fp.length = 4
  index : w.childNumber = N.index
  ilt : N.index < 2 ^ 32
  network : w.network = net

theorem point_of (k : ℕ) (h1 : 1 ≤ k) (h2 : k < n) : ∃ x y, mul g k = some (x, y) ∧ Rep (some (x, y)) (k • G) := by
  have h := rep_mul rep_g k
  match hm : mul g k, h with
  | none, h => exact absurd h (smul_G_ne h1 h2)
  | some (x, y), h => exact ⟨x, y, rfl, h⟩

theorem getPublic {k : ℕ} (h1 : 1 ≤ k) (h2 : k < n) (net : Network) (c : Bool) :
    ∃ x y, (PrivateKey.secp k net c).getPublicKey = some (.secp x y net c) ∧ Rep (some (x, y)) (k • G) := by
  obtain ⟨x, y, h, hr⟩ := point_of k h1 h2
  exact ⟨x, y, by simp only [PrivateKey.getPublicKey, h], hr⟩

theorem eq_self (P : PublicKey) (h : ∀ Q, P ≠ .ed Q) : P.eq P = true := by
  match P with
  | .secp x y net c => simp [PublicKey.eq]
  | .ed Q => exact absurd rfl (h Q)

theorem initKeys_pair {k : ℕ} {net : Network} {c : Bool} {P : PublicKey} (hP : (PrivateKey.secp k net c).getPublicKey = some P)
    (net' : Network) : initKeys none (some (.secp k net c)) none (some P) net' false = some (some (.secp k net c), P) := by
  have he : P.eq P = true := by
    apply eq_self
    intro Q h
    subst h
    simp only [PrivateKey.getPublicKey] at hP
    split at hP <;> simp at hP
  simp [initKeys, hP, he]

theorem initKeys_exp {k : ℕ} (h1 : 1 ≤ k) (h2 : k < n) {net : Network} {P : PublicKey}
    (hP : (PrivateKey.secp k net false).getPublicKey = some P) (ed : Bool) :
    initKeys (some k) none none none net ed = some (some (.secp k net false), P) := by
  have he : P.eq P = true := by
    apply eq_self
    intro Q h
    subst h
    simp only [PrivateKey.getPublicKey] at hP
    split at hP <;> simp at hP
  have h0 : k ≠ 0 := by omega
  cases ed <;> simp [initKeys, Option.filter, h0, mkPrivate, h1, h2, hP, he]

/-- The root. -/
theorem fromMaster_eq (hm : Bytes → Bytes → Bytes) (hl : ∀ k m, (hm k m).length = 64) (seed : Bytes) (net : Network) :
    match root hm seed with
    | none => fromMasterSecret hm seed net false = none
    | some N => ∃ w, fromMasterSecret hm seed net false = some w ∧ Repr w N net ∧ w.seedSecret = some seed := by
  have hs : ascii "Bitcoin seed" = [0x42, 0x69, 0x74, 0x63, 0x6f, 0x69, 0x6e, 0x20, 0x73, 0x65, 0x65, 0x64] := by decide +kernel
  simp only [root, master, fromMasterSecret, hs, Bool.false_eq_true, if_false, toLong_eq]
  have hIL := hl [0x42, 0x69, 0x74, 0x63, 0x6f, 0x69, 0x6e, 0x20, 0x73, 0x65, 0x65, 0x64] seed
  generalize hm [0x42, 0x69, 0x74, 0x63, 0x6f, 0x69, 0x6e, 0x20, 0x73, 0x65, 0x65, 0x64] seed = I at *
  have hd : (I.drop 32).length = 32 := by simp [hIL]
  by_cases hk : num (I.take 32) = 0 ∨ num (I.take 32) ≥ n
  · rw [if_pos hk]
    dsimp only [Option.map_none]
    have : initKeys (some (num (I.take 32))) none none none net false = none := by
      rcases hk with h0 | h0
      · simp [initKeys, h0, Option.filter]
      · have hne : num (I.take 32) ≠ 0 := by
          intro h; rw [h] at h0; exact absurd h0 (by decide +kernel)
        simp [initKeys, hne, Option.filter, mkPrivate, Nat.not_lt.mpr h0]
    rw [initWallet, this]
  · rw [if_neg hk]
    push_neg at hk
    have h1 : 1 ≤ num (I.take 32) := Nat.one_le_iff_ne_zero.mpr hk.1
    obtain ⟨x, y, hP, hr⟩ := getPublic h1 hk.2 net false
    dsimp only [Option.map_some]
    have hc : longToHex (num (I.drop 32)) 64 = hexlify (I.drop 32) := longToHex_num' _ 32 64 hd rfl
    have h8 : longToHex 0 8 = hexlify [0, 0, 0, 0] := by decide +kernel
    rw [initWallet, initKeys_exp h1 hk.2 hP]
    simp only [HexArg.h, HexArg.l, hc, h8]
    exact ⟨_, rfl, ⟨rfl, ⟨_, _, rfl⟩, ⟨x, y, _, _, rfl, hr⟩, h1, hk.2, rfl, hd, rfl, rfl, rfl, rfl, by norm_num, rfl⟩, rfl⟩

theorem childIndex_step (s : Step) (h : s.1 < 2 ^ 31) : Bip.childIndex true false s.1 (if s.2 then some true else none) = some (s.index, s.2) := by
  obtain ⟨m, b⟩ := s
  simp only at h
  have h1 : ¬ m ≥ 0x80000000 := by omega
  have h3 : ¬ (m : ℤ) < 0 := by omega
  have h4 : ¬ (m : ℤ) ≥ 0x80000000 := by omega
  cases b
  · simp only [Bool.false_eq_true, if_false, Bip.childIndex, Step.index, Int.natAbs_natCast]
    rw [if_neg h1, if_neg h3]
    simp [show ¬ (2147483648 : ℤ) ≤ m by omega]
  · simp only [if_true, Bip.childIndex, Step.index, Int.natAbs_natCast]
    rw [if_neg h1, if_neg (by push_neg; constructor <;> omega)]
    simp
    omega

theorem unhex_data (a b : Bytes) : unhexlify (hexlify a ++ hexlify b) = some (a ++ b) := by
  rw [← hexlify_append, unhexlify_hexlify]

theorem fingerprint_eq {w : Wallet} {N : Node} {net : Network} (hr : Repr w N net) (h160 : Bytes → Bytes) :
    w.fingerprint h160 = some (hexlify ((h160 (serP (N.key.k • G))).take 4)) := by
  obtain ⟨x, y, net', c, hp, hR⟩ := hr.pub
  rw [Wallet.fingerprint, hp, pubKey_hex hR, unhexlify_hexlify, Option.map_some]
  exact congrArg some (hexlify_take _ 4)

/-- A child. -/
theorem getChild_eq (hm : Bytes → Bytes → Bytes) (hl : ∀ k m, (hm k m).length = 64) (h160 : Bytes → Bytes) (hh : ∀ m, (h160 m).length = 20)
    {w : Wallet} {N : Node} {net : Network} (hr : Repr w N net) (i : ℕ) (prime : Bool) (hi : i < 2 ^ 32) (hp : prime = decide (2 ^ 31 ≤ i))
    {number : ℤ} {isPrime : Option Bool} (hidx : Bip.childIndex true false number isPrime = some (i, prime)) :
    match N.child hm h160 i with
    | none => w.getChild hm h160 number isPrime true = none
    | some M => ∃ v, w.getChild hm h160 number isPrime true = some v ∧ Repr v M net := by
  obtain ⟨net', c, hpriv⟩ := hr.priv
  obtain ⟨x, y, net2, c2, hpub, hR⟩ := hr.pub
  have hidxhex : longToHex i 8 = hexlify (be 4 i) := longToHex_be 4 i (by norm_num; omega)
  have hdata : ∃ msg, msg = (if 2 ^ 31 ≤ i then 0 :: (be 32 N.key.k ++ be 4 i) else serP (N.key.k • G) ++ be 4 i) ∧
      unhexlify ((if prime then [0, 0] ++ (w.privateKey.map PrivateKey.getKey).getD [] else w.publicKey.getKey true) ++ longToHex i 8) = some msg := by
    refine ⟨_, rfl, ?_⟩
    rw [hidxhex, hp]
    by_cases h31 : 2 ^ 31 ≤ i
    · simp only [h31, decide_true, if_true]
      rw [hpriv, Option.map_some, Option.getD_some, privKey_hex hr.klt]
      generalize be 32 N.key.k = X
      have : [0, 0] ++ hexlify X = hexlify (0 :: X) := rfl
      rw [this, unhex_data]; rfl
    · simp only [h31, decide_false, Bool.false_eq_true, if_false]
      rw [hpub, pubKey_hex hR, unhex_data]
  obtain ⟨msg, hmsg, hun⟩ := hdata
  have hsome : w.privateKey.isSome = true := by rw [hpriv]; rfl
  unfold Wallet.getChild
  rw [hsome, hr.ed, hidx]
  dsimp only
  rw [hun, hr.chain, unhexlify_hexlify]
  dsimp only
  simp only [Node.child, ckdPriv]
  rw [← hmsg]
  have hIl := hl N.key.c msg
  generalize hm N.key.c msg = I at *
  have hd : (I.drop 32).length = 32 := by simp [hIl]
  rw [toLong_eq]
  by_cases h1 : num (I.take 32) ≥ n
  · rw [if_pos (Or.inl h1)]
    simp [h1]
  · have hfp := fingerprint_eq hr h160
    simp only [h1, Bool.not_false, decide_false, Bool.and_false, Bool.false_eq_true, if_false, false_or]
    have hparse : parseHex (PrivateKey.secp N.key.k net' c).getKey = N.key.k := by
      rw [privKey_hex hr.klt, ← toLong, toLong_eq, num_be _ _ (lt_256 hr.klt)]
    have hmod : (num (I.take 32) + N.key.k) % n < n := Nat.mod_lt _ (by decide +kernel)
    by_cases h0 : (num (I.take 32) + N.key.k) % n = 0
    · rw [if_pos h0]
      dsimp only [Option.map_none]
      have : childKeys w (I.take 32) = none := by
        rw [childKeys, hr.ed, hpriv]
        simp only [Bool.false_eq_true, if_false, toLong_eq]
        rw [hparse, h0, mkPrivate, if_neg (by omega)]
      rw [this]
    · rw [if_neg h0]
      dsimp only [Option.map_some]
      have hpos : 1 ≤ (num (I.take 32) + N.key.k) % n := Nat.one_le_iff_ne_zero.mpr h0
      obtain ⟨x', y', hP, hR'⟩ := getPublic hpos hmod btc false
      have hck : childKeys w (I.take 32) = some (.secp ((num (I.take 32) + N.key.k) % n) btc false, .secp x' y' btc false) := by
        rw [childKeys, hr.ed, hpriv]
        simp only [Bool.false_eq_true, if_false, toLong_eq]
        rw [hparse, mkPrivate, if_pos ⟨hpos, hmod⟩]
        simp only [hP, Option.map_some]
      rw [hck, hfp]
      dsimp only
      have hf8 : (hexlify ((h160 (serP (N.key.k • G))).take 4)).length = 8 := by rw [hexlify_length, List.length_take, hh]; rfl
      have hc64 : (hexlify (I.drop 32)).length = 64 := by rw [hexlify_length, hd]
      have hcn : (HexArg.hex (longToHex i 8)).l = some i := by
        rw [hidxhex]
        have h4 : (hexlify (be 4 i)).length = 8 := by rw [hexlify_length, be_length]
        match he : hexlify (be 4 i), h4 with
        | d :: ds, _ =>
          rw [HexArg.l, ← he, ← toLong, toLong_eq, num_be]
          norm_num; omega
      rw [initWallet, initKeys_pair hP]
      simp only [hcn, HexArg.h, hf8, hc64, ne_eq, not_true_eq_false, if_false, if_true]
      refine ⟨_, rfl, ?_⟩
      refine ⟨rfl, ⟨_, _, rfl⟩, ⟨x', y', _, _, rfl, hR'⟩, hpos, hmod, rfl, hd, ?_, rfl, ?_, rfl, hi, hr.network⟩
      · show w.depth + 1 = N.depth + 1
        rw [hr.depth]
      · rw [List.length_take, hh]; rfl

end Verif.Hd

import Verif.Props.Hd

/-! Serialized nodes, wallet import format and recovered parents: C81, C82, C83. -/

namespace Verif.Hd
open Verif HdSpec Secp
open Verif.Mnemonic (hexlify parseHex hexlify_length)

/-- The three forms in which a serialized node is accepted: raw bytes, hex text, Base58Check text. -/
def Form (H : Bytes → Bytes) (b txt : Bytes) : Prop := txt = b ∨ txt = (hexlify b).map hexChar ∨ txt = B58.Btc.encodeCheck H b

theorem unpack_form (H : Bytes → Bytes) (hH : ∀ m, 4 ≤ (H m).length) {v : ℕ} (hv : GoodVersion v) {r b txt : Bytes} (hb : b = be 4 v ++ r)
    (h : b.length = 78) (hf : Form H b txt) : unpackKey H txt = some b := by
  rcases hf with rfl | rfl | rfl
  · exact unpack_raw H h
  · exact unpack_hex H h
  · exact unpack_b58 H hH hv hb h

theorem repr_at (hm : Bytes → Bytes → Bytes) (hl : ∀ k m, (hm k m).length = 64) (h160 : Bytes → Bytes) (hh : ∀ m, (h160 m).length = 20)
    (seed : Bytes) (net : Network) (mark : Char) (hk : mark = '\'' ∨ mark = 'p') (steps : List Step) (hs : ∀ s ∈ steps, s.1 < 2 ^ 31) {w : Wallet}
    (hw : atPath hm h160 seed net (pathText 'm' mark steps) = some w) :
    ∃ N, (root hm seed).bind (Node.follow hm h160 steps) = some N ∧ Repr w N net := by
  have h := atPath_eq hm hl h160 hh seed net mark hk steps hs
  rw [atPath, atPath_m hm h160 seed net mark hk] at hw
  cases hN : (root hm seed).bind (Node.follow hm h160 steps) with
  | none => rw [hN, hw] at h; cases h
  | some N =>
    rw [hN, hw] at h
    obtain ⟨v, hv, hr⟩ := h
    rw [Option.some.inj hv]
    exact ⟨N, rfl, hr⟩

/-- C81. A wallet derived along at most 255 steps, serialized with or without its private key and written as raw bytes, hex or Base58, is read back: the
result has the same serializations, and it has the private key exactly when that was included. -/
theorem C81_roundtrip (hm : Bytes → Bytes → Bytes) (hl : ∀ k m, (hm k m).length = 64) (h160 : Bytes → Bytes) (hh : ∀ m, (h160 m).length = 20)
    (H : Bytes → Bytes) (hH : ∀ m, 4 ≤ (H m).length) (seed : Bytes) (net : Network) (hnet : net ∈ networks) (mark : Char) (hk : mark = '\'' ∨ mark = 'p')
    (steps : List Step) (hs : ∀ s ∈ steps, s.1 < 2 ^ 31) (hd : steps.length ≤ 255) {w : Wallet}
    (hw : atPath hm h160 seed net (pathText 'm' mark steps) = some w) (priv : Bool) :
    ∃ b, w.serialize priv = some (hexlify b) ∧ b.length = 78 ∧ ∀ txt, Form H b txt → ∃ w', deserialize H txt net = some w' ∧ w'.privateKey.isSome = priv ∧
      w'.serialize priv = w.serialize priv ∧ w'.serialize false = w.serialize false ∧ w'.depth = w.depth ∧ w'.parentFingerprint = w.parentFingerprint ∧
      w'.childNumber = w.childNumber ∧ w'.chainCode = w.chainCode ∧ w'.network = net := by
  obtain ⟨N, hN, hr⟩ := repr_at hm hl h160 hh seed net mark hk steps hs hw
  have hdep : N.depth < 256 := by rw [nodeAt_depth hm h160 seed steps hN]; omega
  obtain ⟨g1, g2⟩ := networks_good net hnet
  have s1 := serialize_priv hr hdep g1.2.1
  have s2 := serialize_pub hr hdep g2.2.1
  have h0 : N.key.k • G ≠ 0 := smul_G_ne hr.kpos hr.klt
  cases priv with
  | true =>
    have hlen := xprv_length N net.extSecret hr.fplen hr.clen
    refine ⟨_, s1, hlen, fun txt ht => ?_⟩
    obtain ⟨w', hw', hr', -⟩ := deser_priv H hr.kpos hr.klt hr.clen hr.fplen hr.ilt hdep g1.2.1 (unpack_form H hH g1 rfl hlen ht)
    obtain ⟨a, b, hp⟩ := hr'.priv
    refine ⟨w', hw', by rw [hp]; rfl, ?_, ?_, ?_, ?_, ?_, ?_, hr'.network⟩
    · rw [s1, serialize_priv hr' hdep g1.2.1]
    · rw [s2, serialize_pub hr' hdep g2.2.1]
    · rw [hr.depth, hr'.depth]
    · rw [hr.fp, hr'.fp]
    · rw [hr.index, hr'.index]
    · rw [hr.chain, hr'.chain]
  | false =>
    have hlen := xpub_length N net.extPublic hr.fplen hr.clen h0
    refine ⟨_, s2, hlen, fun txt ht => ?_⟩
    obtain ⟨w', x, y, hw', hr'⟩ := deser_pub H h0 hr.clen hr.fplen hr.ilt hdep g2.2.1 (unpack_form H hH g2 rfl hlen ht)
    refine ⟨w', hw', by rw [hr'.priv]; rfl, ?_, ?_, ?_, ?_, ?_, ?_, hr'.network⟩
    · rw [s2, serialize_pub' hr' hdep g2.2.1]
    · rw [s2, serialize_pub' hr' hdep g2.2.1]
    · rw [hr.depth, hr'.depth]
    · rw [hr.fp, hr'.fp]
    · rw [hr.index, hr'.index]
    · rw [hr.chain, hr'.chain]

/-- C81. What is accepted as 78 raw bytes, as hex or as Base58 of 78 bytes is exactly the serialization of the node it gives: two different byte strings never
give nodes with the same serialization. -/
theorem C81_canonical (H : Bytes → Bytes) (hH : ∀ m, 4 ≤ (H m).length) {b txt : Bytes} (h : b.length = 78) (ht : Form H b txt) {net : Network}
    (hnet : net ∈ networks) {w : Wallet} (hw : deserialize H txt net = some w) (hb58 : txt = B58.Btc.encodeCheck H b → txt.length = 111) :
    w.serialize w.privateKey.isSome = some (hexlify b) := by
  obtain ⟨g1, g2⟩ := networks_good net hnet
  have hu : unpackKey H txt = some b := by
    rcases ht with rfl | rfl | rfl
    · exact unpack_raw H h
    · exact unpack_hex H h
    · have hlen := hb58 rfl
      rw [unpackKey, if_neg (by rw [hlen]; decide), if_neg (by rw [hlen]; decide), if_pos hlen]
      exact (B58.C27_check H hH _ _).mpr rfl
  have hraw : deserialize H b net = some w := by
    rw [← hw]
    simp only [deserialize, hu, unpack_raw H h]
  exact deser_canonical H h hraw g1.2.1 g2.2.1

/-- C81 is false beyond depth 255: the depth does not fit its byte, the text gets an odd number of hex digits, and Base58 raises, for every wallet derived
along 256 to 4095 steps. -/
theorem C81_false_depth (hm : Bytes → Bytes → Bytes) (hl : ∀ k m, (hm k m).length = 64) (h160 : Bytes → Bytes) (hh : ∀ m, (h160 m).length = 20)
    (H : Bytes → Bytes) (seed : Bytes) (net : Network) (hnet : net ∈ networks) (mark : Char) (hk : mark = '\'' ∨ mark = 'p') (steps : List Step)
    (hs : ∀ s ∈ steps, s.1 < 2 ^ 31) (hd : 256 ≤ steps.length) (hd2 : steps.length < 4096) {w : Wallet}
    (hw : atPath hm h160 seed net (pathText 'm' mark steps) = some w) (priv : Bool) : w.serializeB58 H priv = none := by
  obtain ⟨N, hN, hr⟩ := repr_at hm hl h160 hh seed net mark hk steps hs hw
  have hdep := nodeAt_depth hm h160 seed steps hN
  obtain ⟨⟨-, g1, -, -⟩, -, g2, -, -⟩ := networks_good net hnet
  have l1 : ∀ v < 2 ^ 32, (longToHex v 8).length = 8 := by
    intro v hv
    rw [show (8 : ℕ) = 2 * 4 from rfl, longToHex_be 4 v (by norm_num; omega), hexlify_length, be_length]
  have l2 : (longToHex w.depth 2).length = 3 := by
    rw [hr.depth, hdep]
    exact longToHex_length 2 (by norm_num; omega) (by norm_num; omega) 2 (by omega)
  obtain ⟨net', c, hp⟩ := hr.priv
  obtain ⟨x, y, net2, c2, hpub, hR⟩ := hr.pub
  have h0 : N.key.k • G ≠ 0 := smul_G_ne hr.kpos hr.klt
  cases priv with
  | true =>
    have : (w.serialize true).bind unhexlify = none := by
      rw [Wallet.serialize]
      simp only [if_true, hp, Option.map_some, Option.bind_some]
      apply unhexlify_odd 78
      simp only [List.length_append, hr.network, l1 _ g1, l2, hr.fp, hr.index, hr.chain, l1 _ hr.ilt, hexlify_length, hr.fplen, hr.clen, privKey_hex hr.klt, be_length,
        List.length_cons, List.length_nil]
    rw [Wallet.serializeB58, this]; rfl
  | false =>
    have : (w.serialize false).bind unhexlify = none := by
      rw [Wallet.serialize]
      simp only [Bool.false_eq_true, if_false, Option.bind_some]
      apply unhexlify_odd 78
      simp only [List.length_append, hr.network, l1 _ g2, l2, hr.fp, hr.index, hr.chain, l1 _ hr.ilt, hexlify_length, hr.fplen, hr.clen, hpub, pubKey_hex hR,
        serP_length h0]
    rw [Wallet.serializeB58, this]; rfl

/-- C81 is false as an equality of wallets: outside the Bitcoin main network a derived wallet is not equal (`==`) to its own deserialized copy, because the keys of
derived nodes carry the Bitcoin main network and the keys that are read carry the wallet's network. -/
theorem C81_false_equal (hm : Bytes → Bytes → Bytes) (hl : ∀ k m, (hm k m).length = 64) (h160 : Bytes → Bytes) (hh : ∀ m, (h160 m).length = 20)
    (H : Bytes → Bytes) (seed : Bytes) (net : Network) (hnet : net ∈ networks) (hb : net ≠ btc) (mark : Char) (hk : mark = '\'' ∨ mark = 'p')
    (s : Step) (ss : List Step) (hs : ∀ t ∈ s :: ss, t.1 < 2 ^ 31) (hd : ss.length < 255) {w : Wallet}
    (hw : atPath hm h160 seed net (pathText 'm' mark (s :: ss)) = some w) :
    ∃ b w', w.serialize true = some (hexlify b) ∧ deserialize H b net = some w' ∧ w'.serialize true = some (hexlify b) ∧ w'.eq w = false := by
  obtain ⟨N, hN, hr⟩ := repr_at hm hl h160 hh seed net mark hk _ hs hw
  have hdep : N.depth < 256 := by rw [nodeAt_depth hm h160 seed _ hN, List.length_cons]; omega
  obtain ⟨g1, g2⟩ := networks_good net hnet
  have s1 := serialize_priv hr hdep g1.2.1
  have hlen := xprv_length N net.extSecret hr.fplen hr.clen
  obtain ⟨w', hw', hr', hp', x', y', hq'⟩ := deser_priv H hr.kpos hr.klt hr.clen hr.fplen hr.ilt hdep g1.2.1 (unpack_raw H hlen)
  refine ⟨_, w', s1, hw', serialize_priv hr' hdep g1.2.1, ?_⟩
  rw [atPath, atPath_m hm h160 seed net mark hk] at hw
  cases hf : fromMasterSecret hm seed net false with
  | none => rw [hf] at hw; cases hw
  | some r =>
    rw [hf, Option.bind_some] at hw
    have hrr := fromMaster_eq hm hl seed net
    have he : r.useEd = false := by
      cases hroot : root hm seed with
      | none => rw [hroot, hf] at hrr; cases hrr
      | some R =>
        rw [hroot, hf] at hrr
        obtain ⟨u, hu, hru, -⟩ := hrr
        rw [Option.some.inj hu]; exact hru.ed
    obtain ⟨⟨k, hk1⟩, -⟩ := walk_net hm h160 mark hk s ss he hw
    simp [Wallet.eq, hp', hk1, PrivateKey.eq, hb]

/-- C81, for the Bitcoin main network and for the root of every network: the copy is equal to the wallet. -/
theorem C81_equal_partial (hm : Bytes → Bytes → Bytes) (hl : ∀ k m, (hm k m).length = 64) (h160 : Bytes → Bytes) (hh : ∀ m, (h160 m).length = 20)
    (H : Bytes → Bytes) (seed : Bytes) (net : Network) (hnet : net ∈ networks) (mark : Char) (hk : mark = '\'' ∨ mark = 'p')
    (steps : List Step) (hs : ∀ t ∈ steps, t.1 < 2 ^ 31) (hd : steps.length ≤ 255) (hc : net = btc ∨ steps = []) {w : Wallet}
    (hw : atPath hm h160 seed net (pathText 'm' mark steps) = some w) :
    ∃ b w', w.serialize true = some (hexlify b) ∧ deserialize H b net = some w' ∧ w'.eq w = true := by
  obtain ⟨N, hN, hr⟩ := repr_at hm hl h160 hh seed net mark hk _ hs hw
  have hdep : N.depth < 256 := by rw [nodeAt_depth hm h160 seed _ hN]; omega
  obtain ⟨g1, g2⟩ := networks_good net hnet
  have s1 := serialize_priv hr hdep g1.2.1
  have hlen := xprv_length N net.extSecret hr.fplen hr.clen
  obtain ⟨w', hw', hr', hp', x', y', hq'⟩ := deser_priv H hr.kpos hr.klt hr.clen hr.fplen hr.ilt hdep g1.2.1 (unpack_raw H hlen)
  refine ⟨_, w', s1, hw', ?_⟩
  rw [atPath, atPath_m hm h160 seed net mark hk] at hw
  have hkeys : (∃ k c, w.privateKey = some (.secp k net c)) ∧ ∃ x y c, w.publicKey = .secp x y net c := by
    cases hf : fromMasterSecret hm seed net false with
    | none => rw [hf] at hw; cases hw
    | some r =>
      rw [hf, Option.bind_some] at hw
      have hroot : r.useEd = false ∧ (∃ k c, r.privateKey = some (.secp k net c)) ∧ ∃ x y c, r.publicKey = .secp x y net c := by
        have hf' := hf
        unfold fromMasterSecret initWallet at hf'
        simp only [Bool.false_eq_true, if_false] at hf'
        split at hf'
        · cases hf'
        · rename_i priv pub hq
          obtain ⟨h1, h2, P, hP, he⟩ := initKeys_exp_some hq
          obtain ⟨rfl, rfl⟩ := Prod.mk.inj he
          split at hf'
          · rw [← Option.some.inj hf']
            refine ⟨rfl, ⟨_, _, rfl⟩, ?_⟩
            simp only [PrivateKey.getPublicKey] at hP
            split at hP
            · rw [← Option.some.inj hP]; exact ⟨_, _, _, rfl⟩
            · cases hP
          · cases hf'
      cases steps with
      | nil => rw [List.map_nil, walk] at hw; rw [← Option.some.inj hw]; exact hroot.2
      | cons s ss =>
        have hb : net = btc := by simpa using hc
        obtain ⟨⟨k, h1⟩, x, y, h2⟩ := walk_net hm h160 mark hk s ss hroot.1 hw
        rw [h1, h2, hb]
        exact ⟨⟨_, _, rfl⟩, _, _, _, rfl⟩
  obtain ⟨⟨k, c, h1⟩, x, y, c2, h2⟩ := hkeys
  obtain ⟨net3, c3, h3⟩ := hr.priv
  obtain ⟨x3, y3, net4, c4, h4, h5⟩ := hr.pub
  obtain ⟨x6, y6, net6, c6, h6, h7⟩ := hr'.pub
  have e1 : k = N.key.k := by rw [h1] at h3; simp at h3; exact h3.1
  have e2 := rep_unique h5 h7
  rw [h2] at h4
  rw [hq'] at h6
  simp only [PublicKey.secp.injEq] at h4 h6
  simp only [Option.some.injEq, Prod.mk.injEq] at e2
  have ex : x' = x := by rw [h6.1, h4.1, e2.1]
  have ey : y' = y := by rw [h6.2.1, h4.2.1, e2.2]
  simp [Wallet.eq, hr.chain, hr'.chain, hr.depth, hr'.depth, hr.fp, hr'.fp, hr.index, hr'.index, hp', h1, h2, hq', PrivateKey.eq, PublicKey.eq, hr.network,
    hr'.network, e1, ex, ey]

/-- C81 is false for malformed lengths: the raw bytes of a private node without their last byte are accepted, with a different key (the length of raw bytes is not
checked). -/
theorem C81_false_truncated (H : Bytes → Bytes) (net : Network) (hnet : net ∈ networks) (N : Node) (h1 : 256 ≤ N.key.k) (h2 : N.key.k < n)
    (hc : N.key.c.length = 32) (hf : N.fp.length = 4) (hd : N.depth < 256) :
    ∃ w, deserialize H (N.xprv net.extSecret).dropLast net = some w ∧ w.privateKey = some (.secp (N.key.k / 256) net false) := by
  obtain ⟨g1, -⟩ := networks_good net hnet
  have hlt : N.key.k / 256 < n := lt_of_le_of_lt (Nat.div_le_self _ _) h2
  have hpos : 1 ≤ N.key.k / 256 := by omega
  obtain ⟨x, y, hP, hR⟩ := getPublic hpos hlt net false
  have hdrop : (N.xprv net.extSecret).dropLast =
      be 4 net.extSecret ++ (UInt8.ofNat (N.depth % 256) :: (N.fp ++ (be 4 N.index ++ (N.key.c ++ (0 :: be 31 (N.key.k / 256)))))) := by
    rw [Node.xprv, be_one, show be 32 N.key.k = be 31 (N.key.k / 256) ++ [UInt8.ofNat (N.key.k % 256)] from rfl]
    generalize be 31 (N.key.k / 256) = K
    generalize be 4 net.extSecret = A
    generalize be 4 N.index = I
    rw [show A ++ ([UInt8.ofNat (N.depth % 256)] ++ (N.fp ++ (I ++ (N.key.c ++ 0 :: (K ++ [UInt8.ofNat (N.key.k % 256)]))))) =
      (A ++ (UInt8.ofNat (N.depth % 256) :: (N.fp ++ (I ++ (N.key.c ++ 0 :: K))))) ++ [UInt8.ofNat (N.key.k % 256)] by simp]
    rw [List.dropLast_concat]
  have hlen : (be 4 net.extSecret ++ (UInt8.ofNat (N.depth % 256) :: (N.fp ++ (be 4 N.index ++ (N.key.c ++ (0 :: be 31 (N.key.k / 256))))))).length = 77 := by
    simp only [List.length_append, List.length_cons, be_length, hf, hc]
  rw [hdrop]
  have hu : unpackKey H (be 4 net.extSecret ++ (UInt8.ofNat (N.depth % 256) :: (N.fp ++ (be 4 N.index ++ (N.key.c ++ (0 :: be 31 (N.key.k / 256))))))) =
      some (be 4 net.extSecret ++ (UInt8.ofNat (N.depth % 256) :: (N.fp ++ (be 4 N.index ++ (N.key.c ++ (0 :: be 31 (N.key.k / 256))))))) := by
    rw [unpackKey, hlen, if_neg (by decide), if_neg (by decide), if_neg (by decide)]
  have hne : be 31 (N.key.k / 256) ≠ [] := by
    intro h
    have := be_length 31 (N.key.k / 256)
    rw [h] at this; simp at this
  have e1 : num (be 4 net.extSecret) = net.extSecret := num_be _ _ (by have := g1.2.1; norm_num; omega)
  have e3 : num (be 31 (N.key.k / 256)) = N.key.k / 256 := by
    apply num_be
    have h3 := lt_256 h2
    rw [show (256 : ℕ) ^ 32 = 256 ^ 31 * 256 from pow_succ 256 31] at h3
    exact Nat.div_lt_of_lt_mul (by rwa [mul_comm] at h3)
  rw [deser_of H net (be_length _ _) hf (be_length _ _) hc hne hu, if_pos rfl, e1, e3, if_neg (by simp), initWallet, initKeys_exp hpos hlt hP]
  exact ⟨_, rfl, rfl⟩

/-- C81 has cases: a derived Dogecoin wallet. -/
example : ∃ (hm : Bytes → Bytes → Bytes) (h160 : Bytes → Bytes), (∀ k m, (hm k m).length = 64) ∧ (∀ m, (h160 m).length = 20) ∧
    ∃ w, atPath hm h160 [5] doge (pathText 'm' '\'' [(44, true), (0, false)]) = some w ∧ doge ∈ networks ∧ doge ≠ btc := by
  obtain ⟨w, hw⟩ := atPath_exists Demo.hm Demo.hm_length Demo.h160 Demo.h160_length [5] doge '\'' (Or.inl rfl) [(44, true), (0, false)] (by decide)
    (Demo.follow_eq [5])
  exact ⟨Demo.hm, Demo.h160, Demo.hm_length, Demo.h160_length, w, hw, by decide, by decide⟩

example : ∃ N : Node, 256 ≤ N.key.k ∧ N.key.k < n ∧ N.key.c.length = 32 ∧ N.fp.length = 4 ∧ N.depth < 256 :=
  ⟨⟨⟨1000, List.replicate 32 0⟩, 0, [0, 0, 0, 0], 0⟩, by decide, by decide +kernel, rfl, rfl, by decide⟩

/-! ## Wallet import format -/

theorem wif_raw {k : Nat} (h2 : k < n) (net : Network) (hb : net.secretKey < 256) (c : Bool) :
    (PrivateKey.secp k net c).getExtendedKey.bind unhexlify = some (UInt8.ofNat net.secretKey :: be 32 k) := by
  rw [PrivateKey.getExtendedKey, if_pos hb, Option.bind_some, privKey_hex h2, unhex_data, List.singleton_append]

theorem fromWif_of (H : Bytes → Bytes) (hH : ∀ m, 4 ≤ (H m).length) (net : Network) (b : Nat) (hb : b < 256) (key : Bytes) (hne : key ≠ []) :
    fromWif H (B58.Btc.encodeCheck H (UInt8.ofNat b :: key)) net =
      if b ≠ net.secretKey then none else if key.length = 33 then mkPrivate (num key.dropLast) net true else mkPrivate (num key) net false := by
  have hd : B58.Btc.decodeCheck H (B58.Btc.encodeCheck H (UInt8.ofNat b :: key)) = some (UInt8.ofNat b :: key) := (B58.C27_check H hH _ _).mpr rfl
  have ht : (UInt8.ofNat b).toNat = b := by rw [UInt8.toNat_ofNat']; omega
  unfold fromWif
  rw [hd]
  simp only [ht, toLong_eq, hne, if_false]

/-- C82. A private key exported in the wallet import format (uncompressed form) and imported for its network is the same key. -/
theorem C82_key (H : Bytes → Bytes) (hH : ∀ m, 4 ≤ (H m).length) (net : Network) (hnet : net ∈ networks) (k : Nat) (h1 : 1 ≤ k) (h2 : k < n) (c : Bool) :
    ∃ wif, (PrivateKey.secp k net c).exportToWif H (some false) = some wif ∧ fromWif H wif net = some (.secp k net false) := by
  have hb : ∀ m ∈ networks, m.secretKey < 256 := by decide
  have hb := hb net hnet
  refine ⟨B58.Btc.encodeCheck H (UInt8.ofNat net.secretKey :: be 32 k), ?_, ?_⟩
  · simp only [PrivateKey.exportToWif, Bool.false_eq_true, if_false, wif_raw h2 net hb, Option.map_some]
  · rw [fromWif_of H hH net _ hb _ (ne_nil_of_length (be_length _ _)), if_neg (by simp), if_neg (by rw [be_length]; decide), num_be _ _ (lt_256 h2), mkPrivate,
      if_pos ⟨h1, h2⟩]

/-- C82 is false for the compressed form: asking for it always raises (`bytes += str`). -/
theorem C82_false_compressed (H : Bytes → Bytes) (k : PrivateKey) : k.exportToWif H (some true) = none := rfl

/-- C82. A wallet node at the root: its text is imported for the wallet's network with the private key of the node. A derived node: exactly for networks with the
byte of the Bitcoin main network. -/
theorem C82_wallet_partial (hm : Bytes → Bytes → Bytes) (hl : ∀ k m, (hm k m).length = 64) (h160 : Bytes → Bytes) (hh : ∀ m, (h160 m).length = 20)
    (H : Bytes → Bytes) (hH : ∀ m, 4 ≤ (H m).length) (seed : Bytes) (net : Network) (hnet : net ∈ networks) (mark : Char) (hk : mark = '\'' ∨ mark = 'p')
    (steps : List Step) (hs : ∀ t ∈ steps, t.1 < 2 ^ 31) {w : Wallet} (hw : atPath hm h160 seed net (pathText 'm' mark steps) = some w) {N : Node}
    (hN : (root hm seed).bind (Node.follow hm h160 steps) = some N) :
    ∃ wif, w.exportToWif H = some wif ∧ ∀ net', fromWif H wif net' =
      if net'.secretKey = (if steps = [] then net else btc).secretKey then some (.secp N.key.k net' true) else none := by
  obtain ⟨N', hN', hr⟩ := repr_at hm hl h160 hh seed net mark hk _ hs hw
  have e : N' = N := by rw [hN] at hN'; exact (Option.some.inj hN').symm
  subst e
  obtain ⟨net3, c3, h3⟩ := hr.priv
  have hnet3 : net3 = if steps = [] then net else btc := by
    rw [atPath, atPath_m hm h160 seed net mark hk] at hw
    cases hf : fromMasterSecret hm seed net false with
    | none => rw [hf] at hw; cases hw
    | some r =>
      rw [hf, Option.bind_some] at hw
      have hroot : r.useEd = false ∧ (∃ k c, r.privateKey = some (.secp k net c)) := by
        have hf' := hf
        unfold fromMasterSecret initWallet at hf'
        simp only [Bool.false_eq_true, if_false] at hf'
        split at hf'
        · cases hf'
        · rename_i priv pub hq
          obtain ⟨h1, h2, P, hP, he⟩ := initKeys_exp_some hq
          obtain ⟨rfl, rfl⟩ := Prod.mk.inj he
          split at hf'
          · rw [← Option.some.inj hf']
            exact ⟨rfl, _, _, rfl⟩
          · cases hf'
      cases steps with
      | nil =>
        rw [List.map_nil, walk] at hw
        rw [← Option.some.inj hw] at h3
        obtain ⟨-, k, c, hk⟩ := hroot
        rw [hk] at h3
        simp at h3
        rw [if_pos rfl, h3.2.1]
      | cons s ss =>
        obtain ⟨⟨k, h1⟩, -⟩ := walk_net hm h160 mark hk s ss hroot.1 hw
        rw [h1] at h3
        simp at h3
        rw [if_neg (by simp), h3.2.1]
  have hin : net3 ∈ networks := by
    rw [hnet3]
    split
    · exact hnet
    · decide
  have hbs : ∀ m ∈ networks, m.secretKey < 256 := by decide
  have hb := hbs net3 hin
  rw [← hnet3]
  refine ⟨B58.Btc.encodeCheck H (UInt8.ofNat net3.secretKey :: (be 32 N'.key.k ++ [1])), ?_, ?_⟩
  · rw [Wallet.exportToWif, h3, Option.bind_some, wif_raw hr.klt net3 hb, Option.map_some]
    rfl
  · intro net'
    rw [fromWif_of H hH net' _ hb _ (by simp)]
    by_cases he : net'.secretKey = net3.secretKey
    · rw [if_neg (by simpa using he.symm), if_pos he, if_pos (by rw [List.length_append, be_length]; rfl), List.dropLast_concat, num_be _ _ (lt_256 hr.klt), mkPrivate,
        if_pos ⟨hr.kpos, hr.klt⟩]
    · rw [if_pos (Ne.symm he), if_neg he]

/-- C82 is false for derived nodes of the other networks: the exported text is rejected for the wallet's own network. -/
theorem C82_false_network (hm : Bytes → Bytes → Bytes) (hl : ∀ k m, (hm k m).length = 64) (h160 : Bytes → Bytes) (hh : ∀ m, (h160 m).length = 20)
    (H : Bytes → Bytes) (hH : ∀ m, 4 ≤ (H m).length) (seed : Bytes) (net : Network) (hnet : net ∈ networks) (hb : net.secretKey ≠ btc.secretKey) (mark : Char)
    (hk : mark = '\'' ∨ mark = 'p') (s : Step) (ss : List Step) (hs : ∀ t ∈ s :: ss, t.1 < 2 ^ 31) {w : Wallet}
    (hw : atPath hm h160 seed net (pathText 'm' mark (s :: ss)) = some w) : ∃ wif, w.exportToWif H = some wif ∧ fromWif H wif net = none := by
  obtain ⟨N, hN, -⟩ := repr_at hm hl h160 hh seed net mark hk _ hs hw
  obtain ⟨wif, h1, h2⟩ := C82_wallet_partial hm hl h160 hh H hH seed net hnet mark hk _ hs hw hN
  refine ⟨wif, h1, ?_⟩
  rw [h2 net, if_neg (by simp only [reduceCtorEq, if_false]; exact hb)]

/-- C82 is false for ed25519 nodes: the exported text is made of the public key; two nodes with the same public key cannot be told apart, and no private key is in it. -/
theorem C82_false_ed25519 (H : Bytes → Bytes) (w : Wallet) (key : Bytes) (k : Int) (hp : w.privateKey = some (.ed key)) (hk : Ed.decodeScalar key = some k) :
    w.exportToWif H = some (B58.Btc.encodeCheck H (Ed.encodePoint (Ed.scalarmultB k) ++ [1])) := by
  simp only [Wallet.exportToWif, hp, Option.bind_some, PrivateKey.getExtendedKey, hk, Option.map_some, unhexlify_hexlify]

/-- C82 is false for the marker of the compressed form: any last byte is accepted, so 256 different texts import as the same key. -/
theorem C82_false_marker (H : Bytes → Bytes) (hH : ∀ m, 4 ≤ (H m).length) (net : Network) (hnet : net ∈ networks) (k : Nat) (h1 : 1 ≤ k) (h2 : k < n) (mark : UInt8) :
    fromWif H (B58.Btc.encodeCheck H (UInt8.ofNat net.secretKey :: (be 32 k ++ [mark]))) net = some (.secp k net true) := by
  have hbs : ∀ m ∈ networks, m.secretKey < 256 := by decide
  rw [fromWif_of H hH net _ (hbs net hnet) _ (by simp), if_neg (by simp), if_pos (by rw [List.length_append, be_length]; rfl), List.dropLast_concat,
    num_be _ _ (lt_256 h2), mkPrivate, if_pos ⟨h1, h2⟩]

/-- C82 has cases: networks with another byte than Bitcoin's. -/
example : doge ∈ networks ∧ doge.secretKey ≠ btc.secretKey ∧ ltc.secretKey ≠ btc.secretKey ∧ btcTest.secretKey ≠ btc.secretKey := by decide

example : ∃ H : Bytes → Bytes, ∀ m, 4 ≤ (H m).length := ⟨fun _ => List.replicate 32 0, fun _ => by simp⟩

/-! ## Recovering a parent's private key -/

theorem crack_eq (hm : Bytes → Bytes → Bytes) (h160 : Bytes → Bytes) {v c : Wallet} {x y : ℤ} {N M : Node} {net : Network} (hv : ReprPub v x y N net)
    (hk1 : 1 ≤ N.key.k) (hk2 : N.key.k < n) (hc : Repr c M net) {net' : Network} {cc : Bool} (hcp : c.privateKey = some (.secp M.key.k net' cc)) {i : ℕ}
    (hi : i < 2 ^ 31) (hM : N.child hm h160 i = some M) (h0 : num ((hm N.key.c (serP (N.key.k • G) ++ be 4 i)).take 32) ≠ 0) :
    (net' = net → ∃ w, v.crack hm h160 c = some w ∧ Repr w N net) ∧ (net' ≠ net → v.crack hm h160 c = none) := by
  have h31 : ¬ 2 ^ 31 ≤ i := by omega
  rw [Node.child] at hM
  simp only [ckdPriv, if_neg h31] at hM
  generalize hIL : num ((hm N.key.c (serP (N.key.k • G) ++ be 4 i)).take 32) = IL at hM h0
  generalize hIR : (hm N.key.c (serP (N.key.k • G) ++ be 4 i)).drop 32 = IR at hM
  by_cases hbad : IL ≥ n ∨ (IL + N.key.k) % n = 0
  · rw [if_pos hbad] at hM; cases hM
  · rw [if_neg hbad] at hM
    push_neg at hbad
    have hM' := Option.some.inj hM
    have m1 : M.key.k = (IL + N.key.k) % n := by rw [← hM']
    have m2 : M.fp = (h160 (serP (N.key.k • G))).take 4 := by rw [← hM']
    have m3 : M.index = i := by rw [← hM']
    have hfp : v.fingerprint h160 = some (hexlify M.fp) := by
      rw [Wallet.fingerprint, hv.pub, pubKey_hex hv.rep, unhexlify_hexlify, Option.map_some, m2]
      exact congrArg some (hexlify_take _ 4)
    have hmsg : unhexlify (v.publicKey.getKey true ++ longToHex c.childNumber 8) = some (serP (N.key.k • G) ++ be 4 i) := by
      have h8 : longToHex i 8 = hexlify (be 4 i) := longToHex_be 4 i (by norm_num; omega)
      rw [hv.pub, pubKey_hex hv.rep, hc.index, m3, h8, unhex_data]
    have hpos : 1 ≤ IL := Nat.one_le_iff_ne_zero.mpr h0
    have hmk : mkPrivate IL net = some (.secp IL net false) := by rw [mkPrivate, if_pos ⟨hpos, hbad.1⟩]
    unfold Wallet.crack
    simp only [hv.priv, Option.isSome_none, Bool.false_eq_true, if_false]
    rw [if_neg (by rw [hfp, hc.fp]; simp), if_neg (by rw [hc.index, m3]; omega), hmsg, hv.chain, unhexlify_hexlify]
    dsimp only
    rw [toLong_eq, hIL, hv.network, hmk, hcp]
    dsimp only
    constructor
    · intro hn
      subst hn
      have hsub : (((M.key.k : ℕ) : ℤ) - (IL : ℕ)) % (n : ℕ) = (N.key.k : ℕ) := by
        rw [m1]
        push_cast
        rw [Int.sub_emod, Int.emod_emod_of_dvd _ (dvd_refl _), ← Int.sub_emod, show ((IL : ℤ) + (N.key.k : ℕ) - IL) = (N.key.k : ℕ) by ring]
        exact Int.emod_eq_of_lt (by omega) (by exact_mod_cast hk2)
      have hps : (PrivateKey.secp M.key.k net' cc).sub (.secp IL net' false) = some (.secp N.key.k net' false) := by
        rw [PrivateKey.sub, if_neg (by simp), hsub, Int.toNat_natCast, mkPrivate, if_pos ⟨hk1, hk2⟩]
      obtain ⟨x', y', hP, hR⟩ := getPublic hk1 hk2 net' false
      have h8 : v.parentFingerprint.length = 8 := by rw [hv.fp, hexlify_length, hv.fplen]
      have h64 : (hexlify N.key.c).length = 64 := by rw [hexlify_length, hv.clen]
      rw [hps]
      dsimp only
      rw [initWallet, initKeys_priv hP]
      simp only [HexArg.h, HexArg.l, h8, h64, ne_eq, not_true_eq_false, if_false]
      exact ⟨_, rfl, rfl, ⟨_, _, rfl⟩, ⟨x', y', _, _, rfl, hR⟩, hk1, hk2, rfl, hv.clen, hv.depth, hv.fp, hv.fplen, hv.index, hv.ilt, rfl⟩
    · intro hn
      have hps : (PrivateKey.secp M.key.k net' cc).sub (.secp IL net false) = none := by rw [PrivateKey.sub, if_pos hn]
      rw [hps]

/-- C83. On the Bitcoin main network: from the public copy of a wallet and one ordinary child with its private key, the private key of the wallet is recovered
(unless the child's offset is zero, which raises). -/
theorem C83_recover_partial (hm : Bytes → Bytes → Bytes) (hl : ∀ k m, (hm k m).length = 64) (h160 : Bytes → Bytes) (hh : ∀ m, (h160 m).length = 20)
    (seed : Bytes) (mark : Char) (hk : mark = '\'' ∨ mark = 'p') (steps : List Step) (hs : ∀ t ∈ steps, t.1 < 2 ^ 31) (hd : steps.length ≤ 255)
    {w v c : Wallet} (hw : atPath hm h160 seed btc (pathText 'm' mark steps) = some w) (hv : w.publicCopy = some v) {i : Nat} (hi : i < 2 ^ 31)
    (hc : w.getChild hm h160 i none true = some c) {N : Node} (hN : (root hm seed).bind (Node.follow hm h160 steps) = some N)
    (h0 : num ((hm N.key.c (serP (N.key.k • G) ++ be 4 i)).take 32) ≠ 0) :
    ∃ w', v.crack hm h160 c = some w' ∧ w'.serialize true = w.serialize true ∧ v.serialize true = none := by
  obtain ⟨N', hN', hr⟩ := repr_at hm hl h160 hh seed btc mark hk _ hs hw
  have e : N' = N := by rw [hN] at hN'; exact (Option.some.inj hN').symm
  subst e
  obtain ⟨v', x, y, hv', hrv⟩ := publicCopy_eq hr
  rw [hv] at hv'
  have := Option.some.inj hv'
  subst this
  have hidx := childIndex_step (i, false) hi
  simp only [Bool.false_eq_true, if_false] at hidx
  have hg := getChild_eq hm hl h160 hh hr i false (by omega) (by simp; omega) (by simpa [Step.index] using hidx)
  cases hM : N'.child hm h160 i with
  | none => rw [hM, hc] at hg; cases hg
  | some M =>
    rw [hM, hc] at hg
    obtain ⟨c', hc', hrc⟩ := hg
    have := Option.some.inj hc'
    subst this
    obtain ⟨⟨k, hkk⟩, -⟩ := getChild_net hm h160 hr.ed hc
    obtain ⟨net', cc, hcp⟩ := hrc.priv
    have hnb : net' = btc := by rw [hkk] at hcp; simp at hcp; exact hcp.2.1.symm
    obtain ⟨w', h1, h2⟩ := (crack_eq hm h160 hrv hr.kpos hr.klt hrc hcp hi hM h0).1 hnb
    have hdep : N'.depth < 256 := by rw [nodeAt_depth hm h160 seed _ hN]; omega
    refine ⟨w', h1, ?_, by simp [Wallet.serialize, hrv.priv]⟩
    rw [serialize_priv hr hdep (by decide), serialize_priv h2 hdep (by decide)]

/-- C83 is false on every other network: the recovery raises, because the keys of derived nodes carry the Bitcoin main network. -/
theorem C83_false (hm : Bytes → Bytes → Bytes) (hl : ∀ k m, (hm k m).length = 64) (h160 : Bytes → Bytes) (hh : ∀ m, (h160 m).length = 20)
    (seed : Bytes) (net : Network) (hnet : net ≠ btc) (mark : Char) (hk : mark = '\'' ∨ mark = 'p') (steps : List Step) (hs : ∀ t ∈ steps, t.1 < 2 ^ 31)
    {w v c : Wallet} (hw : atPath hm h160 seed net (pathText 'm' mark steps) = some w) (hv : w.publicCopy = some v) {i : Nat} (hi : i < 2 ^ 31)
    (hc : w.getChild hm h160 i none true = some c) {N : Node} (hN : (root hm seed).bind (Node.follow hm h160 steps) = some N)
    (h0 : num ((hm N.key.c (serP (N.key.k • G) ++ be 4 i)).take 32) ≠ 0) : v.crack hm h160 c = none := by
  obtain ⟨N', hN', hr⟩ := repr_at hm hl h160 hh seed net mark hk _ hs hw
  have e : N' = N := by rw [hN] at hN'; exact (Option.some.inj hN').symm
  subst e
  obtain ⟨v', x, y, hv', hrv⟩ := publicCopy_eq hr
  rw [hv] at hv'
  have := Option.some.inj hv'
  subst this
  have hidx := childIndex_step (i, false) hi
  simp only [Bool.false_eq_true, if_false] at hidx
  have hg := getChild_eq hm hl h160 hh hr i false (by omega) (by simp; omega) (by simpa [Step.index] using hidx)
  cases hM : N'.child hm h160 i with
  | none => rw [hM, hc] at hg; cases hg
  | some M =>
    rw [hM, hc] at hg
    obtain ⟨c', hc', hrc⟩ := hg
    have := Option.some.inj hc'
    subst this
    obtain ⟨⟨k, hkk⟩, -⟩ := getChild_net hm h160 hr.ed hc
    obtain ⟨net', cc, hcp⟩ := hrc.priv
    have hnb : net' = btc := by rw [hkk] at hcp; simp at hcp; exact hcp.2.1.symm
    exact (crack_eq hm h160 hrv hr.kpos hr.klt hrc hcp hi hM h0).2 (by rw [hnb]; exact hnet.symm)

/-- C83. A wallet that has its private key, and a hardened child, are refused. -/
theorem C83_refused (hm : Bytes → Bytes → Bytes) (h160 : Bytes → Bytes) (w c : Wallet) (h : w.privateKey.isSome = true ∨ 2 ^ 31 ≤ c.childNumber) :
    w.crack hm h160 c = none := by
  unfold Wallet.crack
  rcases h with h | h
  · rw [if_pos h]
  · split
    · rfl
    · split
      · rfl
      · rw [if_pos (by omega)]

/-- C83 has cases. -/
example : ∃ (hm : Bytes → Bytes → Bytes) (h160 : Bytes → Bytes), (∀ k m, (hm k m).length = 64) ∧ (∀ m, (h160 m).length = 20) ∧
    ∃ N, (root hm [5]).bind (Node.follow hm h160 [(44, true), (0, false)]) = some N ∧ (N.child hm h160 3).isSome ∧
      num ((hm N.key.c (serP (N.key.k • G) ++ be 4 3)).take 32) ≠ 0 := by
  refine ⟨Demo.hm, Demo.h160, Demo.hm_length, Demo.h160_length, _, Demo.follow_eq [5], ?_, ?_⟩
  · rw [Demo.child_eq _ (by decide +kernel)]; rfl
  · rw [Demo.hm_num]; decide

end Verif.Hd

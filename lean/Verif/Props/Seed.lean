import Verif.Lemmas.Seed
import Verif.Props.Bip

/-! Wallet seeds: C84, C85. -/

namespace Verif.Seed
open Verif Hd HdSpec
open Verif.Mnemonic (hexlify words)

/-- The digests have the right lengths. -/
structure Outside.Ok (o : Outside) : Prop where
  hm : ∀ k m, (o.hm k m).length = 64
  h160 : ∀ m, (o.h160 m).length = 20
  sha256 : ∀ m, (o.sha256 m).length = 32
  keccak : ∀ m, (o.keccak m).length = 32

theorem path44 : "m/44'/128'/0'/0/0".toList = pathText 'm' '\'' [(44, true), (128, true), (0, true), (0, false), (0, false)] := by decide +kernel
theorem path44s : "m/44'/128'/0'".toList = pathText 'm' '\'' ([44, 128, 0].map fun i => (i, true)) := by decide +kernel

/-- The node of a path, and its private key. -/
theorem node_key (o : Outside) (ho : o.Ok) (seed : Bytes) (mark : Char) (hk : mark = '\'' ∨ mark = 'p') (steps : List Step) (hs : ∀ s ∈ steps, s.1 < 2 ^ 31) :
    match (root o.hm seed).bind (Node.follow o.hm o.h160 steps) with
    | none => (fromMasterSecret o.hm seed xmr false).bind (fun wl => (wl.getChildForPath o.hm o.h160 (pathText 'm' mark steps)).bind fun data =>
        data.privateKey.bind fun k => unhexlify k.getKey) = none
    | some N => (fromMasterSecret o.hm seed xmr false).bind (fun wl => (wl.getChildForPath o.hm o.h160 (pathText 'm' mark steps)).bind fun data =>
        data.privateKey.bind fun k => unhexlify k.getKey) = some (be 32 N.key.k) := by
  have h := C79_derivation o.hm ho.hm o.h160 ho.h160 seed xmr mark hk steps hs
  have e : (fromMasterSecret o.hm seed xmr false).bind (fun wl => (wl.getChildForPath o.hm o.h160 (pathText 'm' mark steps)).bind fun data =>
        data.privateKey.bind fun k => unhexlify k.getKey) =
      (atPath o.hm o.h160 seed xmr (pathText 'm' mark steps)).bind fun data => data.privateKey.bind fun k => unhexlify k.getKey := by
    rw [atPath, Option.bind_assoc]
  rw [e]
  cases hN : (root o.hm seed).bind (Node.follow o.hm o.h160 steps) with
  | none => rw [hN] at h; dsimp only at h ⊢; rw [h]; rfl
  | some N =>
    rw [hN] at h
    obtain ⟨w, hw, hp, -⟩ := h
    dsimp only
    rw [hw, Option.bind_some]
    obtain ⟨k, hk1, hk2⟩ := Option.map_eq_some_iff.1 hp
    rw [hk1, Option.bind_some, hk2, unhexlify_hexlify]

theorem setSeed_bip44 (o : Outside) (seed : Bytes) (path : List Char) : setSeed o seed (some path) false =
    ((fromMasterSecret o.hm seed xmr false).bind fun wl => (wl.getChildForPath o.hm o.h160 path).bind fun data =>
        data.privateKey.bind fun k => unhexlify k.getKey).bind fun pre => setMoneroSeed o (o.keccak pre) := by
  simp only [setSeed, Option.getD_some, Option.bind_assoc, Bool.false_eq_true, if_false]

/-- C84. Keys from a seed: the private key BIP32 derives at the path is hashed, and the hash is the master secret of a Monero wallet. There is no result
exactly when BIP32 has no key at the path. -/
theorem C84_seed_standard (o : Outside) (ho : o.Ok) (seed : Bytes) (mark : Char) (hk : mark = '\'' ∨ mark = 'p') (steps : List Step)
    (hs : ∀ s ∈ steps, s.1 < 2 ^ 31) :
    match (root o.hm seed).bind (Node.follow o.hm o.h160 steps) with
    | none => setSeed o seed (some (pathText 'm' mark steps)) false = none
    | some N => ∃ sd, setSeed o seed (some (pathText 'm' mark steps)) false = some sd ∧ Standard o.keccak (o.keccak (be 32 N.key.k)) sd := by
  have h := node_key o ho seed mark hk steps hs
  rw [setSeed_bip44]
  cases hN : (root o.hm seed).bind (Node.follow o.hm o.h160 steps) with
  | none => rw [hN] at h; dsimp only at h ⊢; rw [h]; rfl
  | some N =>
    rw [hN] at h
    dsimp only at h ⊢
    rw [h, Option.bind_some]
    exact setMoneroSeed_standard o ho.keccak _ (ho.keccak _)

/-- C84. Without a path it is `m/44'/128'/0'/0/0`, or `m/44'/128'/0'` for SLIP-0010. -/
theorem C84_default_path (o : Outside) (seed : Bytes) :
    setSeed o seed none false = setSeed o seed (some (pathText 'm' '\'' [(44, true), (128, true), (0, true), (0, false), (0, false)])) false ∧
    setSeed o seed none true = setSeed o seed (some (pathText 'm' '\'' ([44, 128, 0].map fun i => (i, true)))) true := by
  rw [← path44, ← path44s]
  exact ⟨rfl, rfl⟩

theorem setSeed_slip (o : Outside) (seed : Bytes) (path : List Char) : setSeed o seed (some path) true =
    ((fromMasterSecret o.hm seed xmr true).bind fun wl => (wl.getChildForPath o.hm o.h160 path).bind fun data =>
        data.privateKey.bind fun k => unhexlify k.getKey).bind fun pre => (Ed.decodeScalar pre).bind fun s => setMoneroSeed o (Ed.encodeInt s) := by
  simp only [setSeed, Option.getD_some, Option.bind_assoc, if_true]

theorem slip_path (o : Outside) (w : Wallet) (mark : Char) (hk : mark = '\'' ∨ mark = 'p') (is : List Nat) :
    w.getChildForPath o.hm o.h160 (pathText 'm' mark (is.map fun i => (i, true))) = walk o.hm o.h160 (is.map fun i => stepText mark (i, true)) w := by
  rw [getChildForPath_eq o.hm o.h160 w mark hk 'm' (.inl rfl), List.map_map]
  simp only [if_true]
  exact Option.bind_fun_some _

/-- C84, with SLIP-0010: the key SLIP-0010 derives for ed25519 along a path of hardened steps is, modulo the group order, the master secret of a Monero
wallet. Missing: the master key has to be a possible key of secp256k1 (below its order and not zero), and no later key may be a multiple of the order of
the ed25519 group; SLIP-0010 has no such conditions. -/
theorem C84_slip_standard_partial (o : Outside) (ho : o.Ok) (seed : Bytes) (mark : Char) (hk : mark = '\'' ∨ mark = 'p') (is : List Nat)
    (hi : ∀ i ∈ is, i < 2 ^ 31) (h1 : 1 ≤ num (slipMaster o.hm seed).1) (h2 : num (slipMaster o.hm seed).1 < Secp.n)
    (hz : ∀ j < is.length, (Key.number (slipFollow o.hm (is.take (j + 1)) (slipMaster o.hm seed)).1 : ℤ) % Ed.l ≠ 0) :
    ∃ sd master, setSeed o seed (some (pathText 'm' mark (is.map fun i => (i, true)))) true = some sd ∧ master.length = 32 ∧
      (Key.number master : ℤ) = Key.number (slipFollow o.hm is (slipMaster o.hm seed)).1 % Ed.l ∧ Standard o.keccak master sd := by
  obtain ⟨w, hw, hr⟩ := (fromMaster_slip o.hm ho.hm seed xmr).2 h1 h2
  obtain ⟨v, hv, hrv⟩ := (walk_slip o.hm ho.hm o.h160 ho.h160 mark hk is hi hr).1 hz
  obtain ⟨k, hk1, hk2⟩ := hrv.priv
  obtain ⟨e1, e2⟩ := number_encodeInt (mod_l (Key.number (slipFollow o.hm is (slipMaster o.hm seed)).1)).1
    (mod_l (Key.number (slipFollow o.hm is (slipMaster o.hm seed)).1)).2
  obtain ⟨sd, hsd, hst⟩ := setMoneroSeed_standard o ho.keccak _ e1
  refine ⟨sd, _, ?_, e1, e2, hst⟩
  rw [setSeed_slip, hw, Option.bind_some, slip_path o w mark hk, hv, Option.bind_some, hk1, Option.bind_some, hk2, unhexlify_hexlify, Option.bind_some,
    decodeScalar_number hrv.klen, Option.bind_some, hsd]

/-- C84 is false with SLIP-0010: a seed whose master key is not a possible key of secp256k1, a curve that is not used at all, is refused; so is a path with a
key that is a multiple of the group order, and a path with a step that is not hardened. -/
theorem C84_slip_false (o : Outside) (ho : o.Ok) (seed : Bytes) :
    (∀ path, (num (slipMaster o.hm seed).1 = 0 ∨ Secp.n ≤ num (slipMaster o.hm seed).1) → setSeed o seed path true = none) ∧
    (∀ (mark : Char) (is : List Nat), (mark = '\'' ∨ mark = 'p') → (∀ i ∈ is, i < 2 ^ 31) →
      (∃ j < is.length, (Key.number (slipFollow o.hm (is.take (j + 1)) (slipMaster o.hm seed)).1 : ℤ) % Ed.l = 0) →
      setSeed o seed (some (pathText 'm' mark (is.map fun i => (i, true)))) true = none) ∧
    (∀ (mark : Char) (i : Nat), (mark = '\'' ∨ mark = 'p') → setSeed o seed (some (pathText 'm' mark [(i, false)])) true = none) := by
  refine ⟨?_, ?_, ?_⟩
  · intro path h
    rw [setSeed, (fromMaster_slip o.hm ho.hm seed xmr).1 h]
    rfl
  · intro mark is hk hi h
    rw [setSeed_slip]
    by_cases hc : num (slipMaster o.hm seed).1 = 0 ∨ Secp.n ≤ num (slipMaster o.hm seed).1
    · rw [(fromMaster_slip o.hm ho.hm seed xmr).1 hc]; rfl
    · push_neg at hc
      obtain ⟨w, hw, hr⟩ := (fromMaster_slip o.hm ho.hm seed xmr).2 (Nat.one_le_iff_ne_zero.2 hc.1) hc.2
      rw [hw, Option.bind_some, slip_path o w mark hk, (walk_slip o.hm ho.hm o.h160 ho.h160 mark hk is hi hr).2 h]
      rfl
  · intro mark i hk
    rw [setSeed_slip]
    by_cases hc : num (slipMaster o.hm seed).1 = 0 ∨ Secp.n ≤ num (slipMaster o.hm seed).1
    · rw [(fromMaster_slip o.hm ho.hm seed xmr).1 hc]; rfl
    · push_neg at hc
      obtain ⟨w, hw, hr⟩ := (fromMaster_slip o.hm ho.hm seed xmr).2 (Nat.one_le_iff_ne_zero.2 hc.1) hc.2
      have : walk o.hm o.h160 [stepText mark (i, false)] w = none := by
        have hne : ¬ (stepText mark (i, false) = ['m'] ∨ stepText mark (i, false) = ['M']) := by simp [stepText_m mark (i, false)]
        rw [walk, if_neg hne, parsePart_step mark hk]
        dsimp only
        rw [if_neg (by decide), getChild_slip_ordinary o.hm o.h160 hr i]
      rw [hw, Option.bind_some, getChildForPath_eq o.hm o.h160 w mark hk 'm' (.inl rfl), List.map_cons, List.map_nil, this]
      rfl

theorem split_texts {ws : List Nat} (hne : ws ≠ []) (h : ∀ w ∈ ws, w ∈ words) :
    splitSpace (joinSpace (ws.map (wordText 12))) = ws.map (wordText 12) := by
  apply splitSpace_join
  · intro he; exact hne (List.map_eq_nil_iff.1 he)
  · intro t ht
    apply solid_of_lower
    rw [lower_small (texts_small ws h t ht)]
    exact texts_small ws h t ht

/-- C84. The words shown for a master secret restore it and all keys, on one line or on several, in capital or small letters. -/
theorem C84_words_restore (o : Outside) (ho : o.Ok) (master : Bytes) (hm : master.length = 32) {sd : Sd} (h : setMoneroSeed o master = some sd)
    {lines : List (List Char)} (hl : Spelled (splitSpace sd.electrumWords) lines) : fromMoneroMnemonics o (.list lines) = some sd := by
  obtain ⟨sd', h', hst⟩ := setMoneroSeed_standard o ho.keccak master hm
  have he := Option.some.inj (h.symm.trans h')
  subst he
  obtain ⟨last, hlast, hw⟩ := hst.words
  have hmem : ∀ w ∈ Mnemonic.standard master ++ [last], w ∈ words := by
    intro w hw
    rcases List.mem_append.1 hw with hw | hw
    · exact standard_mem master w hw
    · rw [List.mem_singleton.1 hw]; exact standard_mem master last hlast
  rw [hw, split_texts (by simp) hmem] at hl
  rw [← h]
  exact fromWords o master 8 (by omega) [last] (by simp) (by intro w hw; rw [List.mem_singleton.1 hw]; exact standard_mem master last hlast) hl

/-- C84. But the words have to come as a list: the text that is shown is itself refused, like every text. -/
theorem C84_false_text (o : Outside) (s : List Char) : fromMoneroMnemonics o (.text s) = none := by
  have : Mnemonic.decode o.crc o.prefixOf ((cleanInput (.text s)).map moneroWord) = some [] := by
    have hl : ∀ x : Nat, Mnemonic.decode o.crc o.prefixOf [x] = some [] := by
      intro x
      have hn : ¬ Mnemonic.n % 3 = 1 := by decide
      have hz : [x].length / 3 = 0 := by rw [List.length_singleton]
      rw [Mnemonic.decode, if_neg hn, hz, Mnemonic.decodeGroups]
    exact hl _
  rw [fromMoneroMnemonics, this]
  rfl

/-- C84. Mnemonic words: the password is the words separated by single spaces in small letters, the salt "mnemonic" and the passphrase, as in BIP39 (for
ASCII; the Unicode normalization BIP39 asks for is missing). -/
theorem C84_mnemonics (o : Outside) (ws lines : List (List Char)) (hw : ∀ w ∈ ws, small w = true) (hl : Spelled ws lines) (pass : Bytes)
    (path : Option (List Char)) (slip : Bool) :
    fromMnemonics o (.list lines) false pass path slip = setSeed o (o.pbkdf2 (utf8 (joinSpace ws)) (ascii "mnemonic" ++ pass)) path slip := by
  have : ascii "mnemonic" = [0x6d, 0x6e, 0x65, 0x6d, 0x6f, 0x6e, 0x69, 0x63] := by decide +kernel
  rw [fromMnemonics, cleanInput_spelled hw hl, this]
  rfl

/-- C84. A passphrase cannot be lost: with words read as numbers, where it has no place, the call raises instead of ignoring it. -/
theorem C84_indices_passphrase (o : Outside) (inp : Input) (pass : Bytes) (hp : pass ≠ []) (path : Option (List Char)) (slip : Bool) :
    fromMnemonics o inp true pass path slip = none := by
  rw [fromMnemonics, if_pos rfl, if_pos hp]

/-! ## The wallet generator -/

theorem indices_texts : ∀ is : List Nat, (∀ i ∈ is, i < 2048) →
    ∃ ts, is.mapM (fun i => englishTexts[i]?) = some ts ∧ ts.mapM (fun x => englishTexts.idxOf? x) = some is ∧ ts.length = is.length ∧
      ∀ t ∈ ts, small t = true
  | [], _ => ⟨[], rfl, rfl, rfl, by simp⟩
  | i :: is, h => by
    obtain ⟨t, h1, h2, h3, -⟩ := english_index i (h i List.mem_cons_self)
    obtain ⟨ts, h4, h5, h6, h7⟩ := indices_texts is fun j hj => h j (List.mem_cons_of_mem _ hj)
    refine ⟨t :: ts, ?_, ?_, by simp [h6], ?_⟩
    · rw [List.mapM_cons, h1, h4]; rfl
    · rw [List.mapM_cons, h2, h5]; rfl
    · intro u hu
      rcases List.mem_cons.1 hu with rfl | hu
      · exact h3
      · exact h7 u hu

/-- The wallet of a seed keeps the seed. -/
theorem keeps_seed (hm : Bytes → Bytes → Bytes) (seed : Bytes) (net : Network) {w : Wallet} (h : fromMasterSecret hm seed net false = some w) :
    w.seedSecret = some seed := by
  simp only [fromMasterSecret, initWallet] at h
  split at h
  · cases h
  · split at h
    · rw [← Option.some.inj h]
    · cases h

/-- Everything `create_wallet` computes. -/
theorem createWallet_eq (o : Outside) (ho : o.Ok) (H : Bytes → Bytes) (seed : Bytes) :
    match (root o.hm seed).bind (Node.follow o.hm o.h160 [(44, true), (128, true), (0, true), (0, false), (0, false)]) with
    | none => createWallet o H seed = none
    | some N => ∃ g ts is, createWallet o H seed = some g ∧ g.seed = seed ∧ g.moneroSeed = o.keccak (be 32 N.key.k) ∧
        Key.moneroKeys o.keccak g.moneroSeed = some (g.spendSec, g.spendPub, g.viewSec, g.viewPub) ∧
        g.moneroWords = joinSpace ((Mnemonic.standard g.moneroSeed).map (wordText 12)) ∧ g.bip39Words = joinSpace ts ∧
        is = Bip.bytesToIndices (seed ++ (o.sha256 seed).take 1) ∧ is.mapM (fun i => englishTexts[i]?) = some ts := by
  have h := node_key o ho seed '\'' (.inl rfl) [(44, true), (128, true), (0, true), (0, false), (0, false)] (by decide)
  rw [← path44] at h
  unfold createWallet
  cases hw : fromMasterSecret o.hm seed xmr false with
  | none =>
    rw [hw] at h
    cases hN : (root o.hm seed).bind (Node.follow o.hm o.h160 [(44, true), (128, true), (0, true), (0, false), (0, false)]) with
    | none => rfl
    | some N => rw [hN] at h; cases h
  | some w =>
    rw [hw, Option.bind_some] at h
    have hne : seed ++ (o.sha256 seed).take 1 ≠ [] := by
      intro he
      have := congrArg List.length he
      simp [ho.sha256] at this
    obtain ⟨ts, t1, t2, t3, t4⟩ := indices_texts (Bip.bytesToIndices (seed ++ (o.sha256 seed).take 1)) (Bip.C30_exact _ hne).1
    have hts : toSeedWords o w = some ts := by rw [toSeedWords, keeps_seed _ _ _ hw, Option.bind_some]; exact t1
    have hroot := fromMaster_eq o.hm ho.hm seed xmr
    obtain ⟨b58, hb58⟩ : ∃ b58, w.serializeB58 H true = some b58 := by
      cases hR : root o.hm seed with
      | none => rw [hR, hw] at hroot; cases hroot
      | some R =>
        rw [hR, hw] at hroot
        obtain ⟨v, hv, hr, -⟩ := hroot
        rw [← Option.some.inj hv] at hr
        have hd : R.depth < 256 := by
          unfold root at hR
          obtain ⟨x, _, rfl⟩ := Option.map_eq_some_iff.1 hR
          exact Nat.zero_lt_succ _
        have s1 := serialize_priv hr hd (by decide)
        exact ⟨_, by rw [Wallet.serializeB58, s1, Option.bind_some, unhexlify_hexlify, Option.map_some]⟩
    rw [Option.bind_some, hts, Option.bind_some, hb58, Option.bind_some]
    cases hN : (root o.hm seed).bind (Node.follow o.hm o.h160 [(44, true), (128, true), (0, true), (0, false), (0, false)]) with
    | none =>
      rw [hN] at h
      dsimp only at h ⊢
      cases hc : w.getChildForPath o.hm o.h160 "m/44'/128'/0'/0/0".toList with
      | none => rfl
      | some data =>
        rw [hc, Option.bind_some] at h
        rw [Option.bind_some]
        cases hp : data.privateKey with
        | none => rfl
        | some k =>
          rw [hp, Option.bind_some] at h
          rw [Option.bind_some, h]
          rfl
    | some N =>
      rw [hN] at h
      dsimp only at h ⊢
      obtain ⟨data, hc, h⟩ := Option.bind_eq_some_iff.1 h
      obtain ⟨k, hp, h⟩ := Option.bind_eq_some_iff.1 h
      rw [hc, Option.bind_some, hp, Option.bind_some, h, Option.bind_some, Mnemonic.C28_standard, Option.bind_some]
      obtain ⟨ks, hks, -⟩ := keys_standard o.keccak ho.keccak _ (ho.keccak (be 32 N.key.k))
      rw [hks, Option.map_some]
      exact ⟨_, ts, _, rfl, rfl, rfl, hks, rfl, rfl, rfl, t1⟩

/-- The same keys. -/
def Same (g : Generated) (sd : Sd) : Prop :=
  sd.moneroMaster = g.moneroSeed ∧ sd.spendSec = g.spendSec ∧ sd.spendPub = g.spendPub ∧ sd.viewSec = g.viewSec ∧ sd.viewPub = g.viewPub

theorem setMoneroSeed_of_keys (o : Outside) {master : Bytes} (h : 4 ≤ master.length) {k : Int × Ed.Ext × Int × Ed.Ext}
    (hk : Key.moneroKeys o.keccak master = some k) :
    ∃ sd, setMoneroSeed o master = some sd ∧ sd.moneroMaster = master ∧ sd.spendSec = k.1 ∧ sd.spendPub = k.2.1 ∧ sd.viewSec = k.2.2.1 ∧ sd.viewPub = k.2.2.2 := by
  obtain ⟨last, -, he⟩ := encode_sum o.crc master h
  refine ⟨_, by rw [setMoneroSeed, he, Option.bind_some, hk, Option.map_some], rfl, rfl, rfl, rfl, rfl⟩

/-- C85. A new wallet is the standard one of its random seed, and its seed in hex, its Monero words and its account file restore it. -/
theorem C85_restore_partial (o : Outside) (ho : o.Ok) (H : Bytes → Bytes) (seed : Bytes) {g : Generated} (hg : createWallet o H seed = some g) :
    (∃ sd, setSeed o g.seed none false = some sd ∧ Same g sd) ∧
    (∀ lines, Spelled (splitSpace g.moneroWords) lines → ∃ sd, fromMoneroMnemonics o (.list lines) = some sd ∧ Same g sd) ∧
    openAccount g.file = some (g.spendSec, g.viewSec) := by
  have h := createWallet_eq o ho H seed
  have hst := C84_seed_standard o ho seed '\'' (.inl rfl) [(44, true), (128, true), (0, true), (0, false), (0, false)] (by decide)
  cases hN : (root o.hm seed).bind (Node.follow o.hm o.h160 [(44, true), (128, true), (0, true), (0, false), (0, false)]) with
  | none => rw [hN, hg] at h; cases h
  | some N =>
    rw [hN, hg] at h
    obtain ⟨g', ts, is, h1, h2, h3, h4, h5, -⟩ := h
    have h1' := Option.some.inj h1
    subst h1'
    have hlen : g.moneroSeed.length = 32 := by rw [h3]; exact ho.keccak _
    obtain ⟨sd, hsd, a1, a2, a3, a4, a5⟩ := setMoneroSeed_of_keys o (by omega : 4 ≤ g.moneroSeed.length) h4
    refine ⟨⟨sd, ?_, a1, a2, a3, a4, a5⟩, ?_, ?_⟩
    · rw [hN] at hst
      obtain ⟨sd', e1, e2⟩ := hst
      rw [(C84_default_path o g.seed).1, h2, setSeed_bip44]
      have hn := node_key o ho seed '\'' (.inl rfl) [(44, true), (128, true), (0, true), (0, false), (0, false)] (by decide)
      rw [hN] at hn
      dsimp only at hn
      rw [hn, Option.bind_some, ← h3, hsd]
    · intro lines hl
      rw [h5, split_texts _ (standard_mem _)] at hl
      · refine ⟨sd, ?_, a1, a2, a3, a4, a5⟩
        rw [← hsd]
        exact fromWords o g.moneroSeed 8 (by omega) [] (by simp) (by simp) (by rw [List.append_nil]; exact hl)
      · intro he
        have := standard_length g.moneroSeed
        rw [he, hlen] at this
        simp at this
    · obtain ⟨ks, hks, k1, ⟨w, -, -, k2⟩, -⟩ := keys_standard o.keccak ho.keccak _ hlen
      rw [h4] at hks
      have e := Option.some.inj hks
      rw [← e] at k1 k2
      dsimp only at k1 k2
      have c1 := number_encodeInt (s := g.spendSec) (by rw [k1]; exact (mod_l _).1) (by rw [k1]; exact (mod_l _).2)
      have c2 := number_encodeInt (s := g.viewSec) (by rw [k2]; exact (mod_l _).1) (by rw [k2]; exact (mod_l _).2)
      rw [openAccount, Generated.file]
      dsimp only
      rw [unhexlify_hexlify, Option.bind_some, decodeScalar_number c1.1, Option.bind_some, unhexlify_hexlify, Option.bind_some, decodeScalar_number c2.1,
        Option.map_some, c1.2, c2.2, Int.emod_eq_of_lt (by rw [k1]; exact (mod_l _).1) (by rw [k1]; exact (mod_l _).2),
        Int.emod_eq_of_lt (by rw [k2]; exact (mod_l _).1) (by rw [k2]; exact (mod_l _).2)]

/-- C85 is false for the BIP39 words of a new wallet: the restoring code makes a wallet of other seeds from them. Read as indices they give the seed with the
checksum byte behind it, 33 bytes; read as mnemonics they are the password from which the seed is derived. -/
theorem C85_false_words (o : Outside) (ho : o.Ok) (H : Bytes → Bytes) (seed : Bytes) (hs : seed.length = 32) {g : Generated}
    (hg : createWallet o H seed = some g) {lines : List (List Char)} (hl : Spelled (splitSpace g.bip39Words) lines) (path : Option (List Char)) (slip : Bool) :
    fromMnemonics o (.list lines) true [] path slip = setSeed o (seed ++ (o.sha256 seed).take 1) path slip ∧
    fromMnemonics o (.list lines) false [] path slip = setSeed o (o.pbkdf2 (utf8 g.bip39Words) (ascii "mnemonic")) path slip := by
  have h := createWallet_eq o ho H seed
  cases hN : (root o.hm seed).bind (Node.follow o.hm o.h160 [(44, true), (128, true), (0, true), (0, false), (0, false)]) with
  | none => rw [hN, hg] at h; cases h
  | some N =>
    rw [hN, hg] at h
    obtain ⟨g', ts, is, h1, -, -, -, -, h6, h7, h8⟩ := h
    have h1' := Option.some.inj h1
    subst h1'
    obtain ⟨c, hc⟩ : ∃ c, (o.sha256 seed).take 1 = [c] := by
      have := ho.sha256 seed
      match hx : o.sha256 seed, this with
      | c :: cs, _ => exact ⟨c, rfl⟩
    have hne : seed ++ (o.sha256 seed).take 1 ≠ [] := by rw [hc]; simp
    obtain ⟨ts', t1, t2, t3, t4⟩ := indices_texts is (by rw [h7]; exact (Bip.C30_exact _ hne).1)
    rw [h8] at t1
    have e := Option.some.inj t1
    subst e
    have hback : Bip.indicesToBytes is = some (seed ++ (o.sha256 seed).take 1) := by rw [h7, hc]; exact (Bip.C30_word_seed seed c).2 hs
    have hts : ts ≠ [] := by
      rintro rfl
      have : is = [] := List.length_eq_zero_iff.1 t3.symm
      rw [this] at hback
      cases hback
    have hsolid : ∀ w ∈ ts, solid w := by
      intro w hw
      apply solid_of_lower
      rw [lower_small (t4 w hw)]
      exact t4 w hw
    rw [h6, splitSpace_join hts hsolid] at hl
    constructor
    · rw [fromMnemonics, cleanInput_spelled t4 hl]
      simp only [if_true, ne_eq, not_true_eq_false, if_false]
      rw [t2, Option.bind_some, hback, Option.bind_some]
    · rw [C84_mnemonics o ts lines t4 hl, h6, List.append_nil]

/-! ## Cases -/

theorem spelled_self {ts : List (List Char)} (hts : ts ≠ []) (h : ∀ t ∈ ts, small t = true) : Spelled (splitSpace (joinSpace ts)) [joinSpace ts] := by
  have hsolid : ∀ w ∈ ts, solid w := by
    intro w hw
    apply solid_of_lower
    rw [lower_small (h w hw)]
    exact h w hw
  refine ⟨[ts], by simpa using hts, rfl, ?_⟩
  rw [splitSpace_join hts hsolid, List.flatten_singleton]
  conv_rhs => rw [← List.map_id ts]
  exact List.map_congr_left fun t ht => lower_small (h t ht)

/-- The printed lines are spellings of their words. -/
theorem printed (o : Outside) (ho : o.Ok) (H : Bytes → Bytes) (seed : Bytes) {g : Generated} (hg : createWallet o H seed = some g) :
    Spelled (splitSpace g.bip39Words) [g.bip39Words] ∧ Spelled (splitSpace g.moneroWords) [g.moneroWords] := by
  have h := createWallet_eq o ho H seed
  cases hN : (root o.hm seed).bind (Node.follow o.hm o.h160 [(44, true), (128, true), (0, true), (0, false), (0, false)]) with
  | none => rw [hN, hg] at h; cases h
  | some N =>
    rw [hN, hg] at h
    obtain ⟨g', ts, is, h1, -, h3, -, h5, h6, h7, h8⟩ := h
    have h1' := Option.some.inj h1
    subst h1'
    have hne : seed ++ (o.sha256 seed).take 1 ≠ [] := by
      intro he
      have := congrArg List.length he
      simp [ho.sha256] at this
    obtain ⟨ts', t1, t2, t3, t4⟩ := indices_texts is (by rw [h7]; exact (Bip.C30_exact _ hne).1)
    rw [h8] at t1
    have e := Option.some.inj t1
    subst e
    constructor
    · rw [h6]
      refine spelled_self ?_ t4
      rintro rfl
      have hz : is = [] := List.length_eq_zero_iff.1 t3.symm
      rw [hz] at h7
      have h0 := (Bip.C30_exact _ hne).2
      rw [← h7] at h0
      cases h0
    · rw [h5]
      refine spelled_self ?_ (texts_small _ (standard_mem _))
      intro he
      have h0 := standard_length g.moneroSeed
      rw [List.map_eq_nil_iff.1 he, h3, ho.keccak] at h0
      simp at h0

namespace Demo

/-- A stand-in for HMAC-SHA512: the left half is a number that depends on the lengths. -/
def left (k m : Bytes) : UInt8 := if k.length = 12 then (if m.length = 32 then 1 else if m.length = 33 then 2 else 3) else 1

def hm (k m : Bytes) : Bytes := List.replicate 31 0 ++ (left k m :: List.replicate 32 7)

/-- Stand-ins for the other functions. -/
def out : Outside where
  hm := hm
  h160 _ := List.replicate 20 9
  sha256 _ := List.replicate 32 5
  pbkdf2 _ _ := List.replicate 64 4
  keccak m := if m.length = 32 then m.reverse else List.replicate 32 0
  crc _ := 0
  prefixOf w := w

theorem out_ok : out.Ok where
  hm k m := by show (List.replicate 31 0 ++ (left k m :: List.replicate 32 7)).length = 64; simp
  h160 m := List.length_replicate
  sha256 m := List.length_replicate
  keccak m := by
    show (if m.length = 32 then m.reverse else List.replicate 32 0).length = 32
    split
    · rw [List.length_reverse]; assumption
    · exact List.length_replicate

theorem num_left (b : UInt8) : num ((List.replicate 31 (0 : UInt8) ++ (b :: List.replicate 32 7)).take 32) = b.toNat := by
  have : (List.replicate 31 (0 : UInt8) ++ (b :: List.replicate 32 7)).take 32 = List.replicate 31 (0 : UInt8) ++ [b] := by
    rw [List.take_append]; rfl
  rw [this, num, List.foldl_append]
  have h0 : (List.replicate 31 (0 : UInt8)).foldl (fun a x => a * 256 + x.toNat) 0 = 0 := by decide +kernel
  rw [h0]
  simp

theorem hm_drop (k m : Bytes) : (hm k m).drop 32 = List.replicate 32 7 := by
  show (List.replicate 31 (0 : UInt8) ++ (left k m :: List.replicate 32 7)).drop 32 = _
  rw [List.drop_append]
  rfl

theorem root_eq (seed : Bytes) (j : Nat) (hj : (left (ascii "Bitcoin seed") seed).toNat = j) (h : 0 < j ∧ j < 4) :
    root hm seed = some ⟨⟨j, List.replicate 32 7⟩, 0, [0, 0, 0, 0], 0⟩ := by
  have hn : num ((hm (ascii "Bitcoin seed") seed).take 32) = j := by rw [← hj]; exact num_left _
  have h4 : 4 < Secp.n := by decide +kernel
  have h1 : ¬ (j = 0 ∨ j ≥ Secp.n) := by omega
  simp only [root, master, hn, if_neg h1, hm_drop, Option.map_some]

theorem child_eq (N : Node) (h : N.key.k < 100) (hc : N.key.c = List.replicate 32 7) (i : Nat) :
    ∃ M, N.child hm out.h160 i = some M ∧ M.key.k = N.key.k + 1 ∧ M.key.c = List.replicate 32 7 := by
  have hn : ∀ m, num ((hm N.key.c m).take 32) = 1 := by
    intro m
    have : left N.key.c m = 1 := by rw [left, hc, List.length_replicate, if_neg (by decide)]
    show num ((List.replicate 31 (0 : UInt8) ++ (left N.key.c m :: List.replicate 32 7)).take 32) = 1
    rw [num_left, this]
    rfl
  have h4 : 200 < Secp.n := by decide +kernel
  simp only [Node.child, ckdPriv, hn, hm_drop]
  rw [Nat.mod_eq_of_lt (by omega), if_neg (by push_neg; exact ⟨by omega, by omega⟩)]
  exact ⟨_, rfl, Nat.add_comm _ _, rfl⟩

theorem follow_eq (ss : List Step) (N : Node) (h : N.key.k + ss.length < 100) (hc : N.key.c = List.replicate 32 7) :
    ∃ M, Node.follow hm out.h160 ss N = some M ∧ M.key.k = N.key.k + ss.length := by
  induction ss generalizing N with
  | nil => exact ⟨N, rfl, rfl⟩
  | cons s ss ih =>
    rw [List.length_cons] at h
    obtain ⟨M, h1, h2, h3⟩ := child_eq N (by omega) hc s.index
    obtain ⟨L, h4, h5⟩ := ih M (by omega) h3
    exact ⟨L, by rw [Node.follow, h1, Option.bind_some, h4], by rw [h5, h2, List.length_cons]; omega⟩

theorem node_eq (seed : Bytes) (j : Nat) (hj : (left (ascii "Bitcoin seed") seed).toNat = j) (h : 0 < j ∧ j < 4) :
    ∃ M, (root out.hm seed).bind (Node.follow out.hm out.h160 [(44, true), (128, true), (0, true), (0, false), (0, false)]) = some M ∧ M.key.k = j + 5 := by
  show ∃ M, (root hm seed).bind (Node.follow hm out.h160 _) = some M ∧ _
  rw [root_eq seed j hj h, Option.bind_some]
  exact follow_eq _ _ (by simp; omega) rfl

theorem keccak_small (k : Nat) (hk : k < 10) : Key.number (out.keccak (be 32 k)) = k := by
  have h1 : ((List.range 10).all fun k => Nat.beq (Key.number (be 32 k).reverse) k) = true := by decide +kernel
  have h2 := Nat.eq_of_beq_eq_true (List.all_eq_true.1 h1 k (List.mem_range.2 hk))
  have h3 : ∀ m : Bytes, m.length = 32 → out.keccak m = m.reverse := fun m hm => if_pos hm
  rw [h3 _ (be_length 32 k), h2]

theorem keys (seed : Bytes) (j : Nat) (hj : (left (ascii "Bitcoin seed") seed).toNat = j) (h : 0 < j ∧ j < 4) :
    ∃ sd, setSeed out seed none false = some sd ∧ sd.spendSec = j + 5 := by
  obtain ⟨M, h1, h2⟩ := node_eq seed j hj h
  have hst := C84_seed_standard out out_ok seed '\'' (.inl rfl) [(44, true), (128, true), (0, true), (0, false), (0, false)] (by decide)
  rw [h1] at hst
  obtain ⟨sd, e1, e2⟩ := hst
  refine ⟨sd, (C84_default_path out seed).1.trans e1, ?_⟩
  rw [e2.spendSec, h2, keccak_small _ (by omega)]
  have hl : 100 < Ed.l := by decide +kernel
  rw [Int.emod_eq_of_lt (by omega) (by push_cast; omega)]
  push_cast
  rfl

theorem wallet (H : Bytes → Bytes) (seed : Bytes) (hs : seed.length = 32) : ∃ g, createWallet out H seed = some g ∧ g.spendSec = 6 := by
  have hj : (left (ascii "Bitcoin seed") seed).toNat = 1 := by
    have h12 : (ascii "Bitcoin seed").length = 12 := by decide +kernel
    rw [left, if_pos h12, if_pos hs]; rfl
  obtain ⟨M, h1, -⟩ := node_eq seed 1 hj (by omega)
  have h := createWallet_eq out out_ok H seed
  rw [h1] at h
  obtain ⟨g, -, -, hg, hseed, -⟩ := h
  obtain ⟨sd, e1, e2⟩ := keys seed 1 hj (by omega)
  obtain ⟨⟨sd', e3, e4⟩, -⟩ := C85_restore_partial out out_ok H seed hg
  rw [hseed, e1] at e3
  rw [← Option.some.inj e3] at e4
  exact ⟨g, hg, by rw [← e4.2.1, e2]; rfl⟩

end Demo

/-- C85 is false for the BIP39 words: there are digest functions and a wallet such that both ways of reading the printed words give another spend key. -/
theorem C85_false : ∃ (o : Outside) (_ : o.Ok) (H : Bytes → Bytes) (seed : Bytes) (g : Generated) (a b : Sd), seed.length = 32 ∧ createWallet o H seed = some g ∧
    fromMnemonics o (.list [g.bip39Words]) true [] none false = some a ∧ fromMnemonics o (.list [g.bip39Words]) false [] none false = some b ∧
    a.spendSec ≠ g.spendSec ∧ b.spendSec ≠ g.spendSec := by
  obtain ⟨seed, hs⟩ : ∃ seed : Bytes, seed.length = 32 := ⟨List.replicate 32 3, List.length_replicate⟩
  obtain ⟨g, hg, h6⟩ := Demo.wallet (fun _ => []) seed hs
  obtain ⟨w1, w2⟩ := C85_false_words Demo.out Demo.out_ok _ seed hs hg (printed Demo.out Demo.out_ok _ seed hg).1 none false
  have h12 : (ascii "Bitcoin seed").length = 12 := by decide +kernel
  obtain ⟨a, a1, a2⟩ := Demo.keys (seed ++ (Demo.out.sha256 seed).take 1) 2 (by
    have h33 : (seed ++ (Demo.out.sha256 seed).take 1).length = 33 := by rw [List.length_append, hs, List.length_take, Demo.out_ok.sha256]; rfl
    rw [Demo.left, if_pos h12, if_neg (by omega), if_pos h33]; rfl) (by omega)
  obtain ⟨b, b1, b2⟩ := Demo.keys (Demo.out.pbkdf2 (utf8 g.bip39Words) (ascii "mnemonic")) 3 (by
    have h64 : (Demo.out.pbkdf2 (utf8 g.bip39Words) (ascii "mnemonic")).length = 64 := List.length_replicate
    rw [Demo.left, if_pos h12, if_neg (by omega), if_neg (by omega)]; rfl) (by omega)
  exact ⟨Demo.out, Demo.out_ok, _, seed, g, a, b, hs, hg, w1.trans a1, w2.trans b1, by rw [a2, h6]; decide, by rw [b2, h6]; decide⟩

/-- The other statements have cases: such a wallet is restored from its printed line of Monero words. -/
example : ∃ (o : Outside) (_ : o.Ok) (seed : Bytes) (g : Generated) (sd : Sd), seed.length = 32 ∧ createWallet o (fun _ => []) seed = some g ∧
    fromMoneroMnemonics o (.list [g.moneroWords]) = some sd ∧ sd.spendSec = 6 := by
  obtain ⟨seed, hs⟩ : ∃ seed : Bytes, seed.length = 32 := ⟨List.replicate 32 3, List.length_replicate⟩
  obtain ⟨g, hg, h6⟩ := Demo.wallet (fun _ => []) seed hs
  obtain ⟨sd, h1, h2⟩ := (C85_restore_partial Demo.out Demo.out_ok _ seed hg).2.1 _ (printed Demo.out Demo.out_ok _ seed hg).2
  exact ⟨Demo.out, Demo.out_ok, seed, g, sd, hs, hg, h1, by rw [h2.2.1, h6]⟩

/-- The conditions of `C84_slip_standard_partial` hold for some functions, at the default path: every key is the number 1 or 3, written in 32 bytes. -/
example : ∃ (o : Outside) (_ : o.Ok) (seed : Bytes), 1 ≤ num (slipMaster o.hm seed).1 ∧ num (slipMaster o.hm seed).1 < Secp.n ∧
    ∀ j < 3, (Key.number (slipFollow o.hm ([44, 128, 0].take (j + 1)) (slipMaster o.hm seed)).1 : ℤ) % Ed.l ≠ 0 := by
  refine ⟨Demo.out, Demo.out_ok, [5], by decide +kernel, by decide +kernel, by decide +kernel⟩

/-- And those of `C84_slip_false`: a master key of zero. -/
example : ∃ (o : Outside) (_ : o.Ok) (seed : Bytes), num (slipMaster o.hm seed).1 = 0 ∧ setSeed o seed none true = none := by
  obtain ⟨o, ho, h0⟩ : ∃ (o : Outside) (_ : o.Ok), num (slipMaster o.hm [5]).1 = 0 :=
    ⟨{ Demo.out with hm := fun _ _ => List.replicate 64 0 }, ⟨fun _ _ => List.length_replicate, Demo.out_ok.h160, Demo.out_ok.sha256, Demo.out_ok.keccak⟩,
      by decide +kernel⟩
  exact ⟨o, ho, [5], h0, (C84_slip_false o ho [5]).1 none (.inl h0)⟩

/-- Words on two lines, in capital and small letters. -/
example : Spelled ["abandon".toList, "ability".toList, "able".toList] ["Abandon ABILITY".toList, "able".toList] :=
  ⟨[["Abandon".toList, "ABILITY".toList], ["able".toList]], by simp, by decide +kernel, by decide +kernel⟩

end Verif.Seed

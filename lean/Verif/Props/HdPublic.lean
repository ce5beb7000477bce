import Verif.Props.HdSerial

/-! Public keys on their own: more of C81. -/

namespace Verif.Hd
open Verif HdSpec Secp
open Verif.Mnemonic (hexlify parseHex hexlify_length)

/-- An uncompressed key, without numerals. -/
theorem fromHexKey_four (X Y : Bytes) (hX : X.length = 32) (hY : Y.length = 32) (net : Network) :
    fromHexKey (4 :: (X ++ Y)) net = fromPublicPair (num X : ℕ) (num Y : ℕ) net := by
  have hd : (4 :: (X ++ Y)).drop 33 = Y := by
    rw [List.drop_succ_cons, ← hX, List.drop_left]
  have ht : ((4 :: (X ++ Y)).drop 1).take 32 = X := by
    rw [List.drop_succ_cons, List.drop_zero, ← hX, List.take_left]
  unfold fromHexKey
  rw [if_neg (by simp [hX, hY])]
  dsimp only [List.head?_cons]
  rw [if_pos rfl, if_neg (by simp [hX, hY]), hd, ht, toLong_eq, toLong_eq]

/-- A point in uncompressed form: the byte 4 and both coordinates. -/
def serU : Point → Bytes
  | .zero => []
  | .some x y _ => 4 :: (be 32 x.val ++ be 32 y.val)

/-- Reading a key that is no hex text. -/
theorem fromHexKey_raw {key : Bytes} {net : Network} {P : PublicKey} (h1 : key.length ≠ 130) (h2 : key.length ≠ 66) (h : fromHexKey key net = some P) :
    ∃ x y W c, Rep (some (x, y)) W ∧ P = .secp x y net c ∧ key = if c then serP W else serU W := by
  by_cases h33 : key.length = 33
  · obtain ⟨x, y, W, e1, e2, e3⟩ := fromHexKey_some h33 h
    exact ⟨x, y, W, true, e2, e1, e3⟩
  have h0 := h
  unfold fromHexKey at h
  rw [if_neg (by rintro (h | h); exact h1 h; exact h2 h)] at h
  dsimp only at h
  match key, h with
  | [], h => cases h
  | t :: K, h =>
    dsimp only [List.head?_cons] at h
    by_cases h4 : t = 4
    · rw [if_pos h4] at h
      by_cases h65 : (t :: K).length = 65
      · have hK : K.length = 64 := by simpa using h65
        have hX : (K.take 32).length = 32 := by simp [hK]
        have hY : (K.drop 32).length = 32 := by simp [hK]
        have hc : t :: K = 4 :: (K.take 32 ++ K.drop 32) := by rw [h4, List.take_append_drop]
        rw [hc, fromHexKey_four _ _ hX hY] at h0
        obtain ⟨e1, W, e2⟩ := fromPublicPair_some h0
        refine ⟨_, _, W, false, e2, e1, ?_⟩
        obtain ⟨hx, hy, hn, rfl⟩ := e2
        rw [hc, if_neg (by simp)]
        have b1 : be 32 (num (K.take 32)) = K.take 32 := by have := be_num (K.take 32); rwa [hX] at this
        have b2 : be 32 (num (K.drop 32)) = K.drop 32 := by have := be_num (K.drop 32); rwa [hY] at this
        rw [serU, val_cast hx, val_cast hy, Int.toNat_natCast, Int.toNat_natCast, b1, b2]
      · rw [if_pos h65] at h; cases h
    · rw [if_neg h4, if_pos h33] at h
      split at h <;> cases h

theorem hexlify_four (A B : Bytes) : hexlify (4 :: (A ++ B)) = [0, 4] ++ hexlify A ++ hexlify B := by
  rw [show (4 : UInt8) :: (A ++ B) = [4] ++ (A ++ B) from rfl, hexlify_append, hexlify_append, List.append_assoc]
  rfl

theorem unhexText_length {t b : Bytes} (h : unhexText t = some b) : t.length = 2 * b.length := by
  have h2 : ∀ (n : ℕ) (d : List ℕ) (b : Bytes), d.length ≤ n → unhexlify d = some b → d.length = 2 * b.length := by
    intro n
    induction n with
    | zero =>
      intro d b hd h
      match d, hd with
      | [], _ => cases h; rfl
    | succ n ih =>
      intro d b hd h
      match d, h with
      | [], h => cases h; rfl
      | [_], h => cases h
      | _ :: _ :: r, h =>
        obtain ⟨b', hb, rfl⟩ := Option.map_eq_some_iff.1 h
        have := ih r b' (by simp at hd; omega) hb
        simp
        omega
  have h1 : ∀ (t : Bytes) (d : List ℕ), t.mapM charHex = some d → t.length = d.length := by
    intro t
    induction t with
    | nil => intro d h; cases h; rfl
    | cons a t ih =>
      intro d h
      rw [List.mapM_cons] at h
      obtain ⟨x, _, h⟩ := Option.bind_eq_some_iff.1 h
      obtain ⟨y, hy, h⟩ := Option.bind_eq_some_iff.1 h
      cases h
      rw [List.length_cons, List.length_cons, ih y hy]
  obtain ⟨d, hd, hb⟩ := Option.bind_eq_some_iff.1 h
  rw [h1 t d hd, h2 _ d b le_rfl hb]

theorem serU_some {x y : ℤ} (hx : 0 ≤ x ∧ x < p) (hy : 0 ≤ y ∧ y < p) (hn : curve.Nonsingular (x : Fp) (y : Fp)) :
    serU (.some _ _ hn) = 4 :: (be 32 x.toNat ++ be 32 y.toNat) := by
  rw [serU, val_cast hx, val_cast hy]

/-- C81. A public key is read from the encoding of a point of the curve, compressed or not, and from nothing else. -/
theorem C81_public_key {key : Bytes} {net : Network} {P : PublicKey} (h : fromHexKey key net = some P) :
    ∃ x y W c raw, (raw = key ∨ unhexText key = some raw) ∧ Rep (some (x, y)) W ∧ P = .secp x y net c ∧ raw = if c then serP W else serU W := by
  by_cases hl : key.length = 130 ∨ key.length = 66
  · cases hu : unhexText key with
    | none =>
      unfold fromHexKey at h
      rw [if_pos hl, hu] at h
      cases h
    | some raw =>
      have hlen := unhexText_length hu
      have hr : fromHexKey raw net = some P := by
        unfold fromHexKey at h ⊢
        rw [if_pos hl, hu] at h
        rw [if_neg (by omega)]
        exact h
      obtain ⟨x, y, W, c, e1, e2, e3⟩ := fromHexKey_raw (by omega) (by omega) hr
      exact ⟨x, y, W, c, raw, .inr rfl, e1, e2, e3⟩
  · obtain ⟨x, y, W, c, e1, e2, e3⟩ := fromHexKey_raw (fun e => hl (.inl e)) (fun e => hl (.inr e)) h
    exact ⟨x, y, W, c, key, .inl rfl, e1, e2, e3⟩

/-- C81. Both encodings of every point are read, and written again. -/
theorem C81_public_key_read {x y : ℤ} {W : Point} (h : Rep (some (x, y)) W) (net : Network) :
    (∃ P, fromHexKey (serP W) net = some P ∧ P.getKey true = hexlify (serP W) ∧ P.getKey false = hexlify (serU W)) ∧
    ∃ P, fromHexKey (serU W) net = some P ∧ P.getKey true = hexlify (serP W) ∧ P.getKey false = hexlify (serU W) := by
  have hu : ∀ c, (PublicKey.secp x y net c).getKey false = hexlify (serU W) := by
    intro c
    obtain ⟨hx, hy, hn, rfl⟩ := h
    rw [serU_some hx hy hn, PublicKey.getKey, hexlify_four, show (64 : ℕ) = 2 * 32 from rfl, longToHex_be 32 _ (toNat_lt hx), longToHex_be 32 _ (toNat_lt hy)]
  refine ⟨⟨_, fromHexKey_serP h net, pubKey_hex h net true, hu true⟩, _, ?_, pubKey_hex h net false, hu false⟩
  have hp := fromPublicPair_rep h net false
  obtain ⟨hx, hy, hn, rfl⟩ := h
  rw [serU_some hx hy hn, fromHexKey_four _ _ (be_length _ _) (be_length _ _), num_serP hx, num_serP hy, hp]

/-- C81. Two public keys of a network are equal exactly if they are the same point. -/
theorem C81_public_key_equal {key key' : Bytes} {net : Network} {P P' : PublicKey} (h : fromHexKey key net = some P) (h' : fromHexKey key' net = some P') :
    P.eq P' = true ↔ P.getKey true = P'.getKey true := by
  obtain ⟨x, y, W, c, _, _, e1, rfl, _⟩ := C81_public_key h
  obtain ⟨x', y', W', c', _, _, e1', rfl, _⟩ := C81_public_key h'
  rw [pubKey_hex e1, pubKey_hex e1']
  simp only [PublicKey.eq, decide_true, Bool.true_and, Bool.and_eq_true, decide_eq_true_eq]
  constructor
  · rintro ⟨rfl, rfl⟩
    obtain ⟨hx, hy, hn, rfl⟩ := e1
    obtain ⟨hx', hy', hn', rfl⟩ := e1'
    rfl
  · intro he
    have a := fromHexKey_serP e1 net
    rw [hexlify_inj he, fromHexKey_serP e1' net] at a
    simp only [Option.some.injEq, PublicKey.secp.injEq] at a
    exact ⟨a.1.symm, a.2.1.symm⟩

/-- The generator: both encodings are read. -/
example : ∃ P, fromHexKey (serU G) btc = some P ∧ P.getKey true = hexlify (serP G) :=
  let ⟨_, P, h1, h2, _⟩ := C81_public_key_read rep_g btc
  ⟨P, h1, h2⟩

/-- C81. Wallets that compare equal are the same node of the same network: they serialize to the same text, private and public. -/
theorem C81_equal_is_same {hm : Bytes → Bytes → Bytes} (hl : ∀ k m, (hm k m).length = 64) {h160 : Bytes → Bytes} (hh : ∀ m, (h160 m).length = 20)
    {seed seed' : Bytes} {net net' : Network} {mark : Char} (hk : mark = '\'' ∨ mark = 'p') {steps steps' : List Step} (hs : ∀ s ∈ steps, s.1 < 2 ^ 31)
    (hs' : ∀ s ∈ steps', s.1 < 2 ^ 31) {w w' : Wallet} (hw : atPath hm h160 seed net (pathText 'm' mark steps) = some w)
    (hw' : atPath hm h160 seed' net' (pathText 'm' mark steps') = some w') (h : w.eq w' = true) :
    net = net' ∧ ∀ priv, w.serialize priv = w'.serialize priv := by
  obtain ⟨N, -, hr⟩ := repr_at hm hl h160 hh seed net mark hk steps hs hw
  obtain ⟨N', -, hr'⟩ := repr_at hm hl h160 hh seed' net' mark hk steps' hs' hw'
  obtain ⟨n1, c1, p1⟩ := hr.priv
  obtain ⟨n2, c2, p2⟩ := hr'.priv
  obtain ⟨x1, y1, m1, d1, q1, -⟩ := hr.pub
  obtain ⟨x2, y2, m2, d2, q2, -⟩ := hr'.pub
  simp only [Wallet.eq, p1, p2, q1, q2, PrivateKey.eq, PublicKey.eq, Bool.and_eq_true, decide_eq_true_eq] at h
  obtain ⟨⟨⟨⟨⟨⟨e1, e2⟩, e3⟩, e4⟩, -, e5⟩, ⟨-, e6⟩, e7⟩, e8⟩ := h
  refine ⟨by rw [← hr.network, ← hr'.network, e8], fun priv => ?_⟩
  unfold Wallet.serialize
  rw [e1, e2, e3, e4, e8, p1, p2, q1, q2, e5, e6, e7]
  rfl

/-- C81. The text of a private node and that of a public one differ in their first eight characters, in every network. -/
theorem C81_versions {net : Network} (hnet : net ∈ networks) {v w : Wallet} (hv : v.network = net) (hw : w.network = net) {s s' : List Nat}
    (h : v.serialize true = some s) (h' : w.serialize false = some s') : s.take 8 ≠ s'.take 8 := by
  have hne : ∀ net ∈ networks, net.extSecret ≠ net.extPublic := by decide
  obtain ⟨⟨-, g1, -, -⟩, -, g2, -, -⟩ := networks_good net hnet
  unfold Wallet.serialize at h h'
  simp only [if_true, Bool.false_eq_true, if_false, Option.map_eq_some_iff, Option.some.injEq] at h h'
  obtain ⟨k, -, rfl⟩ := h
  subst h'
  have e : ∀ (v : ℕ) (r : List ℕ), v < 2 ^ 32 → (longToHex v 8 ++ r).take 8 = hexlify (be 4 v) := by
    intro v r hlt
    rw [show (8 : ℕ) = 2 * 4 from rfl, longToHex_be 4 v (by norm_num; omega)]
    rw [List.take_append_of_le_length (by rw [hexlify_length, be_length]), List.take_of_length_le (by rw [hexlify_length, be_length])]
  rw [hv, hw]
  simp only [List.append_assoc]
  rw [e _ _ g1, e _ _ g2]
  intro hc
  have := congrArg num (hexlify_inj hc)
  rw [num_be _ _ (by norm_num; omega), num_be _ _ (by norm_num; omega)] at this
  exact hne net hnet this

/-- The root of a network and its public serialization. -/
example : ∃ w : Wallet, ∃ s s', w.network = btcTest ∧ w.serialize true = some s ∧ w.serialize false = some s' := by
  let w : Wallet := ⟨some (.secp 1 btcTest false), .secp 1 2 btcTest false, none, false, btcTest, 0, hexlify [0, 0, 0, 0], 0, hexlify (List.replicate 32 7)⟩
  exact ⟨w, _, _, rfl, rfl, rfl⟩

end Verif.Hd

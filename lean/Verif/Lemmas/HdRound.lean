import Verif.Lemmas.HdSer

/-! Serialized nodes are read back; public derivation in the specification. -/

namespace Verif.Hd
open Verif HdSpec Secp Dig
open Verif.Mnemonic (hexlify parseHex hexlify_length hexlify_lt)

theorem be_one (d : ℕ) : be 1 d = [UInt8.ofNat (d % 256)] := rfl

theorem ofNat_toNat {d : ℕ} (h : d < 256) : (UInt8.ofNat (d % 256)).toNat = d := by
  rw [UInt8.toNat_ofNat']; omega

/-- The private form. -/
theorem deser_priv (H : Bytes → Bytes) {N : Node} {net : Network} (h1 : 1 ≤ N.key.k) (h2 : N.key.k < n) (hc : N.key.c.length = 32)
    (hf : N.fp.length = 4) (hi : N.index < 2 ^ 32) (hd : N.depth < 256) (hv : net.extSecret < 2 ^ 32) {txt : Bytes}
    (hu : unpackKey H txt = some (N.xprv net.extSecret)) :
    ∃ w, deserialize H txt net = some w ∧ Repr w N net ∧ w.privateKey = some (.secp N.key.k net false) ∧
      ∃ x y, w.publicKey = .secp x y net false := by
  obtain ⟨x, y, hP, hR⟩ := getPublic h1 h2 net false
  have hu' : unpackKey H txt = some (be 4 net.extSecret ++ (UInt8.ofNat (N.depth % 256) :: (N.fp ++ (be 4 N.index ++ (N.key.c ++ (0 :: be 32 N.key.k)))))) := hu
  have e1 : num (be 4 net.extSecret) = net.extSecret := num_be _ _ (by norm_num; omega)
  have e2 : num (be 4 N.index) = N.index := num_be _ _ (by norm_num; omega)
  have e3 : num (be 32 N.key.k) = N.key.k := num_be _ _ (lt_256 h2)
  have e4 : longToHex (num N.key.c) 64 = hexlify N.key.c := longToHex_num' _ 32 64 hc rfl
  have e5 : longToHex (num N.fp) 8 = hexlify N.fp := longToHex_num' _ 4 8 hf rfl
  rw [deser_of H net (be_length _ _) hf (be_length _ _) hc (ne_nil_of_length (be_length _ _)) hu', if_pos rfl, e1, e2, e3, if_neg (by simp), initWallet,
    initKeys_exp h1 h2 hP, ofNat_toNat hd]
  simp only [HexArg.h, HexArg.l, e4, e5]
  exact ⟨_, rfl, ⟨rfl, ⟨_, _, rfl⟩, ⟨x, y, _, _, rfl, hR⟩, h1, h2, rfl, hc, rfl, rfl, hf, rfl, hi, rfl⟩, rfl, x, y, rfl⟩

theorem initKeys_pub (P : PublicKey) (net : Network) : initKeys none none none (some P) net false = some (none, P) := by
  simp [initKeys, Option.filter]

/-- The public form. -/
theorem deser_pub (H : Bytes → Bytes) {N : Node} {net : Network} (h0 : N.key.k • G ≠ 0) (hc : N.key.c.length = 32) (hf : N.fp.length = 4)
    (hi : N.index < 2 ^ 32) (hd : N.depth < 256) (hv : net.extPublic < 2 ^ 32) {txt : Bytes} (hu : unpackKey H txt = some (N.xpub net.extPublic)) :
    ∃ w x y, deserialize H txt net = some w ∧ ReprPub w x y N net := by
  obtain ⟨P, hP⟩ := exists_rep (N.key.k • G)
  match P, hP with
  | none, hP => exact absurd hP h0
  | some (x, y), hP =>
    have hk := fromHexKey_serP hP net
    have hl := serP_length h0
    unfold Node.xpub at hu
    generalize hW : serP (N.key.k • G) = W at hu hk hl
    have ht : ∃ t K, W = t :: K ∧ (t = 2 ∨ t = 3) := by
      rw [← hW]
      obtain ⟨hx, hy, hn, he⟩ := hP
      rw [he, serP_some hx hy hn]
      refine ⟨_, _, rfl, ?_⟩
      split <;> simp
    obtain ⟨t, K, rfl, ht⟩ := ht
    have hK : K.length = 32 := by simpa using hl
    have hu' : unpackKey H txt = some (be 4 net.extPublic ++ (UInt8.ofNat (N.depth % 256) :: (N.fp ++ (be 4 N.index ++ (N.key.c ++ (t :: K)))))) := hu
    have e1 : num (be 4 net.extPublic) = net.extPublic := num_be _ _ (by norm_num; omega)
    have e2 : num (be 4 N.index) = N.index := num_be _ _ (by norm_num; omega)
    have e4 : longToHex (num N.key.c) 64 = hexlify N.key.c := longToHex_num' _ 32 64 hc rfl
    have e5 : longToHex (num N.fp) 8 = hexlify N.fp := longToHex_num' _ 4 8 hf rfl
    have t0 : t ≠ 0 := by rcases ht with rfl | rfl <;> decide
    have t3 : t = 2 ∨ t = 3 ∨ t = 4 := by rcases ht with rfl | rfl <;> simp
    rw [deser_of H net (be_length _ _) hf (be_length _ _) hc (ne_nil_of_length hK) hu', if_neg t0, if_pos t3, e1, e2, if_neg (by simp), hk]
    dsimp only
    rw [initWallet, initKeys_pub, ofNat_toNat hd]
    simp only [HexArg.h, HexArg.l, e4, e5]
    exact ⟨_, x, y, rfl, rfl, rfl, rfl, hP, rfl, hc, rfl, rfl, hf, rfl, hi, rfl⟩

/-! ## Raw bytes, hex text, Base58 text -/

theorem unpack_raw (H : Bytes → Bytes) {b : Bytes} (h : b.length = 78) : unpackKey H b = some b := by
  rw [unpackKey, if_pos (Or.inl h)]

theorem unpack_hex (H : Bytes → Bytes) {b : Bytes} (h : b.length = 78) : unpackKey H ((hexlify b).map hexChar) = some b := by
  have hl : ((hexlify b).map hexChar).length = 156 := by rw [List.length_map, hexlify_length, h]
  rw [unpackKey, if_neg (by rw [hl]; decide), if_pos (by rw [hl]; decide), unhexText_text]

theorem toBE_bounds_length (l : List ℕ) (hl : ∀ d ∈ l, d < 58) (hlead : Lead l) (k : ℕ) (h1 : 58 ^ k ≤ ofBE 58 l) (h2 : ofBE 58 l < 58 ^ (k + 1)) :
    l.length = k + 1 := by
  have hlt := ofBE_lt l hl
  have h3 : k < l.length := by
    by_contra hc
    have : 58 ^ l.length ≤ 58 ^ k := Nat.pow_le_pow_right (by omega) (by omega)
    omega
  match l, hlead with
  | [], _ => simp at h3
  | d :: l, hlead =>
    have hd := hlead d rfl
    rw [ofBE_cons] at h2
    have h4 : l.length < k + 1 := by
      by_contra hc
      have : 58 ^ (k + 1) ≤ 58 ^ l.length := Nat.pow_le_pow_right (by omega) (by omega)
      have : 1 * 58 ^ l.length ≤ d * 58 ^ l.length := Nat.mul_le_mul_right _ (by omega)
      omega
    simp only [List.length_cons] at h3 ⊢
    omega

theorem dropWhile_head {v : Bytes} (h : ∀ c, v.head? = some c → c ≠ 0) : v.dropWhile (· == 0) = v := by
  match v, h with
  | [], _ => rfl
  | c :: v, h => rw [List.dropWhile_cons, if_neg (by simpa using h c rfl)]

theorem encode_length {v : Bytes} (h0 : ∀ c, v.head? = some c → c ≠ 0) {k : ℕ} (h1 : 58 ^ k ≤ num v) (h2 : num v < 58 ^ (k + 1)) :
    (B58.Btc.encode v).length = k + 1 := by
  rw [B58.Btc.encode, dropWhile_head h0, Nat.sub_self]
  simp only [List.replicate_zero, List.nil_append]
  rw [B58.Btc.accLoop_eq, List.reverse_reverse, Nat.zero_add, Nat.one_mul, B58.Btc.encodeInt_eq, List.append_nil, ← num_nats, B58.text, List.length_map]
  apply toBE_bounds_length _ (natDigits_lt _ _) (natDigits_lead _ _)
  · rwa [ofBE_natDigits]
  · rwa [ofBE_natDigits]

theorem num_append (a b : Bytes) : num (a ++ b) = num a * 256 ^ b.length + num b := by
  rw [num_nats, num_nats, num_nats, nats, List.map_append, ofBE_append, List.length_map]
  rfl

/-- Versions whose 82 bytes have 111 Base58 characters. -/
def GoodVersion (v : ℕ) : Prop := 2 ^ 24 ≤ v ∧ v < 2 ^ 32 ∧ 58 ^ 110 ≤ v * 256 ^ 78 ∧ (v + 1) * 256 ^ 78 ≤ 58 ^ 111

instance (v : ℕ) : Decidable (GoodVersion v) := by unfold GoodVersion; infer_instance

theorem networks_good : ∀ net ∈ networks, GoodVersion net.extSecret ∧ GoodVersion net.extPublic := by decide +kernel

theorem unpack_b58 (H : Bytes → Bytes) (hH : ∀ m, 4 ≤ (H m).length) {v : ℕ} (hv : GoodVersion v) {r b : Bytes} (hb : b = be 4 v ++ r) (h : b.length = 78) :
    unpackKey H (B58.Btc.encodeCheck H b) = some b := by
  obtain ⟨hv0, hv1, hv2, hv3⟩ := hv
  have hr : r.length = 74 := by rw [hb, List.length_append, be_length] at h; omega
  have h4 : ((H b).take 4).length = 4 := by rw [List.length_take]; have := hH b; omega
  have hnum : num (b ++ (H b).take 4) = v * 256 ^ 78 + num (r ++ (H b).take 4) := by
    have : b ++ (H b).take 4 = be 4 v ++ (r ++ (H b).take 4) := by
      generalize (H b).take 4 = t
      rw [hb, List.append_assoc]
    rw [this, num_append, num_be 4 v (by norm_num; omega), List.length_append, hr, h4]
  have hlt : num (r ++ (H b).take 4) < 256 ^ 78 := by
    have := num_lt (r ++ (H b).take 4)
    rwa [List.length_append, hr, h4] at this
  have hhead : ∀ c, (b ++ (H b).take 4).head? = some c → c ≠ 0 := by
    intro c hc
    have hbe : (be 4 v).head? = some (UInt8.ofNat (v / 256 / 256 / 256 % 256)) := rfl
    have : (b ++ (H b).take 4).head? = some (UInt8.ofNat (v / 256 / 256 / 256 % 256)) := by
      generalize (H b).take 4 = t
      rw [hb, List.append_assoc]
      match be 4 v, hbe with
      | _ :: _, hbe => exact hbe
    rw [this] at hc
    have hc' := Option.some.inj hc
    intro h0
    have := congrArg UInt8.toNat (hc'.trans h0)
    rw [UInt8.toNat_ofNat'] at this
    have h00 : (0 : UInt8).toNat = 0 := rfl
    rw [h00] at this
    omega
  have hlen : (B58.Btc.encodeCheck H b).length = 111 := by
    apply encode_length hhead (k := 110)
    · rw [hnum]; exact le_trans hv2 (Nat.le_add_right _ _)
    · rw [hnum]
      refine lt_of_lt_of_le ?_ hv3
      rw [Nat.add_mul, Nat.one_mul]
      exact Nat.add_lt_add_left hlt _
  rw [unpackKey, if_neg (by rw [hlen]; decide), if_neg (by rw [hlen]; decide), if_pos hlen]
  exact (B58.C27_check H hH _ _).mpr rfl

/-! ## What is accepted is canonical -/

theorem split78 (b : Bytes) (h : b.length = 78) : ∃ A F I C K : Bytes, ∃ d t : UInt8, A.length = 4 ∧ F.length = 4 ∧ I.length = 4 ∧ C.length = 32 ∧
    K.length = 32 ∧ b = A ++ (d :: (F ++ (I ++ (C ++ (t :: K))))) := by
  match b, h with
  | a0 :: a1 :: a2 :: a3 :: d :: f0 :: f1 :: f2 :: f3 :: i0 :: i1 :: i2 :: i3 :: r, h =>
    have hr : r.length = 65 := by simpa using h
    have hd : (r.drop 32).length = 33 := by rw [List.length_drop, hr]
    match he : r.drop 32, hd with
    | t :: K, hd =>
      refine ⟨[a0, a1, a2, a3], [f0, f1, f2, f3], [i0, i1, i2, i3], r.take 32, K, d, t, rfl, rfl, rfl, by rw [List.length_take, hr]; rfl, by simpa using hd, ?_⟩
      rw [← he, List.take_append_drop]
      rfl

theorem initKeys_exp_some {k : ℕ} {net : Network} {q : Option PrivateKey × PublicKey} (h : initKeys (some k) none none none net false = some q) :
    1 ≤ k ∧ k < n ∧ ∃ P, (PrivateKey.secp k net false).getPublicKey = some P ∧ q = (some (.secp k net false), P) := by
  by_cases h0 : k = 0
  · subst h0; simp [initKeys, Option.filter] at h
  · by_cases h2 : k < n
    · have h1 : 1 ≤ k := Nat.one_le_iff_ne_zero.mpr h0
      obtain ⟨x, y, hP, -⟩ := getPublic h1 h2 net false
      rw [initKeys_exp h1 h2 hP] at h
      exact ⟨h1, h2, _, hP, (Option.some.inj h).symm⟩
    · simp [initKeys, h0, Option.filter, mkPrivate, h2] at h

/-- Bytes that are accepted are the serialization of the node they give. -/
theorem deser_canonical (H : Bytes → Bytes) {b : Bytes} (h : b.length = 78) {net : Network} {w : Wallet} (hw : deserialize H b net = some w)
    (hs : net.extSecret < 2 ^ 32) (hp : net.extPublic < 2 ^ 32) : w.serialize w.privateKey.isSome = some (hexlify b) := by
  obtain ⟨A, F, I, C, K, d, t, hA, hF, hI, hC, hK, hb⟩ := split78 b h
  rw [deser_of H net hA hF hI hC (ne_nil_of_length hK) (by rw [← hb]; exact unpack_raw H h)] at hw
  have e1 : longToHex (num A) 8 = hexlify A := longToHex_num' _ 4 8 hA rfl
  have e2 : longToHex (num F) 8 = hexlify F := longToHex_num' _ 4 8 hF rfl
  have e3 : longToHex (num I) 8 = hexlify I := longToHex_num' _ 4 8 hI rfl
  have e4 : longToHex (num C) 64 = hexlify C := longToHex_num' _ 32 64 hC rfl
  have e5 : longToHex (num K) 64 = hexlify K := longToHex_num' _ 32 64 hK rfl
  have e6 : longToHex d.toNat 2 = hexlify [d] := by
    have := longToHex_num' [d] 1 2 rfl rfl
    simpa [num] using this
  have hx : hexlify b = hexlify A ++ (hexlify [d] ++ (hexlify F ++ (hexlify I ++ (hexlify C ++ hexlify (t :: K))))) := by
    rw [hb, show (d :: (F ++ (I ++ (C ++ (t :: K))))) = [d] ++ (F ++ (I ++ (C ++ (t :: K)))) from rfl]
    simp only [hexlify_append]
  rw [hx]
  by_cases t0 : t = 0
  · rw [if_pos t0] at hw
    by_cases hv : num A = net.extSecret
    · rw [if_neg (by simpa using hv), initWallet] at hw
      generalize hq : initKeys (some (num K)) none none none net false = q at hw
      cases q with
      | none => exact absurd hw (by simp)
      | some q =>
        obtain ⟨h1, h2, P, hP, rfl⟩ := initKeys_exp_some hq
        simp only [HexArg.h, HexArg.l, e2, e4] at hw
        have hw' := Option.some.inj hw
        subst hw'
        simp only [Wallet.serialize, Option.isSome_some, if_true, Option.map_some, PrivateKey.getKey, e5, e3, e6, ← hv, e1, t0]
        rw [show hexlify (0 :: K) = [0, 0] ++ hexlify K from rfl]
        simp only [List.append_assoc]
    · rw [if_pos (by simpa using hv)] at hw; cases hw
  · rw [if_neg t0] at hw
    by_cases t3 : t = 2 ∨ t = 3 ∨ t = 4
    · rw [if_pos t3] at hw
      by_cases hv : num A = net.extPublic
      · rw [if_neg (by simpa using hv)] at hw
        generalize hq : fromHexKey (t :: K) net = q at hw
        cases q with
        | none => exact absurd hw (by simp)
        | some P =>
          obtain ⟨x, y, W, rfl, hR, hW⟩ := fromHexKey_some (by simp [hK]) hq
          dsimp only at hw
          rw [initWallet, initKeys_pub] at hw
          simp only [HexArg.h, HexArg.l, e2, e4] at hw
          have hw' := Option.some.inj hw
          subst hw'
          simp only [Wallet.serialize, Option.isSome_none, Bool.false_eq_true, if_false, pubKey_hex hR, e3, e6, ← hv, e1, hW]
          simp only [List.append_assoc]
      · rw [if_pos (by simpa using hv)] at hw; cases hw
    · rw [if_neg t3] at hw; cases hw

/-! ## Public derivation -/

theorem smul_mod (a : ℕ) : (a % n) • G = a • G := by
  conv_rhs => rw [← Nat.mod_add_div a n, add_smul, mul_comm, mul_smul, n_G, nsmul_zero, add_zero]

theorem sum_G (a k : ℕ) : a • G + k • G = ((a + k) % n) • G ∧ (a • G + k • G = 0 ↔ (a + k) % n = 0) := by
  have hG : a • G + k • G = ((a + k) % n) • G := by rw [smul_mod, add_smul]
  refine ⟨hG, ?_⟩
  rw [hG]
  constructor
  · intro h
    by_contra hc
    exact smul_G_ne (Nat.pos_of_ne_zero hc) (Nat.mod_lt _ (by decide +kernel)) h
  · intro h; rw [h, zero_nsmul]

theorem ckdPub_neuter (hm : Bytes → Bytes → Bytes) (x : XPrv) (i : ℕ) (hi : i < 2 ^ 31) : ckdPub hm x.neuter i = (ckdPriv hm x i).map XPrv.neuter := by
  have h31 : ¬ 2 ^ 31 ≤ i := by omega
  show ckdPub hm ⟨x.k • G, x.c⟩ i = _
  simp only [ckdPub, ckdPriv, if_neg h31]
  obtain ⟨hG, h0⟩ := sum_G (num ((hm x.c (serP (x.k • G) ++ be 4 i)).take 32)) x.k
  by_cases hc : num ((hm x.c (serP (x.k • G) ++ be 4 i)).take 32) ≥ n ∨ (num ((hm x.c (serP (x.k • G) ++ be 4 i)).take 32) + x.k) % n = 0
  · rw [if_pos hc, if_pos (by rcases hc with hc | hc; exact Or.inl hc; exact Or.inr (h0.mpr hc))]; rfl
  · rw [if_neg hc, if_neg (by push_neg at hc ⊢; exact ⟨hc.1, fun e => hc.2 (h0.mp e)⟩), hG]; rfl

theorem followPub_eq (hm : Bytes → Bytes → Bytes) (h160 : Bytes → Bytes) (is : List ℕ) (hi : ∀ i ∈ is, i < 2 ^ 31) (N : Node) :
    followPub hm is N.key.neuter = (N.follow hm h160 (is.map fun i => (i, false))).map fun M => M.key.neuter := by
  induction is generalizing N with
  | nil => rfl
  | cons i is ih =>
    have h1 := hi i (by simp)
    rw [followPub, ckdPub_neuter hm _ i h1, List.map_cons, Node.follow]
    have : Step.index (i, false) = i := by simp [Step.index]
    rw [this, Node.child]
    cases ckdPriv hm N.key i with
    | none => rfl
    | some x => exact ih (fun j hj => hi j (List.mem_cons_of_mem _ hj)) ⟨x, _, _, i⟩

end Verif.Hd

import Verif.Lemmas.HdPath
import Verif.Props.B58

/-! Serialized nodes. -/

namespace Verif.Hd
open Verif HdSpec Secp Dig
open Verif.Mnemonic (hexlify parseHex hexlify_length hexlify_lt)

theorem num_nats (b : Bytes) : num b = ofBE 256 (nats b) := by
  unfold num ofBE nats
  rw [List.foldl_map]

/-- The hex digits of the two serializations. -/
theorem serialize_priv {w : Wallet} {N : Node} {net : Network} (hr : Repr w N net) (hd : N.depth < 256) (hv : net.extSecret < 2 ^ 32) :
    w.serialize true = some (hexlify (N.xprv net.extSecret)) := by
  obtain ⟨net', c, hk⟩ := hr.priv
  have h1 := longToHex_be 4 net.extSecret (by norm_num; omega)
  have h2 := longToHex_be 1 N.depth (by norm_num; omega)
  have h3 := longToHex_be 4 N.index (by have := hr.ilt; norm_num; omega)
  norm_num only at h1 h2 h3
  simp only [Wallet.serialize, if_true, hk, Option.map_some, privKey_hex hr.klt, hr.network, hr.depth, hr.fp, hr.index, hr.chain, h1, h2, h3, Node.xprv,
    hexlify_append]
  generalize be 32 N.key.k = X
  generalize be 4 net.extSecret = Y
  have : [0, 0] ++ hexlify X = hexlify (0 :: X) := rfl
  rw [this]
  simp only [List.append_assoc]

theorem serialize_pub {w : Wallet} {N : Node} {net : Network} (hr : Repr w N net) (hd : N.depth < 256) (hv : net.extPublic < 2 ^ 32) :
    w.serialize false = some (hexlify (N.xpub net.extPublic)) := by
  obtain ⟨x, y, net', c, hk, hR⟩ := hr.pub
  have h1 := longToHex_be 4 net.extPublic (by norm_num; omega)
  have h2 := longToHex_be 1 N.depth (by norm_num; omega)
  have h3 := longToHex_be 4 N.index (by have := hr.ilt; norm_num; omega)
  norm_num only at h1 h2 h3
  simp only [Wallet.serialize, Bool.false_eq_true, if_false, hk, pubKey_hex hR, hr.network, hr.depth, hr.fp, hr.index, hr.chain, h1, h2, h3, Node.xpub,
    hexlify_append]
  simp only [List.append_assoc]

theorem xprv_length (N : Node) (v : ℕ) (hf : N.fp.length = 4) (hc : N.key.c.length = 32) : (N.xprv v).length = 78 := by
  simp only [Node.xprv, List.length_append, List.length_cons, be_length, hf, hc]

theorem xpub_length (N : Node) (v : ℕ) (hf : N.fp.length = 4) (hc : N.key.c.length = 32) (h : N.key.k • G ≠ 0) : (N.xpub v).length = 78 := by
  simp only [Node.xpub, List.length_append, be_length, hf, hc, serP_length h]

/-- A public node. -/
structure ReprPub (w : Wallet) (x y : ℤ) (N : Node) (net : Network) : Prop where
  ed : w.useEd = false
  priv : w.privateKey = none
  pub : w.publicKey = .secp x y net false
  rep : Rep (some (x, y)) (N.key.k • G)
  chain : w.chainCode = hexlify N.key.c
  clen : N.key.c.length = 32
  depth : w.depth = N.depth
  fp : w.parentFingerprint = hexlify N.fp
  fplen : N.fp.length = 4
  index : w.childNumber = N.index
  ilt : N.index < 2 ^ 32
  network : w.network = net

theorem serialize_pub' {w : Wallet} {x y : ℤ} {N : Node} {net : Network} (hr : ReprPub w x y N net) (hd : N.depth < 256) (hv : net.extPublic < 2 ^ 32) :
    w.serialize false = some (hexlify (N.xpub net.extPublic)) := by
  have h1 := longToHex_be 4 net.extPublic (by norm_num; omega)
  have h2 := longToHex_be 1 N.depth (by norm_num; omega)
  have h3 := longToHex_be 4 N.index (by have := hr.ilt; norm_num; omega)
  norm_num only at h1 h2 h3
  simp only [Wallet.serialize, Bool.false_eq_true, if_false, hr.pub, pubKey_hex hr.rep, hr.network, hr.depth, hr.fp, hr.index, hr.chain, h1, h2, h3, Node.xpub,
    hexlify_append]
  simp only [List.append_assoc]

theorem fromPublicPair_rep {x y : ℤ} {W : Point} (h : Rep (some (x, y)) W) (net : Network) (c : Bool) :
    fromPublicPair x y net c = some (.secp x y net c) := by
  obtain ⟨hx, hy, hn, -⟩ := h
  rw [fromPublicPair, if_pos ⟨hx.1, hx.2, hy.1, hy.2, (contains_iff _ _).mpr hn⟩]

theorem fromPublicPair_some {x y : ℤ} {net : Network} {c : Bool} {P : PublicKey} (h : fromPublicPair x y net c = some P) :
    P = .secp x y net c ∧ ∃ W, Rep (some (x, y)) W := by
  unfold fromPublicPair at h
  split at h
  · rename_i hc
    refine ⟨(Option.some.inj h).symm, .some _ _ ((contains_iff _ _).mp hc.2.2.2.2), ⟨hc.1, hc.2.1⟩, ⟨hc.2.2.1, hc.2.2.2.1⟩, _, rfl⟩
  · cases h

/-- The public copy of a node. -/
theorem publicCopy_eq {w : Wallet} {N : Node} {net : Network} (hr : Repr w N net) : ∃ v x y, w.publicCopy = some v ∧ ReprPub v x y N net := by
  obtain ⟨x, y, net', c, hk, hR⟩ := hr.pub
  have h8 : w.parentFingerprint.length = 8 := by rw [hr.fp, hexlify_length, hr.fplen]
  have h64 : w.chainCode.length = 64 := by rw [hr.chain, hexlify_length, hr.clen]
  have hi : initKeys none none (some (x, y)) none w.network false = some (none, .secp x y net false) := by
    rw [hr.network]
    simp [initKeys, fromPublicPair_rep hR, Option.filter]
  refine ⟨⟨none, .secp x y net false, none, false, net, w.depth, w.parentFingerprint, w.childNumber, w.chainCode⟩, x, y, ?_, ?_⟩
  · rw [Wallet.publicCopy, hk]
    dsimp only
    rw [initWallet, hi]
    simp only [HexArg.h, HexArg.l, h8, h64, ne_eq, not_true_eq_false, if_false, hr.network]
  · exact ⟨rfl, rfl, rfl, hR, hr.chain, hr.clen, hr.depth, hr.fp, hr.fplen, hr.index, hr.ilt, rfl⟩

/-! ## Square roots -/

theorem expmod_range (fuel : ℕ) (b : ℤ) (e : ℕ) : 0 ≤ Ed.expmod p fuel b e ∧ Ed.expmod p fuel b e < p := by
  have h1 : (0 : ℤ) ≤ 1 ∧ (1 : ℤ) < p := by decide +kernel
  cases fuel with
  | zero => exact h1
  | succ k =>
    simp only [Ed.expmod]
    split
    · exact h1
    · split <;> exact emod_range _

theorem sq_root (y : Fp) (a : ℤ) (h : (a : Fp) = y ^ 2) : ∃ b, sqrt a = some b ∧ (0 ≤ b ∧ b < p) ∧ ((b : Fp) = y ∨ (b : Fp) = -y) := by
  have he : ((2 ^ 256 - 2 ^ 32 - 976) / 4 : ℕ) < 2 ^ 256 := by decide +kernel
  have hc := cast_expmod 256 a _ he
  have hex : 2 * ((2 ^ 256 - 2 ^ 32 - 976) / 4 * 2 : ℕ) = pN + 1 := by decide +kernel
  have hfl : y ^ (pN + 1) = y ^ 2 := by rw [pow_succ, ZMod.pow_card, sq]
  have hrng : 0 ≤ Ed.expmod p 256 a ((2 ^ 256 - 2 ^ 32 - 976) / 4) ∧ Ed.expmod p 256 a ((2 ^ 256 - 2 ^ 32 - 976) / 4) < p := expmod_range _ _ _
  unfold sqrt
  generalize ((2 ^ 256 - 2 ^ 32 - 976) / 4 : ℕ) = e at *
  generalize Ed.expmod p 256 a e = r at *
  dsimp only
  have hsq : (r : Fp) ^ 2 = y ^ 2 := by
    rw [hc, h, ← pow_mul, ← pow_mul, hex, hfl]
  have hmod : r * r % p = a % p := by
    rw [← cast_inj (emod_range _) (emod_range _), cast_emod, cast_emod, Int.cast_mul, h, ← hsq, sq]
  rw [if_pos hmod]
  exact ⟨r, rfl, hrng, sq_eq_sq_iff_eq_or_eq_neg.mp hsq⟩

theorem sqrt_some {a b : ℤ} (h : sqrt a = some b) : (0 ≤ b ∧ b < p) ∧ (b : Fp) ^ 2 = a := by
  unfold sqrt at h
  have hrng : 0 ≤ Ed.expmod p 256 a ((2 ^ 256 - 2 ^ 32 - 976) / 4) ∧ Ed.expmod p 256 a ((2 ^ 256 - 2 ^ 32 - 976) / 4) < p := expmod_range _ _ _
  generalize Ed.expmod p 256 a ((2 ^ 256 - 2 ^ 32 - 976) / 4) = r at *
  dsimp only at h
  split at h
  · rename_i hm
    have hb := Option.some.inj h
    subst hb
    refine ⟨hrng, ?_⟩
    rw [← cast_inj (emod_range _) (emod_range _), cast_emod, cast_emod, Int.cast_mul] at hm
    rw [sq, hm]
  · cases h

/-! ## Compressed points -/

theorem p_odd : p % 2 = 1 := by decide +kernel

/-- The right-hand side of the curve equation. -/
theorem rhs_cast (x : ℤ) : (((Ed.expmod p 3 x 3 + 0 * x + 7) % p : ℤ) : Fp) = (x : Fp) ^ 3 + 7 := by
  rw [cast_emod]
  push_cast
  rw [cast_expmod 3 x 3 (by norm_num)]
  ring

theorem num_serP {x : ℤ} (h : 0 ≤ x ∧ x < p) : ((num (be 32 x.toNat) : ℕ) : ℤ) = x := by
  rw [num_be 32 _ (toNat_lt h), Int.toNat_of_nonneg h.1]

/-- A compressed key, without numerals. -/
theorem fromHexKey_cons (t : UInt8) (X : Bytes) (hX : X.length = 32) (net : Network) : fromHexKey (t :: X) net =
    if t = 2 ∨ t = 3 then
      match sqrt ((Ed.expmod p 3 (num X : ℕ) 3 + 0 * (num X : ℕ) + 7) % p) with
      | none => none
      | some b => fromPublicPair (num X : ℕ) (if (t = 2) = (b % 2 = 1) then p - b else b) net true
    else none := by
  unfold fromHexKey
  simp only [List.length_cons, hX, Nat.reduceAdd, Nat.reduceEqDiff, or_self, if_false, List.head?_cons, ne_eq, not_true_eq_false,
      List.drop_succ_cons, List.drop_zero, toLong_eq, not_false_eq_true, if_true]
  generalize sqrt ((Ed.expmod p 3 (num X : ℕ) 3 + 0 * (num X : ℕ) + 7) % p) = r
  by_cases h4 : t = 4
  · subst h4; rfl
  · rw [if_neg h4]
    by_cases h23 : t = 2 ∨ t = 3
    · rw [if_pos h23, if_pos h23]
      match r with
      | none => rfl
      | some b =>
        dsimp only
        have hc : ((!decide (t.toNat % 2 = 1)) = decide (b % 2 = 1)) ↔ ((t = 2) = (b % 2 = 1)) := by
          rcases h23 with rfl | rfl
          · simp
          · simp
        by_cases h : (t = 2) = (b % 2 = 1)
        · rw [if_pos (hc.mpr h), if_pos h]
        · rw [if_neg (fun e => h (hc.mp e)), if_neg h]
    · rw [if_neg h23, if_neg h23]

theorem root_cases {x y b : ℤ} (hy : 0 ≤ y ∧ y < p) (hbr : 0 ≤ b ∧ b < p) (hby : (b : Fp) = y ∨ (b : Fp) = -y) : b = y ∨ (b + y = p ∧ y ≠ 0) := by
  rcases hby with hby | hby
  · exact Or.inl ((cast_inj hbr hy).mp hby)
  · by_cases h0 : y = 0
    · left
      rw [h0] at hby ⊢
      simp only [Int.cast_zero, neg_zero] at hby
      exact (cast_inj hbr ⟨le_refl _, p_pos⟩).mp (by simpa using hby)
    · right
      refine ⟨?_, h0⟩
      have h1 : ((b + y : ℤ) : Fp) = 0 := by push_cast; rw [hby]; ring
      rw [cast_eq_zero] at h1
      obtain ⟨c, hc⟩ := Int.dvd_of_emod_eq_zero h1
      have h2 : 0 < y := lt_of_le_of_ne hy.1 (Ne.symm h0)
      have hpp := p_pos
      generalize p = q at *
      have h3 : c = 1 := by
        rcases lt_trichotomy c 1 with h | h | h
        · nlinarith [hbr.1]
        · exact h
        · nlinarith [hbr.2, hy.2]
      rw [hc, h3, mul_one]

theorem pick {y b q : ℤ} (hq : q % 2 = 1) (hy : 0 ≤ y) (hc : b = y ∨ (b + y = q ∧ y ≠ 0)) (t : UInt8) (ht : t = if y.toNat % 2 = 0 then 2 else 3) :
    (if (t = 2) = (b % 2 = 1) then q - b else b) = y := by
  by_cases hpar : y.toNat % 2 = 0
  · rw [if_pos hpar] at ht
    subst ht
    rcases hc with hc | ⟨hc, _⟩
    · rw [if_neg (by simp; omega), hc]
    · rw [if_pos (by simp; omega)]; omega
  · rw [if_neg hpar] at ht
    subst ht
    rcases hc with hc | ⟨hc, _⟩
    · rw [if_neg (by simp; omega), hc]
    · rw [if_pos (by simp; omega)]; omega

theorem serP_some {x y : ℤ} (hx : 0 ≤ x ∧ x < p) (hy : 0 ≤ y ∧ y < p) (hn : curve.Nonsingular (x : Fp) (y : Fp)) :
    serP (.some _ _ hn) = (if y.toNat % 2 = 0 then 2 else 3) :: be 32 x.toNat := by
  rw [serP, val_cast hx, val_cast hy]

theorem fromHexKey_serP {x y : ℤ} {W : Point} (h : Rep (some (x, y)) W) (net : Network) : fromHexKey (serP W) net = some (.secp x y net true) := by
  have hpair := fromPublicPair_rep h net true
  obtain ⟨hx, hy, hn, rfl⟩ := h
  have heq := (nonsingular_iff _ _).mp hn
  obtain ⟨b, hb, hbr, hby⟩ := sq_root (y : Fp) ((Ed.expmod p 3 x 3 + 0 * x + 7) % p) (by rw [rhs_cast, heq])
  have hbcase := root_cases (x := x) hy hbr hby
  rw [serP_some hx hy hn, fromHexKey_cons _ _ (be_length _ _), if_pos (by split <;> simp), num_serP hx, hb]
  dsimp only
  rw [pick p_odd hy.1 hbcase _ rfl, hpair]

theorem unpick {b q : ℤ} (hq : q % 2 = 1) (t : UInt8) (ht : t = 2 ∨ t = 3) {y : ℤ} (hy : 0 ≤ y) (h : (if (t = 2) = (b % 2 = 1) then q - b else b) = y) :
    t = if y.toNat % 2 = 0 then 2 else 3 := by
  rcases ht with rfl | rfl
  · rw [if_pos]
    split at h
    · rename_i hc; simp at hc; omega
    · rename_i hc; simp at hc; omega
  · rw [if_neg]
    split at h
    · rename_i hc; simp at hc; omega
    · rename_i hc; simp at hc; omega

/-- A compressed point that is accepted is the encoding of its point. -/
theorem fromHexKey_some {key : Bytes} {net : Network} {P : PublicKey} (hl : key.length = 33) (h : fromHexKey key net = some P) :
    ∃ x y W, P = .secp x y net true ∧ Rep (some (x, y)) W ∧ key = serP W := by
  match key, hl with
  | t :: X, hl =>
    have hX : X.length = 32 := by simpa using hl
    rw [fromHexKey_cons _ _ hX] at h
    by_cases h23 : t = 2 ∨ t = 3
    · rw [if_pos h23] at h
      generalize sqrt ((Ed.expmod p 3 (num X : ℕ) 3 + 0 * (num X : ℕ) + 7) % p) = r at h
      cases r with
      | none => exact absurd h (by simp)
      | some b =>
        dsimp only at h
        generalize hy : (if (t = 2) = (b % 2 = 1) then p - b else b) = y at h
        obtain ⟨hP, W, hW⟩ := fromPublicPair_some h
        refine ⟨_, y, W, hP, hW, ?_⟩
        obtain ⟨hx', hy', hn, rfl⟩ := hW
        have hb : be 32 (num X) = X := by have := be_num X; rwa [hX] at this
        rw [serP_some hx' hy' hn, Int.toNat_natCast, hb, ← unpick p_odd t h23 hy'.1 hy]
    · rw [if_neg h23] at h; cases h

/-! ## Reading a serialized node -/

theorem ne_nil_of_length {K : Bytes} (hK : K.length = 32) : K ≠ [] := by intro h; rw [h] at hK; simp at hK

theorem deser_of (H : Bytes → Bytes) (net : Network) {A F I C K txt : Bytes} {d t : UInt8} (hA : A.length = 4) (hF : F.length = 4) (hI : I.length = 4)
    (hC : C.length = 32) (hK0 : K ≠ []) (hu : unpackKey H txt = some (A ++ (d :: (F ++ (I ++ (C ++ (t :: K))))))) :
    deserialize H txt net =
      if t = 0 then
        if num A ≠ net.extSecret then none
        else initWallet (.int (num C)) d.toNat (.int (num F)) (.int (num I)) (some (num K)) none none none net none false
      else if t = 2 ∨ t = 3 ∨ t = 4 then
        if num A ≠ net.extPublic then none
        else match fromHexKey (t :: K) net with
          | some (.secp x y n _) => initWallet (.int (num C)) d.toNat (.int (num F)) (.int (num I)) none none none (some (.secp x y n false)) net none false
          | _ => none
      else none := by
  match A, hA, F, hF, I, hI with
  | [a0, a1, a2, a3], _, [f0, f1, f2, f3], _, [i0, i1, i2, i3], _ =>
    have e1 : ([a0, a1, a2, a3] ++ (d :: ([f0, f1, f2, f3] ++ ([i0, i1, i2, i3] ++ (C ++ (t :: K)))))).take 4 = [a0, a1, a2, a3] := rfl
    have e2 : ([a0, a1, a2, a3] ++ (d :: ([f0, f1, f2, f3] ++ ([i0, i1, i2, i3] ++ (C ++ (t :: K))))))[4]? = some d := rfl
    have e3 : (([a0, a1, a2, a3] ++ (d :: ([f0, f1, f2, f3] ++ ([i0, i1, i2, i3] ++ (C ++ (t :: K)))))).drop 5).take 4 = [f0, f1, f2, f3] := rfl
    have e4 : (([a0, a1, a2, a3] ++ (d :: ([f0, f1, f2, f3] ++ ([i0, i1, i2, i3] ++ (C ++ (t :: K)))))).drop 9).take 4 = [i0, i1, i2, i3] := rfl
    have e5 : (([a0, a1, a2, a3] ++ (d :: ([f0, f1, f2, f3] ++ ([i0, i1, i2, i3] ++ (C ++ (t :: K)))))).drop 13).take 32 = C := by
      show (C ++ (t :: K)).take 32 = C
      rw [← hC, List.take_left]
    have e6 : ([a0, a1, a2, a3] ++ (d :: ([f0, f1, f2, f3] ++ ([i0, i1, i2, i3] ++ (C ++ (t :: K)))))).drop 45 = t :: K := by
      have : ([a0, a1, a2, a3] ++ (d :: ([f0, f1, f2, f3] ++ ([i0, i1, i2, i3] ++ (C ++ (t :: K)))))).drop 45 = (C ++ (t :: K)).drop 32 := rfl
      rw [this, ← hC, List.drop_left]
    have e7 : ([a0, a1, a2, a3] ++ (d :: ([f0, f1, f2, f3] ++ ([i0, i1, i2, i3] ++ (C ++ (t :: K))))))[45]? = some t := by
      have : ([a0, a1, a2, a3] ++ (d :: ([f0, f1, f2, f3] ++ ([i0, i1, i2, i3] ++ (C ++ (t :: K))))))[45]? = (C ++ (t :: K))[32]? := rfl
      rw [this, List.getElem?_append_right (by omega), hC]; rfl
    unfold deserialize
    rw [hu]
    dsimp only
    rw [e1, e2, e3, e4, e5, e6, e7]
    simp only [toLong_eq, List.drop_succ_cons, List.drop_zero, hK0, if_false]
    rfl

end Verif.Hd

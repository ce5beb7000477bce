import Verif.Model.Enc
import Verif.Props.Sig
import Verif.Lemmas.Amounts
import Verif.Props.CurveCodec

/-! C54: encrypted wallet data. -/

namespace Verif.Enc
open Verif Ed Key Sig Edwards

/-- The stream cipher undoes itself under the same key and nonce. -/
def Involutive (x : Ciphers) : Prop := ∀ key nonce data, x.stream key nonce (x.stream key nonce data) = data

/-- The two scalars of the signature made for a file. -/
def sigOf (x : Ciphers) (nonce : Bytes) (k priv : ℤ) (plain : Bytes) : ℤ × ℤ :=
  let s := genSignature x.H (x.H (encryptXmr x nonce k priv plain false)) priv k
  (s.1, s.2.1)

theorem decrypt_encrypt (x : Ciphers) (hx : Involutive x) (nonce key plain : Bytes) (hn : nonce.length = 8) :
    decrypt x key (encrypt x nonce key plain) = some plain := by
  unfold decrypt encrypt
  rw [show (nonce ++ x.stream key nonce plain).take 8 = nonce by rw [← hn]; exact List.take_left' rfl,
    show (nonce ++ x.stream key nonce plain).drop 8 = x.stream key nonce plain by rw [← hn]; exact List.drop_left' rfl, if_pos hn, hx]

/-- C54. Without authentication what was encrypted under a key is decrypted under it, for every plaintext. -/
theorem C54_roundtrip_plain (x : Ciphers) (hx : Involutive x) (nonce : Bytes) (hn : nonce.length = 8) (k priv : ℤ) (plain : Bytes) :
    decryptXmr x priv (encryptXmr x nonce k priv plain false) false = some plain := by
  unfold decryptXmr encryptXmr
  simp only [Bool.false_eq_true, if_false, Bool.not_false, if_true]
  exact decrypt_encrypt x hx _ _ _ hn

theorem encryptXmr_auth (x : Ciphers) (nonce : Bytes) (k priv : ℤ) (plain : Bytes) :
    encryptXmr x nonce k priv plain true = encryptXmr x nonce k priv plain false ++
      (encodeInt (sigOf x nonce k priv plain).1 ++ encodeInt (sigOf x nonce k priv plain).2) := by
  unfold sigOf encryptXmr
  simp only [Bool.not_true, Bool.false_eq_true, if_false, Bool.not_false, if_true]

/-- What the decryption accepts: at least 72 bytes, of which the last 64 are two reduced non-zero scalars (in any representation below `2^256`)
satisfying the Schnorr equation for the hash of everything before them and the public key of the private key. -/
theorem C54_accepts_iff (x : Ciphers) (priv : ℤ) (data plain : Bytes) :
    decryptXmr x priv data true = some plain ↔
      ∃ ct s1 s2 c r, data = ct ++ (s1 ++ s2) ∧ s1.length = 32 ∧ s2.length = 32 ∧ 8 ≤ ct.length ∧
        decodeScalar s1 = some c ∧ decodeScalar s2 = some r ∧ c ≠ 0 ∧ r ≠ 0 ∧ Schnorr x.H (x.H ct) (priv • base) c r ∧
        plain = x.stream (x.slow (encodeInt priv)) (ct.take 8) (ct.drop 8) := by
  have key : ∀ ct sig, checkTail x priv ct sig = some () ↔ ∃ c r, decodeScalar (sig.take 32) = some c ∧ decodeScalar (sig.drop 32) = some r ∧
      c ≠ 0 ∧ r ≠ 0 ∧ Schnorr x.H (x.H ct) (priv • base) c r := by
    intro ct sig
    unfold checkTail
    have red : ∀ b v, decodeScalar b = some v → Reduced v := by
      intro b v h
      unfold decodeScalar at h
      rw [Option.map_eq_some_iff] at h
      obtain ⟨n, _, h⟩ := h
      exact h ▸ emod_l_range _
    have hB := rep_B priv
    generalize scalarmultB priv = pub at hB ⊢
    cases h1 : decodeScalar (sig.take 32) with
    | none => simp
    | some c =>
      cases h2 : decodeScalar (sig.drop 32) with
      | none => simp
      | some r =>
        have := C40_accept_iff x.H (x.H ct) c r pub _ hB
        have hc := red _ _ h1
        have hr := red _ _ h2
        simp only [Option.some.injEq]
        constructor
        · intro h
          split at h
          · rename_i he
            obtain ⟨p1, p2, p3⟩ := this.mp he
            exact ⟨c, r, rfl, rfl, ne_of_gt p1.1, ne_of_gt p2.1, p3⟩
          · cases h
        · rintro ⟨_, _, rfl, rfl, c0, r0, hs⟩
          rw [this.mpr ⟨⟨lt_of_le_of_ne hc.1 (Ne.symm c0), hc.2⟩, ⟨lt_of_le_of_ne hr.1 (Ne.symm r0), hr.2⟩, hs⟩]
  unfold decryptXmr
  simp only [if_true]
  have e : ∀ ct, decrypt x (generateKey x (encodeInt priv)) ct = some plain ↔
      8 ≤ ct.length ∧ plain = x.stream (x.slow (encodeInt priv)) (ct.take 8) (ct.drop 8) := by
    intro ct
    unfold decrypt generateKey
    by_cases h : 8 ≤ ct.length
    · rw [if_pos (by rw [List.length_take]; omega)]
      simp only [Option.some.injEq, h, true_and]
      exact eq_comm
    · rw [if_neg (by rw [List.length_take]; omega)]
      simp [h]
  have len : ∀ b v, decodeScalar b = some v → 32 ≤ b.length := by
    intro b v h
    unfold decodeScalar decodeInt at h
    by_contra hb
    rw [if_pos (by omega)] at h
    cases h
  constructor
  · intro h
    split at h
    · cases h
    · rename_i u hu
      obtain ⟨c, r, h1, h2, h3, h4, h5⟩ := (key _ _).mp hu
      obtain ⟨e1, e2⟩ := (e _).mp h
      have l1 := len _ _ h1
      have l2 := len _ _ h2
      simp only [List.length_take, List.length_drop] at l1 l2 e1
      refine ⟨_, _, _, c, r, ?_, ?_, ?_, ?_, h1, h2, h3, h4, h5, e2⟩
      · rw [List.take_append_drop, List.take_append_drop]
      · simp only [List.length_take, List.length_drop]; omega
      · simp only [List.length_drop]; omega
      · simp only [List.length_take]; omega
  · rintro ⟨ct, s1, s2, c, r, rfl, l1, l2, l3, h1, h2, h3, h4, h5, h6⟩
    have t1 : (ct ++ (s1 ++ s2)).length - 64 = ct.length := by simp only [List.length_append]; omega
    rw [t1, List.take_left' rfl, List.drop_left' rfl, (key _ _).mpr ⟨c, r, by rw [List.take_left' l1]; exact h1, by rw [List.drop_left' l1]; exact h2, h3, h4, h5⟩]
    exact (e _).mpr ⟨l3, h6⟩

/-- C54, as far as it holds: a file is decrypted by the key it was made with unless one of the scalars of its signature happens to be zero. -/
theorem C54_roundtrip_partial (x : Ciphers) (hx : Involutive x) (nonce : Bytes) (hn : nonce.length = 8) (k priv : ℤ) (plain : Bytes)
    (h1 : (sigOf x nonce k priv plain).1 ≠ 0) (h2 : (sigOf x nonce k priv plain).2 ≠ 0) :
    decryptXmr x priv (encryptXmr x nonce k priv plain true) true = some plain := by
  rw [encryptXmr_auth, C54_accepts_iff]
  generalize hct : encryptXmr x nonce k priv plain false = ct
  have hdec : decrypt x (generateKey x (encodeInt priv)) ct = some plain := by
    rw [← hct]; exact decrypt_encrypt x hx _ _ _ hn
  unfold decrypt at hdec
  split at hdec
  · rename_i h8
    generalize hg : genSignature x.H (x.H ct) priv k = g
    obtain ⟨c, r, pub⟩ := g
    obtain ⟨-, hc, hr, hs⟩ := C40_schnorr _ _ _ _ _ _ _ hg
    have e : sigOf x nonce k priv plain = (c, r) := by unfold sigOf; rw [hct, hg]
    rw [e] at h1 h2 ⊢
    refine ⟨ct, _, _, c, r, rfl, encodeInt_length _, encodeInt_length _, ?_, C35_scalar_roundtrip c hc.1 hc.2, C35_scalar_roundtrip r hr.1 hr.2, h1, h2, hs, ?_⟩
    · rw [List.length_take] at h8; omega
    · exact (Option.some.inj hdec).symm
  · cases hdec

/-- C54 does not hold for every nonce of the signature: when the response is zero (nonce and key zero are possible values of `random_scalar`) the file can
not be opened again. -/
theorem C54_false_zero (x : Ciphers) (nonce plain : Bytes) : decryptXmr x 0 (encryptXmr x nonce 0 0 plain true) true = none := by
  have hz : (sigOf x nonce 0 0 plain).2 = 0 := by
    unfold sigOf genSignature scMulsub
    simp
  rw [encryptXmr_auth, hz]
  generalize (sigOf x nonce 0 0 plain).1 = c
  cases h : decryptXmr x 0 (encryptXmr x nonce 0 0 plain false ++ (encodeInt c ++ encodeInt 0)) true with
  | none => rfl
  | some p =>
    obtain ⟨ct, s1, s2, c', r, hd, l1, l2, -, -, h2, -, hr, -⟩ := (C54_accepts_iff _ _ _ _).mp h
    have : s2 = encodeInt 0 := by
      have := congrArg List.reverse hd
      simp only [List.reverse_append, List.append_assoc] at this
      have := (List.append_inj this (by simp [l2, encodeInt_length])).1
      simpa using this.symm
    rw [this, C35_scalar_roundtrip 0 (le_refl _) l_pos] at h2
    exact absurd (Option.some.inj h2).symm hr


/-! ## Files -/

theorem header_spec (pre : Bytes) (hp : pre ≠ []) (vs : List UInt8) (data : Bytes) (v : UInt8) (d : Bytes) :
    header pre vs data = some (v, d) ↔ v ∈ vs ∧ data = pre.dropLast ++ v :: d := by
  have hl : 0 < pre.length := List.length_pos_iff.mpr hp
  have hdl : pre.dropLast.length = pre.length - 1 := List.length_dropLast
  unfold header
  constructor
  · intro h
    split at h
    · cases h
    · rename_i w hw
      split at h
      · cases h
      · rename_i ht
        split at h
        · cases h
        · rename_i hv
          simp only [Option.some.injEq, Prod.mk.injEq] at h
          obtain ⟨rfl, rfl⟩ := h
          obtain ⟨hlt, hget⟩ := List.getElem?_eq_some_iff.mp hw
          refine ⟨by simpa using hv, ?_⟩
          rw [← (by simpa using ht : data.take (pre.length - 1) = pre.dropLast)]
          conv_lhs => rw [← List.take_append_drop (pre.length - 1) data]
          rw [List.drop_eq_getElem_cons hlt, hget, show pre.length - 1 + 1 = pre.length by omega]
  · rintro ⟨hv, rfl⟩
    rw [← hdl, List.getElem?_append_right (le_refl _)]
    simp only [Nat.sub_self, List.getElem?_cons_zero]
    rw [List.take_left' rfl]
    simp only [ne_eq, not_true_eq_false, if_false, hv]
    rw [show pre.length = (pre.dropLast ++ [v]).length by rw [List.length_append, hdl, List.length_singleton]; omega,
      show pre.dropLast ++ v :: d = (pre.dropLast ++ [v]) ++ d by simp, List.drop_left' rfl]

/-- C54. Loading an unsigned transaction set gives the parser exactly the bytes that were saved. -/
theorem C54_unsigned_partial (x : Ciphers) (hx : Involutive x) (nonce : Bytes) (hn : nonce.length = 8) (k priv : ℤ) (ser : Bytes)
    (h1 : (sigOf x nonce k priv ser).1 ≠ 0) (h2 : (sigOf x nonce k priv ser).2 ≠ 0) :
    loadUnsigned x priv (dumpUnsigned x nonce k priv ser) = some ser := by
  unfold loadUnsigned dumpUnsigned
  rw [(header_spec unsignedPrefix (by decide) [4] _ 4 (encryptXmr x nonce k priv ser true)).mpr ⟨by decide, by
    rw [show unsignedPrefix = unsignedPrefix.dropLast ++ [4] by decide]; simp [List.append_assoc]⟩]
  exact C54_roundtrip_partial x hx nonce hn k priv ser h1 h2

/-- C54. Nothing but the header, the version byte 4 and a file the decryption accepts is loaded as an unsigned transaction set. -/
theorem C54_unsigned_refused (x : Ciphers) (priv : ℤ) (data ser : Bytes) (h : loadUnsigned x priv data = some ser) :
    ∃ d, data = unsignedPrefix ++ d ∧ decryptXmr x priv d true = some ser := by
  unfold loadUnsigned at h
  split at h
  · cases h
  · rename_i v d hh
    obtain ⟨hv, rfl⟩ := (header_spec _ (by decide) _ _ _ _).mp hh
    simp only [List.mem_singleton] at hv
    subst hv
    exact ⟨d, by rw [show unsignedPrefix = unsignedPrefix.dropLast ++ [4] by decide]; simp, h⟩

/-- C54. Loading exported outputs gives back the public spend and view keys of the wallet that saved them and the bytes of the outputs. -/
theorem C54_outputs_partial (x : Ciphers) (hx : Involutive x) (nonce : Bytes) (hn : nonce.length = 8) (k spend view : ℤ) (ser : Bytes)
    (h1 : (sigOf x nonce k view (encPt (spend • base) ++ encPt (view • base) ++ ser)).1 ≠ 0)
    (h2 : (sigOf x nonce k view (encPt (spend • base) ++ encPt (view • base) ++ ser)).2 ≠ 0) :
    loadOutputs x view (saveOutputs x nonce k spend view ser) = some (3, encPt (spend • base), encPt (view • base), ser) := by
  unfold loadOutputs saveOutputs
  rw [encodePoint_rep (rep_B spend), encodePoint_rep (rep_B view)]
  rw [(header_spec outputsPrefix (by decide) [3, 4] _ 3 (encryptXmr x nonce k view (encPt (spend • base) ++ encPt (view • base) ++ ser) true)).mpr
    ⟨by decide, by rw [show outputsPrefix = outputsPrefix.dropLast ++ [3] by decide, List.append_assoc]; rfl⟩]
  simp only
  rw [C54_roundtrip_partial x hx nonce hn k view _ h1 h2]
  simp only [Option.map_some, Option.some.injEq, Prod.mk.injEq, true_and]
  generalize ha : encPt (spend • base) = a
  generalize hb : encPt (view • base) = b
  have la : a.length = 32 := ha ▸ encPt_length _
  have lb : b.length = 32 := hb ▸ encPt_length _
  rw [List.append_assoc]
  refine ⟨List.take_left' la, ?_, ?_⟩
  · rw [List.drop_left' la, List.take_left' lb]
  · rw [← List.append_assoc, List.drop_left' (by rw [List.length_append]; omega)]

/-- C54 does not hold for the header: its version byte is not covered by the signature. Any exported-outputs file of version 3 that loads still loads after
the byte was changed to 4, with the same plaintext handed to a different parser. -/
theorem C54_false_version (x : Ciphers) (priv : ℤ) (d s v ser : Bytes)
    (h : loadOutputs x priv (outputsPrefix ++ d) = some (3, s, v, ser)) :
    loadOutputs x priv (outputsPrefix.dropLast ++ 4 :: d) = some (4, s, v, ser) := by
  unfold loadOutputs at h ⊢
  rw [(header_spec outputsPrefix (by decide) [3, 4] _ 3 d).mpr ⟨by decide, by
    rw [show outputsPrefix = outputsPrefix.dropLast ++ [3] by decide]; simp [List.append_assoc]⟩] at h
  rw [(header_spec outputsPrefix (by decide) [3, 4] _ 4 d).mpr ⟨by decide, rfl⟩]
  simp only at h ⊢
  rw [Option.map_eq_some_iff] at h ⊢
  obtain ⟨p, hp, he⟩ := h
  refine ⟨p, hp, ?_⟩
  simp only [Prod.mk.injEq, true_and] at he ⊢
  exact he

/-! ## Sealed secrets -/

/-- The cipher opens what it sealed under the same key, nonce and associated data, and nothing sealed with other associated data. -/
structure Aead.Ok (a : Aead) : Prop where
  opens : ∀ k n p ad, a.unlock k n (a.lock k n p ad) ad = some p
  rejects : ∀ k n p ad ad', ad ≠ ad' → a.unlock k n (a.lock k n p ad) ad' = none

/-- C54. A sealed secret is opened by the key it was sealed with, for every plaintext and nonce. -/
theorem C54_sealed (a : Aead) (ha : a.Ok) (nonce key plain : Bytes) (hn : nonce.length = 12) :
    decryptPack a key (encryptPack a nonce key plain) = some plain := by
  unfold decryptPack encryptPack
  rw [List.append_nil, List.take_left' hn, List.drop_left' hn]
  exact ha.opens _ _ _ _

/-- C54 does not hold for secrets sealed with associated data: `decrypt_pack` has no argument for it and refuses every one of them. -/
theorem C54_false_associated (a : Aead) (ha : a.Ok) (nonce key plain ad : Bytes) (hn : nonce.length = 12) (h : ad ≠ []) :
    decryptPack a key (encryptPack a nonce key plain ad) = none := by
  unfold decryptPack encryptPack
  rw [List.append_nil, List.take_left' hn, List.drop_left' hn]
  exact ha.rejects _ _ _ _ _ h

/-! ## The block cipher of the lite protocol -/

theorem xorBytes_zero {b : Bytes} {n : ℕ} (h : b.length = n) : xorBytes b (List.replicate n 0) = b := by
  subst h
  induction b with
  | nil => rfl
  | cons a b ih =>
    rw [List.length_cons, List.replicate_succ]
    show (a ^^^ 0) :: xorBytes b (List.replicate b.length 0) = a :: b
    rw [ih]; simp

/-- What becomes of a 32-byte secret that the device encrypts (codebook mode) and decrypts again (chaining mode, initialisation vector zero): its second
half is masked with the encryption of its first half. -/
theorem C54_aes (E D : Bytes → Bytes) (hE : ∀ b, b.length = 16 → (E b).length = 16) (hD : ∀ b, b.length = 16 → D (E b) = b) (a b : Bytes)
    (la : a.length = 16) (lb : b.length = 16) :
    aesDecrypt D 2 (List.replicate 16 0) (aesEncrypt E 2 (a ++ b)) = a ++ xorBytes b (E a) := by
  simp only [aesEncrypt, aesDecrypt, List.append_nil]
  rw [List.take_left' la, List.drop_left' la, List.take_of_length_le (l := b) (by omega), List.take_left' (hE a la), List.drop_left' (hE a la),
    List.take_of_length_le (l := E b) (by rw [hE b lb]), hD a la, hD b lb, xorBytes_zero la]

theorem xor_self {a b : Bytes} (h : a.length ≤ b.length) (e : xorBytes a b = a) : ∀ i, i < a.length → b[i]? = some 0 := by
  induction a generalizing b with
  | nil => intro i hi; simp at hi
  | cons u a ih =>
    cases b with
    | nil => simp at h
    | cons w b =>
      have e' : (u ^^^ w) :: xorBytes a b = u :: a := e
      simp only [List.cons.injEq] at e'
      intro i hi
      cases i with
      | zero => 
        have : w = 0 := by
          have := congrArg (u ^^^ ·) e'.1
          simpa [← UInt8.xor_assoc] using this
        simp [this]
      | succ i =>
        simp only [List.getElem?_cons_succ]
        exact ih (by simpa using h) e'.2 i (by simpa using hi)

/-- C54 does not hold for the secrets of the lite protocol: a 32-byte secret comes back only if the encryption of its first half is all zeroes. -/
theorem C54_false_aes (E D : Bytes → Bytes) (hE : ∀ b, b.length = 16 → (E b).length = 16) (hD : ∀ b, b.length = 16 → D (E b) = b) (a b : Bytes)
    (la : a.length = 16) (lb : b.length = 16) (h : E a ≠ List.replicate 16 0) :
    aesDecrypt D 2 (List.replicate 16 0) (aesEncrypt E 2 (a ++ b)) ≠ a ++ b := by
  rw [C54_aes E D hE hD a b la lb]
  intro he
  have := List.append_cancel_left he
  apply h
  have hz := xor_self (by rw [hE a la, lb]) this
  apply List.ext_getElem?
  intro i
  by_cases hi : i < 16
  · rw [hz i (by omega), List.getElem?_replicate, if_pos hi]
  · rw [List.getElem?_eq_none (by rw [hE a la]; omega), List.getElem?_replicate, if_neg hi]

/-! ## Concrete cases -/

/-- A cipher that complements every byte, a hash that is constantly 1. -/
def demo : Ciphers := ⟨fun _ => 1 :: List.replicate 31 0, fun d => d, fun _ _ d => d.map (~~~ ·)⟩

example : Involutive demo ∧ (sigOf demo [1, 2, 3, 4, 5, 6, 7, 8] 7 3 [9, 9]).1 ≠ 0 ∧ (sigOf demo [1, 2, 3, 4, 5, 6, 7, 8] 7 3 [9, 9]).2 ≠ 0 := by
  refine ⟨fun _ _ d => ?_, ?_, ?_⟩
  · show (d.map (~~~ ·)).map (~~~ ·) = d
    rw [List.map_map]
    conv_rhs => rw [← List.map_id d]
    exact List.map_congr_left fun b _ => by simp
  · unfold sigOf genSignature hs demo; decide +kernel
  · unfold sigOf genSignature hs demo; decide +kernel

/-- A toy authenticated cipher: the length of the associated data in unary, the associated data, the plaintext. -/
def demoAead : Aead where
  lock _ _ p ad := List.replicate ad.length 1 ++ 0 :: (ad ++ p)
  unlock _ _ c ad := if c.takeWhile (· == 1) = List.replicate ad.length 1 ∧ (c.drop (ad.length + 1)).take ad.length = ad then
    some (c.drop (ad.length + 1 + ad.length)) else none

theorem demoAead_ok : demoAead.Ok := by
  have t : ∀ (n : ℕ) (r : Bytes), (List.replicate n (1 : UInt8) ++ 0 :: r).takeWhile (· == 1) = List.replicate n 1 := by
    intro n r
    induction n with
    | zero => rfl
    | succ n ih => rw [List.replicate_succ, List.cons_append, List.takeWhile_cons_of_pos (by decide), ih]
  have d : ∀ (n : ℕ) (r : Bytes), (List.replicate n (1 : UInt8) ++ 0 :: r).drop (n + 1) = r := by
    intro n r
    rw [show List.replicate n (1 : UInt8) ++ 0 :: r = (List.replicate n 1 ++ [0]) ++ r by simp, List.drop_left' (by simp)]
  constructor
  · intro k n p ad
    have hk : demoAead.lock k n p ad = List.replicate ad.length 1 ++ 0 :: (ad ++ p) := rfl
    rw [hk]
    show (if _ then _ else _) = _
    rw [if_pos ⟨t _ _, by rw [d, List.take_left' rfl]⟩, ← List.drop_drop, d, List.drop_left' rfl]
  · intro k n p ad ad' h
    have hk : demoAead.lock k n p ad = List.replicate ad.length 1 ++ 0 :: (ad ++ p) := rfl
    rw [hk]
    show (if _ then _ else _) = _
    rw [if_neg]
    rintro ⟨h1, h2⟩
    rw [t] at h1
    have hl : ad.length = ad'.length := by simpa using congrArg List.length h1
    rw [← hl, d, List.take_left' rfl] at h2
    exact h h2

example : decryptPack demoAead [1] (encryptPack demoAead (List.replicate 12 5) [1] [7, 7]) = some [7, 7] := by decide
example : decryptPack demoAead [1] (encryptPack demoAead (List.replicate 12 5) [1] [7, 7] [3]) = none := by decide

/-- A block cipher that adds one to every byte does not survive the round trip. -/
example : aesDecrypt (fun b => b.map (· - 1)) 2 (List.replicate 16 0) (aesEncrypt (fun b => b.map (· + 1)) 2 (List.replicate 32 1)) =
    List.replicate 16 1 ++ List.replicate 16 3 := by decide

end Verif.Enc

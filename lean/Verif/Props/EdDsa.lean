import Verif.Lemmas.EdDsa
import Verif.Props.EdBack

/-!
C97. Ed25519 signatures: what is signed is accepted, what is accepted satisfies the equation of RFC 8032, and two signatures with one nonce give
the secret away. A signature is not unique, and some public keys have signatures for every message. `H` is any hash of 64 bytes.
-/

namespace Verif.EdDsa
open Verif Verif.Ed

/-- The conditions on a signature: 64 and 32 bytes, two points of the curve, the equation with `R` written anew. -/
def Accepted (H : Bytes → Bytes) (s m pk : Bytes) : Prop :=
  s.length = 64 ∧ pk.length = 32 ∧ ∃ R A : Ext, Ed.decodePoint (s.take 32) = some R ∧ Ed.decodePoint pk = some A ∧
    Spec.Holds H (Ed.encodePoint R) (s.drop 32) m pk R A

/-- C97. What the check accepts. -/
theorem C97_check (H : Bytes → Bytes) (hH : ∀ m, (H m).length = 64) (s m pk : Bytes) : check H s m pk = some () ↔ Accepted H s m pk := by
  rw [check_iff_group, Accepted]
  refine and_congr_right fun h1 => and_congr_right fun h2 => ?_
  have hn : bitSum (s.drop 32) 256 = Key.number (s.drop 32) := Key.bitSum_256 (by simp; omega)
  have key : ∀ (R A : Ext) (r a : Point), Rep R r → Rep A a →
      (bitSum (s.drop 32) 256 • base = r + hint H (encPt r ++ pk ++ m) • a ↔ Spec.Holds H (Ed.encodePoint R) (s.drop 32) m pk R A) := by
    intro R A r a hr ha
    unfold Spec.Holds
    rw [← hn, encodePoint_rep hr, ← hint_eq H hH, affine_rep hr, affine_rep ha, affine_rep rep_base, ← toAff_times, ← toAff_times, ← toAff_add]
    exact ⟨fun h => congrArg _ h, fun h => toAff_injective h⟩
  constructor
  · rintro ⟨R, A, r, a, hR, hA, hr, ha, h⟩
    exact ⟨R, A, hR, hA, (key R A r a hr ha).mp h⟩
  · rintro ⟨R, A, hR, hA, h⟩
    obtain ⟨r, hr⟩ := decodePoint_rep hR
    obtain ⟨a, ha⟩ := decodePoint_rep hA
    exact ⟨R, A, r, a, hR, hA, hr, ha, (key R A r a hr ha).mpr h⟩

/-- C97. The secret scalar is that of the RFC: a multiple of eight between 2^254 and 2^255. -/
theorem C97_secret (h : Bytes) (hl : h.length = 64) :
    secret h = Spec.scalar h ∧ 8 ∣ secret h ∧ 2 ^ 254 ≤ secret h ∧ secret h < 2 ^ 255 := by
  have e := secret_eq (h := h) (by omega)
  refine ⟨e, ?_, ?_, ?_⟩
  · rw [e, Spec.scalar]
    exact Nat.dvd_add (by norm_num) (Nat.dvd_mul_left _ _)
  · rw [secret]; exact Nat.le_add_right _ _
  · rw [e, Spec.scalar]
    have : Key.number (h.take 32) % 2 ^ 254 < 2 ^ 254 := Nat.mod_lt _ (by positivity)
    have e2 : (2 : ℕ) ^ 255 = 2 ^ 254 + 2 ^ 254 := by norm_num
    rw [e2]
    generalize (2 : ℕ) ^ 254 = z at *
    omega

/-- C97. The public key is the encoding of that multiple of the base point. -/
theorem C97_public_key (H : Bytes → Bytes) (hH : ∀ m, (H m).length = 64) (sk : Bytes) :
    (publicKey H sk).length = 32 ∧ ∃ A, Ed.decodePoint (publicKey H sk) = some A ∧ affine A = Ed.Spec.times (affine Ed.B) (Spec.scalar (H sk)) := by
  rw [publicKey, secret_eq (by rw [hH]; norm_num), encodePoint_rep (rep_scalarmultB _)]
  refine ⟨encPt_length _, _, decode_encPt _, ?_⟩
  rw [affine_rep (rep_canon _), affine_rep rep_base, toAff_times]

/-- The two halves of a signature. -/
theorem sign_halves (H : Bytes → Bytes) (m sk pk : Bytes) : ∃ (r : ℕ) (S : ℤ), r = hint H (((H sk).drop 32).take 32 ++ m) ∧
    S = (r + hint H (encPt (r • base) ++ pk ++ m) * secret (H sk)) % l ∧ sign H m sk pk = encPt (r • base) ++ encodeInt S := by
  refine ⟨_, _, rfl, rfl, ?_⟩
  rw [sign, encodePoint_rep (rep_scalarmultB _)]

theorem lt_pow {S : ℤ} (h0 : 0 ≤ S) (h1 : S < 2 * l) : ((bitSum (encodeInt S) 256 : ℕ) : ℤ) = S := by
  rw [bitSum_encodeInt _ _ (le_refl _)]
  apply Int.emod_eq_of_lt h0
  have : 2 * l < 2 ^ 256 := by decide +kernel
  exact lt_trans h1 this

theorem accepted_of (H : Bytes → Bytes) (m sk : Bytes) (r : ℕ) (T : ℤ) (h0 : 0 ≤ T) (h1 : T < 2 * l)
    (hT : T % l = (r + hint H (encPt (r • base) ++ publicKey H sk ++ m) * secret (H sk)) % l) :
    check H (encPt (r • base) ++ encodeInt T) m (publicKey H sk) = some () := by
  have hp : publicKey H sk = encPt (secret (H sk) • base) := by rw [publicKey, encodePoint_rep (rep_scalarmultB _)]
  rw [check_iff_group]
  refine ⟨by rw [List.length_append, encPt_length, encodeInt, packBits_length], by rw [hp, encPt_length], canon (r • base), canon (secret (H sk) • base),
    r • base, secret (H sk) • base, ?_, ?_, rep_canon _, rep_canon _, ?_⟩
  · rw [List.take_left' (encPt_length _), decode_encPt]
  · rw [hp, decode_encPt]
  · rw [List.drop_left' (encPt_length _)]
    generalize hint H (encPt (r • base) ++ publicKey H sk ++ m) = k at *
    have e1 := lt_pow h0 h1
    rw [← natCast_zsmul, e1, ← smul_base_mod, hT, smul_base_mod, add_zsmul, natCast_zsmul, mul_zsmul, natCast_zsmul, natCast_zsmul]

/-- C97. What is signed is accepted. -/
theorem C97_signed_is_valid (H : Bytes → Bytes) (m sk : Bytes) : check H (sign H m sk (publicKey H sk)) m (publicKey H sk) = some () := by
  obtain ⟨r, S, -, hS, hs⟩ := sign_halves H m sk (publicKey H sk)
  have hr := Key.emod_l_range (r + hint H (encPt (r • base) ++ publicKey H sk ++ m) * secret (H sk))
  rw [hs]
  have hl := l_pos
  apply accepted_of
  · rw [hS]; exact hr.1
  · rw [hS]
    refine lt_trans hr.2 ?_
    omega
  · rw [hS, Int.emod_emod]

/-- C97. The second half of a signature made by the program is less than the group order. -/
theorem C97_signed_reduced (H : Bytes → Bytes) (m sk pk : Bytes) : (sign H m sk pk).length = 64 ∧ (Key.number ((sign H m sk pk).drop 32) : ℤ) < l := by
  obtain ⟨r, S, -, hS, hs⟩ := sign_halves H m sk pk
  have hr := Key.emod_l_range (r + hint H (encPt (r • base) ++ pk ++ m) * secret (H sk))
  have hlen : (encodeInt S).length = 32 := by rw [encodeInt, packBits_length]
  refine ⟨by rw [hs, List.length_append, encPt_length, hlen], ?_⟩
  have hl := l_pos
  rw [hs, List.drop_left' (encPt_length _), ← Key.bitSum_256 hlen, lt_pow (by rw [hS]; exact hr.1) (by rw [hS]; omega), hS]
  exact hr.2

/-- C97. The nonce is the hash of the second half of the hashed secret and the message: the first half of a signature repeats for another message only
if the hashes are the same modulo the group order. -/
theorem C97_nonce (H : Bytes → Bytes) (hH : ∀ m, (H m).length = 64) (m m' sk pk pk' : Bytes)
    (h : (sign H m sk pk).take 32 = (sign H m' sk pk').take 32) :
    (Key.number (H ((H sk).drop 32 ++ m)) : ℤ) % l = Key.number (H ((H sk).drop 32 ++ m')) % l := by
  obtain ⟨r, S, hr, -, hs⟩ := sign_halves H m sk pk
  obtain ⟨r', S', hr', -, hs'⟩ := sign_halves H m' sk pk'
  rw [hs, hs', List.take_left' (encPt_length _), List.take_left' (encPt_length _)] at h
  have h2 := encPt_injective h
  have ht : ((H sk).drop 32).take 32 = (H sk).drop 32 := List.take_of_length_le (by rw [List.length_drop, hH])
  rw [ht, hint_eq H hH] at hr hr'
  rw [← hr, ← hr']
  have h3 : r ≡ r' [MOD lN] := by
    rw [← order_base]
    exact nsmul_eq_nsmul_iff_modEq.mp h2
  rw [l_eq]
  exact_mod_cast h3

/-- C97. Two accepted signatures that share `R`, with different hashes modulo the group order, give the secret away: the number determined by them is the
discrete logarithm of the public key (times eight). -/
theorem C97_two_signatures (H : Bytes → Bytes) (hH : ∀ m, (H m).length = 64) (s s' m m' pk : Bytes) (R A : Ext)
    (h : check H s m pk = some ()) (h' : check H s' m' pk = some ()) (hR : Ed.decodePoint (s.take 32) = some R) (hsame : s'.take 32 = s.take 32)
    (hA : Ed.decodePoint pk = some A)
    (hne : (Key.number (H (Ed.encodePoint R ++ pk ++ m)) : ℤ) % l ≠ Key.number (H (Ed.encodePoint R ++ pk ++ m')) % l) :
    ∃ x : ℕ, ((x : ℤ) * (Key.number (H (Ed.encodePoint R ++ pk ++ m)) - Key.number (H (Ed.encodePoint R ++ pk ++ m')))) % l =
        ((Key.number (s.drop 32) : ℤ) - Key.number (s'.drop 32)) % l ∧
      Ed.Spec.times (affine A) 8 = Ed.Spec.times (affine Ed.B) (8 * x) := by
  obtain ⟨h1, h2, R1, A1, r1, a1, hR1, hA1, hr1, ha1, e1⟩ := (check_iff_group H s m pk).mp h
  obtain ⟨h3, -, R2, A2, r2, a2, hR2, hA2, hr2, ha2, e2⟩ := (check_iff_group H s' m' pk).mp h'
  rw [hsame] at hR2
  have q1 := Option.some.inj (hR.symm.trans hR1)
  have q2 := Option.some.inj (hR.symm.trans hR2)
  have q3 := Option.some.inj (hA.symm.trans hA1)
  have q4 := Option.some.inj (hA.symm.trans hA2)
  subst q1 q2 q3 q4
  have q5 := rep_unique hr1 hr2
  have q6 := rep_unique ha1 ha2
  subst q5 q6
  rw [encodePoint_rep hr1] at hne ⊢
  rw [hint_eq H hH] at e1 e2
  rw [Key.bitSum_256 (by simp; omega)] at e1 e2
  generalize Key.number (H (encPt r1 ++ pk ++ m)) = k at *
  generalize Key.number (H (encPt r1 ++ pk ++ m')) = k' at *
  generalize Key.number (s.drop 32) = S at *
  generalize Key.number (s'.drop 32) = S' at *
  have hF : ((k : ℤ) : Fl) - ((k' : ℤ) : Fl) ≠ 0 := by
    intro h0
    apply hne
    have : (((k : ℤ) - k' : ℤ) : Fl) = 0 := by rw [Int.cast_sub]; exact h0
    rw [ZMod.intCast_zmod_eq_zero_iff_dvd] at this
    rw [l_eq]
    have h9 : (k' : ℤ) ≡ k [ZMOD (lN : ℤ)] := Int.modEq_iff_dvd.mpr this
    exact h9.symm
  obtain ⟨x, hx⟩ : ∃ x : Fl, x * (((k : ℤ) : Fl) - ((k' : ℤ) : Fl)) = ((S : ℤ) : Fl) - ((S' : ℤ) : Fl) :=
    ⟨(((S : ℤ) : Fl) - ((S' : ℤ) : Fl)) / (((k : ℤ) : Fl) - ((k' : ℤ) : Fl)), div_mul_cancel₀ _ hF⟩
  have hxv : ((x.val : ℤ) : Fl) = x := by rw [Int.cast_natCast, ZMod.natCast_zmod_val]
  have hcong : ((x.val : ℤ) * ((k : ℤ) - k')) % l = ((S : ℤ) - S') % l := by
    rw [l_eq]
    apply (ZMod.intCast_eq_intCast_iff' _ _ _).mp
    rw [Int.cast_mul, hxv, Int.cast_sub, Int.cast_sub]
    exact hx
  refine ⟨x.val, hcong, ?_⟩
  rw [affine_rep ha1, affine_rep rep_base, ← toAff_times, ← toAff_times]
  refine congrArg toAff ?_
  -- (k - k') a = (S - S') base
  have e3 : ((k : ℤ) - k') • a1 = ((S : ℤ) - S') • base := by
    rw [sub_zsmul, sub_zsmul, natCast_zsmul, natCast_zsmul, natCast_zsmul, natCast_zsmul, e1, e2]
    abel
  have e4 : ((k : ℤ) - k') • ((8 : ℕ) • a1) = ((k : ℤ) - k') • ((8 * x.val) • base) := by
    have r1' : ((k : ℤ) - k') • ((8 * x.val) • base) = (8 : ℕ) • (((x.val : ℤ) * ((k : ℤ) - k')) • base) := by
      rw [mul_zsmul, natCast_zsmul, mul_nsmul', smul_comm, smul_comm ((k : ℤ) - k') x.val]
    rw [r1', ← smul_base_mod, hcong, smul_base_mod, ← e3, smul_comm]
  -- 8 a and 8 x base are in the subgroup of order l, in which multiplication by k - k' is injective
  have e5 : ((k : ℤ) - k') • ((8 : ℕ) • a1 - (8 * x.val) • base) = 0 := by rw [zsmul_sub, e4, sub_self]
  have e6 : (lN : ℤ) • ((8 : ℕ) • a1 - (8 * x.val) • base) = 0 := by
    rw [zsmul_sub, natCast_zsmul, natCast_zsmul, l_eight, ← mul_nsmul', mul_comm lN, mul_nsmul', l_base, nsmul_zero, sub_zero]
  have hco : IsCoprime ((k : ℤ) - k') (lN : ℤ) := by
    have hpr : Nat.Prime lN := Fact.out
    rw [isCoprime_comm]
    apply (Nat.prime_iff_prime_int.mp hpr).irreducible.coprime_iff_not_dvd.mpr
    intro hd
    apply hF
    have := (ZMod.intCast_zmod_eq_zero_iff_dvd ((k : ℤ) - k') lN).mpr hd
    rw [Int.cast_sub] at this
    exact this
  obtain ⟨u, v, huv⟩ := hco
  have e7 : (8 : ℕ) • a1 - (8 * x.val) • base = 0 := by
    rw [← one_zsmul ((8 : ℕ) • a1 - (8 * x.val) • base), ← huv, add_zsmul, mul_zsmul, mul_zsmul, e5, e6, zsmul_zero, zsmul_zero, add_zero]
  exact sub_eq_zero.mp e7

/-- C97 fails for uniqueness: for every signature the program makes there is another one for the same message and key. -/
theorem C97_false_malleable (H : Bytes → Bytes) (m sk : Bytes) :
    ∃ s, s ≠ sign H m sk (publicKey H sk) ∧ check H s m (publicKey H sk) = some () := by
  obtain ⟨r, S, -, hS, hs⟩ := sign_halves H m sk (publicKey H sk)
  have hr := Key.emod_l_range (r + hint H (encPt (r • base) ++ publicKey H sk ++ m) * secret (H sk))
  rw [← hS] at hr
  have hl := l_pos
  refine ⟨encPt (r • base) ++ encodeInt (S + l), ?_, ?_⟩
  · rw [hs]
    intro h
    have h2 : ((bitSum (encodeInt (S + l)) 256 : ℕ) : ℤ) = (bitSum (encodeInt S) 256 : ℕ) := by rw [List.append_cancel_left h]
    rw [lt_pow (by omega) (by omega), lt_pow hr.1 (by omega)] at h2
    omega
  · apply accepted_of _ _ _ _ _ (by omega) (by omega)
    rw [Int.add_emod_right, hS, Int.emod_emod]

/-- The encoding of the identity. -/
def one32 : Bytes := 1 :: List.replicate 31 0

theorem one32_enc : Ed.decodePoint one32 = some ident ∧ one32 = encPt 0 := by
  have h : Ed.encodePoint ident = one32 := by decide +kernel
  rw [← h, encodePoint_rep rep_ident]
  refine ⟨?_, rfl⟩
  rw [← encodePoint_rep rep_ident, h]
  decide +kernel

/-- C97 fails for public keys of small order: there is a public key and one signature that is accepted for every message, whatever the hash. -/
theorem C97_false_small_order : ∃ s pk : Bytes, ∀ (H : Bytes → Bytes) (m : Bytes), check H s m pk = some () := by
  refine ⟨one32 ++ List.replicate 32 0, one32, fun H m => ?_⟩
  have hl : one32.length = 32 := by decide
  have ht : (one32 ++ List.replicate 32 (0 : UInt8)).take 32 = one32 := List.take_left' hl
  have hd : (one32 ++ List.replicate 32 (0 : UInt8)).drop 32 = List.replicate 32 0 := List.drop_left' hl
  have hz : bitSum (List.replicate 32 0) 256 = 0 := by decide +kernel
  rw [check_iff_group, ht, hd, hz]
  refine ⟨by decide, hl, ident, ident, 0, 0, one32_enc.1, one32_enc.1, rep_ident, rep_ident, ?_⟩
  rw [zero_nsmul, nsmul_zero, add_zero]

/-! ## ed25519.py -/

/-- C97. The public key of the affine implementation is the same. -/
theorem C97_affine_key (H : Bytes → Bytes) (sk : Bytes) : publicKeyA H sk = publicKey H sk := by
  obtain ⟨-, h2, h3, -⟩ := EdBack.C98_base (secret (H sk))
  rw [publicKeyA, publicKey, h2, h3]

/-- C97 fails for the affine implementation: signing raises an exception, for every secret. -/
theorem C97_false_affine_sign (H : Bytes → Bytes) (hH : ∀ m, (H m).length = 64) (sk : Bytes) : signA H sk = none := by
  have hl : (((H sk).drop 32).take 32).length = 32 := by rw [List.length_take, List.length_drop, hH]; rfl
  rw [signA]
  cases hb : ((H sk).drop 32).take 32 with
  | nil => rw [hb] at hl; simp at hl
  | cons b bs => rfl

theorem decodeA {s : Bytes} {P : Ext} {p : Point} (h : Ed.decodePoint s = some P) (hp : Rep P p) :
    ∃ A, EdBack.decodePoint s = some A ∧ EdBack.pairAff A = toAff p := by
  have h2 := EdBack.decodeCheck_eq s
  rw [h, EdBack.decodePointCheck] at h2
  cases hA : EdBack.decodePoint s with
  | none => rw [hA] at h2; exact absurd h2 (by simp)
  | some A =>
    rw [hA] at h2
    dsimp only at h2
    refine ⟨A, Eq.refl (some A), ?_⟩
    split at h2
    · rw [Option.map_some] at h2
      have h3 := Option.some.inj h2
      rw [← affine_rep hp, ← h3]
      refine Prod.ext ?_ ?_
      · show (A.1 : Fq) = (A.1 : Fq) / ((1 : ℤ) : Fq)
        simp
      · show (A.2 : Fq) = (A.2 : Fq) / ((1 : ℤ) : Fq)
        simp
    · exact absurd h2 (by simp)

/-- C97. The affine check, which does not look whether the points are on the curve, agrees with the agent's when they are and `R` is written in the
standard way. -/
theorem C97_affine_check (H : Bytes → Bytes) (s m pk : Bytes) (R A : Ext) (hs : s.length = 64) (hpk : pk.length = 32)
    (hR : Ed.decodePoint (s.take 32) = some R) (hA : Ed.decodePoint pk = some A) (hcan : Ed.encodePoint R = s.take 32) :
    checkA H s m pk = some true ↔ check H s m pk = some () := by
  obtain ⟨r, hr⟩ := decodePoint_rep hR
  obtain ⟨a, ha⟩ := decodePoint_rep hA
  obtain ⟨R', hR', er⟩ := decodeA hR hr
  obtain ⟨A', hA', ea⟩ := decodeA hA ha
  have e0 : (s.drop 32).take 32 = s.drop 32 := List.take_of_length_le (by simp; omega)
  have e1 : decodeInt ((s.drop 32).take 32) = some (bitSum (s.drop 32) 256) := by
    rw [e0, decodeInt, if_neg (by simp; omega)]
  have e2 : EdBack.encodePoint R' = encPt r := by
    rw [← encodePoint_rep hr, hcan]
    exact EdBack.reencode (by simp; omega) hR'
  have hk : checkA H s m pk = some true ↔ bitSum (s.drop 32) 256 • base = r + hint H (encPt r ++ pk ++ m) • a := by
    rw [checkA, if_neg (by omega), if_neg (by omega), hR', hA', e1]
    dsimp only
    rw [e2]
    generalize hint H (encPt r ++ pk ++ m) = k
    generalize bitSum (s.drop 32) 256 = S
    have p1 := EdBack.scalarmult_point EdBack.B_point S
    have p2 := EdBack.edwards_point er (EdBack.scalarmult_point ea k)
    have heq : EdBack.scalarmult EdBack.B S = EdBack.edwards R' (EdBack.scalarmult A' k) ↔ S • base = r + k • a := by
      constructor
      · intro h
        rw [h, p2] at p1
        exact (toAff_injective p1).symm
      · intro h
        apply EdBack.pair_ext (EdBack.smulFuel_reduced _ _ _) (EdBack.edwards_reduced _ _)
        exact p1.trans ((congrArg toAff h).trans p2.symm)
    rw [← heq]
    by_cases hc : EdBack.scalarmult EdBack.B S = EdBack.edwards R' (EdBack.scalarmult A' k)
    · rw [if_neg (fun h => h hc)]
      exact ⟨fun _ => hc, fun _ => Eq.refl (some true)⟩
    · rw [if_pos hc]
      exact ⟨fun h => absurd h (by simp), fun h => absurd h hc⟩
  rw [hk, check_iff_group]
  constructor
  · intro h
    exact ⟨hs, hpk, R, A, r, a, hR, hA, hr, ha, h⟩
  · rintro ⟨-, -, R2, A2, r2, a2, hR2, hA2, hr2, ha2, h⟩
    have q1 := Option.some.inj (hR.symm.trans hR2)
    have q2 := Option.some.inj (hA.symm.trans hA2)
    subst q1 q2
    have q5 := rep_unique hr hr2
    have q6 := rep_unique ha ha2
    subst q5 q6
    exact h

/-- C97. The affine check accepts what the agent signs. -/
theorem C97_affine_accepts (H : Bytes → Bytes) (m sk : Bytes) :
    checkA H (sign H m sk (publicKey H sk)) m (publicKey H sk) = some true := by
  have hv := C97_signed_is_valid H m sk
  obtain ⟨h1, h2, R, A, r, a, hR, hA, hr, ha, -⟩ := (check_iff_group _ _ _ _).mp hv
  refine (C97_affine_check H _ m _ R A h1 h2 hR hA ?_).mpr hv
  obtain ⟨n, S, -, -, hs⟩ := sign_halves H m sk (publicKey H sk)
  rw [hs, List.take_left' (encPt_length _)] at hR ⊢
  rw [decode_encPt] at hR
  have q1 := Option.some.inj hR
  rw [← q1, encodePoint_rep (rep_canon _)]

/-! A signature under a toy hash, accepted, and not for another message. -/

/-- Sixty-four bytes that depend on the last byte of the message. -/
def toy (m : Bytes) : Bytes := m.getLastD 7 :: List.replicate 63 0

example : (∀ m, (toy m).length = 64) ∧ check toy (sign toy [1] [5] (publicKey toy [5])) [1] (publicKey toy [5]) = some () ∧
    check toy (sign toy [1] [5] (publicKey toy [5])) [2] (publicKey toy [5]) = none := by
  refine ⟨fun m => by simp [toy], C97_signed_is_valid _ _ _, by decide +kernel⟩

/-- A toy hash with which the nonce is always 3. -/
def toy2 (m : Bytes) : Bytes := (if m.headD 1 = 0 then 3 else m.getLastD 7) :: List.replicate 63 0

/-- The hypotheses of `C97_two_signatures` hold for two messages signed with one nonce. -/
example : (∀ m, (toy2 m).length = 64) ∧ check toy2 (sign toy2 [1] [5] (publicKey toy2 [5])) [1] (publicKey toy2 [5]) = some () ∧
    check toy2 (sign toy2 [2] [5] (publicKey toy2 [5])) [2] (publicKey toy2 [5]) = some () ∧
    (sign toy2 [2] [5] (publicKey toy2 [5])).take 32 = (sign toy2 [1] [5] (publicKey toy2 [5])).take 32 ∧
    ∃ R A : Ext, Ed.decodePoint ((sign toy2 [1] [5] (publicKey toy2 [5])).take 32) = some R ∧ Ed.decodePoint (publicKey toy2 [5]) = some A ∧
    (Key.number (toy2 (Ed.encodePoint R ++ publicKey toy2 [5] ++ [1])) : ℤ) % l ≠ Key.number (toy2 (Ed.encodePoint R ++ publicKey toy2 [5] ++ [2])) % l := by
  have h1 := C97_signed_is_valid toy2 [1] [5]
  refine ⟨fun m => by simp [toy2], h1, C97_signed_is_valid _ _ _, by decide +kernel, ?_⟩
  obtain ⟨-, -, R, A, r, a, hR, hA, hr, -, -⟩ := (check_iff_group _ _ _ _).mp h1
  refine ⟨R, A, hR, hA, ?_⟩
  have hb : (sign toy2 [1] [5] (publicKey toy2 [5])).headD 1 ≠ 0 := by decide +kernel
  have he : Ed.encodePoint R = (sign toy2 [1] [5] (publicKey toy2 [5])).take 32 := by
    obtain ⟨n, S, -, -, hs⟩ := sign_halves toy2 [1] [5] (publicKey toy2 [5])
    rw [hs, List.take_left' (encPt_length _)] at hR ⊢
    rw [decode_encPt] at hR
    rw [← Option.some.inj hR, encodePoint_rep (rep_canon _)]
  rw [he]
  decide +kernel

end Verif.EdDsa

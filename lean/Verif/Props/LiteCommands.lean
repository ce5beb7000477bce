import Verif.Props.LiteMlsag
import Verif.Props.LiteKeys
import Verif.Props.KeysStandard

/-! C54, C64, C68, C70: further commands of the lite device: sub-addresses, key images, the message to be signed, its challenge. -/

namespace Verif.Lite
open Verif Ed Key Sig Edwards

theorem idx_number {M m : Bytes} (lM : M.length = 4) (lm : m.length = 4) : idxParse (M ++ m) = (number M, number m) := by
  obtain ⟨w, x, y, z, rfl⟩ := four lM
  obtain ⟨w', x', y', z', rfl⟩ := four lm
  rw [number_four, number_four]
  simp [idxParse]

/-- The command with an index of eight bytes. -/
def indexCmd (ins : ℕ) (idx : Bytes) : Cmd := ⟨ins, 0, 0, 0 :: idx⟩

theorem subaddress_run (e : Env) (s : St) (M m : Bytes) (lM : M.length = 4) (lm : m.length = 4) (D C : Ext)
    (h : subAddressKeys e.H s.a s.B (number M) (number m) = some (D, C)) :
    (dispatch e s (indexCmd 0x48 (M ++ m))).1 = some (swOk, encodePoint C ++ encodePoint D) := by
  unfold indexCmd
  rw [dispatch_cons, show subDispatch e 0x48 0 = getSubaddress e from rfl]
  have h0 := rest_begin s 0 0 0 (M ++ m)
  have hr : (s.begin 0 0 0 (M ++ m)).resp = [] := rfl
  have ha : (s.begin 0 0 0 (M ++ m)).a = s.a := rfl
  have hB : (s.begin 0 0 0 (M ++ m)).B = s.B := rfl
  generalize s.begin 0 0 0 (M ++ m) = t at h0 hr ha hB
  unfold getSubaddress
  rw [run_bind_some (run_fetch (y := []) (by rw [h0, List.append_nil]) (by rw [List.length_append, lM, lm])), run_bind_some (run_get _),
    idx_number lM lm, adv_a, adv_B, ha, hB, h, run_bind_some (run_lift _ _), run_bind_some (run_insert _ _), run_bind_some (run_insert _ _), run_pure]
  show some (swOk, (t.resp ++ _) ++ _) = _
  rw [hr]; rfl

theorem spend_run (e : Env) (s : St) (M m : Bytes) (lM : M.length = 4) (lm : m.length = 4) (D : Ext)
    (h : subSpendPub e.H s.a s.B (number M) (number m) = some D) :
    (dispatch e s (indexCmd 0x4A (M ++ m))).1 = some (swOk, encodePoint D) := by
  unfold indexCmd
  rw [dispatch_cons, show subDispatch e 0x4A 0 = getSubSpend e from rfl]
  have h0 := rest_begin s 0 0 0 (M ++ m)
  have hr : (s.begin 0 0 0 (M ++ m)).resp = [] := rfl
  have ha : (s.begin 0 0 0 (M ++ m)).a = s.a := rfl
  have hB : (s.begin 0 0 0 (M ++ m)).B = s.B := rfl
  generalize s.begin 0 0 0 (M ++ m) = t at h0 hr ha hB
  unfold getSubSpend
  rw [run_bind_some (run_fetch (y := []) (by rw [h0, List.append_nil]) (by rw [List.length_append, lM, lm])), run_bind_some (run_get _),
    idx_number lM lm, adv_a, adv_B, ha, hB, h, run_bind_some (run_lift _ _), run_bind_some (run_insert _ _), run_pure]
  show some (swOk, t.resp ++ _) = _
  rw [hr]; rfl

/-- The spend key at an index (the eight bytes of the command): the device's own for index zero, otherwise `B + m G` with `m` the hash of "SubAddr", a zero
byte, the view key and the index. -/
noncomputable def spendAt (H : Bytes → Bytes) (a : ℤ) (b : Point) (idx : Bytes) : Point :=
  if idx = List.replicate 8 0 then b else b + hs H (subTag ++ (encodeInt a ++ idx)) • base

/-- The view key at an index. -/
noncomputable def viewAt (H : Bytes → Bytes) (a : ℤ) (b : Point) (idx : Bytes) : Point :=
  if idx = List.replicate 8 0 then a • base else a • spendAt H a b idx

/-- C70. Asked for a sub-address, the device answers with the keys of the standard sub-address at that index, view key first, and the command for the spend
key alone answers with the same key. -/
theorem C70_subaddress (e : Env) (s : St) (ha : 0 ≤ s.a) (b : Point) (hB : Rep s.B b) (idx : Bytes) (hi : idx.length = 8) :
    (dispatch e s (indexCmd 0x48 idx)).1 = some (swOk, encPt (viewAt e.H s.a b idx) ++ encPt (spendAt e.H s.a b idx)) ∧
    (dispatch e s (indexCmd 0x4A idx)).1 = some (swOk, encPt (spendAt e.H s.a b idx)) := by
  have lM : (idx.take 4).length = 4 := by rw [List.length_take]; omega
  have lm : (idx.drop 4).length = 4 := by rw [List.length_drop]; omega
  have hidx : idx = idx.take 4 ++ idx.drop 4 := (List.take_append_drop 4 idx).symm
  generalize idx.take 4 = M at lM hidx
  generalize idx.drop 4 = m at lm hidx
  subst hidx
  obtain ⟨hstd, -, -⟩ := C38_secret_standard e.H s.a
  have hz : (number M = 0 ∧ number m = 0) ↔ M ++ m = List.replicate 8 0 := by
    rw [number_zero lM, number_zero lm]
    constructor
    · rintro ⟨rfl, rfl⟩; rfl
    · intro h
      exact List.append_inj (h.trans (show List.replicate 8 0 = [0, 0, 0, 0] ++ [(0 : UInt8), 0, 0, 0] from rfl)) lM
  have hex : ∃ D C, subAddressKeys e.H s.a s.B (number M) (number m) = some (D, C) := by
    by_cases h0 : number M = 0 ∧ number m = 0
    · exact ⟨_, _, by rw [subAddressKeys, if_pos h0]⟩
    · rw [subAddressKeys, if_neg h0, hstd M m lM lm (fun h => h0 (hz.mpr h))]
      exact ⟨_, _, rfl⟩
  obtain ⟨D, C, h⟩ := hex
  obtain ⟨hD, hcase⟩ := C38_address_standard e.H s.a ha s.B b hB _ _ D C h
  rw [subaddress_run e s M m lM lm D C h, spend_run e s M m lM lm D hD]
  rcases hcase with ⟨h1, h2, rD, rC⟩ | ⟨h0, k, hk, rD, rC⟩
  · rw [encodePoint_rep rD, encodePoint_rep rC, viewAt, if_pos (hz.mp ⟨h1, h2⟩), spendAt, if_pos (hz.mp ⟨h1, h2⟩)]
    exact ⟨rfl, rfl⟩
  · have hne : M ++ m ≠ List.replicate 8 0 := fun h => h0 (hz.mpr h)
    rw [hstd M m lM lm hne] at hk
    have hk' := Option.some.inj hk
    rw [encodePoint_rep rD, encodePoint_rep rC, viewAt, if_neg hne, spendAt, if_neg hne, ← hk']
    exact ⟨rfl, rfl⟩

/-- C70. Asked for the secret of a sub-address, given the encrypted view key, the device answers with the encryption of the `m` by which that spend key
differs from its own. -/
theorem C70_subaddress_secret (e : Env) (s : St) (ea idx : Bytes) (la : ea.length = 32) (hi : idx.length = 8) (a : ℤ) (hd : decodeScalar (e.dec ea) = some a)
    (hne : idx ≠ List.replicate 8 0) (c : Bytes) (hc : e.enc (encodeInt (hs e.H (subTag ++ (encodeInt a ++ idx)))) = some c) (b : Point) :
    (dispatch e s ⟨0x4C, 0, 0, 0 :: (ea ++ idx)⟩).1 = some (swOk, c) ∧
      spendAt e.H a b idx = b + hs e.H (subTag ++ (encodeInt a ++ idx)) • base := by
  refine ⟨?_, by rw [spendAt, if_neg hne]⟩
  have lM : (idx.take 4).length = 4 := by rw [List.length_take]; omega
  have lm : (idx.drop 4).length = 4 := by rw [List.length_drop]; omega
  have hidx : idx = idx.take 4 ++ idx.drop 4 := (List.take_append_drop 4 idx).symm
  generalize idx.take 4 = M at lM hidx
  generalize idx.drop 4 = m at lm hidx
  subst hidx
  obtain ⟨hstd, -, -⟩ := C38_secret_standard e.H a
  rw [dispatch_cons, show subDispatch e 0x4C 0 = getSubSecret e from rfl]
  have h0 := rest_begin s 0 0 0 (ea ++ (M ++ m))
  have hr : (s.begin 0 0 0 (ea ++ (M ++ m))).resp = [] := rfl
  generalize s.begin 0 0 0 (ea ++ (M ++ m)) = t at h0 hr
  have h1 := rest_adv h0 la
  unfold getSubSecret
  have hie : ∀ u : St, (insertEncrypt e (encodeInt (hs e.H (subTag ++ (encodeInt a ++ (M ++ m)))))).run u = (some (), u.put c) := by
    intro u
    unfold insertEncrypt
    rw [hc, run_bind_some (run_lift _ _), run_insert]
  rw [run_bind_some (run_scalar_dec e h0 la hd), run_bind_some (run_fetch (y := []) (by rw [h1, List.append_nil]) hi), idx_number lM lm,
    hstd M m lM lm hne, run_bind_some (run_lift _ _), run_bind_some (hie _), run_pure]
  show some (swOk, t.resp ++ c) = _
  rw [hr]; rfl

/-- C70. The key image the device computes for an output key and an encrypted secret is the secret times the hash of the key to a point. -/
theorem C70_key_image (e : Env) (s : St) (pub ex : Bytes) (lp : pub.length = 32) (lx : ex.length = 32) (x : ℤ) (hx : decodeScalar (e.dec ex) = some x)
    (p : Point) (hp : Rep (hp e.H pub) p) : (dispatch e s ⟨0x3A, 0, 0, 0 :: (pub ++ ex)⟩).1 = some (swOk, encPt (x • p)) := by
  rw [dispatch_cons, show subDispatch e 0x3A 0 = cmdKeyImage e from rfl]
  have h0 := rest_begin s 0 0 0 (pub ++ ex)
  have hr : (s.begin 0 0 0 (pub ++ ex)).resp = [] := rfl
  generalize s.begin 0 0 0 (pub ++ ex) = t at h0 hr
  have h1 := rest_adv h0 lp
  unfold cmdKeyImage
  rw [run_bind_some (run_fetch h0 lp), run_bind_some (run_scalar_dec e (y := []) (by rw [h1, List.append_nil]) lx hx), run_bind_some (run_insert _ _),
    run_pure, ← encodePoint_rep (rep_smul hp (C35_scalar_range _ _ hx).1)]
  show some (swOk, t.resp ++ _) = _
  rw [hr]; rfl

theorem fetchU32_run {s : St} {b y : Bytes} (h : rest s = b ++ y) (hb : b.length = 4) :
    fetchU32.run s = (some (b.foldl (fun a x => a * 256 + x.toNat) 0), s.adv 4) := by
  obtain ⟨w, x, z, v, rfl⟩ := four hb
  have h1 : rest s = w :: (x :: z :: v :: y) := h
  have h2 := rest_u8 h1
  have h3 := rest_u8 h2
  have h4 := rest_u8 h3
  unfold fetchU32
  rw [run_bind_some (run_u8 h1), run_bind_some (run_u8 h2), run_bind_some (run_u8 h3), run_bind_some (run_u8 h4), run_pure]
  simp [St.adv]

/-- C70. Taking the shared secret off again: the command that looks for the spend key behind a one-time key undoes the command that derives the one-time
key, for the same encrypted derivation and index. -/
theorem C70_subaddress_of_output (e : Env) (s s' : St) (eder i : Bytes) (ld : eder.length = 32) (li : i.length = 4) (d : Point) (sw : ℕ) (pub : Bytes)
    (h : (dispatch e s (deriveCmd 0x36 eder i (encPt d))).1 = some (sw, pub)) :
    (dispatch e s' ⟨0x46, 0, 0, 0 :: (pub ++ (eder ++ i))⟩).1 = some (swOk, encPt d) := by
  obtain ⟨D, P, R, hD, hP, hR, rfl⟩ := derivePublic_some e s eder i (encPt d) ld li (encPt_length d) sw pub h
  rw [decode_encPt] at hP
  obtain rfl := Option.some.inj hP
  have hc := rep_canon d
  generalize canon d = P at hc hR
  generalize hn : i.foldl (fun a x => a * 256 + x.toNat) 0 = n at hR
  unfold derivePublicKey at hR
  rw [frombytes_some] at hR
  simp only [ne_eq, not_true_eq_false, if_false] at hR
  split at hR
  · cases hR
  obtain ⟨z, hz, rfl⟩ := Option.map_eq_some_iff.mp hR
  have hRr := rep_add hc (rep_B z)
  rw [encodePoint_rep hRr]
  rw [dispatch_cons, show subDispatch e 0x46 0 = cmdDeriveSubPublic e from rfl]
  have h0 := rest_begin s' 0 0 0 (encPt (d + z • base) ++ (eder ++ i))
  have hr : (s'.begin 0 0 0 (encPt (d + z • base) ++ (eder ++ i))).resp = [] := rfl
  generalize s'.begin 0 0 0 (encPt (d + z • base) ++ (eder ++ i)) = t at h0 hr
  have h1 := rest_adv h0 (encPt_length _)
  have h2 := rest_adv h1 ld
  have hpd : (fetchDecrypt e 32 >>= point).run (t.adv 32) = (some D, (t.adv 32).adv 32) := by
    rw [run_bind_some (run_decrypt e h1 ld)]
    unfold point
    rw [run_lift, hD]
  have hsub : deriveSubPublic e.H (canon (d + z • base)) D n = some (sub (canon (d + z • base)) (scalarmultB z)) := by
    unfold deriveSubPublic
    rw [if_pos (rep_on (rep_canon _)), hz]; rfl
  unfold cmdDeriveSubPublic
  rw [run_bind_some (run_point h0 (encPt_length _) (decode_encPt _)), run_bind_some hpd,
    run_bind_some (fetchU32_run (y := []) (by rw [h2, List.append_nil]) li), hn, hsub, run_bind_some (run_lift _ _), run_bind_some (run_insert _ _), run_pure,
    encodePoint_rep (rep_sub (rep_canon (d + z • base)) (rep_B z)), add_sub_cancel_right]
  show some (swOk, t.resp ++ _) = _
  rw [hr]; rfl

/-- The sub-address at index (1, 2) of the toy device, its spend key, its secret. -/
example : (dispatch demo device (indexCmd 0x48 [1, 0, 0, 0, 2, 0, 0, 0])).1.isSome = true ∧
    (dispatch demo device ⟨0x4C, 0, 0, 0 :: (small 5 ++ [1, 0, 0, 0, 2, 0, 0, 0])⟩).1.isSome = true ∧
    (dispatch demo device (deriveCmd 0x36 g32 [0, 0, 0, 2] g32)).1.isSome = true ∧
    (dispatch demo device ⟨0x3A, 0, 0, 0 :: (g32 ++ small 5)⟩).1.isSome = true := by decide +kernel

/-- C54. The key material for the wallet's cache: 200 bytes that start with the hash of the view key, the spend key and the byte 8c, and depend on nothing
else. -/
theorem C54_prekey (e : Env) (hH : ∀ d, (e.H d).length = 32) (s : St) (p1 p2 : ℕ) (o : UInt8) (more : Bytes) :
    ∃ r, (dispatch e s ⟨0x24, p1, p2, o :: more⟩).1 = some (swOk, r) ∧ r.length = 200 ∧
      ∀ n, n < 200 → r[n]? = (e.H (encodeInt s.a ++ (encodeInt s.b ++ [0x8c])))[n % 32]? := by
  rw [dispatch_cons, show subDispatch e 0x24 p1 = chacha8Prekey e from rfl]
  have hr : (s.begin p1 p2 o more).resp = [] := rfl
  have ha : (s.begin p1 p2 o more).a = s.a := rfl
  have hb : (s.begin p1 p2 o more).b = s.b := rfl
  generalize s.begin p1 p2 o more = t at hr ha hb
  have hl := hH (encodeInt s.a ++ encodeInt s.b ++ [0x8c])
  rw [← List.append_assoc (encodeInt s.a)]
  unfold chacha8Prekey
  rw [run_bind_some (run_get _), ha, hb]
  generalize e.H (encodeInt s.a ++ encodeInt s.b ++ [0x8c]) = h at hl
  rw [run_bind_some (run_insert _ _), run_pure]
  have hrep : ∀ k n, n < 32 * k + 8 → ((List.replicate k h).flatten ++ h.take 8)[n]? = h[n % 32]? := by
    intro k
    induction k with
    | zero =>
      intro n hn
      rw [List.replicate_zero, List.flatten_nil, List.nil_append, List.getElem?_take, if_pos (by omega), Nat.mod_eq_of_lt (by omega)]
    | succ k ih =>
      intro n hn
      rw [List.replicate_succ, List.flatten_cons, List.append_assoc]
      by_cases h32 : n < 32
      · rw [List.getElem?_append_left (by omega), Nat.mod_eq_of_lt h32]
      · rw [List.getElem?_append_right (by omega), hl, ih (n - 32) (by omega)]
        congr 1; omega
  refine ⟨(List.replicate 6 h).flatten ++ h.take 8, ?_, ?_, fun n hn => hrep 6 n (by omega)⟩
  · show some (swOk, t.resp ++ _) = _
    rw [hr]; rfl
  · simp [hl]

example : ∀ d, (demo.H d).length = 32 := fun _ => rfl

/-! The signature mode. -/

/-- The command that chooses a mode. -/
def modeOf (m : UInt8) : Cmd := ⟨0x72, 0, 0, [0, m]⟩

theorem setMode_run (e : Env) (s : St) (m : UInt8) :
    (dispatch e s (modeOf m)).2.sigMode = (if m = 1 then createReal else createFake) ∧
      (dispatch e s (modeOf m)).2.ctxH = s.ctxH ∧ (dispatch e s (modeOf m)).2.asked = s.asked ∧
      ((dispatch e s (modeOf m)).1 = none ↔ m ≠ 1 ∧ m ≠ 2) := by
  unfold modeOf
  rw [dispatch_cons, show subDispatch e 0x72 0 = setSignatureMode from rfl]
  have h0 := rest_begin s 0 0 0 [m]
  have hH : (s.begin 0 0 0 [m]).ctxH = s.ctxH := rfl
  have ha : (s.begin 0 0 0 [m]).asked = s.asked := rfl
  generalize s.begin 0 0 0 [m] = t at h0 hH ha
  unfold setSignatureMode
  rw [run_bind_some (run_modify _ _), run_bind_some (run_u8 (o := m) (y := []) (by exact h0))]
  have h1 : m = 1 ↔ m.toNat = 1 := by rw [← UInt8.toNat_inj]; rfl
  have h2 : m = 2 ↔ m.toNat = 2 := by rw [← UInt8.toNat_inj]; rfl
  by_cases hc : m.toNat ≠ createFake ∧ m.toNat ≠ createReal
  · rw [if_pos hc, run_fail]
    have hn1 : m ≠ 1 := fun h => hc.2 (h1.mp h)
    have hn2 : m ≠ 2 := fun h => hc.1 (h2.mp h)
    rw [if_neg hn1]
    exact ⟨rfl, hH, ha, ⟨fun _ => ⟨hn1, hn2⟩, fun _ => rfl⟩⟩
  · rw [if_neg hc, run_bind_some (run_modify _ _)]
    have hins : ∀ u : St, ∃ r, (insertU32 m.toNat).run u = (some (), u.put r) := by
      intro u
      unfold insertU32 insertU8
      refine ⟨[UInt8.ofNat (m.toNat / 16777216)] ++ ([UInt8.ofNat (m.toNat / 65536)] ++ ([UInt8.ofNat (m.toNat / 256)] ++ [UInt8.ofNat m.toNat])), ?_⟩
      rw [run_bind_some (run_insert _ _), run_bind_some (run_insert _ _), run_bind_some (run_insert _ _), run_insert]
      unfold St.put
      simp only [List.append_assoc]
    obtain ⟨r, hr⟩ := hins { ({ t with sigMode := createFake } : St).adv 1 with sigMode := m.toNat }
    rw [run_bind_some hr, run_pure]
    have hcase : m = 1 ∨ m = 2 := by
      rw [h1, h2]
      by_contra hno
      exact hc ⟨fun h => hno (Or.inr h), fun h => hno (Or.inl h)⟩
    refine ⟨?_, hH, ha, ⟨fun h => by simp [seen] at h, fun h => absurd hcase (by rintro (g | g); exacts [h.1 g, h.2 g])⟩⟩
    show m.toNat = _
    rcases hcase with rfl | rfl
    · rfl
    · rfl

/-- C64. The device signs for real only when it was told to: after a mode command it is in the mode asked for, and in fake mode when the byte is neither
(the command is refused then). In fake mode the response to a challenge is computed from the secret and the nonce in the clear bytes of the host: no secret
of the device, decrypted or kept, enters it. -/
theorem C64_mode_partial (e : Env) (s : St) (m : UInt8) :
    (dispatch e s (modeOf m)).2.sigMode = (if m = 1 then createReal else createFake) ∧
    ((dispatch e s (modeOf m)).1 = none ↔ m ≠ 1 ∧ m ≠ 2) ∧
    (m ≠ 1 → ∀ (mb xb αb : Bytes) (c x α : ℤ), mb.length = 32 → xb.length = 32 → αb.length = 32 →
      decodeScalar (e.H (s.ctxH ++ mb)) = some c → decodeScalar xb = some x → decodeScalar αb = some α →
      (session e s [modeOf m, hashCmd mb, signCmd xb αb]).1.getLast? = some (some (swOk, encodeInt (scMulsub c x α) ++ [0, 0, 0, 2]))) := by
  obtain ⟨hm, hH, ha, hn⟩ := setMode_run e s m
  refine ⟨hm, hn, ?_⟩
  intro h1 mb xb αb c x α lm lx lα hc hx hα
  rw [if_neg h1] at hm
  obtain ⟨t2, e2, c2, m2, a2, -⟩ := hash_run e (dispatch e s (modeOf m)).2 mb lm c (by rw [hH]; exact hc)
  have hsign : (dispatch e t2 (signCmd xb αb)).1 = some (swOk, encodeInt (scMulsub c x α) ++ [0, 0, 0, 2]) := by
    have hs : t2.sigMode = 2 := by rw [m2, hm]; rfl
    unfold signCmd
    rw [dispatch_cons, show subDispatch e 0x7E 3 = mlsagSign e from rfl]
    have h0 := rest_begin t2 3 0 0 (xb ++ αb)
    have hr : (t2.begin 3 0 0 (xb ++ αb)).resp = [] := rfl
    have hm : (t2.begin 3 0 0 (xb ++ αb)).sigMode = 2 := hs
    have hcc : (t2.begin 3 0 0 (xb ++ αb)).c = some c := c2
    generalize t2.begin 3 0 0 (xb ++ αb) = t at h0 hr hm hcc
    have h1 := rest_adv h0 lx
    have hu : ∀ u : St, (insertU32 2).run u = (some (), u.put [0, 0, 0, 2]) := by
      intro u
      unfold insertU32 insertU8
      rw [run_bind_some (run_insert _ _), run_bind_some (run_insert _ _), run_bind_some (run_insert _ _), run_insert]
      unfold St.put
      simp
    unfold mlsagSign
    rw [run_bind_some (run_get t), if_pos (by rw [hm]; decide), run_bind_some (run_scalar h0 lx hx),
      run_bind_some (run_scalar (y := []) (by rw [h1, List.append_nil]) lα hα), hcc, run_bind_some (run_lift _ _), run_bind_some (run_insert _ _), hm,
      run_bind_some (hu _), run_pure]
    show some (swOk, (t.resp ++ encodeInt (scMulsub c x α)) ++ [0, 0, 0, 2]) = _
    rw [hr]; rfl
  simp only [session, e2, List.getLast?_cons_cons, List.getLast?_singleton]
  rw [hsign]

/-- With the cipher replaced by one that spoils everything, the fake response is the same. -/
example : (session { demo with dec := fun _ => [] } device [modeOf 2, hashCmd (small 7), signCmd (small 5) (small 100)]).1.getLast? =
    some (some (swOk, encodeInt 60 ++ [0, 0, 0, 2])) := by decide +kernel

/-! The challenge, sent in parts. -/

/-- The commands for a challenge over the message kept in the device: the first restarts the hash with the message, the parts follow, the last closes. -/
def challengeCmds (parts : List Bytes) (last : Bytes) : List Cmd :=
  ⟨0x7E, 2, 1, [0x80]⟩ :: (parts.map fun m => ⟨0x7E, 2, 0, 0x80 :: m⟩) ++ [hashCmd last]

theorem part_run (e : Env) (s : St) (m : Bytes) (hm : m.length = 32) :
    ∃ t, dispatch e s ⟨0x7E, 2, 0, 0x80 :: m⟩ = (some (swOk, []), t) ∧ t.ctxH = s.ctxH ++ m := by
  rw [dispatch_cons, show subDispatch e 0x7E 2 = mlsagHash e from rfl]
  have h0 := rest_begin s 2 0 0x80 m
  have hr : (s.begin 2 0 0x80 m).resp = [] := rfl
  have hH : (s.begin 2 0 0x80 m).ctxH = s.ctxH := rfl
  have hp : (s.begin 2 0 0x80 m).p2 = 0 := rfl
  have ho : (s.begin 2 0 0x80 m).options = 0x80 := rfl
  generalize s.begin 2 0 0x80 m = t at h0 hr hH hp ho
  have hmsg : mlsagMsg.run t = (some m, t.adv 32) := by
    unfold mlsagMsg
    rw [run_bind_some (run_get t), if_neg (by rw [hp]; decide), run_fetch (y := []) (by rw [h0, List.append_nil]) hm]
  unfold mlsagHash
  rw [run_bind_some hmsg, run_bind_some (run_modify _ _), run_bind_some (run_get _), if_neg (by rw [addH_options, adv_options, ho]; decide), run_pure]
  refine ⟨_, Prod.ext ?_ rfl, ?_⟩
  · show some (swOk, t.resp) = _
    rw [hr]
  · show t.ctxH ++ m = _
    rw [hH]

theorem restart_run (e : Env) (s : St) (h : Bytes) (hs : s.H = some h) :
    ∃ t, dispatch e s ⟨0x7E, 2, 1, [0x80]⟩ = (some (swOk, []), t) ∧ t.ctxH = h := by
  rw [dispatch_cons, show subDispatch e 0x7E 2 = mlsagHash e from rfl]
  have hr : (s.begin 2 1 0x80 []).resp = [] := rfl
  have hH : (s.begin 2 1 0x80 []).H = some h := hs
  have hp : (s.begin 2 1 0x80 []).p2 = 1 := rfl
  have ho : (s.begin 2 1 0x80 []).options = 0x80 := rfl
  generalize s.begin 2 1 0x80 [] = t at hr hH hp ho
  have hmsg : mlsagMsg.run t = (some h, { t with ctxH := [] }) := by
    unfold mlsagMsg
    rw [run_bind_some (run_get t), if_pos hp, run_bind_some (run_modify _ _), hH, run_lift]
  unfold mlsagHash
  rw [run_bind_some hmsg, run_bind_some (run_modify _ _), run_bind_some (run_get _), if_neg (by rw [addH_options]; show ¬ t.options / 0x80 % 2 = 0; rw [ho]; decide),
    run_pure]
  refine ⟨_, Prod.ext ?_ rfl, ?_⟩
  · show some (swOk, t.resp) = _
    rw [hr]
  · show [] ++ h = _
    rfl

/-- C68. The challenge covers the message kept in the device and everything sent after it, in the order sent, whatever was hashed before: it is the hash of
their concatenation, and it is the challenge the next response is made with. -/
theorem C68_challenge (e : Env) (s : St) (h : Bytes) (hs : s.H = some h) (parts : List Bytes) (hp : ∀ m ∈ parts, m.length = 32) (last : Bytes)
    (hl : last.length = 32) (c : ℤ) (hc : decodeScalar (e.H (h ++ (parts.flatten ++ last))) = some c) :
    (session e s (challengeCmds parts last)).1 = List.replicate (parts.length + 1) (some (swOk, [])) ++ [some (swOk, encodeInt c)] ∧
      (session e s (challengeCmds parts last)).2.c = some c := by
  have key : ∀ (parts : List Bytes) (s : St), (∀ m ∈ parts, m.length = 32) → decodeScalar (e.H (s.ctxH ++ (parts.flatten ++ last))) = some c →
      (session e s ((parts.map fun m => (⟨0x7E, 2, 0, 0x80 :: m⟩ : Cmd)) ++ [hashCmd last])).1 =
          List.replicate parts.length (some (swOk, [])) ++ [some (swOk, encodeInt c)] ∧
        (session e s ((parts.map fun m => (⟨0x7E, 2, 0, 0x80 :: m⟩ : Cmd)) ++ [hashCmd last])).2.c = some c := by
    intro parts
    induction parts with
    | nil =>
      intro s _ hc
      obtain ⟨t, e1, c1, -⟩ := hash_run e s last hl c hc
      simp only [List.map_nil, List.nil_append, session, e1, c1, List.length_nil, List.replicate_zero, and_self]
    | cons m ms ih =>
      intro s hm hc
      obtain ⟨t, e1, h1⟩ := part_run e s m (hm m List.mem_cons_self)
      obtain ⟨i1, i2⟩ := ih t (fun x hx => hm x (List.mem_cons_of_mem _ hx)) (by
        rw [h1]; rw [List.flatten_cons, List.append_assoc] at hc; rwa [List.append_assoc])
      simp only [List.map_cons, List.cons_append, session, e1, List.length_cons, List.replicate_succ]
      exact ⟨by rw [i1], i2⟩
  obtain ⟨t, e1, h1⟩ := restart_run e s h hs
  obtain ⟨i1, i2⟩ := key parts t hp (by rw [h1]; exact hc)
  unfold challengeCmds
  simp only [List.cons_append, session, e1, List.replicate_succ]
  exact ⟨by rw [i1], i2⟩

example : (session demo { device with H := some (small 1), ctxH := small 200 } (challengeCmds [small 2, small 3] (small 4))).2.c = some 11 := by
  decide +kernel

/-! The message to be signed. -/

theorem init_hash (e : Env) (s : St) (c : Cmd) (hc : c.ins = 0x7C ∧ c.p1 = 1 ∧ c.p2 = 1) (h : (dispatch e s c).1 ≠ none) :
    (dispatch e s c).2.ctxH = c.input.drop 1 ∧ (dispatch e s c).2.ctxCommitment = [] := by
  obtain ⟨ins, p1, p2, input⟩ := c
  obtain ⟨rfl, rfl, rfl⟩ : ins = 0x7C ∧ p1 = 1 ∧ p2 = 1 := hc
  generalize hd : dispatch e s ⟨0x7C, 1, 1, input⟩ = r at h
  obtain ⟨rr, s'⟩ := r
  match rr, h with
  | some (sw, resp), _ =>
    obtain ⟨o, y, rfl, h, -⟩ := dispatch_some hd
    rw [show subDispatch e 0x7C 1 = prehashInit e from rfl] at h
    have hp : (s.begin 1 1 o y).p2 = 1 := rfl
    have hm : (s.begin 1 1 o y).msg.drop (s.begin 1 1 o y).off = y := rfl
    generalize s.begin 1 1 o y = t at h hp hm
    unfold prehashInit at h
    rw [run_bind_some (run_get t), if_pos hp, run_bind_some (run_modify _ _), run_bind_some (run_modify _ _)] at h
    have key : ∀ u : St, u.ctxH = y ∧ u.ctxCommitment = [] →
        (if t.sigMode = createReal then (do
          let _ ← fetchU8
          let s ← get
          if e.fee (s.msg.drop s.off) then pure swOk else fail) else pure swOk : LM ℕ).run u = (some sw, s') →
        s'.ctxH = y ∧ s'.ctxCommitment = [] := by
      intro u hu h
      split at h
      · obtain ⟨n, s1, h1, h⟩ := run_bind_eq_some.mp h
        obtain ⟨_, _, _, _, rfl⟩ := u8_some h1
        rw [run_bind_some (run_get _)] at h
        split at h
        · rw [run_pure] at h
          have es : u.adv 1 = s' := congrArg Prod.snd h
          rw [← es]; exact hu
        · cases congrArg Prod.fst h
      · rw [run_pure] at h
        have es : u = s' := congrArg Prod.snd h
        rw [← es]; exact hu
    refine key _ ⟨?_, rfl⟩ h
    show [] ++ t.msg.drop t.off = y
    rw [hm]; rfl

/-- The commitment and the two hidden values an output to be validated is sent with. -/
def sentCommitment (c : Cmd) : Bytes := (c.input.drop 98).take 32
def sentInfo (c : Cmd) : Bytes := (c.input.drop 130).take 64

theorem output_fields' (o : UInt8) (x : Output) (more : Bytes) :
    ((o :: x.bytes more).drop 98).take 32 = x.C ∧ ((o :: x.bytes more).drop 130).take 64 = x.k ++ x.v := by
  have g : ∀ (n k : ℕ) (l y z : Bytes), l.length = n → y.length = k → ((l ++ (y ++ z)).drop n).take k = y := by
    intro n k l y z hl hy
    rw [List.drop_left' hl, List.take_left' hy]
  refine ⟨?_, ?_⟩
  · have := g 98 32 (o :: x.sub :: (x.A ++ (x.B ++ x.eak))) x.C (x.k ++ (x.v ++ more)) (by simp [x.lA, x.lB, x.leak]) x.lC
    simpa [Output.bytes] using this
  · have := g 130 64 (o :: x.sub :: (x.A ++ (x.B ++ (x.eak ++ x.C)))) (x.k ++ x.v) more (by simp [x.lA, x.lB, x.leak, x.lC]) (by simp [x.lk, x.lv])
    simpa [Output.bytes] using this

theorem output_hash (e : Env) (s : St) (c : Cmd) (hc : c.ins = 0x7C ∧ c.p1 = 2) (h : (dispatch e s c).1 ≠ none) :
    (dispatch e s c).2.ctxH = s.ctxH ++ sentInfo c ∧ (sentCommitment c).length = 32 ∧
      ((c.input.headD 0).toNat / 0x80 % 2 = 0 → (dispatch e s c).2.ctxCommitment = [] ∧
        (dispatch e s c).2.C = some (e.sha (s.ctxCommitment ++ sentCommitment c))) ∧
      ((c.input.headD 0).toNat / 0x80 % 2 ≠ 0 → (dispatch e s c).2.ctxCommitment = s.ctxCommitment ++ sentCommitment c) := by
  obtain ⟨ins, p1, p2, input⟩ := c
  obtain ⟨rfl, rfl⟩ : ins = 0x7C ∧ p1 = 2 := hc
  generalize hd : dispatch e s ⟨0x7C, 2, p2, input⟩ = r at h
  obtain ⟨rr, s'⟩ := r
  match rr, h with
  | some (sw, resp), _ =>
    obtain ⟨o, x, more, Ap, Bp, Cp, ch, h1, -, -, -, -, -, -, -, -, -, -, h2, h3, h4⟩ := update_some e s s' p2 sw input resp hd
    obtain ⟨f1, f2⟩ := output_fields' o x more
    have hC : sentCommitment ⟨0x7C, 2, p2, input⟩ = x.C := by unfold sentCommitment; rw [h1, f1]
    have hI : sentInfo ⟨0x7C, 2, p2, input⟩ = x.k ++ x.v := by unfold sentInfo; rw [h1, f2]
    rw [hC, hI]
    refine ⟨h2, x.lC, ?_, ?_⟩
    · rw [h1]; exact h3
    · rw [h1]; exact h4

/-- Bytes of a command after the options. -/
def field (i : ℕ) (c : Cmd) : Bytes := (c.input.drop (1 + 32 * i)).take 32

theorem more_some (e : Env) (s : St) (c : Cmd) (hc : c.ins = 0x7C ∧ c.p1 = 3) (hb : (c.input.headD 0).toNat / 0x80 % 2 = 1)
    (h : (dispatch e s c).1 ≠ none) :
    (dispatch e s c).2.ctxH = s.ctxH ++ field 0 c ∧ (dispatch e s c).2.ctxCommitment = s.ctxCommitment ++ field 0 c ∧
      (dispatch e s c).2.C = s.C ∧ (field 0 c).length = 32 := by
  obtain ⟨ins, p1, p2, input⟩ := c
  obtain ⟨rfl, rfl⟩ : ins = 0x7C ∧ p1 = 3 := hc
  generalize hd : dispatch e s ⟨0x7C, 3, p2, input⟩ = r at h
  obtain ⟨rr, s'⟩ := r
  match rr, h with
  | some (sw, resp), _ =>
    obtain ⟨o, y, rfl, h, -⟩ := dispatch_some hd
    rw [show subDispatch e 0x7C 3 = prehashFinalize e from rfl] at h
    have h0 := rest_begin s 3 p2 o y
    have hH : (s.begin 3 p2 o y).ctxH = s.ctxH := rfl
    have hcc : (s.begin 3 p2 o y).ctxCommitment = s.ctxCommitment := rfl
    have hC : (s.begin 3 p2 o y).C = s.C := rfl
    have ho : (s.begin 3 p2 o y).options = o.toNat := rfl
    generalize s.begin 3 p2 o y = t at h h0 hH hcc hC ho
    unfold prehashFinalize at h
    rw [run_bind_some (run_get t), if_pos (by rw [ho]; exact hb)] at h
    obtain ⟨x, s1, h1, h⟩ := run_bind_eq_some.mp h
    obtain ⟨y1, e1, l1, rfl⟩ := fetch_some h1
    rw [run_bind_some (run_modify _ _), run_pure] at h
    have es := (congrArg Prod.snd h).symm
    have hf : field 0 ⟨0x7C, 3, p2, o :: y⟩ = x := by
      show y.take 32 = x
      rw [← h0, e1, List.take_left' l1]
    rw [hf]
    have es' : s' = ((t.adv 32).addH x).addCommitment x := es
    rw [es']
    simp only [addCommitment_ctxH, addH_ctxH, adv_ctxH, addCommitment_ctxCommitment, addH_ctxCommitment, adv_ctxCommitment, addCommitment_C, addH_C, adv_C,
      hH, hcc, hC]
    exact ⟨trivial, trivial, trivial, l1⟩

theorem final_some (e : Env) (s : St) (c : Cmd) (hc : c.ins = 0x7C ∧ c.p1 = 3) (hb : (c.input.headD 0).toNat / 0x80 % 2 = 0)
    (h : (dispatch e s c).1 ≠ none) :
    some (e.sha s.ctxCommitment) = s.C ∧ (dispatch e s c).1 = some (swOk, e.H (field 0 c ++ (e.H s.ctxH ++ field 1 c))) ∧
      (dispatch e s c).2.H = some (e.H (field 0 c ++ (e.H s.ctxH ++ field 1 c))) := by
  obtain ⟨ins, p1, p2, input⟩ := c
  obtain ⟨rfl, rfl⟩ : ins = 0x7C ∧ p1 = 3 := hc
  generalize hd : dispatch e s ⟨0x7C, 3, p2, input⟩ = r at h
  obtain ⟨rr, s'⟩ := r
  match rr, h with
  | some (sw, resp), _ =>
    obtain ⟨o, y, rfl, h, hresp⟩ := dispatch_some hd
    rw [show subDispatch e 0x7C 3 = prehashFinalize e from rfl] at h
    have h0 := rest_begin s 3 p2 o y
    have hr : (s.begin 3 p2 o y).resp = [] := rfl
    have hH : (s.begin 3 p2 o y).ctxH = s.ctxH := rfl
    have hcc : (s.begin 3 p2 o y).ctxCommitment = s.ctxCommitment := rfl
    have hC : (s.begin 3 p2 o y).C = s.C := rfl
    have ho : (s.begin 3 p2 o y).options = o.toNat := rfl
    generalize s.begin 3 p2 o y = t at h h0 hr hH hcc hC ho
    unfold prehashFinalize at h
    rw [run_bind_some (run_get t), if_neg (by rw [ho]; change o.toNat / 0x80 % 2 = 0 at hb; omega)] at h
    split at h
    · cases congrArg Prod.fst h
    rename_i hsha
    obtain ⟨m, s1, h1, h⟩ := run_bind_eq_some.mp h
    obtain ⟨y1, e1, l1, rfl⟩ := fetch_some h1
    obtain ⟨p, s2, h2, h⟩ := run_bind_eq_some.mp h
    obtain ⟨y2, e2, l2, rfl⟩ := fetch_some h2
    rw [run_bind_some (run_modify _ _), run_bind_some (run_insert _ _), run_pure] at h
    have b2 : y1 = p ++ y2 := (rest_adv e1 l1).symm.trans e2
    have by' : y = m ++ (p ++ y2) := by rw [← h0, e1, b2]
    have hf0 : field 0 ⟨0x7C, 3, p2, o :: y⟩ = m := by
      show y.take 32 = m
      rw [by', List.take_left' l1]
    have hf1 : field 1 ⟨0x7C, 3, p2, o :: y⟩ = p := by
      show (y.drop 32).take 32 = p
      rw [by', List.drop_left' l1, List.take_left' l2]
    rw [hf0, hf1]
    have hsw : swOk = sw := Option.some.inj (congrArg Prod.fst h)
    have eH := congrArg (fun x => x.2.H) h
    have eR := congrArg (fun x => x.2.resp) h
    simp only [put_H, put_resp, adv_resp, hr, hH, List.nil_append] at eH eR
    rw [← List.append_assoc m]
    refine ⟨?_, ?_, eH.symm⟩
    · rw [← hcc, ← hC]; exact not_not.mp hsha
    · rw [hresp, ← eR, hsw]

theorem outputs_hash (e : Env) (s : St) (cs : List Cmd) (hc : ∀ c ∈ cs, c.ins = 0x7C ∧ c.p1 = 2) (hb : ∀ c ∈ cs, (c.input.headD 0).toNat / 0x80 % 2 = 1)
    (h : ∀ r ∈ (session e s cs).1, r ≠ none) :
    (session e s cs).2.ctxH = s.ctxH ++ (cs.map sentInfo).flatten ∧
      (session e s cs).2.ctxCommitment = s.ctxCommitment ++ (cs.map sentCommitment).flatten ∧ ∀ c ∈ cs, (sentCommitment c).length = 32 := by
  induction cs generalizing s with
  | nil => simp [session]
  | cons c cs ih =>
    have hh : (session e s (c :: cs)).1 = (dispatch e s c).1 :: (session e (dispatch e s c).2 cs).1 := rfl
    rw [hh] at h
    have hbc := hb c List.mem_cons_self
    obtain ⟨a1, a2, -, a4⟩ := output_hash e s c (hc c List.mem_cons_self) (h _ List.mem_cons_self)
    obtain ⟨b1, b2, b3⟩ := ih (dispatch e s c).2 (fun c h => hc c (List.mem_cons_of_mem _ h)) (fun c h => hb c (List.mem_cons_of_mem _ h))
      (fun r hr => h r (List.mem_cons_of_mem _ hr))
    refine ⟨?_, ?_, ?_⟩
    · show (session e (dispatch e s c).2 cs).2.ctxH = _
      rw [b1, a1, List.map_cons, List.flatten_cons, List.append_assoc]
    · show (session e (dispatch e s c).2 cs).2.ctxCommitment = _
      rw [b2, a4 (by omega), List.map_cons, List.flatten_cons, List.append_assoc]
    · intro d hd
      rcases List.mem_cons.mp hd with rfl | hd
      · exact a2
      · exact b3 d hd

theorem mores_hash (e : Env) (s : St) (cs : List Cmd) (hc : ∀ c ∈ cs, c.ins = 0x7C ∧ c.p1 = 3) (hb : ∀ c ∈ cs, (c.input.headD 0).toNat / 0x80 % 2 = 1)
    (h : ∀ r ∈ (session e s cs).1, r ≠ none) :
    (session e s cs).2.ctxH = s.ctxH ++ (cs.map (field 0)).flatten ∧
      (session e s cs).2.ctxCommitment = s.ctxCommitment ++ (cs.map (field 0)).flatten ∧ (session e s cs).2.C = s.C ∧
      ∀ c ∈ cs, (field 0 c).length = 32 := by
  induction cs generalizing s with
  | nil => simp [session]
  | cons c cs ih =>
    have hh : (session e s (c :: cs)).1 = (dispatch e s c).1 :: (session e (dispatch e s c).2 cs).1 := rfl
    rw [hh] at h
    obtain ⟨a1, a2, a3, a4⟩ := more_some e s c (hc c List.mem_cons_self) (hb c List.mem_cons_self) (h _ List.mem_cons_self)
    obtain ⟨b1, b2, b3, b4⟩ := ih (dispatch e s c).2 (fun c h => hc c (List.mem_cons_of_mem _ h)) (fun c h => hb c (List.mem_cons_of_mem _ h))
      (fun r hr => h r (List.mem_cons_of_mem _ hr))
    refine ⟨?_, ?_, ?_, ?_⟩
    · show (session e (dispatch e s c).2 cs).2.ctxH = _
      rw [b1, a1, List.map_cons, List.flatten_cons, List.append_assoc]
    · show (session e (dispatch e s c).2 cs).2.ctxCommitment = _
      rw [b2, a2, List.map_cons, List.flatten_cons, List.append_assoc]
    · show (session e (dispatch e s c).2 cs).2.C = _
      rw [b3, a3]
    · intro d hd
      rcases List.mem_cons.mp hd with rfl | hd
      · exact a4
      · exact b4 d hd

theorem last_of {α : Type} (a : α) (xs : List α) (b : α) (ys : List α) (z : α) : (a :: (xs ++ b :: (ys ++ [z]))).getLast? = some z := by
  rw [show a :: (xs ++ b :: (ys ++ [z])) = (a :: (xs ++ b :: ys)) ++ [z] by simp, List.getLast?_append, List.getLast?_singleton]
  rfl

/-- C64. The message kept for signing covers what was validated. A host that starts the prehash with a header, validates outputs up to the last one, sends
the list of commitments and closes the prehash gets through only if that list is exactly the list of the commitments validated; the message, in the answer
and in the device, is the hash of the transaction prefix hash, of the hash of header, hidden masks and amounts of the validated outputs and commitments, and of
the proof hash. `sha` stands for SHA-256: the two lists are not a collision of it. Partial: for hosts that send these commands in this order, nothing in between; and
the device signs other messages as well (C64_false_unconfirmed). -/
theorem C64_message_partial (e : Env) (s : St) (init last final : Cmd) (outputs mores : List Cmd)
    (hsha : e.sha (mores.map (field 0)).flatten = e.sha ((outputs ++ [last]).map sentCommitment).flatten →
      (mores.map (field 0)).flatten = ((outputs ++ [last]).map sentCommitment).flatten)
    (hi : init.ins = 0x7C ∧ init.p1 = 1 ∧ init.p2 = 1) (hu : ∀ c ∈ outputs ++ [last], c.ins = 0x7C ∧ c.p1 = 2)
    (hm : ∀ c ∈ mores ++ [final], c.ins = 0x7C ∧ c.p1 = 3)
    (hcont : ∀ c ∈ outputs ++ mores, (c.input.headD 0).toNat / 0x80 % 2 = 1) (hlast : (last.input.headD 0).toNat / 0x80 % 2 = 0)
    (hfin : (final.input.headD 0).toNat / 0x80 % 2 = 0)
    (hok : ∀ r ∈ (session e s (init :: (outputs ++ [last] ++ (mores ++ [final])))).1, r ≠ none) :
    mores.map (field 0) = (outputs ++ [last]).map sentCommitment ∧
    ∃ h, h = e.H (field 0 final ++ (e.H (init.input.drop 1 ++ (((outputs ++ [last]).map sentInfo).flatten ++
        ((outputs ++ [last]).map sentCommitment).flatten)) ++ field 1 final)) ∧
      (session e s (init :: (outputs ++ [last] ++ (mores ++ [final])))).1.getLast? = some (some (swOk, h)) ∧
      (session e s (init :: (outputs ++ [last] ++ (mores ++ [final])))).2.H = some h := by
  have hh : session e s (init :: (outputs ++ [last] ++ (mores ++ [final]))) =
      ((dispatch e s init).1 :: (session e (dispatch e s init).2 (outputs ++ [last] ++ (mores ++ [final]))).1,
        (session e (dispatch e s init).2 (outputs ++ [last] ++ (mores ++ [final]))).2) := rfl
  rw [hh] at hok ⊢
  obtain ⟨i1, i2⟩ := init_hash e s init hi (hok _ List.mem_cons_self)
  have hok1 := fun r hr => hok r (List.mem_cons_of_mem _ hr)
  generalize (dispatch e s init).2 = t0 at i1 i2 hok1
  rw [List.append_assoc, session_append] at hok1
  obtain ⟨o1, o2, o3⟩ := outputs_hash e t0 outputs (fun c h => hu c (List.mem_append_left _ h)) (fun c h => hcont c (List.mem_append_left _ h))
    (fun r hr => hok1 r (List.mem_append_left _ hr))
  have hok2 := fun r hr => hok1 r (List.mem_append_right _ hr)
  rw [List.append_assoc, session_append e t0 outputs]
  generalize session e t0 outputs = q1 at o1 o2 hok2
  obtain ⟨r1, t1⟩ := q1
  rw [List.singleton_append] at hok2 ⊢
  have hh2 : session e t1 (last :: (mores ++ [final])) =
      ((dispatch e t1 last).1 :: (session e (dispatch e t1 last).2 (mores ++ [final])).1, (session e (dispatch e t1 last).2 (mores ++ [final])).2) := rfl
  rw [hh2] at hok2 ⊢
  obtain ⟨l1, l2, l3, -⟩ := output_hash e t1 last (hu last (by simp)) (hok2 _ List.mem_cons_self)
  obtain ⟨l3, l4⟩ := l3 hlast
  have hok3 := fun r hr => hok2 r (List.mem_cons_of_mem _ hr)
  generalize dispatch e t1 last = q2 at l1 l3 l4 hok3
  obtain ⟨r2, t2⟩ := q2
  rw [session_append] at hok3
  obtain ⟨m1, m2, m3, m4⟩ := mores_hash e t2 mores (fun c h => hm c (List.mem_append_left _ h)) (fun c h => hcont c (List.mem_append_right _ h))
    (fun r hr => hok3 r (List.mem_append_left _ hr))
  have hok4 := fun r hr => hok3 r (List.mem_append_right _ hr)
  rw [session_append e t2 mores]
  generalize session e t2 mores = q3 at m1 m2 m3 hok4
  obtain ⟨r3, t3⟩ := q3
  have hh3 : session e t3 [final] = ([(dispatch e t3 final).1], (dispatch e t3 final).2) := rfl
  rw [hh3] at hok4 ⊢
  obtain ⟨f1, f2, f3⟩ := final_some e t3 final (hm final (by simp)) hfin (hok4 _ List.mem_cons_self)
  simp only at i1 i2 o1 o2 l1 l3 l4 m1 m2 m3 f1 f2 f3
  have hlist : mores.map (field 0) = (outputs ++ [last]).map sentCommitment := by
    rw [m2, m3, l3, l4, o2, i2, List.nil_append, List.nil_append] at f1
    have := hsha (by simpa using Option.some.inj f1)
    refine flatten_inj (n := 32) (by decide) _ _ ?_ ?_ ?_
    · intro x hx
      obtain ⟨c, hc, rfl⟩ := List.mem_map.mp hx
      exact m4 c hc
    · intro x hx
      obtain ⟨c, hc, rfl⟩ := List.mem_map.mp hx
      rcases List.mem_append.mp hc with hc | hc
      · exact o3 c hc
      · rw [List.mem_singleton.mp hc]; exact l2
    · exact this
  have hctx : t3.ctxH = init.input.drop 1 ++ (((outputs ++ [last]).map sentInfo).flatten ++ ((outputs ++ [last]).map sentCommitment).flatten) := by
    rw [m1, l1, o1, i1, hlist]
    simp
  rw [hctx] at f2 f3
  refine ⟨hlist, _, rfl, ?_, f3⟩
  rw [f2]
  exact last_of _ r1 r2 r3 _

/-- One output validated, its commitment sent, the prehash closed. -/
example : (session demo device [blindCmd 1 0, initCmd, outCmd 0, ⟨0x7C, 3, 0, 0x80 :: g32⟩, ⟨0x7C, 3, 0, 0 :: (small 9 ++ small 8)⟩]).1.all Option.isSome = true ∧
    (session demo device [blindCmd 1 0, initCmd, outCmd 0, ⟨0x7C, 3, 0, 0x80 :: small 3⟩, ⟨0x7C, 3, 0, 0 :: (small 9 ++ small 8)⟩]).1.getLast? = some none := by
  decide +kernel

end Verif.Lite

import Verif.Props.LiteMlsag

/-! C66, C67, C70: keys in the lite device. -/

namespace Verif.Lite
open Verif Ed Key Sig Edwards

/-- Equality of abstract points; only used to state theorems. -/
noncomputable instance (p r : Point) : Decidable (p = r) := Classical.propDecidable _

theorem decode_pointEq {x : Bytes} {P Q : Ext} {p r : Point} (hP : decodePoint x = some P) (hp : Rep P p) (hQ : Rep Q r) :
    pointEq P Q = some (decide (p = r)) := by
  unfold pointEq
  rw [if_pos ((isOnCurve_iff P).mpr ⟨p, hp⟩)]
  congr 1
  have := pointEqual_iff hp hQ
  cases h : pointEqual P Q with
  | true => simp [this.mp h]
  | false =>
    have : p ≠ r := fun hpr => by rw [this.mpr hpr] at h; cases h
    simp [this]

/-- The command that stores keys: view secret and public key, spend secret and public key. -/
def putCmd (x P y Q : Bytes) : Cmd := ⟨0x22, 0, 0, 0 :: (x ++ (P ++ (y ++ Q)))⟩

theorem put_run (e : Env) (s : St) (xb Pb yb Qb : Bytes) (lx : xb.length = 32) (lP : Pb.length = 32) (ly : yb.length = 32) (lQ : Qb.length = 32)
    (x y : ℤ) (P Q : Ext) (p r : Point) (hx : decodeScalar xb = some x) (hy : decodeScalar yb = some y) (hP : decodePoint Pb = some P)
    (hQ : decodePoint Qb = some Q) (hp : Rep P p) (hr : Rep Q r) :
    ∃ t, dispatch e s (putCmd xb Pb yb Qb) = (some (if p = x • base ∧ r = y • base then swOk else swWrongData, []), t) ∧ t.A = s.A ∧ t.B = s.B ∧
      t.a = (if p = x • base then x else s.a) ∧ t.b = (if p = x • base ∧ r = y • base then y else s.b) := by
  unfold putCmd
  rw [dispatch_cons, show subDispatch e 0x22 0 = putKey from rfl]
  have h0 := rest_begin s 0 0 0 (xb ++ (Pb ++ (yb ++ Qb)))
  have hr0 : (s.begin 0 0 0 (xb ++ (Pb ++ (yb ++ Qb)))).resp = [] := rfl
  have hA : (s.begin 0 0 0 (xb ++ (Pb ++ (yb ++ Qb)))).A = s.A := rfl
  have hB : (s.begin 0 0 0 (xb ++ (Pb ++ (yb ++ Qb)))).B = s.B := rfl
  have ha : (s.begin 0 0 0 (xb ++ (Pb ++ (yb ++ Qb)))).a = s.a := rfl
  have hb : (s.begin 0 0 0 (xb ++ (Pb ++ (yb ++ Qb)))).b = s.b := rfl
  generalize s.begin 0 0 0 (xb ++ (Pb ++ (yb ++ Qb))) = t at h0 hr0 hA hB ha hb
  have h1 := rest_adv h0 lx
  have h2 := rest_adv h1 lP
  unfold putKey
  rw [run_bind_some (run_scalar h0 lx hx), run_bind_some (run_point h1 lP hP), decode_pointEq hP hp (rep_B x), run_bind_some (run_lift _ _)]
  by_cases hpx : p = x • base
  · rw [if_neg (by simp [hpx]), run_bind_some (run_modify _ _)]
    have h3 : rest ({ (t.adv 32).adv 32 with a := x } : St) = yb ++ Qb := h2
    have hr3 : ({ (t.adv 32).adv 32 with a := x } : St).resp = [] := hr0
    have hA3 : ({ (t.adv 32).adv 32 with a := x } : St).A = s.A := hA
    have hB3 : ({ (t.adv 32).adv 32 with a := x } : St).B = s.B := hB
    have ha3 : ({ (t.adv 32).adv 32 with a := x } : St).a = x := rfl
    have hb3 : ({ (t.adv 32).adv 32 with a := x } : St).b = s.b := hb
    generalize ({ (t.adv 32).adv 32 with a := x } : St) = u at h3 hr3 hA3 hB3 ha3 hb3
    have h4 := rest_adv h3 ly
    rw [run_bind_some (run_scalar h3 ly hy), run_bind_some (run_point (y := []) (by rw [h4, List.append_nil]) lQ hQ), decode_pointEq hQ hr (rep_B y),
      run_bind_some (run_lift _ _)]
    by_cases hry : r = y • base
    · rw [if_neg (by simp [hry]), run_bind_some (run_modify _ _), run_pure]
      refine ⟨_, Prod.ext ?_ rfl, hA3, hB3, ?_, ?_⟩
      · rw [if_pos ⟨hpx, hry⟩]; show some (swOk, u.resp) = _; rw [hr3]
      · rw [if_pos hpx]; exact ha3
      · rw [if_pos ⟨hpx, hry⟩]; rfl
    · rw [if_pos (by simp [hry]), run_pure]
      refine ⟨_, Prod.ext ?_ rfl, hA3, hB3, ?_, ?_⟩
      · rw [if_neg (fun h => hry h.2)]; show some (swWrongData, u.resp) = _; rw [hr3]
      · rw [if_pos hpx]; exact ha3
      · rw [if_neg (fun h => hry h.2)]; exact hb3
  · rw [if_pos (by simp [hpx]), run_pure]
    refine ⟨_, Prod.ext ?_ rfl, hA, hB, ?_, ?_⟩
    · rw [if_neg (fun h => hpx h.1)]; show some (swWrongData, t.resp) = _; rw [hr0]
    · rw [if_neg hpx]; exact ha
    · rw [if_neg (fun h => hpx h.1)]; exact hb

/-- C66. Keys are accepted exactly when both public keys belong to the secrets sent with them, and then the secrets are the ones of the device; a first pair
that does not match changes nothing. Partial: see the two theorems after it for what fails. -/
theorem C66_accepts_partial (e : Env) (s : St) (xb Pb yb Qb : Bytes) (lx : xb.length = 32) (lP : Pb.length = 32) (ly : yb.length = 32)
    (lQ : Qb.length = 32) (x y : ℤ) (P Q : Ext) (p r : Point) (hx : decodeScalar xb = some x) (hy : decodeScalar yb = some y)
    (hP : decodePoint Pb = some P) (hQ : decodePoint Qb = some Q) (hp : Rep P p) (hr : Rep Q r) :
    ((dispatch e s (putCmd xb Pb yb Qb)).1 = some (swOk, []) ↔ p = x • base ∧ r = y • base) ∧
    ((dispatch e s (putCmd xb Pb yb Qb)).1 = some (swOk, []) →
      (dispatch e s (putCmd xb Pb yb Qb)).2.a = x ∧ (dispatch e s (putCmd xb Pb yb Qb)).2.b = y) ∧
    (p ≠ x • base → (dispatch e s (putCmd xb Pb yb Qb)).2.a = s.a ∧ (dispatch e s (putCmd xb Pb yb Qb)).2.b = s.b) := by
  obtain ⟨t, h, -, -, ha, hb⟩ := put_run e s xb Pb yb Qb lx lP ly lQ x y P Q p r hx hy hP hQ hp hr
  rw [h]
  have iff : (some (if p = x • base ∧ r = y • base then swOk else swWrongData, ([] : Bytes)) = some (swOk, [])) ↔ p = x • base ∧ r = y • base := by
    split
    · rename_i h; exact ⟨fun _ => h, fun _ => rfl⟩
    · rename_i h; exact ⟨fun g => absurd (Prod.mk.inj (Option.some.inj g)).1 (by decide), fun g => absurd g h⟩
  refine ⟨iff, fun g => ?_, fun g => ?_⟩
  · have := iff.mp g
    exact ⟨by rw [ha, if_pos this.1], by rw [hb, if_pos this]⟩
  · exact ⟨by rw [ha, if_neg g], by rw [hb, if_neg (fun k => g k.1)]⟩

/-- C66 is false, first: a refused command changes the keys. When the view pair matches and the spend pair does not, the answer is the error "wrong data",
and the device goes on with the new view secret and the old spend secret. -/
theorem C66_false_half (e : Env) (s : St) (xb Pb yb Qb : Bytes) (lx : xb.length = 32) (lP : Pb.length = 32) (ly : yb.length = 32) (lQ : Qb.length = 32)
    (x y : ℤ) (P Q : Ext) (p r : Point) (hx : decodeScalar xb = some x) (hy : decodeScalar yb = some y) (hP : decodePoint Pb = some P)
    (hQ : decodePoint Qb = some Q) (hp : Rep P p) (hr : Rep Q r) (h1 : p = x • base) (h2 : r ≠ y • base) :
    (dispatch e s (putCmd xb Pb yb Qb)).1 = some (swWrongData, []) ∧ (dispatch e s (putCmd xb Pb yb Qb)).2.a = x ∧
      (dispatch e s (putCmd xb Pb yb Qb)).2.b = s.b := by
  obtain ⟨t, h, -, -, ha, hb⟩ := put_run e s xb Pb yb Qb lx lP ly lQ x y P Q p r hx hy hP hQ hp hr
  rw [h]
  exact ⟨by rw [if_neg (fun k => h2 k.2)], by rw [ha, if_pos h1], by rw [hb, if_neg (fun k => h2 k.2)]⟩

/-- C66 is false, second: keys accepted by the device do not change the public keys it answers with and recognises change by. -/
theorem C66_false_public (e : Env) (s : St) (xb Pb yb Qb : Bytes) (lx : xb.length = 32) (lP : Pb.length = 32) (ly : yb.length = 32) (lQ : Qb.length = 32)
    (x y : ℤ) (P Q : Ext) (p r : Point) (hx : decodeScalar xb = some x) (hy : decodeScalar yb = some y) (hP : decodePoint Pb = some P)
    (hQ : decodePoint Qb = some Q) (hp : Rep P p) (hr : Rep Q r) :
    (session e s [putCmd xb Pb yb Qb, ⟨0x20, 1, 0, [0]⟩]).1.getLast? =
      some (some (swOk, encodePoint s.A ++ (encodePoint s.B ++ e.address))) := by
  obtain ⟨t, h, hA, hB, -, -⟩ := put_run e s xb Pb yb Qb lx lP ly lQ x y P Q p r hx hy hP hQ hp hr
  have g : (dispatch e t ⟨0x20, 1, 0, [0]⟩).1 = some (swOk, encodePoint t.A ++ (encodePoint t.B ++ e.address)) := by
    rw [dispatch_cons, show subDispatch e 0x20 1 = getKey e from rfl]
    have hr0 : (t.begin 1 0 0 []).resp = [] := rfl
    have hp1 : (t.begin 1 0 0 []).p1 = 1 := rfl
    have hA : (t.begin 1 0 0 []).A = t.A := rfl
    have hB : (t.begin 1 0 0 []).B = t.B := rfl
    generalize t.begin 1 0 0 [] = u at hr0 hp1 hA hB
    unfold getKey
    rw [run_bind_some (run_get _), if_pos hp1, run_bind_some (run_insert _ _), run_bind_some (run_insert _ _), run_bind_some (run_insert _ _), run_pure]
    show some (swOk, ((u.resp ++ _) ++ _) ++ _) = _
    rw [hr0, hA, hB]; simp
  simp only [session, h]
  show some (dispatch e t ⟨0x20, 1, 0, [0]⟩).1 = _
  rw [g, hA, hB]

/-- View secret 1 with the base point, then a spend pair that does not match: refused, with the view secret stored. -/
example : (dispatch demo device (putCmd (small 1) g32 (small 2) g32)).1 = some (swWrongData, []) ∧
    (dispatch demo device (putCmd (small 1) g32 (small 2) g32)).2.a = 1 ∧ (dispatch demo device (putCmd (small 1) g32 (small 2) g32)).2.b = 7 ∧
    (dispatch demo device (putCmd (small 1) g32 (small 1) g32)).1 = some (swOk, []) := by decide +kernel

/-! C67 -/

/-- The secret a message field stands for: all zeros the view key of the device, all ones its spend key, anything else an encrypted scalar. -/
def keyOf (e : Env) (s : St) (buff : Bytes) : Option ℤ :=
  if buff = List.replicate 32 0 then some s.a else if buff = List.replicate 32 0xff then some s.b else decodeScalar (e.dec buff)

theorem run_key (e : Env) {s : St} {b y : Bytes} {x : ℤ} (h : rest s = b ++ y) (hn : b.length = 32) (hx : keyOf e s b = some x) :
    (fetchDecryptKey e).run s = (some x, s.adv 32) := by
  unfold keyOf at hx
  unfold fetchDecryptKey scalar
  rw [run_bind_some (run_fetch h hn), run_bind_some (run_get _)]
  split at hx
  · rename_i h1; rw [if_pos h1, run_pure]; exact Prod.ext hx rfl
  · rename_i h1
    rw [if_neg h1]
    split at hx
    · rename_i h2; rw [if_pos h2, run_pure]; exact Prod.ext hx rfl
    · rename_i h2; rw [if_neg h2, run_lift, hx]

def verifyCmd (p1 : ℕ) (x P : Bytes) : Cmd := ⟨0x26, p1, 0, 0 :: (x ++ P)⟩

theorem run_u32' (n : ℕ) (hn : n < 2) (s : St) : (insertU32 n).run s = (some (), s.put [0, 0, 0, UInt8.ofNat n]) := by
  unfold insertU32 insertU8
  rw [run_bind_some (run_insert _ _), run_bind_some (run_insert _ _), run_bind_some (run_insert _ _), run_insert]
  unfold St.put
  interval_cases n <;> simp

theorem verify_run (e : Env) (s : St) (p1 : ℕ) (xb Pb : Bytes) (lx : xb.length = 32) (lP : Pb.length = 32) (x : ℤ) (P : Ext)
    (hx : keyOf e s xb = some x) (hP : decodePoint Pb = some P) (C Q : Ext) (b : Bool)
    (hpair : (p1 = 0 ∧ C = scalarmultB x ∧ Q = P) ∨ (p1 = 1 ∧ C = ident ∧ Q = s.A) ∨ (p1 = 2 ∧ C = ident ∧ Q = s.B)) (hb : pointEq C Q = some b) :
    (dispatch e s (verifyCmd p1 xb Pb)).1 = some (swOk, [0, 0, 0, if b then 1 else 0] ++ e.address) := by
  unfold verifyCmd
  rw [dispatch_cons, show subDispatch e 0x26 p1 = verifyKey e from rfl]
  have h0 := rest_begin s p1 0 0 (xb ++ Pb)
  have hr : (s.begin p1 0 0 (xb ++ Pb)).resp = [] := rfl
  have hk : keyOf e (s.begin p1 0 0 (xb ++ Pb)) xb = some x := hx
  have hp : (s.begin p1 0 0 (xb ++ Pb)).p1 = p1 := rfl
  have hA : (s.begin p1 0 0 (xb ++ Pb)).A = s.A := rfl
  have hB : (s.begin p1 0 0 (xb ++ Pb)).B = s.B := rfl
  generalize s.begin p1 0 0 (xb ++ Pb) = t at h0 hr hk hp hA hB
  have h1 := rest_adv h0 lx
  unfold verifyKey
  rw [run_bind_some (run_key e h0 lx hk), run_bind_some (run_point (y := []) (by rw [h1, List.append_nil]) lP hP), run_bind_some (run_get _)]
  have hsel : (if ((t.adv 32).adv 32).p1 = 0 then some (scalarmultB x, P) else if ((t.adv 32).adv 32).p1 = 1 then some (ident, ((t.adv 32).adv 32).A)
      else if ((t.adv 32).adv 32).p1 = 2 then some (ident, ((t.adv 32).adv 32).B) else none) = some (C, Q) := by
    simp only [adv_p1, adv_A, adv_B, hp, hA, hB]
    rcases hpair with ⟨rfl, rfl, rfl⟩ | ⟨rfl, rfl, rfl⟩ | ⟨rfl, rfl, rfl⟩ <;> rfl
  simp only [hsel]
  rw [hb, run_bind_some (run_lift _ _)]
  have : (insertU32 (if b = true then 1 else 0)).run ((t.adv 32).adv 32) = (some (), ((t.adv 32).adv 32).put [0, 0, 0, if b then 1 else 0]) := by
    rw [run_u32' _ (by split <;> decide)]
    cases b <;> rfl
  rw [run_bind_some this, run_bind_some (run_insert _ _), run_pure]
  show some (swOk, (t.resp ++ _) ++ _) = _
  rw [hr]; rfl

/-- C67. In mode 0 the device answers 1 exactly for the public key of the secret. Partial: the modes that are to check the keys of the device do not. -/
theorem C67_mode0_partial (e : Env) (s : St) (xb Pb : Bytes) (lx : xb.length = 32) (lP : Pb.length = 32) (x : ℤ) (P : Ext) (p : Point)
    (hx : keyOf e s xb = some x) (hP : decodePoint Pb = some P) (hp : Rep P p) :
    (dispatch e s (verifyCmd 0 xb Pb)).1 = some (swOk, [0, 0, 0, if p = x • base then 1 else 0] ++ e.address) := by
  have hb : pointEq (scalarmultB x) P = some (decide (x • base = p)) := by
    have h1 := rep_B x
    unfold pointEq
    rw [if_pos ((isOnCurve_iff _).mpr ⟨_, h1⟩)]
    congr 1
    have := pointEqual_iff h1 hp
    cases h : pointEqual (scalarmultB x) P with
    | true => simp [this.mp h]
    | false =>
      have : x • base ≠ p := fun hpr => by rw [this.mpr hpr] at h; cases h
      simp [this]
  rw [verify_run e s 0 xb Pb lx lP x P hx hP _ _ _ (Or.inl ⟨rfl, rfl, rfl⟩) hb]
  by_cases h : p = x • base
  · simp [h]
  · have : ¬ x • base = p := fun k => h k.symm
    simp [h, this]

/-- C67 is false: in modes 1 and 2 the point of the message is never looked at, and the answer is 1 only if the key of the device is the identity. A device
with proper keys answers 0 whatever it is asked. -/
theorem C67_false_own (e : Env) (s : St) (p1 : ℕ) (h12 : p1 = 1 ∨ p1 = 2) (xb Pb : Bytes) (lx : xb.length = 32) (lP : Pb.length = 32) (x : ℤ) (P : Ext)
    (hx : keyOf e s xb = some x) (hP : decodePoint Pb = some P) (k : Point) (hk : Rep (if p1 = 1 then s.A else s.B) k) (hne : k ≠ 0) :
    (dispatch e s (verifyCmd p1 xb Pb)).1 = some (swOk, [0, 0, 0, 0] ++ e.address) := by
  have hb : pointEq ident (if p1 = 1 then s.A else s.B) = some false := by
    unfold pointEq
    rw [if_pos ((isOnCurve_iff _).mpr ⟨_, rep_ident⟩)]
    congr 1
    have := pointEqual_iff rep_ident hk
    cases h : pointEqual ident (if p1 = 1 then s.A else s.B) with
    | true => exact absurd (this.mp h).symm hne
    | false => rfl
  rw [verify_run e s p1 xb Pb lx lP x P hx hP _ _ _ ?_ hb]
  · rfl
  · rcases h12 with rfl | rfl
    · exact Or.inr (Or.inl ⟨rfl, rfl, rfl⟩)
    · exact Or.inr (Or.inr ⟨rfl, rfl, rfl⟩)

/-- Secret 1 and the base point: confirmed in mode 0, denied in mode 1 by the device whose view key it is. -/
example : (dispatch demo { device with a := 1, A := B } (verifyCmd 0 (List.replicate 32 0) g32)).1 = some (swOk, [0, 0, 0, 1, 1, 2, 3]) ∧
    (dispatch demo { device with a := 1, A := B } (verifyCmd 1 (List.replicate 32 0) g32)).1 = some (swOk, [0, 0, 0, 0, 1, 2, 3]) := by decide +kernel

/-! C70 -/

theorem key_some {e : Env} {s t : St} {x : ℤ} (h : (fetchDecryptKey e).run s = (some x, t)) :
    ∃ b y, rest s = b ++ y ∧ b.length = 32 ∧ keyOf e s b = some x ∧ t = s.adv 32 := by
  unfold fetchDecryptKey scalar at h
  obtain ⟨b, s1, h1, h⟩ := run_bind_eq_some.mp h
  obtain ⟨y, hy, hl, rfl⟩ := fetch_some h1
  rw [run_bind_some (run_get _)] at h
  refine ⟨b, y, hy, hl, ?_, ?_⟩
  · unfold keyOf
    split at h
    · rename_i h1; rw [if_pos h1]; exact congrArg Prod.fst h
    · rename_i h1
      rw [if_neg h1]
      split at h
      · rename_i h2; rw [if_pos h2]; exact congrArg Prod.fst h
      · rename_i h2; rw [if_neg h2]; exact congrArg Prod.fst h
  · split at h
    · exact (congrArg Prod.snd h).symm
    · split at h
      · exact (congrArg Prod.snd h).symm
      · exact (congrArg Prod.snd h).symm

theorem scalarDec_some {e : Env} {s t : St} {x : ℤ} (h : (fetchDecrypt e 32 >>= scalar).run s = (some x, t)) :
    ∃ b y, rest s = b ++ y ∧ b.length = 32 ∧ decodeScalar (e.dec b) = some x ∧ t = s.adv 32 := by
  obtain ⟨d, s1, h1, h⟩ := run_bind_eq_some.mp h
  obtain ⟨b, y, hy, hl, rfl, rfl⟩ := decrypt_some h1
  obtain ⟨hx, rfl⟩ := lift_some h
  exact ⟨b, y, hy, hl, hx, rfl⟩

theorem pointDec_some {e : Env} {s t : St} {P : Ext} (h : (fetchDecrypt e 32 >>= point).run s = (some P, t)) :
    ∃ b y, rest s = b ++ y ∧ b.length = 32 ∧ decodePoint (e.dec b) = some P ∧ t = s.adv 32 := by
  obtain ⟨d, s1, h1, h⟩ := run_bind_eq_some.mp h
  obtain ⟨b, y, hy, hl, rfl, rfl⟩ := decrypt_some h1
  obtain ⟨hx, rfl⟩ := lift_some h
  exact ⟨b, y, hy, hl, hx, rfl⟩

theorem u32_some {s t : St} {n : ℕ} (h : fetchU32.run s = (some n, t)) :
    ∃ b y, rest s = b ++ y ∧ b.length = 4 ∧ n = b.foldl (fun a x => a * 256 + x.toNat) 0 ∧ t = s.adv 4 := by
  unfold fetchU32 at h
  obtain ⟨a, s1, h1, h⟩ := run_bind_eq_some.mp h
  obtain ⟨a', y1, e1, rfl, rfl⟩ := u8_some h1
  obtain ⟨b, s2, h2, h⟩ := run_bind_eq_some.mp h
  obtain ⟨b', y2, e2, rfl, rfl⟩ := u8_some h2
  obtain ⟨c, s3, h3, h⟩ := run_bind_eq_some.mp h
  obtain ⟨c', y3, e3, rfl, rfl⟩ := u8_some h3
  obtain ⟨d, s4, h4, h⟩ := run_bind_eq_some.mp h
  obtain ⟨d', y4, e4, rfl, rfl⟩ := u8_some h4
  have b1 := (rest_u8 e1).symm.trans e2
  have b2 := (rest_u8 e2).symm.trans e3
  have b3 := (rest_u8 e3).symm.trans e4
  refine ⟨[a', b', c', d'], y4, by rw [e1, b1, b2, b3]; rfl, rfl, ?_, (congrArg Prod.snd h).symm⟩
  have := (Option.some.inj (congrArg Prod.fst h)).symm
  rw [this]; simp

theorem encrypt_some {e : Env} {s t : St} {b : Bytes} {u : Unit} (h : (insertEncrypt e b).run s = (some u, t)) : ∃ c, e.enc b = some c ∧ t = s.put c := by
  unfold insertEncrypt at h
  obtain ⟨c, s1, h1, h⟩ := run_bind_eq_some.mp h
  obtain ⟨hc, hs⟩ := lift_some h1
  rw [run_insert, hs] at h
  exact ⟨c, hc, (congrArg Prod.snd h).symm⟩

/-- The message of the commands that derive a key: encrypted derivation, index of four bytes, key. -/
def deriveCmd (ins : ℕ) (eder i key : Bytes) : Cmd := ⟨ins, 0, 0, 0 :: (eder ++ (i ++ key))⟩

theorem deriveSecret_some (e : Env) (s : St) (eder i key : Bytes) (ld : eder.length = 32) (li : i.length = 4) (lk : key.length = 32) (sw : ℕ)
    (resp : Bytes) (h : (dispatch e s (deriveCmd 0x38 eder i key)).1 = some (sw, resp)) :
    ∃ D x r, decodePoint (e.dec eder) = some D ∧ keyOf e s key = some x ∧
      deriveSecretKey e.H D (i.foldl (fun a x => a * 256 + x.toNat) 0) x = some r ∧ e.enc (encodeInt r) = some resp := by
  generalize hd : dispatch e s (deriveCmd 0x38 eder i key) = rr at h
  obtain ⟨r1, s'⟩ := rr
  obtain rfl : r1 = some (sw, resp) := h
  obtain ⟨o, y, ho, h, hresp⟩ := dispatch_some (input := 0 :: (eder ++ (i ++ key))) hd
  obtain ⟨rfl, rfl⟩ := List.cons.inj ho
  rw [show subDispatch e 0x38 0 = cmdDeriveSecretKey e from rfl] at h
  have h0 := rest_begin s 0 0 0 (eder ++ (i ++ key))
  have hr : (s.begin 0 0 0 (eder ++ (i ++ key))).resp = [] := rfl
  have hk : ∀ b, keyOf e (s.begin 0 0 0 (eder ++ (i ++ key))) b = keyOf e s b := fun _ => rfl
  generalize s.begin 0 0 0 (eder ++ (i ++ key)) = t at h h0 hr hk
  unfold cmdDeriveSecretKey at h
  obtain ⟨D, s1, h1, h⟩ := run_bind_eq_some.mp h
  obtain ⟨b1, y1, e1, l1, hD, rfl⟩ := pointDec_some h1
  obtain ⟨rfl, rfl⟩ := List.append_inj (h0.symm.trans e1) (by rw [ld, l1])
  obtain ⟨n, s2, h2, h⟩ := run_bind_eq_some.mp h
  obtain ⟨b2, y2, e2, l2, rfl, rfl⟩ := u32_some h2
  obtain ⟨rfl, rfl⟩ := List.append_inj ((rest_adv h0 ld).symm.trans e2) (by rw [li, l2])
  obtain ⟨x, s3, h3, h⟩ := run_bind_eq_some.mp h
  obtain ⟨b3, y3, e3, l3, hx, rfl⟩ := key_some h3
  have e3' : key ++ [] = b3 ++ y3 := by rw [List.append_nil]; exact (rest_adv e2 li).symm.trans e3
  obtain ⟨rfl, rfl⟩ := List.append_inj e3' (by rw [lk, l3])
  obtain ⟨r, s4, h4, h⟩ := run_bind_eq_some.mp h
  obtain ⟨hr4, rfl⟩ := lift_some h4
  obtain ⟨_, s5, h5, h⟩ := run_bind_eq_some.mp h
  obtain ⟨c, hc, rfl⟩ := encrypt_some h5
  rw [run_pure] at h
  have es := congrArg (fun x => x.2.resp) h
  simp only [put_resp, adv_resp, hr, List.nil_append] at es
  refine ⟨D, x, r, hD, by rw [← hk]; exact hx, hr4, by rw [hc, es, hresp]⟩

theorem derivePublic_some (e : Env) (s : St) (eder i pub : Bytes) (ld : eder.length = 32) (li : i.length = 4) (lk : pub.length = 32) (sw : ℕ)
    (resp : Bytes) (h : (dispatch e s (deriveCmd 0x36 eder i pub)).1 = some (sw, resp)) :
    ∃ D P R, decodePoint (e.dec eder) = some D ∧ decodePoint pub = some P ∧
      derivePublicKey e.H D (i.foldl (fun a x => a * 256 + x.toNat) 0) P = some R ∧ resp = encodePoint R := by
  generalize hd : dispatch e s (deriveCmd 0x36 eder i pub) = rr at h
  obtain ⟨r1, s'⟩ := rr
  obtain rfl : r1 = some (sw, resp) := h
  obtain ⟨o, y, ho, h, hresp⟩ := dispatch_some (input := 0 :: (eder ++ (i ++ pub))) hd
  obtain ⟨rfl, rfl⟩ := List.cons.inj ho
  rw [show subDispatch e 0x36 0 = cmdDerivePublicKey e from rfl] at h
  have h0 := rest_begin s 0 0 0 (eder ++ (i ++ pub))
  have hr : (s.begin 0 0 0 (eder ++ (i ++ pub))).resp = [] := rfl
  generalize s.begin 0 0 0 (eder ++ (i ++ pub)) = t at h h0 hr
  unfold cmdDerivePublicKey at h
  obtain ⟨D, s1, h1, h⟩ := run_bind_eq_some.mp h
  obtain ⟨b1, y1, e1, l1, hD, rfl⟩ := pointDec_some h1
  obtain ⟨rfl, rfl⟩ := List.append_inj (h0.symm.trans e1) (by rw [ld, l1])
  obtain ⟨n, s2, h2, h⟩ := run_bind_eq_some.mp h
  obtain ⟨b2, y2, e2, l2, rfl, rfl⟩ := u32_some h2
  obtain ⟨rfl, rfl⟩ := List.append_inj ((rest_adv h0 ld).symm.trans e2) (by rw [li, l2])
  obtain ⟨P, s3, h3, h⟩ := run_bind_eq_some.mp h
  obtain ⟨b3, y3, e3, l3, hP, rfl⟩ := point_some h3
  have e3' : pub ++ [] = b3 ++ y3 := by rw [List.append_nil]; exact (rest_adv e2 li).symm.trans e3
  obtain ⟨rfl, rfl⟩ := List.append_inj e3' (by rw [lk, l3])
  obtain ⟨R, s4, h4, h⟩ := run_bind_eq_some.mp h
  obtain ⟨hr4, rfl⟩ := lift_some h4
  rw [run_bind_some (run_insert _ _), run_pure] at h
  have es := congrArg (fun x => x.2.resp) h
  simp only [put_resp, adv_resp, hr, List.nil_append] at es
  exact ⟨D, P, R, hD, hP, hr4, by rw [hresp, es]⟩

theorem base_run (e : Env) (s : St) (ins : ℕ) (hi : ins = 0x30 ∨ ins = 0x44) (eb : Bytes) (le : eb.length = 32) (x : ℤ)
    (hx : decodeScalar (e.dec eb) = some x) : (dispatch e s ⟨ins, 0, 0, 0 :: eb⟩).1 = some (swOk, encodePoint (scalarmultB x)) := by
  rw [dispatch_cons, show subDispatch e ins 0 = scalMulBase e by rcases hi with rfl | rfl <;> rfl]
  have h0 := rest_begin s 0 0 0 eb
  have hr : (s.begin 0 0 0 eb).resp = [] := rfl
  generalize s.begin 0 0 0 eb = t at h0 hr
  unfold scalMulBase
  rw [run_bind_some (run_scalar_dec e (y := []) (by rw [h0, List.append_nil]) le hx), run_bind_some (run_insert _ _), run_pure]
  show some (swOk, t.resp ++ _) = _
  rw [hr]; rfl

theorem derive_agree (H : Bytes → Bytes) (D P R : Ext) (n : ℕ) (x r : ℤ) (hp : Rep P (x • base)) (hr : deriveSecretKey H D n x = some r)
    (hR : derivePublicKey H D n P = some R) : Reduced r ∧ encodePoint (scalarmultB r) = encodePoint R := by
  unfold deriveSecretKey at hr
  split at hr
  · cases hr
  obtain ⟨z, hz, hzr⟩ := Option.map_eq_some_iff.mp hr
  unfold derivePublicKey at hR
  rw [frombytes_some] at hR
  simp only [ne_eq, not_true_eq_false, if_false] at hR
  split at hR
  · cases hR
  rw [hz, Option.map_some] at hR
  rw [← Option.some.inj hR, ← hzr]
  refine ⟨emod_l_range _, ?_⟩
  rw [encodePoint_rep (rep_B _), encodePoint_rep (rep_add hp (rep_B z)), scAdd_smul _ _ l_base]

/-- C70. Deriving the secret key and taking its public key is the same as deriving the public key: a host that sends the device the same encrypted
derivation and index with an encrypted secret (or the placeholder of a device key), with its public key, and then asks for the public key of the encrypted
secret it got, sees the same answer. Only the cipher has to give back what was encrypted. -/
theorem C70_derive (e : Env) (hdec : ∀ d c, e.enc d = some c → e.dec c = d) (s s' s'' : St) (eder i key pub : Bytes) (ld : eder.length = 32)
    (li : i.length = 4) (lk : key.length = 32) (lp : pub.length = 32) (x : ℤ) (hx : keyOf e s key = some x) (P : Ext)
    (hP : decodePoint pub = some P) (hp : Rep P (x • base)) (sw sw' : ℕ) (ey pub' : Bytes) (ley : ey.length = 32)
    (h1 : (dispatch e s (deriveCmd 0x38 eder i key)).1 = some (sw, ey)) (h2 : (dispatch e s' (deriveCmd 0x36 eder i pub)).1 = some (sw', pub')) :
    (dispatch e s'' ⟨0x30, 0, 0, 0 :: ey⟩).1 = some (swOk, pub') := by
  obtain ⟨D, x', r, hD, hx', hr, he⟩ := deriveSecret_some e s eder i key ld li lk sw ey h1
  obtain ⟨D', P', R, hD', hP', hR, rfl⟩ := derivePublic_some e s' eder i pub ld li lp sw' pub' h2
  obtain rfl : D = D' := Option.some.inj (hD.symm.trans hD')
  obtain rfl : x = x' := Option.some.inj (hx.symm.trans hx')
  obtain rfl : P = P' := Option.some.inj (hP.symm.trans hP')
  obtain ⟨hrange, henc⟩ := derive_agree e.H D P R _ x r hp hr hR
  have hdr : decodeScalar (e.dec ey) = some r := by rw [hdec _ _ he]; exact C35_scalar_roundtrip r hrange.1 hrange.2
  rw [base_run e s'' 0x30 (Or.inl rfl) ey ley r hdr, henc]

/-- Index 2, the base point as derivation, the secret 1. -/
example : (dispatch demo device (deriveCmd 0x38 g32 [0, 0, 0, 2] (small 1))).1.isSome = true ∧
    (dispatch demo device (deriveCmd 0x36 g32 [0, 0, 0, 2] g32)).1.isSome = true := by decide +kernel

end Verif.Lite

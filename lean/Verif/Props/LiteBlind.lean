import Verif.Lemmas.Lite
import Verif.Spec.Sig
import Mathlib.Tactic.Ring

/-! C52: blinding and unblinding in the lite protocol. -/

namespace Verif.Lite
open Verif Ed Key Sig

/-- The two masks of an amount key: `Hs(ak)` for the mask of the commitment, `Hs(Hs(ak))` for the amount. -/
def maskK (e : Env) (ak : Bytes) : ℤ := hs e.H ak
def maskV (e : Env) (ak : Bytes) : ℤ := hs e.H (encodeInt (hs e.H ak))

theorem run_decrypt (e : Env) {s : St} {x y : Bytes} {n : ℕ} (h : rest s = x ++ y) (hn : x.length = n) :
    (fetchDecrypt e n).run s = (some (e.dec x), s.adv n) := by
  unfold fetchDecrypt
  rw [run_bind_some (run_fetch h hn)]
  rfl

theorem disp_blind (e : Env) (p : ℕ) : subDispatch e 0x78 p = blind e := rfl
theorem disp_unblind (e : Env) (p : ℕ) : subDispatch e 0x7A p = unblind e := rfl

/-- What the command `blind` answers, whatever the state of the device. -/
theorem blind_resp (e : Env) (s : St) (p1 p2 : ℕ) (o : UInt8) (eak k v more : Bytes) (hak : eak.length = 32) (hk : k.length = 32) (hv : v.length = 32)
    (kn vn : ℤ) (hkn : decodeScalar k = some kn) (hvn : decodeScalar v = some vn) :
    (dispatch e s ⟨0x78, p1, p2, o :: (eak ++ (k ++ (v ++ more)))⟩).1 =
      some (swOk, encodeInt (scAdd vn (maskV e (e.dec eak))) ++ encodeInt (scAdd kn (maskK e (e.dec eak)))) := by
  rw [dispatch_cons, disp_blind]
  have h0 := rest_begin s p1 p2 o (eak ++ (k ++ (v ++ more)))
  have hr : (s.begin p1 p2 o (eak ++ (k ++ (v ++ more)))).resp = [] := rfl
  generalize s.begin p1 p2 o (eak ++ (k ++ (v ++ more))) = t at h0 hr
  have h1 := rest_adv h0 hak
  have h2 := rest_adv h1 hk
  unfold blind scalar
  rw [run_bind_some (run_decrypt e h0 hak), run_bind_some (run_fetch h1 hk), run_bind_some (run_fetch h2 hv), run_bind_some (run_modify _ _)]
  simp only [hkn, hvn]
  rw [run_bind_some (run_lift _ _), run_bind_some (run_lift _ _), run_bind_some (run_insert _ _), run_bind_some (run_insert _ _), run_pure]
  show some (swOk, (t.resp ++ _) ++ _) = _
  rw [hr]; rfl

/-- What the command `unblind` answers, whatever the state of the device. -/
theorem unblind_resp (e : Env) (s : St) (p1 p2 : ℕ) (o : UInt8) (eak k v more : Bytes) (hak : eak.length = 32) (hk : k.length = 32) (hv : v.length = 32)
    (kn vn : ℤ) (hkn : decodeScalar k = some kn) (hvn : decodeScalar v = some vn) :
    (dispatch e s ⟨0x7A, p1, p2, o :: (eak ++ (k ++ (v ++ more)))⟩).1 =
      some (swOk, encodeInt (scSub vn (maskV e (e.dec eak))) ++ encodeInt (scSub kn (maskK e (e.dec eak)))) := by
  rw [dispatch_cons, disp_unblind]
  have h0 := rest_begin s p1 p2 o (eak ++ (k ++ (v ++ more)))
  have hr : (s.begin p1 p2 o (eak ++ (k ++ (v ++ more)))).resp = [] := rfl
  generalize s.begin p1 p2 o (eak ++ (k ++ (v ++ more))) = t at h0 hr
  have h1 := rest_adv h0 hak
  have h2 := rest_adv h1 hk
  unfold unblind unblindInt scalar
  rw [run_bind_some (run_decrypt e h0 hak), run_bind_some (run_fetch h1 hk), run_bind_some (run_fetch h2 hv)]
  simp only [hkn, hvn]
  rw [run_bind_some (a := (scSub vn (maskV e (e.dec eak)), scSub kn (maskK e (e.dec eak)))) (s' := ((t.adv 32).adv 32).adv 32) rfl,
    run_bind_some (run_insert _ _), run_bind_some (run_insert _ _), run_pure]
  show some (swOk, (t.resp ++ _) ++ _) = _
  rw [hr]; rfl

theorem sub_add (x m : ℤ) (hx : Reduced x) : scSub (scAdd x m) m = x := by
  unfold scSub scAdd
  rw [Int.emod_sub_emod, add_sub_cancel_right, Int.emod_eq_of_lt hx.1 hx.2]

/-- C52. Whatever the device did in between: a host that sends back what `blind` returned, with the same encrypted amount key and in the order `unblind`
expects (mask first; `blind` returns the amount first), gets the amount and the mask it started with. -/
theorem C52_unblind (e : Env) (s : St) (p1 p2 : ℕ) (o : UInt8) (eak : Bytes) (hak : eak.length = 32) (k v : ℤ) (hk : Reduced k) (hv : Reduced v) :
    ∃ v' k', v'.length = 32 ∧ k'.length = 32 ∧
      (dispatch e s ⟨0x78, p1, p2, o :: (eak ++ (encodeInt k ++ encodeInt v))⟩).1 = some (swOk, v' ++ k') ∧
      ∀ (s' : St) (q1 q2 : ℕ) (o' : UInt8),
        (dispatch e s' ⟨0x7A, q1, q2, o' :: (eak ++ (k' ++ v'))⟩).1 = some (swOk, encodeInt v ++ encodeInt k) := by
  have b := blind_resp e s p1 p2 o eak (encodeInt k) (encodeInt v) [] hak (encodeInt_length _) (encodeInt_length _) k v
    (C35_scalar_roundtrip k hk.1 hk.2) (C35_scalar_roundtrip v hv.1 hv.2)
  rw [List.append_nil] at b
  refine ⟨_, _, encodeInt_length _, encodeInt_length _, b, ?_⟩
  intro s' q1 q2 o'
  have r : ∀ x m, Reduced (scAdd x m) := fun x m => emod_l_range _
  have u := unblind_resp e s' q1 q2 o' eak (encodeInt (scAdd k (maskK e (e.dec eak)))) (encodeInt (scAdd v (maskV e (e.dec eak)))) [] hak
    (encodeInt_length _) (encodeInt_length _) _ _
    (C35_scalar_roundtrip _ (r _ _).1 (r _ _).2) (C35_scalar_roundtrip _ (r _ _).1 (r _ _).2)
  rw [List.append_nil, sub_add _ _ hk, sub_add _ _ hv] at u
  exact u

/-- Scalars that are not reduced come back reduced. -/
theorem C52_reduces (e : Env) (s : St) (p1 p2 : ℕ) (o : UInt8) (eak kb vb : Bytes) (hak : eak.length = 32) (lk : kb.length = 32) (lv : vb.length = 32)
    (k v : ℤ) (hk : decodeScalar kb = some k) (hv : decodeScalar vb = some v) :
    (dispatch e s ⟨0x78, p1, p2, o :: (eak ++ (kb ++ vb))⟩).1 = (dispatch e s ⟨0x78, p1, p2, o :: (eak ++ (encodeInt k ++ encodeInt v))⟩).1 := by
  have red : ∀ b x, decodeScalar b = some x → Reduced x := by
    intro b x h
    unfold decodeScalar at h
    rw [Option.map_eq_some_iff] at h
    obtain ⟨n, _, h⟩ := h
    exact h ▸ emod_l_range _
  have a := blind_resp e s p1 p2 o eak kb vb [] hak lk lv k v hk hv
  have b := blind_resp e s p1 p2 o eak (encodeInt k) (encodeInt v) [] hak (encodeInt_length _) (encodeInt_length _) k v
    (C35_scalar_roundtrip k (red _ _ hk).1 (red _ _ hk).2) (C35_scalar_roundtrip v (red _ _ hv).1 (red _ _ hv).2)
  rw [List.append_nil] at a b
  rw [a, b]

/-- C52 does not hold for a host that sends the answer of `blind` back as it came: it gets the amount and the mask back only if their difference
happens to be the difference of the two secret masks. -/
theorem C52_false_order (e : Env) (s s' : St) (p1 p2 q1 q2 : ℕ) (o o' : UInt8) (eak : Bytes) (hak : eak.length = 32) (k v : ℤ) (hk : Reduced k)
    (hv : Reduced v) (resp : Bytes)
    (h : (dispatch e s ⟨0x78, p1, p2, o :: (eak ++ (encodeInt k ++ encodeInt v))⟩).1 = some (swOk, resp)) :
    (dispatch e s' ⟨0x7A, q1, q2, o' :: (eak ++ resp)⟩).1 = some (swOk, encodeInt v ++ encodeInt k) ↔
      scSub v k = scSub (maskK e (e.dec eak)) (maskV e (e.dec eak)) := by
  have b := blind_resp e s p1 p2 o eak (encodeInt k) (encodeInt v) [] hak (encodeInt_length _) (encodeInt_length _) k v
    (C35_scalar_roundtrip k hk.1 hk.2) (C35_scalar_roundtrip v hv.1 hv.2)
  rw [List.append_nil, h] at b
  obtain rfl : resp = _ := (Prod.mk.inj (Option.some.inj b)).2
  have r : ∀ x m, Reduced (scAdd x m) := fun x m => emod_l_range _
  have u := unblind_resp e s' q1 q2 o' eak (encodeInt (scAdd v (maskV e (e.dec eak)))) (encodeInt (scAdd k (maskK e (e.dec eak)))) [] hak
    (encodeInt_length _) (encodeInt_length _) _ _
    (C35_scalar_roundtrip _ (r _ _).1 (r _ _).2) (C35_scalar_roundtrip _ (r _ _).1 (r _ _).2)
  rw [List.append_nil] at u
  rw [u]
  have inj : ∀ x y, Reduced x → Reduced y → encodeInt x = encodeInt y → x = y := by
    intro x y hx hy h
    have := congrArg decodeScalar h
    rw [C35_scalar_roundtrip x hx.1 hx.2, C35_scalar_roundtrip y hy.1 hy.2] at this
    exact Option.some.inj this
  generalize maskK e (e.dec eak) = a
  generalize maskV e (e.dec eak) = c
  have rs : ∀ x m, Reduced (scSub x m) := fun x m => emod_l_range _
  have m : ∀ x y, Reduced y → (x % l = y ↔ l ∣ x - y) := by
    intro x y hy
    rw [Int.dvd_iff_emod_eq_zero, ← Int.emod_eq_emod_iff_emod_sub_eq_zero, Int.emod_eq_of_lt hy.1 hy.2]
  have d : ∀ x y, (x % l = y % l ↔ l ∣ x - y) := by
    intro x y
    rw [Int.dvd_iff_emod_eq_zero, ← Int.emod_eq_emod_iff_emod_sub_eq_zero]
  have e1 : scSub (scAdd k a) c = v ↔ scSub v k = scSub a c := by
    unfold scSub scAdd
    rw [Int.emod_sub_emod, m _ _ hv, d, show k + a - c - v = -(v - k - (a - c)) by ring, dvd_neg]
  have e2 : scSub (scAdd v c) a = k ↔ scSub v k = scSub a c := by
    unfold scSub scAdd
    rw [Int.emod_sub_emod, m _ _ hk, d, show v + c - a - k = v - k - (a - c) by ring]
  constructor
  · intro h
    have := (List.append_inj (Prod.mk.inj (Option.some.inj h)).2 (by rw [encodeInt_length, encodeInt_length])).1
    exact e1.mp (inj _ _ (rs _ _) hv this)
  · intro h
    rw [e1.mpr h, e2.mpr h]

/-- A toy environment: the hash sums the bytes, the cipher does nothing, the user agrees. -/
def demo : Env where
  H d := UInt8.ofNat (d.foldr (fun x n => x.toNat + n) 1) :: List.replicate 31 0
  sha d := d
  enc d := some d
  dec d := d
  address := [1, 2, 3]
  confirm _ _ _ _ := true
  fee _ := true

/-- Amount 7 and mask 9 under the amount key of 32 ones: blinding adds 33 to the mask and 34 to the amount. -/
example : maskK demo (List.replicate 32 1) = 33 ∧ maskV demo (List.replicate 32 1) = 34 := by decide +kernel

/-- The answer sent back as it came gives something else. -/
example : scSub 7 9 ≠ scSub (maskK demo (List.replicate 32 1)) (maskV demo (List.replicate 32 1)) := by decide +kernel

end Verif.Lite

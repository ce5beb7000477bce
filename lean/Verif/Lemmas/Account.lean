import Verif.Spec.Account
import Verif.Props.Addr
import Verif.Props.CurveCodec
import Verif.Lemmas.HdHex

/-! Lemmas for `Props/Account.lean`. -/

namespace Verif.Acct
open Verif Verif.Ed Verif.Hd

theorem onCurve_base {a : ℤ} (h : 0 ≤ a) : isOnCurve (scalarmultB a) = true := by
  rw [show a = ((a.toNat : ℕ) : ℤ) by omega]
  exact (isOnCurve_iff _).2 ⟨_, rep_scalarmultB _⟩

theorem encode_len {P : Ext} (h : isOnCurve P = true) : (encodePoint P).length = 32 := by
  obtain ⟨_, _, _, _, e⟩ := C49_encode_decode P h
  exact e

theorem encode_again {P : Ext} (h : isOnCurve P = true) : ∃ R, decodePoint (encodePoint P) = some R ∧ isOnCurve R = true ∧
    encodePoint R = encodePoint P ∧ pointEq P R = some true := by
  obtain ⟨R, h1, h2, h3, _⟩ := C49_encode_decode P h
  refine ⟨R, h1, h2, (C49_encode_injective R P h2 h).2 h3, ?_⟩
  unfold pointEq
  rw [if_pos h, (C49_equal P R h h2).2 h3.symm]

/-- Decoding the text of an address gives its parts back. -/
theorem decode_public {H : Bytes → Bytes} (hH : ∀ x, 4 ≤ (H x).length) {spend view : Bytes} (hs : spend.length = 32)
    (hv : view.length = 32) {net : ℕ} {isSub : Bool} {pid : Option Bytes} {t : Bytes}
    (h : Addr.publicAddrEncode H spend view isSub (some net) pid = some t) :
    ∃ info, Addr.decodeAddr H t = some info ∧ info.parts = ⟨spend, view, net, isSub, pid.isSome, pid⟩ ∧ info.addr = t := by
  have ht := h
  unfold Addr.publicAddrEncode at h
  split at h
  · cases h
  · rename_i hpl
    obtain ⟨v, hver, rfl⟩ := Option.map_eq_some_iff.1 h
    obtain ⟨h1, h2, h3, h4⟩ := Addr.version_spec _ _ _ _ hver
    have hn : net < 3 := by
      unfold Addr.netVersion at hver
      split at hver
      · cases hver
      · match net with
        | 0 => omega
        | 1 => omega
        | 2 => omega
        | n + 3 => simp [Addr.prefixes] at hver
    obtain ⟨v0, hver0⟩ := Addr.version_exists net hn isSub false (by simp)
    have hbase : Addr.publicAddrEncode H spend view isSub (some net) none = some (Addr.encodeAddr H v0 spend view none) := by
      unfold Addr.publicAddrEncode; simp [hver0]
    refine ⟨⟨spend, view, net, isSub, pid.isSome, pid, Addr.encodeAddr H v spend view pid, Addr.encodeAddr H v0 spend view none⟩, ?_, rfl, rfl⟩
    have e1 : (spend ++ view ++ pid.getD []).take 32 = spend := by rw [List.append_assoc, ← hs, List.take_left]
    have e2 : ((spend ++ view ++ pid.getD []).drop 32).take 32 = view := by
      rw [List.append_assoc]
      conv => lhs; rw [show (32 : Nat) = spend.length from hs.symm, List.drop_left, show spend.length = view.length by omega, List.take_left]
    have e3 : (spend ++ view ++ pid.getD []).drop 64 = pid.getD [] := by
      have : (64 : Nat) = (spend ++ view).length := by simp [hs, hv]
      rw [this, List.drop_left]
    unfold Addr.decodeAddr Addr.encodeAddr
    rw [Addr.decodeCheck_encodeCheck H hH v h1]
    simp only [Addr.setAddr, h2, e1, e2, e3, h3, h4]
    have hpid : (if pid.isSome = true then some (pid.getD []) else none) = pid := by cases pid <;> simp
    rw [hpid]
    unfold Addr.recomputeAddr
    simp only [hbase, ht]
    rfl

/-- What `set_address` keeps: the address with the public view key of the view key it was given. -/
theorem setAddress_some {H : Bytes → Bytes} {a : ℤ} {t t' : Bytes} (h : setAddress H a t = some t') :
    ∃ info P, Addr.decodeAddr H t = some info ∧ decodePoint info.spend = some P ∧
      Addr.publicAddrEncode H (encodePoint P) (encodePoint (scalarmultB a)) false (some info.net) info.pid = some t' := by
  unfold setAddress at h
  obtain ⟨info, h1, h⟩ := Option.bind_eq_some_iff.1 h
  obtain ⟨P, h2, h⟩ := Option.bind_eq_some_iff.1 h
  rw [Key.subAddressKeys, if_pos ⟨rfl, rfl⟩, Option.bind_some] at h
  obtain ⟨j, h3, rfl⟩ := Option.map_eq_some_iff.1 h
  unfold Addr.recomputeSub at h3
  obtain ⟨_, h4, _⟩ := Addr.recomputeAddr_parts h3
  exact ⟨info, P, h1, h2, h4⟩

theorem version_std {net : ℕ} {pid : Option Bytes} {H : Bytes → Bytes} {s v s' v' t : Bytes} (h : Addr.publicAddrEncode H s v false (some net) pid = some t) :
    (∃ u, Addr.publicAddrEncode H s' v' false (some net) pid = some u) ∧ ∃ u, Addr.publicAddrEncode H s' v' false (some net) none = some u := by
  unfold Addr.publicAddrEncode at h ⊢
  split at h
  · cases h
  · rename_i hp
    obtain ⟨w, hw, _⟩ := Option.map_eq_some_iff.1 h
    rw [hw, if_neg hp]
    refine ⟨⟨_, rfl⟩, ?_⟩
    rw [if_neg (by simp)]
    unfold Addr.netVersion at hw ⊢
    split at hw
    · cases hw
    · rw [if_neg (by simp)]
      cases hpp : Addr.prefixes ((some net).getD 0) with
      | none => rw [hpp] at hw; cases hw
      | some x => exact ⟨_, rfl⟩

/-- `set_address` succeeds whenever the text decodes and its spend key is a point. -/
theorem setAddress_eq {H : Bytes → Bytes} {a : ℤ} {t : Bytes} {info : Addr.Info} {P : Ext} {t' : Bytes}
    (h1 : Addr.decodeAddr H t = some info) (h2 : decodePoint info.spend = some P)
    (h3 : Addr.publicAddrEncode H (encodePoint P) (encodePoint (scalarmultB a)) false (some info.net) info.pid = some t') :
    setAddress H a t = some t' := by
  unfold setAddress
  rw [h1, Option.bind_some, h2, Option.bind_some, Key.subAddressKeys, if_pos ⟨rfl, rfl⟩, Option.bind_some]
  unfold Addr.recomputeSub Addr.recomputeAddr
  obtain ⟨_, u, hu⟩ := version_std (s' := encodePoint P) (v' := encodePoint (scalarmultB a)) h3
  simp only [ne_eq, not_true_eq_false, false_and, decide_false]
  rw [hu]
  dsimp only
  rw [h3]
  rfl

/-- The check of `open_with_keys` after `set_address` always passes. -/
theorem open_after_set {H : Bytes → Bytes} (hH : ∀ x, 4 ≤ (H x).length) {a : ℤ} (ha : 0 ≤ a) {t t' : Bytes} (h : setAddress H a t = some t') :
    ∃ info P R, Addr.decodeAddr H t = some info ∧ decodePoint info.spend = some P ∧
      Addr.publicAddrEncode H (encodePoint P) (encodePoint (scalarmultB a)) false (some info.net) info.pid = some t' ∧
      decodePoint (encodePoint P) = some R ∧ encodePoint R = encodePoint P ∧
      openWithKeys H a t' = some (scalarmultB a, R) ∧ setAddress H a t' = some t' := by
  obtain ⟨info, P, h1, h2, h3⟩ := setAddress_some h
  have hP := C49_decoded_on_curve _ _ h2
  obtain ⟨R, g1, g2, g3, _⟩ := encode_again hP
  obtain ⟨V, f1, f2, f3, f4⟩ := encode_again (onCurve_base ha)
  obtain ⟨info', d1, d2, d3⟩ := decode_public hH (encode_len hP) (encode_len (onCurve_base ha)) h3
  have hp : info'.spend = encodePoint P ∧ info'.view = encodePoint (scalarmultB a) ∧ info'.net = info.net ∧ info'.pid = info.pid := by
    simp only [Addr.Info.parts, Addr.Parts.mk.injEq] at d2
    exact ⟨d2.1, d2.2.1, d2.2.2.1, d2.2.2.2.2.2⟩
  refine ⟨info, P, R, h1, h2, h3, g1, g3, ?_, ?_⟩
  · unfold openWithKeys
    dsimp only
    rw [d1, Option.bind_some, hp.1, g1, Option.bind_some, hp.2.1, f1, Option.bind_some, f4, Option.bind_some, if_pos rfl]
  · refine setAddress_eq d1 (by rw [hp.1]; exact g1) ?_
    rw [g3, hp.2.2.1, hp.2.2.2]
    exact h3

end Verif.Acct

import Verif.Model.BpWire
import Verif.Props.KeyVChunk
import Verif.Props.Bulletproof
import Verif.Props.Varint

/-! C48: serialised range proofs parse back. -/

namespace Verif.Bp
open Verif Ed Key Sig Edwards

/-- The wire format of a proof. -/
def wire (p : Proof) : Bytes :=
  p.A ++ p.S ++ p.T1 ++ p.T2 ++ p.taux ++ p.mu ++ Varint.dumpNat p.L.length ++ p.L.flatten ++ Varint.dumpNat p.R.length ++ p.R.flatten ++ p.a ++ p.b ++ p.t

/-- All fields have 32 bytes, and there are as many `L` as `R`. -/
structure Sized (p : Proof) : Prop where
  A : p.A.length = 32
  S : p.S.length = 32
  T1 : p.T1.length = 32
  T2 : p.T2.length = 32
  taux : p.taux.length = 32
  mu : p.mu.length = 32
  L : ∀ x ∈ p.L, x.length = 32
  R : ∀ x ∈ p.R, x.length = 32
  a : p.a.length = 32
  b : p.b.length = 32
  t : p.t.length = 32
  LR : p.L.length = p.R.length

theorem wr_zeros (w x : Bytes) (k : ℕ) (hx : x.length = 32) :
    wr x (w ++ List.replicate (32 + k) 0, w.length) = some (w ++ x ++ List.replicate k 0, (w ++ x).length) := by
  obtain ⟨h1, h2, h3⟩ := KeyV.memcpy_ok x 32 (w ++ List.replicate (32 + k) 0) w.length 0 (by rw [List.length_append, List.length_replicate]; omega) (by omega)
  rw [Nat.cast_zero] at h1 h2 h3
  rw [wr]
  dsimp only
  rw [if_pos h1, List.length_append, hx]
  congr 2
  apply List.ext_getElem?
  intro i
  rw [h3 i, List.append_assoc]
  by_cases hi : i < w.length
  · rw [if_neg (by omega), List.getElem?_append_left hi, List.getElem?_append_left hi]
  · rw [List.getElem?_append_right (by omega), List.getElem?_append_right (by omega)]
    by_cases hj : i < w.length + 32
    · rw [if_pos (by omega), List.getElem?_append_left (by omega), Nat.zero_add]
    · rw [if_neg (by omega), List.getElem?_append_right (by omega), List.getElem?_replicate, List.getElem?_replicate]
      split <;> split <;> first | rfl | omega

theorem wrAll_zeros (xs : List Bytes) : ∀ (w : Bytes) (k : ℕ), (∀ x ∈ xs, x.length = 32) →
    wrAll xs (w ++ List.replicate (32 * xs.length + k) 0, w.length) = some (w ++ xs.flatten ++ List.replicate k 0, (w ++ xs.flatten).length) := by
  induction xs with
  | nil => intro w k _; simp [wrAll]
  | cons x xs ih =>
    intro w k h
    rw [wrAll, show 32 * (x :: xs).length + k = 32 + (32 * xs.length + k) by rw [List.length_cons]; ring,
      wr_zeros w x _ (h x (by simp)), Option.bind_some, ih _ _ fun y hy => h y (by simp [hy]), List.flatten_cons, List.append_assoc w x]

theorem wrByte_zeros (w : Bytes) (n k : ℕ) (hn : n < 256) :
    wrByte n (w ++ List.replicate (1 + k) 0, w.length) = some (w ++ [UInt8.ofNat n] ++ List.replicate k 0, (w ++ [UInt8.ofNat n]).length) := by
  rw [wrByte, if_pos ⟨hn, by dsimp only; rw [List.length_append, List.length_replicate]; omega⟩]
  dsimp only
  rw [List.set_append_right _ _ le_rfl, Nat.sub_self, show 1 + k = k + 1 by omega, List.replicate_succ, List.set_cons_zero, List.length_append]
  simp

theorem dumpNat_small {n : ℕ} (h : n ≤ 127) : Varint.dumpNat n = [UInt8.ofNat n] := by
  rw [Varint.dumpNat]
  have : n >>> 7 = 0 := by rw [Nat.shiftRight_eq_div_pow]; omega
  have e : n &&& 0x7F = n := by
    have := Nat.and_two_pow_sub_one_eq_mod n 7
    rw [show (2 : ℕ) ^ 7 - 1 = 0x7F from rfl] at this
    omega
  rw [if_pos this, e]

/-- C48: the device sends the wire format of the proof. -/
theorem C48_wire (p : Proof) (h : Sized p) (h127 : p.L.length ≤ 127) : dumpRsigBp p = some (wire p) := by
  rw [dumpRsigBp, if_neg (by omega)]
  have e1 := wrAll_zeros [p.A, p.S, p.T1, p.T2, p.taux, p.mu] [] (1 + (32 * p.L.length + (1 + (32 * p.R.length + (32 * [p.a, p.b, p.t].length + 0)))))
    (by simp [h.A, h.S, h.T1, h.T2, h.taux, h.mu])
  rw [show 32 * (9 + 2 * p.L.length) + 2 = 32 * [p.A, p.S, p.T1, p.T2, p.taux, p.mu].length +
    (1 + (32 * p.L.length + (1 + (32 * p.R.length + (32 * [p.a, p.b, p.t].length + 0))))) by
      rw [← h.LR]; simp only [List.length_cons, List.length_nil]; ring]
  rw [List.nil_append, List.length_nil, List.nil_append] at e1
  rw [e1]
  simp only [Option.bind_eq_bind, Option.bind_some]
  rw [wrByte_zeros _ _ _ (by omega), Option.bind_some, wrAll_zeros p.L _ _ h.L, Option.bind_some, wrByte_zeros _ _ _ (by have := h.LR; omega),
    Option.bind_some, wrAll_zeros p.R _ _ h.R, Option.bind_some, wrAll_zeros [p.a, p.b, p.t] _ _ (by simp [h.a, h.b, h.t]), Option.bind_some]
  rw [wire, dumpNat_small h127, dumpNat_small (by have := h.LR; omega)]
  simp

/-- C48: more rounds are refused. -/
theorem C48_refused (p : Proof) (h : 127 < p.L.length) : dumpRsigBp p = none := by rw [dumpRsigBp, if_pos h]

theorem rdKey_append (x r : Bytes) (hx : x.length = 32) : rdKey (x ++ r) = some (x, r) := by
  rw [rdKey, if_neg (by rw [List.length_append]; omega), List.take_append_of_le_length (by omega), List.drop_append_of_le_length (by omega),
    List.take_of_length_le (by omega), List.drop_of_length_le (by omega), List.nil_append]

theorem rdKeys_append (xs : List Bytes) : ∀ r, (∀ x ∈ xs, x.length = 32) → rdKeys xs.length (xs.flatten ++ r) = some (xs, r) := by
  induction xs with
  | nil => intro r _; rfl
  | cons x xs ih =>
    intro r h
    rw [List.length_cons, rdKeys, List.flatten_cons, List.append_assoc, rdKey_append x _ (h x (by simp))]
    simp only [Option.bind_eq_bind, Option.bind_some]
    rw [ih r fun y hy => h y (by simp [hy]), Option.bind_some]

theorem rdVec_append (xs : List Bytes) (r : Bytes) (h : ∀ x ∈ xs, x.length = 32) : rdVec (Varint.dumpNat xs.length ++ (xs.flatten ++ r)) = some (xs, r) := by
  rw [rdVec]
  obtain ⟨e, he, hl⟩ := Varint.C19_uvarint_roundtrip (xs.length : ℤ) (by omega)
  rw [Varint.dump, if_neg (by omega), Int.toNat_natCast] at he
  have he := Option.some.inj he
  rw [he, hl, Option.bind_some, Int.toNat_natCast]
  exact rdKeys_append xs r h

/-- The wire format determines the proof up to the commitments. -/
theorem parse_wire (p : Proof) (h : Sized p) (r : Bytes) : parseRsigBp (wire p ++ r) = some ({ p with V := [] }, r) := by
  unfold parseRsigBp wire
  simp only [List.append_assoc]
  simp only [rdKey_append _ _ h.A, rdKey_append _ _ h.S, rdKey_append _ _ h.T1, rdKey_append _ _ h.T2, rdKey_append _ _ h.taux,
    rdKey_append _ _ h.mu, rdVec_append _ _ h.L, rdVec_append _ _ h.R, rdKey_append _ _ h.a, rdKey_append _ _ h.b, rdKey_append _ _ h.t,
    Option.bind_eq_bind, Option.bind_some]

/-- C48: what the device sends parses back into the same proof, whatever follows it. -/
theorem C48_roundtrip (p : Proof) (h : Sized p) (h127 : p.L.length ≤ 127) (r : Bytes) :
    ∃ b, dumpRsigBp p = some b ∧ b.length = 32 * (9 + 2 * p.L.length) + 2 ∧ parseRsigBp (b ++ r) = some ({ p with V := [] }, r) := by
  refine ⟨wire p, C48_wire p h h127, ?_, parse_wire p h r⟩
  have hfl : ∀ xs : List Bytes, (∀ x ∈ xs, x.length = 32) → xs.flatten.length = 32 * xs.length := by
    intro xs hx
    induction xs with
    | nil => rfl
    | cons x xs ih =>
      rw [List.flatten_cons, List.length_append, hx x (by simp), ih fun y hy => hx y (by simp [hy]), List.length_cons]
      ring
  rw [wire, dumpNat_small h127, dumpNat_small (by have := h.LR; omega)]
  simp only [List.length_append, h.A, h.S, h.T1, h.T2, h.taux, h.mu, h.a, h.b, h.t, hfl _ h.L, hfl _ h.R, List.length_cons, List.length_nil]
  have := h.LR
  omega

/-- C48: two different proofs are never sent as the same bytes, unless they differ in the commitments only. -/
theorem C48_injective (p p' : Proof) (h : Sized p) (h' : Sized p') (h127 : p.L.length ≤ 127) (h127' : p'.L.length ≤ 127)
    (e : dumpRsigBp p = dumpRsigBp p') : { p with V := [] } = { p' with V := [] } := by
  rw [C48_wire p h h127, C48_wire p' h' h127'] at e
  have e1 := parse_wire p h []
  rw [Option.some.inj e, parse_wire p' h' []] at e1
  exact (Prod.mk.inj (Option.some.inj e1)).1.symm

theorem enc_length (p : Sub) : (enc p).length = 32 := by rw [enc]; exact encPt_length _

/-- C48: every proof the device makes, for up to 32 outputs, is sent and parsed back, and its size is the one announced by `bp_size`, without the
commitments and with two length bytes. -/
theorem C48_produced (H : Bytes → Bytes) (rnd : Rand) (hL : ∀ i, 0 ≤ rnd.sL i) (hR : ∀ i, 0 ≤ rnd.sR i) (amounts : List ℕ) (masks : List ℤ)
    (hlen : amounts.length = masks.length) (h32 : amounts.length ≤ 32) {π : Proof} (h : proveRangeBp H rnd amounts masks = some π) (r : Bytes) :
    ∃ b, dumpRsigBp π = some b ∧ b.length + 32 * amounts.length = bpSize amounts.length + 2 ∧ parseRsigBp (b ++ r) = some ({ π with V := [] }, r) := by
  rw [proveRangeBp] at h
  split at h
  · simp at h
  rename_i hb
  have hl : (amounts.map fun a : ℕ => (a : ℤ)).length = amounts.length := List.length_map _
  obtain ⟨p, rfl, -, hpre, hLl, -⟩ := proveBatch_ok H rnd hL hR _ masks (by rw [hl, hlen]) (by rw [hl]; exact h32) (amounts_bound hb) h
  rw [hl] at hLl
  have hs : Sized (bytes p) := by
    constructor <;> simp only [bytes, enc_length, encodeInt_length, List.length_map]
    · intro x hx
      obtain ⟨y, -, rfl⟩ := List.mem_map.mp hx
      exact enc_length y
    · intro x hx
      obtain ⟨y, -, rfl⟩ := List.mem_map.mp hx
      exact enc_length y
    · exact hpre.2.1
  have hLb : (bytes p).L.length = 6 + logM amounts.length := by rw [bytes]; dsimp only; rw [List.length_map, hLl]
  have hlm := logM_le amounts.length
  obtain ⟨b, h1, h2, h3⟩ := C48_roundtrip (bytes p) hs (by omega) r
  refine ⟨b, h1, ?_, h3⟩
  rw [h2, hLb, bpSize]
  ring

example : ∃ π b, proveRangeBp oneH ⟨3, 4, 5, 6, fun i => i, fun i => 2 * i⟩ [7, 2 ^ 64 - 1, 0] [11, 0, 13] = some π ∧ dumpRsigBp π = some b := by
  obtain ⟨π, h, -⟩ := C44_produces oneH oneH_ne ⟨3, 4, 5, 6, fun i => i, fun i => 2 * i⟩ (fun i => by simp) (fun i => by simp)
    [7, 2 ^ 64 - 1, 0] [11, 0, 13] (by simp) (by simp) rfl (by simp)
  obtain ⟨b, hb, -⟩ := C48_produced oneH _ (fun i => by simp) (fun i => by simp) _ _ rfl (by simp) h []
  exact ⟨π, b, h, hb⟩

end Verif.Bp

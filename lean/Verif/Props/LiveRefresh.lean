import Verif.Spec.LiveRefresh
import Verif.Lemmas.KiImport
import Verif.Lemmas.RealDemo

/-! C88: key images obtained during a live refresh. -/

namespace Verif.LiveRefresh
open Verif Ed Edwards Key Sig

/-- The ring of one member. -/
theorem ring_one {H : Bytes → Bytes} {pre : Bytes} {I P : Ext} {I' P' : Point} {c r : ℤ} (hI : Rep I I') (hP : Rep P P') :
    checkRing H pre I [P] [(c, r)] = some true ↔ Proven H pre P' I' c r := by
  rw [C40_ring_accept_iff H pre I I' [P] [P'] [(c, r)] hI (.cons hP .nil) rfl]
  unfold RingValid Proven Proper ringData ringData
  simp only [List.length_singleton, List.mem_singleton, forall_eq, true_and, List.map_cons, List.map_nil, List.sum_cons, List.sum_nil, add_zero,
    List.append_nil]
  constructor
  · rintro ⟨⟨h1, h2⟩, h3⟩
    rw [Int.emod_eq_of_lt h1.1.le h1.2] at h3
    exact ⟨h1, h2, h3⟩
  · rintro ⟨h1, h2, h3⟩
    rw [Int.emod_eq_of_lt h1.1.le h1.2]
    exact ⟨⟨h1, h2⟩, h3⟩

/-- C88. Whatever the device answers: the host returns a key image only if the answer opens with the view key and the key of the output, and contains
the key image with a signature that relates it to the output. -/
theorem C88_returned_is_proven {H keccak2 : Bytes → Bytes} {mac : Bytes → Bytes → Bytes} {decPack : Bytes → Bytes → Option Bytes} {view : ℤ}
    {outKey salt blob : Bytes} {ki : Ext} (h : liveRefresh H keccak2 mac decPack view outKey salt blob = some ki) :
    ∃ plain out P I c r, decPack (mac salt (keccak2 (encodeInt view ++ outKey))) blob = some plain ∧ decodePoint outKey = some out ∧ Rep out P ∧
      decodePoint (plain.take 32) = some ki ∧ Rep ki I ∧ Proven H (plain.take 32) P I c r := by
  unfold liveRefresh encKey at h
  split at h
  · simp at h
  rename_i plain hp
  dsimp only at h
  split at h
  · rename_i ki' c r pub h1 h2 h3 h4
    split at h
    · rename_i hc
      simp only [Option.some.injEq] at h
      subst h
      obtain ⟨I, hI⟩ := decodePoint_rep h1
      obtain ⟨P, hP⟩ := decodePoint_rep h4
      exact ⟨plain, pub, P, I, c, r, hp, h4, hP, h1, hI, (ring_one hI hP).1 hc⟩
    · simp at h
  · simp at h

/-- C88. What such a signature says: for an output with secret `x` and a point of the prime order subgroup that is not its key image, the two
commitments in the signature fix the challenge. The device would have to hit it with the hash. -/
theorem C88_wrong_image_one_challenge {H : Bytes → Bytes} {x : ℤ} {I : Point} (hI : l • I = 0) (hne : I ≠ image H x) {b b' : Bytes} {c r c' r' : ℤ}
    (h : Proven H b (x • base) I c r) (h' : Proven H b' (x • base) I c' r')
    (hL : c • (x • base) + r • base = c' • (x • base) + r' • base)
    (hR : r • hpt H (encPt (x • base)) + c • I = r' • hpt H (encPt (x • base)) + c' • I) : c = c' := by
  obtain ⟨hc, -, -⟩ := h
  obtain ⟨hc', -, -⟩ := h'
  have hl : l = (lN : ℤ) := l_eq
  have hQ : l • hpt H (encPt (x • base)) = 0 := by rw [hl, natCast_zsmul]; exact hpt_order _ _
  generalize hq : hpt H (encPt (x • base)) = Q at hR hQ
  have e1 : ((c * x + r) - (c' * x + r')) • base = 0 := by
    have : ((c * x + r) - (c' * x + r')) • base = (c • x • base + r • base) - (c' • x • base + r' • base) := by module
    rw [this, hL, sub_self]
  have h1 : l ∣ (c * x + r) - (c' * x + r') := by
    rw [hl, ← order_base, addOrderOf_dvd_iff_zsmul_eq_zero]; exact e1
  obtain ⟨m, hm⟩ := h1
  have e2 : ((c * x + r) - (c' * x + r')) • Q = 0 := by rw [hm, mul_comm, mul_zsmul, hQ, zsmul_zero]
  have e3 : (c - c') • (I - x • Q) = 0 := by
    have : (c - c') • (I - x • Q) = (r • Q + c • I) - (r' • Q + c' • I) - ((c * x + r) - (c' * x + r')) • Q := by
      module
    rw [this, hR, e2, sub_self, sub_zero]
  have hD : I - x • Q ≠ 0 := by
    rw [sub_ne_zero, ← hq]; exact hne
  have hlD : lN • (I - x • Q) = 0 := by
    rw [← natCast_zsmul, ← hl, zsmul_sub, hI, zsmul_comm, hQ, zsmul_zero, sub_zero]
  have ho := addOrderOf_eq_prime hlD hD
  have h4 : (lN : ℤ) ∣ c - c' := by rw [← ho, addOrderOf_dvd_iff_zsmul_eq_zero]; exact e3
  rw [← hl] at h4
  have := Int.eq_zero_of_abs_lt_dvd h4 (by rw [abs_lt]; omega)
  omega

/-- C88. An answer with the key image that the device exports for the output (as in the key image synchronization, C40) is accepted: the host has the key
image of every source with which the wallet can spend the output. -/
theorem C88_exported_is_returned {o : Real.Outside} {draw : KiSync.Td → ℤ × ℤ × ℤ} {subs : List (ℕ × List ℕ)} {td : KiSync.Td} {b : Bytes}
    (h : KiSync.exportKi o draw subs td = some b) {keccak2 : Bytes → Bytes} {mac : Bytes → Bytes → Bytes} {decPack : Bytes → Bytes → Option Bytes}
    {view : ℤ} {salt blob : Bytes} (hb : decPack (mac salt (keccak2 (encodeInt view ++ td.outKey))) blob = some b) :
    ∃ ki, liveRefresh o.hash keccak2 mac decPack view td.outKey salt blob = some ki ∧ encodePoint ki = b.take 32 ∧
      ∀ table src x I m, Agent.Owns (Real.env o) table src x I → src.outputs[src.realOutput]? = some m → m.dest = td.outKey → encodePoint ki = Bp.enc I := by
  obtain ⟨⟨P, I, c, r, h1, h2, h3, h4, h5⟩, P', x, p, k1, k2, k3, k4, k5⟩ := KiSync.export_sound h
  have he : encodePoint I = b.take 32 := by
    have h2' : decodePoint (encodePoint (smul (hp o.hash (encPt p)) x)) = some I := by rw [← k5]; exact h2
    obtain ⟨q, hq, -⟩ := rep_hp o.hash (encPt p)
    have hr := Key.rep_smul hq k2.1
    rw [encodePoint_rep hr, decode_encPt, Option.some.injEq] at h2'
    rw [← h2', encodePoint_rep (rep_canon _), show b.take 32 = (KiSync.splitPlain b).1 from rfl, k5, encodePoint_rep hr]
  refine ⟨I, ?_, he, ?_⟩
  · unfold liveRefresh encKey
    rw [hb]
    dsimp only
    rw [show decodePoint (b.take 32) = some I from h2, show decodeScalar ((b.drop 32).take 32) = some c from h3,
      show decodeScalar (b.drop 64) = some r from h4, h1]
    dsimp only
    rw [show checkRing o.hash (b.take 32) I [P] [(c, r)] = some true from h5]
  · intro table src x' I' m how hm hd
    rw [he]
    exact KiSync.export_owns h how hm hd

/-- The wallet of the example exports the key image of an output with secret 3. -/
example : ∃ (td : KiSync.Td) (b : Bytes), KiSync.exportKi Real.Demo.parts (fun _ => (5, 1, 1)) [(0, [0])] td = some b ∧
    (fun _ m => some m : Bytes → Bytes → Option Bytes) [] b = some b := by
  obtain ⟨tb, tb1, tb2, -, tb3⟩ := KiSync.subTable_ok Real.Demo.parts [(0, [0])] [] (by simp) (by intro k idx h; simp [Table.get] at h)
  obtain ⟨P, hP, hg⟩ := tb3 (0, [0]) (by simp) 0 (by simp)
  have hl5 : (5 : ℤ) < l := by decide +kernel
  have hone : ∀ b, hs Real.Demo.parts.hash b = 1 := fun b => by
    show (bitSum (1 :: List.replicate 31 0) 256 : ℤ) % l = 1
    decide +kernel
  have h2 : Bp.num (2 : Fl) = 2 := by
    have : ((2 : ℤ) : Fl) = 2 := by norm_num
    rw [← this, Bp.num_cast ⟨by decide, by omega⟩]
  have hrep : Rep P ((((2 : ℤ) : Fl) • baseS : Sub) : Point) := by
    rw [subSpendPub, if_pos ⟨rfl, rfl⟩, Option.some.injEq] at hP
    subst hP
    rw [Bp.coe_smul, show Bp.num Real.Demo.parts.spend = 2 from h2]
    exact rep_B _
  rw [Bp.encode_rep hrep] at hg
  have := KiSync.export_complete (draw := fun _ => (5, 1, 1)) Real.Demo.ok.hashNonzero Real.Demo.ok.view Real.Demo.ok.spend tb1 tb2 hg (txKey := baseS) (n := 0) (addKeys := [])
    (.inl rfl) (.inl rfl) rfl rfl ⟨⟨by decide, hl5⟩, ⟨by decide, by show (1 : ℤ) < l; omega⟩, ⟨by decide, by show (1 : ℤ) < l; omega⟩⟩ (by
      intro x hx hk
      have hx3 : x = 3 := by
        refine KiSync.base_inj hx ⟨by decide, by omega⟩ ?_
        rw [encodePoint_rep (rep_B x)] at hk
        have := encPt_injective hk
        rw [this, AddSubgroup.coe_add, Real.shared_eq, Bp.coe_smul, Bp.coe_smul, sh, hone]
        show (1 : ℤ) • base + (2 : ℤ) • base = _
        rw [← add_smul]
        norm_num
      rw [KiSync.response, hone, hx3]
      have : (5 - 1 * 3 : ℤ) % l = 2 := by rw [show (5 - 1 * 3 : ℤ) = 2 by norm_num]; exact Int.emod_eq_of_lt (by decide) (by omega)
      dsimp only
      rw [this]
      decide)
  obtain ⟨b, hb⟩ := Option.isSome_iff_exists.1 this
  exact ⟨_, b, hb, rfl⟩

/-- C88 fails outside that subgroup: a device can make the host accept the key image plus a point of order two, as soon as the challenge is even. The
host does not check that a key image is in the prime order subgroup. -/
theorem C88_false_torsion {H keccak2 : Bytes → Bytes} {mac : Bytes → Bytes → Bytes} {decPack : Bytes → Bytes → Option Bytes} {view : ℤ}
    {salt blob : Bytes} {x k c : ℤ} {T : Point} (hT : (2 : ℤ) • T = 0) (hx : 0 ≤ x)
    (hc : c = hs H (encPt (image H x + T) ++ (encPt (k • base) ++ encPt (k • hpt H (encPt (x • base)))))) (heven : Even c) (h0 : c ≠ 0)
    (hr : (k - c * x) % l ≠ 0) (hb : decPack (mac salt (keccak2 (encodeInt view ++ encPt (x • base)))) blob =
      some (encPt (image H x + T) ++ encodeInt c ++ encodeInt ((k - c * x) % l))) :
    ∃ ki, liveRefresh H keccak2 mac decPack view (encPt (x • base)) salt blob = some ki ∧ Rep ki (image H x + T) := by
  have hcr : 0 ≤ c ∧ c < l := by rw [hc]; exact hs_range _ _
  have hrr : 0 ≤ (k - c * x) % l ∧ (k - c * x) % l < l := emod_l_range _
  have hlen : (encPt (image H x + T)).length = 32 := encPt_length _
  have hlc : (encodeInt c).length = 32 := encodeInt_length _
  generalize hR : (k - c * x) % l = r at *
  have hl : l = (lN : ℤ) := l_eq
  have hkr : ∀ Q : Point, lN • Q = 0 → (r + c * x) • Q = k • Q := by
    intro Q hQ
    have : r = (k - c * x) - l * ((k - c * x) / l) := by rw [← hR, Int.emod_def]
    rw [show r + c * x = k - ((k - c * x) / l) * l by rw [this]; ring, sub_zsmul, mul_zsmul, hl, natCast_zsmul, hQ, zsmul_zero, neg_zero, add_zero]
  have hcT : c • T = 0 := by
    obtain ⟨e, he⟩ := heven
    rw [he, ← two_mul, mul_comm, mul_zsmul, hT, zsmul_zero]
  refine ⟨canon (image H x + T), ?_, rep_canon _⟩
  have hring : checkRing H (encPt (image H x + T)) (canon (image H x + T)) [canon (x • base)] [(c, r)] = some true := by
    rw [ring_one (rep_canon _) (rep_canon _)]
    refine ⟨⟨by omega, hcr.2⟩, ⟨by omega, hrr.2⟩, ?_⟩
    have e1 : c • x • base + r • base = k • base := by
      rw [← hkr base l_base, add_zsmul, mul_zsmul, add_comm]
    have e2 : r • hpt H (encPt (x • base)) + c • (image H x + T) = k • hpt H (encPt (x • base)) := by
      rw [zsmul_add, hcT, add_zero, image, ← hkr _ (hpt_order _ _), add_zsmul, mul_zsmul]
    rw [e1, e2]
    exact hc
  unfold liveRefresh encKey
  rw [hb]
  dsimp only
  rw [List.append_assoc, List.take_left' hlen, List.drop_left' hlen, List.take_left' hlc, ← List.append_assoc,
    List.drop_left' (by rw [List.length_append, hlen, hlc]), decode_encPt, decode_encPt, C35_scalar_roundtrip c hcr.1 hcr.2,
    C35_scalar_roundtrip r hrr.1 hrr.2]
  dsimp only
  rw [hring]

/-- The point of order two. -/
def two : Point := ⟨0, -1, by simp [On]⟩

/-- A hash, a secret and a point of order two that meet the hypotheses: the sum is not a key image of anything. -/
example : ∃ (H : Bytes → Bytes) (T : Point), (2 : ℤ) • T = 0 ∧ l • (image H 1 + T) ≠ 0 ∧
    (2 : ℤ) = hs H (encPt (image H 1 + T) ++ (encPt ((5 : ℤ) • base) ++ encPt ((5 : ℤ) • hpt H (encPt ((1 : ℤ) • base))))) ∧ Even (2 : ℤ) ∧
    (5 - 2 * 1) % l ≠ 0 := by
  have hT : (2 : ℤ) • two = 0 := by
    rw [two_zsmul]
    refine Pt.ext' ?_ ?_
    · show addX dF 0 (-1) 0 (-1) = 0
      simp [addX]
    · show addY dF 0 (-1) 0 (-1) = 1
      simp [addY]
  have hl : l = (lN : ℤ) := l_eq
  refine ⟨fun _ => 2 :: List.replicate 31 0, two, hT, ?_, ?_, by decide, by decide +kernel⟩
  · have h1 : l • image (fun _ => 2 :: List.replicate 31 0) 1 = 0 := by
      rw [image, one_zsmul, hl, natCast_zsmul]; exact hpt_order _ _
    have h2 : l • two = two := by
      have : l = (l / 2) * 2 + 1 := by decide +kernel
      rw [this, add_zsmul, mul_zsmul, hT, zsmul_zero, one_zsmul, zero_add]
    rw [zsmul_add, h1, h2, zero_add]
    intro h
    have : ((-1 : ℤ) : Fq) = ((1 : ℤ) : Fq) := by
      have := congrArg Pt.y h
      simpa [two, Pt.zero_y] using this
    rw [ZMod.intCast_eq_intCast_iff] at this
    revert this
    decide +kernel
  · show (2 : ℤ) = (bitSum (2 :: List.replicate 31 0) 256 : ℤ) % l
    decide +kernel

end Verif.LiveRefresh

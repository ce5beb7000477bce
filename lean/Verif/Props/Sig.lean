import Verif.Lemmas.RingSig
import Verif.Spec.Rings

/-! C40: plain signatures and ring signatures with a key image. -/

namespace Verif.Sig
open Verif Ed Key Edwards

/-- C40. The checker accepts `(c, r)` under a public key exactly when both scalars are reduced and non-zero and the Schnorr equation
`c = Hs(data ‖ P ‖ c·P + r·G)` holds. -/
theorem C40_accept_iff (H : Bytes → Bytes) (data : Bytes) (c r : ℤ) (pub : Ext) (P : Point) (hP : Rep pub P) :
    checkSignature H data c r pub = some true ↔ Proper c ∧ Proper r ∧ Schnorr H data P c r := by
  unfold checkSignature
  rw [show checkPoint pub = true from rep_on hP]
  simp only [Bool.not_true, Bool.false_eq_true, if_false]
  by_cases hc : scCheck c ≠ 0 ∨ scCheck r ≠ 0
  · rw [if_pos hc]
    refine ⟨fun h => by simp at h, fun ⟨h1, h2, _⟩ => ?_⟩
    rw [scCheck_eq h1.1 h1.2, scCheck_eq h2.1 h2.2] at hc
    simp at hc
  · rw [if_neg hc]
    simp only [ne_eq, not_or, not_not] at hc
    have h1 := scCheck_zero hc.1
    have h2 := scCheck_zero hc.2
    rw [encodePoint_rep hP, encodePoint_rep (rep_add (rep_smul hP h1.1.le) (rep_B r))]
    constructor
    · intro h
      exact ⟨h1, h2, ((scSub_zero (hs_range _ _) ⟨h1.1.le, h1.2⟩).mp (Option.some.inj h)).symm⟩
    · rintro ⟨-, -, h⟩
      exact congrArg some ((scSub_zero (hs_range _ _) ⟨h1.1.le, h1.2⟩).mpr h.symm)

/-- C40. For every message, key and nonce the produced pair satisfies the Schnorr equation for the public key `priv·G`. -/
theorem C40_schnorr (H : Bytes → Bytes) (data : Bytes) (priv k c r : ℤ) (pub : Ext) (h : genSignature H data priv k = (c, r, pub)) :
    Rep pub (priv • base) ∧ Reduced c ∧ Reduced r ∧ Schnorr H data (priv • base) c r := by
  unfold genSignature at h
  generalize hpub : scalarmultB priv = pub' at h
  have hP : Rep pub' (priv • base) := hpub ▸ rep_B priv
  simp only [Prod.mk.injEq] at h
  obtain ⟨rfl, rfl, rfl⟩ := h
  refine ⟨hP, hs_range _ _, emod_l_range _, ?_⟩
  unfold Schnorr
  rw [add_comm, closing_eq' l_base, encodePoint_rep hP, encodePoint_rep (rep_B k)]

/-- C40, as far as it holds: the signature verifies under the public key for every message, key and nonce for which neither scalar is zero;
otherwise the checker raises. -/
theorem C40_verifies_partial (H : Bytes → Bytes) (data : Bytes) (priv k c r : ℤ) (pub : Ext) (h : genSignature H data priv k = (c, r, pub)) :
    checkSignature H data c r pub = if c = 0 ∨ r = 0 then none else some true := by
  obtain ⟨hP, hc, hr, hs⟩ := C40_schnorr H data priv k c r pub h
  split
  · rename_i h0
    unfold checkSignature
    rw [show checkPoint pub = true from rep_on hP]
    simp only [Bool.not_true, Bool.false_eq_true, if_false]
    rw [if_pos]
    rcases h0 with rfl | rfl
    · left; decide
    · right; decide
  · rename_i h0
    simp only [not_or] at h0
    exact (C40_accept_iff H data c r pub _ hP).mpr ⟨⟨lt_of_le_of_ne hc.1 (Ne.symm h0.1), hc.2⟩, ⟨lt_of_le_of_ne hr.1 (Ne.symm h0.2), hr.2⟩, hs⟩

/-- C40 does not hold for every key and nonce: with nonce zero and key zero (`random_scalar` can return both) the checker raises, whatever the
hash function and the message. -/
theorem C40_false_zero (H : Bytes → Bytes) (data : Bytes) :
    checkSignature H data (genSignature H data 0 0).1 (genSignature H data 0 0).2.1 (genSignature H data 0 0).2.2 = none := by
  have hr : (genSignature H data 0 0).2.1 = 0 := by
    unfold genSignature scMulsub
    dsimp only
    rw [zero_mul, sub_zero, Int.zero_emod]
  generalize hg : genSignature H data 0 0 = g at hr ⊢
  obtain ⟨c, r, pub⟩ := g
  rw [C40_verifies_partial H data 0 0 c r pub hg, if_pos (Or.inr hr)]

/-- C40. The ring checker accepts exactly the signatures of the specification, for every ring. -/
theorem C40_ring_accept_iff (H : Bytes → Bytes) (pre : Bytes) (I : Ext) (I' : Point) (ps : List Ext) (ps' : List Point) (sig : List (ℤ × ℤ))
    (hI : Rep I I') (hps : List.Forall₂ Rep ps ps') (hl : sig.length = ps.length) :
    checkRing H pre I ps sig = some true ↔ RingValid H pre I' ps' sig := by
  unfold checkRing
  by_cases hp : ∀ x ∈ sig, Proper x.1 ∧ Proper x.2
  · rw [checkLoop_proper H I ps sig pre 0 hl ⟨le_refl _, l_pos⟩ hp]
    dsimp only
    rw [memberBytes_rep H hI hps sig (fun x hx => ⟨(hp x hx).1.1.le, (hp x hx).2.1.le⟩), zero_add]
    constructor
    · intro h
      exact ⟨by rw [hl, hps.length_eq], hp, ((scSub_zero (hs_range _ _) (emod_l_range _)).mp (Option.some.inj h)).symm⟩
    · rintro ⟨-, -, h⟩
      exact congrArg some ((scSub_zero (hs_range _ _) (emod_l_range _)).mpr h.symm)
  · rw [checkLoop_improper H I ps sig pre 0 hl hp]
    exact ⟨fun h => by simp at h, fun h => absurd h.2.1 hp⟩

/-- C40, ring signatures: for every ring, every position, every message, and all random scalars, a signature with as many pairs as members is
produced; the checker accepts it unless one of its scalars is zero, and then returns false. -/
theorem C40_ring_partial (H : Bytes → Bytes) (pre : Bytes) (I : Ext) (ps : List Ext) (x : ℤ) (idx : ℕ) (test : Bool) (k : ℤ) (rs : List (ℤ × ℤ))
    (P : Ext) (hP : ps[idx]? = some P) (hon : ∀ Q ∈ ps, checkPoint Q = true) (hx : Reduced x) (hk : Reduced k)
    (hkey : pointEqual (scalarmultB x) P = true) (hI : I = keyImage H (encodePoint P) x) (hl : rs.length = ps.length)
    (hrs : ∀ v ∈ rs, Reduced v.1 ∧ Reduced v.2) :
    ∃ sig, genRing H pre I ps x idx test k rs = some sig ∧ sig.length = ps.length ∧ (∀ v ∈ sig, Reduced v.1 ∧ Reduced v.2) ∧
      checkRing H pre I ps sig = some (decide (∀ v ∈ sig, v.1 ≠ 0 ∧ v.2 ≠ 0)) := by
  have hidx : idx < ps.length := (List.getElem?_eq_some_iff.mp hP).1
  have rP : Rep P (x • base) := by
    obtain ⟨p, hp⟩ := (isOnCurve_iff P).mp (hon P (List.mem_of_getElem? hP))
    rw [(pointEqual_iff (rep_B x) hp).mp hkey]; exact hp
  have rI : Rep I (x • hpt H (encPt (x • base))) := by
    rw [hI, keyImage, encodePoint_rep rP]
    exact rep_smul (hpt_rep _ _) hx.1
  have htest : (if test then ringTest H I ps x idx else some ()) = some () := by
    cases test with
    | false => rfl
    | true =>
      rw [if_pos rfl, ringTest, hP]
      dsimp only
      rw [pointEq, if_pos (show isOnCurve _ = true from rep_on (rep_B x)), hkey]
      dsimp only
      rw [← hI, pointEq, if_pos (show isOnCurve _ = true from rep_on rI), (pointEqual_iff rI rI).mpr rfl]
  set S := ((mark idx (0, 0) 0 rs).map (·.1)).sum % l with hS
  -- the data that is hashed does not depend on the challenge
  have hgen : ∀ c : ℤ, 0 ≤ c → ringGenLoop H I idx k 0 ps rs (pre, 0) =
      some (pre ++ memberBytes H I ps (mark idx (c, scMulsub c x k) 0 rs), S) := by
    intro c hc
    rw [genLoop_eq H I idx k (c, scMulsub c x k) 0 ps rs pre 0 hl ⟨le_refl _, l_pos⟩, zero_add]
    intro Q _ hQ
    rw [Nat.sub_zero, hP, Option.some.injEq] at hQ
    subst hQ
    exact member_closes H hk.1 rP rI hc
  obtain ⟨buff, hbuff⟩ : ∃ b, b = pre ++ memberBytes H I ps (mark idx (0, scMulsub 0 x k) 0 rs) := ⟨_, rfl⟩
  set c := scSub (hs H buff) S with hc
  have hcr : Reduced c := emod_l_range _
  have hb2 : buff = pre ++ memberBytes H I ps (mark idx (c, scMulsub c x k) 0 rs) := by
    have h1 := hgen 0 (le_refl _)
    rw [hgen c hcr.1, ← hbuff] at h1
    simpa using h1.symm
  have hset : mark idx (c, scMulsub c x k) 0 rs = rs.set idx (c, scMulsub c x k) := by
    rw [mark_set idx _ 0 rs (by omega), Nat.sub_zero]
  have hred : ∀ v ∈ rs.set idx (c, scMulsub c x k), Reduced v.1 ∧ Reduced v.2 := by
    intro v hv
    rcases List.mem_or_eq_of_mem_set hv with h | h
    · exact hrs v h
    · rw [h]; exact ⟨hcr, emod_l_range _⟩
  refine ⟨rs.set idx (c, scMulsub c x k), ?_, by simp [hl], hred, ?_⟩
  · unfold genRing
    rw [htest]
    dsimp only
    rw [hgen 0 (le_refl _), ← hbuff]
    dsimp only
    rw [if_pos hidx, ← hc, ← hl, List.take_length]
  · unfold checkRing
    by_cases hp : ∀ v ∈ rs.set idx (c, scMulsub c x k), v.1 ≠ 0 ∧ v.2 ≠ 0
    · rw [checkLoop_proper H I ps _ pre 0 (by simp [hl]) ⟨le_refl _, l_pos⟩ (fun v hv =>
        ⟨⟨lt_of_le_of_ne (hred v hv).1.1 (Ne.symm (hp v hv).1), (hred v hv).1.2⟩,
          ⟨lt_of_le_of_ne (hred v hv).2.1 (Ne.symm (hp v hv).2), (hred v hv).2.2⟩⟩)]
      dsimp only
      rw [← hset, ← hb2, mark_sum idx _ 0 rs (by omega) (by omega), decide_eq_true (by rw [hset]; exact hp)]
      refine congrArg some ((scSub_zero (hs_range _ _) (emod_l_range _)).mpr ?_)
      dsimp only
      rw [zero_add, Int.add_emod, ← hS, hc, scSub, Int.emod_emod_of_dvd _ (dvd_refl _), Int.add_emod_emod, add_sub_cancel]
      exact (Int.emod_eq_of_lt (hs_range _ _).1 (hs_range _ _).2).symm
    · rw [checkLoop_improper H I ps _ pre 0 (by simp [hl]) (fun h => hp fun v hv => ⟨ne_of_gt (h v hv).1.1, ne_of_gt (h v hv).2.1⟩)]
      rw [decide_eq_false hp]

/-- C40. The key image export: when the output belongs to the wallet and neither scalar happens to be zero, a key image is returned with a
signature (over the image, under the one-time key of the output) that the checker accepts; otherwise the call raises. -/
theorem C40_export (H : Bytes → Bytes) (a b : ℤ) (t : Table) (enc : Bytes) (pkey txPub recv : Ext) (Rs : List Ext) (n : ℕ) (x k : ℤ) (I : Ext)
    (test : Bool) (rs : ℤ × ℤ) (hout : decodePoint enc = some pkey) (h : kiHelper H a b t pkey txPub Rs n = some (x, I, recv)) (hk : Reduced k)
    (hrs : Reduced rs.1 ∧ Reduced rs.2) :
    ∃ c r, exportKeyImage H a b t pkey txPub Rs n test true k [rs] = (if c = 0 ∨ r = 0 then none else some (I, [(c, r)])) ∧
      (c ≠ 0 → r ≠ 0 → checkRing H (encodePoint I) I [pkey] [(c, r)] = some true) := by
  obtain ⟨p, hp0⟩ := decodePoint_rep hout
  have h0 := h
  unfold kiHelper at h0
  split at h0
  · simp at h0
  split at h0
  · simp at h0
  split at h0
  · simp at h0
  · simp at h0
  obtain ⟨⟨x', I'⟩, hx0, he⟩ := Option.map_eq_some_iff.mp h0
  simp only [Prod.mk.injEq] at he
  obtain ⟨rfl, rfl, rfl⟩ := he
  obtain ⟨hr, hx, hI, -⟩ := precomp_sound hp0 hx0
  rw [← encodePoint_rep hp0] at hI
  obtain ⟨sig, e1, e2, e3, e4⟩ := C40_ring_partial H (encodePoint I') I' [pkey] x' 0 test k [rs] pkey rfl
    (by simp only [List.mem_singleton, forall_eq]; exact rep_on hp0) hr hk
    ((pointEqual_iff (rep_B x') hp0).mpr hx) hI rfl (by simpa using hrs)
  obtain ⟨⟨c, r⟩, rfl⟩ := List.length_eq_one_iff.mp e2
  refine ⟨c, r, ?_, ?_⟩
  · unfold exportKeyImage
    rw [h]
    dsimp only
    rw [e1]
    dsimp only
    rw [if_pos rfl, e4]
    by_cases hz : c = 0 ∨ r = 0
    · rw [if_pos hz, decide_eq_false]
      simp only [List.mem_singleton, forall_eq]
      tauto
    · rw [if_neg hz, decide_eq_true]
      simp only [List.mem_singleton, forall_eq]
      tauto
  · intro h1 h2
    rw [e4, decide_eq_true]
    simp only [List.mem_singleton, forall_eq]
    exact ⟨h1, h2⟩

/-- A signature that is accepted; another message, or another answer, is not. -/
example : (let s := genSignature demoH [1, 2] 5 9
    (checkSignature demoH [1, 2] s.1 s.2.1 s.2.2, checkSignature demoH [1, 3] s.1 s.2.1 s.2.2, checkSignature demoH [1, 2] s.1 (s.2.1 + 1) s.2.2)) =
    (some true, some false, some false) := by decide +kernel
/-- A ring of three with the signer in the last place. -/
example : (let ps := [scalarmultB 3, scalarmultB 4, scalarmultB 7]
    let I := keyImage demoH (encodePoint (scalarmultB 7)) 7
    match genRing demoH [1] I ps 7 2 true 11 [(1, 2), (3, 4), (5, 6)] with
    | some sig => (sig.length, checkRing demoH [1] I ps sig, checkRing demoH [2] I ps sig)
    | none => (0, none, none)) = (3, some true, some false) := by decide +kernel

end Verif.Sig

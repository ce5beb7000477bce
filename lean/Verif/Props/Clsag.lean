import Verif.Lemmas.SigRings
import Verif.Props.CurveCodec
import Verif.Props.Mlsag

/-! C43: CLSAG ring signatures. -/

namespace Verif.Sig
open Verif Ed Key Edwards

/-- What one member of the ring contributes, in the group. -/
theorem clsagStep_rep (H : Bytes → Bytes) (m : Bytes) {ring : List CtPub} {mP mC : ℤ} {I D Cout : Ext} {I' D' Co : Point} (hI : Rep I I')
    (hD : Rep D D') (hCo : Rep Cout Co) {ss : List ℤ} {i : ℕ} {p : CtPub} {s : ℤ} (hp : ring[i]? = some p) (hss : ss[i]? = some s)
    {P C : Ext} (hP : decodePoint p.dest = some P) (hC : decodePoint p.commitment = some C) {P' C' : Point} (rP : Rep P P') (rC : Rep C C')
    (hs0 : 0 ≤ s) (c : ℤ) :
    clsagStep H m ring mP mC I D Cout ss i c = some (roundHash H ring (encPt Co) m
      (encPt (s • base + (mP * c % l) • P' + (mC * c % l) • (C' - Co)))
      (encPt (s • hpt H p.dest + (mP * c % l) • I' + (mC * c % l) • D'))) := by
  unfold clsagStep
  rw [hp, hss]
  dsimp only
  rw [hP, hC]
  dsimp only
  have h1 : 0 ≤ scMul mP c := (emod_l_range _).1
  have h2 : 0 ≤ scMul mC c := (emod_l_range _).1
  rw [encodePoint_rep hCo, encodePoint_rep (rep_add (rep_addKeys2 rP s h1) (rep_smul (rep_sub rC hCo) h2)),
    encodePoint_rep (rep_add (rep_addKeys3 (hpt_rep H p.dest) hI hs0 h1) (rep_smul hD h2))]
  rfl

theorem decodes_reps {p : CtPub} (h : decodable p = true) :
    ∃ P C P' C', decodePoint p.dest = some P ∧ decodePoint p.commitment = some C ∧ Rep P P' ∧ Rep C C' := by
  obtain ⟨h1, h2⟩ := (decodable_iff p).mp h
  obtain ⟨P, hP⟩ := Option.isSome_iff_exists.mp h1
  obtain ⟨C, hC⟩ := Option.isSome_iff_exists.mp h2
  obtain ⟨P', rP⟩ := decodePoint_rep hP
  obtain ⟨C', rC⟩ := decodePoint_rep hC
  exact ⟨P, C, P', C', hP, hC, rP, rC⟩

theorem inv8_val : decodeScalar invEight = some 2713877091499598330239944961141122840321418634767465352250731601857045344121 := by decide +kernel

theorem eight_inv8 (z : ℤ) {g : Point} (hg : lN • g = 0) :
    (8 : ℤ) • scMul z 2713877091499598330239944961141122840321418634767465352250731601857045344121 • g = z • g := by
  rw [scMul, mod_smul hg, smul_smul]
  have h : (8 : ℤ) * (z * 2713877091499598330239944961141122840321418634767465352250731601857045344121) = z + z * 3 * lN := by
    have : (2713877091499598330239944961141122840321418634767465352250731601857045344121 : ℤ) * 8 = lN * 3 + 1 := by decide +kernel
    linear_combination z * this
  rw [h, add_smul, mul_smul, natCast_zsmul, hg, smul_zero, add_zero]

/-- The equation closed by the last scalar. -/
theorem clsag_closes {g : Point} (hg : lN • g = 0) (mP mC c p z a : ℤ) :
    scMulsub c (scMuladd mC z (scMul mP p)) a • g + (mP * c % l) • p • g + (mC * c % l) • z • g = a • g := by
  have hpg : lN • p • g = 0 := by rw [smul_comm, hg, smul_zero]
  have hzg : lN • z • g = 0 := by rw [smul_comm, hg, smul_zero]
  rw [scMulsub, mod_smul hg, sub_smul, mul_smul, scMuladd, mod_smul hg, add_smul, scMul, mod_smul hg, mod_smul hpg, mod_smul hzg]
  module

/-- C43. Let the ring (of any size from one on) have decodable points, the secrets belong to the member at `idx`, and the pseudo output commit
to the same amount with the mask `a`. Then for every message and all random scalars the signer writes the length, one scalar for each member,
the first challenge and the encoded mask image; these decode, and the verifier accepts them for every point `I` equal to the key image
`x·Hp(P)`. -/
theorem C43_complete (H : Bytes → Bytes) (m : Bytes) (ring : List CtPub) (sec : CtSec) (amount a : ℤ) (idx : ℕ) (nonce : ℤ) (rnd : List ℤ)
    (p : CtPub) (hdec : ∀ q ∈ ring, decodable q = true) (hreal : ring[idx]? = some p) (hown : owns p sec amount = true)
    (hx : Reduced sec.dest) (hn : Reduced nonce) (hl : rnd.length = ring.length) (hrnd : ∀ s ∈ rnd, Reduced s)
    (I : Ext) (hIon : checkPoint I = true) (hI : pointEqual I (keyImage H p.dest sec.dest) = true) :
    ∃ (ss : List ℤ) (c1 : ℤ) (D : Ext) (encD : Bytes), genClsag H m ring sec a (genC a amount) idx nonce rnd =
        some ([Varint.dumpNat ring.length] ++ ss.map encodeInt ++ [encodeInt c1, encD]) ∧
      ss.length = ring.length ∧ (∀ s ∈ ss, decodeScalar (encodeInt s) = some s) ∧ decodeScalar (encodeInt c1) = some c1 ∧
      decodePoint encD = some D ∧ verClsag H m ss c1 I D ring (genC a amount) = some () := by
  have hidx : idx < ring.length := (List.getElem?_eq_some_iff.mp hreal).1
  obtain ⟨o1, o2⟩ := (Bool.and_eq_true _ _).mp hown
  obtain ⟨P, hP, rP⟩ := rep_decodesTo o1 (rep_B sec.dest)
  obtain ⟨C, hC, rC⟩ := rep_decodesTo o2 (rep_genC sec.mask amount)
  set z := scSub sec.mask a with hz
  set g := hpt H p.dest with hg
  have lg : lN • g = 0 := hpt_order H p.dest
  have rg : Rep (hp H p.dest) g := hpt_rep H p.dest
  set Co := a • base + amount • hBase with hCo
  have rCo : Rep (genC a amount) Co := rep_genC a amount
  have ez : sec.mask • base + amount • hBase - Co = z • base := by rw [hz, hCo, scSub_smul _ _ l_base]; abel
  have z0 : 0 ≤ z := (emod_l_range _).1
  set i8 : ℤ := 2713877091499598330239944961141122840321418634767465352250731601857045344121 with hi8
  have rI0 : Rep (smul (hp H p.dest) sec.dest) (sec.dest • g) := rep_smul rg hx.1
  have rI : Rep I (sec.dest • g) := rep_of_equal hIon rI0 hI
  have rD0 : Rep (smul (hp H p.dest) z) (z • g) := rep_smul rg z0
  have rS0 : Rep (smul (hp H p.dest) (scMul z i8)) (scMul z i8 • g) := rep_smul rg (emod_l_range _).1
  have hdD : decodePoint (encPt (scMul z i8 • g)) = some (canon (scMul z i8 • g)) := decode_encPt _
  obtain ⟨q', rS'⟩ := decodePoint_rep hdD
  have rS : Rep (canon (scMul z i8 • g)) (scMul z i8 • g) := rep_canon _
  have r8 : Rep (mul8 (canon (scMul z i8 • g))) (z • g) := by
    have := rep_mul8 rS
    rwa [eight_inv8 z lg] at this
  set mP := muP H ring (encPt (sec.dest • g)) (encPt (scMul z i8 • g)) (encPt Co) with hmP
  set mC := muC H ring (encPt (sec.dest • g)) (encPt (scMul z i8 • g)) (encPt Co) with hmC
  set c0 := roundHash H ring (encPt Co) m (encPt (nonce • base)) (encPt (nonce • g)) with hc0
  let f : ℕ → ℤ → ℤ := fun i c => if i = idx then c0 else
    (clsagStep H m ring mP mC (smul (hp H p.dest) sec.dest) (smul (hp H p.dest) z) (genC a amount) rnd i c).getD 0
  have hstep : ∀ (i : ℕ) (c : ℤ), i < ring.length → ∃ v, 0 ≤ v ∧ v < l ∧
      clsagStep H m ring mP mC (smul (hp H p.dest) sec.dest) (smul (hp H p.dest) z) (genC a amount) rnd i c = some v ∧
      clsagStep H m ring mP mC I (mul8 (canon (scMul z i8 • g))) (genC a amount) rnd i c = some v := by
    intro i c hi
    have hi2 : rnd[i]? = some (rnd[i]'(by omega)) := List.getElem?_eq_getElem (by omega)
    obtain ⟨P1, C1, P1', C1', d1, d2, d3, d4⟩ := decodes_reps (hdec _ (List.getElem_mem hi))
    have hr0 := (hrnd _ (List.mem_of_getElem? hi2)).1
    exact ⟨_, (hs_range _ _).1, (hs_range _ _).2, clsagStep_rep H m rI0 rD0 rCo (List.getElem?_eq_getElem hi) hi2 d1 d2 d3 d4 hr0 c,
      clsagStep_rep H m rI r8 rCo (List.getElem?_eq_getElem hi) hi2 d1 d2 d3 d4 hr0 c⟩
  have hgen := ring_gen (gen := clsagStep H m ring mP mC (smul (hp H p.dest) sec.dest) (smul (hp H p.dest) z) (genC a amount) rnd) (f := f)
    hidx (by
      intro i c hi hne
      obtain ⟨v, -, -, e, -⟩ := hstep i c hi
      simp only [f, if_neg hne, e, Option.getD_some]) c0
  have hfr : ∀ i c, 0 ≤ f i c ∧ f i c < l := by
    intro i c
    simp only [f]
    split
    · exact hs_range _ _
    · by_cases hi : i < ring.length
      · obtain ⟨v, h1, h2, e, -⟩ := hstep i c hi
        rw [e]; exact ⟨h1, h2⟩
      · have : clsagStep H m ring mP mC (smul (hp H p.dest) sec.dest) (smul (hp H p.dest) z) (genC a amount) rnd i c = none := by
          unfold clsagStep
          rw [List.getElem?_eq_none (by omega)]
        rw [this]; exact ⟨le_refl _, l_pos⟩
  set c := walk f ring.length idx c0 (ring.length - 1) with hcdef
  set c1 := walk f ring.length idx c0 (ring.length - 1 - idx) with hc1def
  have hc1 : 0 ≤ c1 ∧ c1 < l := walk_reduced (fun c => 0 ≤ c ∧ c < l) (hs_range _ _) hfr _
  set s := scMulsub c (scMuladd mC z (scMul mP sec.dest)) nonce with hs
  have hsr : Reduced s := emod_l_range _
  refine ⟨rnd.set idx s, c1, canon (scMul z i8 • g), encPt (scMul z i8 • g), ?_, by simp [hl], ?_, C35_scalar_roundtrip _ hc1.1 hc1.2, hdD, ?_⟩
  · unfold genClsag
    dsimp only
    rw [if_neg (by omega), hreal, inv8_val]
    dsimp only
    rw [← hz, encodePoint_rep rI0, encodePoint_rep rS0, encodePoint_rep rCo, ← hmP, ← hmC, encodePoint_rep (rep_B nonce),
      encodePoint_rep (rep_smul rg hn.1), ← hc0, hgen]
    dsimp only
    rw [← hl, List.take_length]
  · intro x hx
    have : Reduced x := by
      rcases List.mem_or_eq_of_mem_set hx with h | h
      · exact hrnd x h
      · rw [h]; exact hsr
    exact C35_scalar_roundtrip _ this.1 this.2
  · unfold verClsag
    dsimp only
    rw [encodePoint_rep rI, encodePoint_rep rS, encodePoint_rep rCo, ← hmP, ← hmC, ring_ver (f := f) hidx c0 (fun c => if_pos rfl)]
    · dsimp only
      rw [if_pos]
      exact (beq_iff_eq).mp ((scSub_zero hc1 hc1).mpr rfl)
    · intro i c hi hne
      obtain ⟨v, -, -, e, e'⟩ := hstep i c hi
      have : clsagStep H m ring mP mC I (mul8 (canon (scMul z i8 • g))) (genC a amount) (rnd.set idx s) i c =
          clsagStep H m ring mP mC I (mul8 (canon (scMul z i8 • g))) (genC a amount) rnd i c := by
        unfold clsagStep
        rw [List.getElem?_set_ne (fun h => hne h.symm)]
      rw [this, e']
      simp only [f, if_neg hne, e, Option.getD_some]
    · rw [clsagStep_rep H m rI r8 rCo hreal (List.getElem?_set_self (by omega)) hP hC rP rC hsr.1, ez, ← hg, ← hcdef,
        clsag_closes l_base, clsag_closes lg]

theorem tag0 : kAgg0 = tagAgg0 := by decide +kernel
theorem tag1 : kAgg1 = tagAgg1 := by decide +kernel
theorem tagR : kRound = tagRound := by decide +kernel

theorem clsagValid_iff (H : Bytes → Bytes) (m : Bytes) (ring : List CtPub) (keys : List (Point × Point)) (I D Cout : Point) (ss : List ℤ) (c1 : ℤ) :
    ClsagValid H m ring keys I D Cout ss c1 ↔
    ∃ c : ℕ → ℤ, c 0 = c1 ∧ c ring.length = c1 ∧ ∀ (i : ℕ) (p : CtPub) (k : Point × Point) (s : ℤ), ring[i]? = some p → keys[i]? = some k →
      ss[i]? = some s → c (i + 1) = roundHash H ring (encPt Cout) m
        (encPt (s • base + (muP H ring (encPt I) (encPt D) (encPt Cout) * c i % l) • k.1 +
          (muC H ring (encPt I) (encPt D) (encPt Cout) * c i % l) • (k.2 - Cout)))
        (encPt (s • hpt H p.dest + (muP H ring (encPt I) (encPt D) (encPt Cout) * c i % l) • I +
          (muC H ring (encPt I) (encPt D) (encPt Cout) * c i % l) • (8 : ℤ) • D)) := by
  simp only [ClsagValid, roundHash, muP, muC, aggData, tag0, tag1, tagR, List.append_assoc]

/-- C43. The verifier accepts exactly the signatures whose challenges go round: see `ClsagValid`. -/
theorem C43_accept_iff (H : Bytes → Bytes) (m : Bytes) (ring : List CtPub) (keys : List (Point × Point)) (ss : List ℤ) (c1 : ℤ) (I D Cout : Ext)
    (I' D' Co : Point) (hI : Rep I I') (hD : Rep D D') (hCo : Rep Cout Co) (hc1 : Reduced c1) (hss : ∀ s ∈ ss, 0 ≤ s) (hl : ss.length = ring.length)
    (hk : List.Forall₂ (fun (p : CtPub) (k : Point × Point) => ∃ P C, decodePoint p.dest = some P ∧ decodePoint p.commitment = some C ∧
      Rep P k.1 ∧ Rep C k.2) ring keys) :
    verClsag H m ss c1 I D ring Cout = some () ↔ ClsagValid H m ring keys I' D' Co ss c1 := by
  rw [clsagValid_iff]
  have hlen : ring.length = keys.length := hk.length_eq
  set mP := muP H ring (encPt I') (encPt D') (encPt Co) with hmP
  set mC := muC H ring (encPt I') (encPt D') (encPt Co) with hmC
  have hstep : ∀ (i : ℕ) (p : CtPub) (k : Point × Point) (s c : ℤ), ring[i]? = some p → keys[i]? = some k → ss[i]? = some s →
      clsagStep H m ring mP mC I (mul8 D) Cout ss i c = some (roundHash H ring (encPt Co) m
        (encPt (s • base + (mP * c % l) • k.1 + (mC * c % l) • (k.2 - Co)))
        (encPt (s • hpt H p.dest + (mP * c % l) • I' + (mC * c % l) • (8 : ℤ) • D'))) := by
    intro i p k s c hp hk' hs
    obtain ⟨hi, rfl⟩ := List.getElem?_eq_some_iff.mp hp
    obtain ⟨hi', rfl⟩ := List.getElem?_eq_some_iff.mp hk'
    obtain ⟨P, C, d1, d2, d3, d4⟩ := (List.forall₂_iff_get.mp hk).2 i hi hi'
    exact clsagStep_rep H m hI (rep_mul8 hD) hCo hp hs d1 d2 d3 d4 (hss s (List.mem_of_getElem? hs)) c
  have hall : ∀ i, i < ring.length → ∃ p k s, ring[i]? = some p ∧ keys[i]? = some k ∧ ss[i]? = some s := fun i hi =>
    ⟨_, _, _, List.getElem?_eq_getElem hi, List.getElem?_eq_getElem (hlen ▸ hi), List.getElem?_eq_getElem (hl ▸ hi)⟩
  unfold verClsag
  dsimp only
  rw [encodePoint_rep hI, encodePoint_rep hD, encodePoint_rep hCo, ← hmP, ← hmC]
  constructor
  · intro h
    split at h
    · simp at h
    rename_i c hch
    obtain ⟨b, e0, e1, e2⟩ := chainLoop_inv _ _ _ _ hch
    simp only [Nat.zero_add] at e0 e1 e2
    have hb : ∀ i, i ≤ ring.length → 0 ≤ b i ∧ b i < l := by
      intro i hi
      cases i with
      | zero => rw [e0]; exact hc1
      | succ i =>
        obtain ⟨p, k, s, a1, a2, a3⟩ := hall i (by omega)
        have := e2 i (by omega)
        rw [hstep i p k s _ a1 a2 a3] at this
        rw [← Option.some.inj this]; exact hs_range _ _
    have hceq : c = c1 := by
      split at h
      · rename_i h0
        exact (scSub_zero (by rw [← e1]; exact hb _ (le_refl _)) hc1).mp (beq_iff_eq.mpr h0)
      · simp at h
    refine ⟨b, e0, by rw [e1, hceq], ?_⟩
    intro i p k s a1 a2 a3
    have := e2 i (List.getElem?_eq_some_iff.mp a1).1
    rw [hstep i p k s _ a1 a2 a3] at this
    exact (Option.some.inj this).symm
  · rintro ⟨b, e0, e1, e2⟩
    have hch := chainLoop_of (step := clsagStep H m ring mP mC I (mul8 D) Cout ss) b ring.length 0 (by
        intro j hj
        simp only [Nat.zero_add]
        obtain ⟨p, k, s, a1, a2, a3⟩ := hall j hj
        rw [hstep j p k s _ a1 a2 a3, e2 j p k s a1 a2 a3])
    rw [Nat.zero_add, e0, e1] at hch
    rw [hch]
    dsimp only
    rw [if_pos]
    exact (beq_iff_eq).mp ((scSub_zero hc1 hc1).mpr rfl)

/-- The hypotheses are met by the ring of C42's example. A ring of one also works. -/
example : ∃ (p : CtPub) (I : Ext), decodable p = true ∧ owns p ⟨5, 77⟩ 1000 = true ∧ checkPoint I = true ∧
    pointEqual I (keyImage demoH p.dest 5) = true :=
  ⟨demoOut 5 77 1000, keyImage demoH (demoOut 5 77 1000).dest 5, by decide +kernel, by decide +kernel, by decide +kernel, by decide +kernel⟩

/-- A toy hash of the last 72 bytes. -/
def shortH (d : Bytes) : Bytes := demoH (d.drop (d.length - 72))

/-- Sign, decode and verify; returns the verdicts for the signed message, another message, and a changed scalar. -/
def demoClsag (ring : List CtPub) (sec : CtSec) (idx : ℕ) (rnd : List ℤ) : Option (Bool × Bool × Bool) :=
  match genClsag shortH [1] ring sec 69 (genC 69 1000) idx 1000000 rnd, ring[idx]? with
  | some out, some p =>
    match ((out.drop 1).take ring.length).mapM decodeScalar, (out[ring.length + 1]?).bind decodeScalar, (out[ring.length + 2]?).bind decodePoint with
    | some ss, some c1, some D =>
      let I := keyImage shortH p.dest sec.dest
      some ((verClsag shortH [1] ss c1 I D ring (genC 69 1000)).isSome, (verClsag shortH [2] ss c1 I D ring (genC 69 1000)).isSome,
        (verClsag shortH [1] (ss.map (· + 1)) c1 I D ring (genC 69 1000)).isSome)
    | _, _, _ => none
  | _, _ => none
example : demoClsag [demoOut 3 4 10, demoOut 5 77 1000] ⟨5, 77⟩ 1 [1, 2] = some (true, false, false) := by decide +kernel

end Verif.Sig

import Verif.Lemmas.Hiding
import Verif.Props.Hiding
import Verif.Props.Clsag
import Verif.Props.Sig
import Verif.Lemmas.RingSig
import Verif.Spec.HidingOne

/-! Each accepted CLSAG signature, and each accepted ring signature with a key image, comes from exactly one tape. -/

namespace Verif.Sig
open Verif Ed Key Edwards

/-- An eighth modulo the order of the base point. -/
def eighth : ℤ := 2713877091499598330239944961141122840321418634767465352250731601857045344121

/-- Dividing by eight is unique among the points of order dividing `l`. -/
theorem eighth_unique {D g : Point} (hD : lN • D = 0) (hg : lN • g = 0) {z : ℤ} (h : (8 : ℤ) • D = z • g) : scMul z eighth • g = D := by
  have h1 := eight_inv8 z hg
  have h2 : (8 : ℤ) • (scMul z eighth • g - D) = 0 := by
    rw [_root_.smul_sub, h]; exact sub_eq_zero.mpr h1
  have h3 : lN • (scMul z eighth • g - D) = 0 := by rw [_root_.smul_sub, hD, smul_comm, hg, smul_zero, sub_zero]
  have h4 : (2713877091499598330239944961141122840321418634767465352250731601857045344121 : ℤ) * 8 = 3 * lN + 1 := by decide +kernel
  refine sub_eq_zero.mp ?_
  generalize scMul z eighth • g - D = q at h2 h3
  have e : ((2713877091499598330239944961141122840321418634767465352250731601857045344121 : ℤ) * 8) • q = 0 := by
    rw [mul_smul, h2, smul_zero]
  rw [h4, add_smul, one_smul, mul_smul, natCast_zsmul, h3, smul_zero, zero_add] at e
  exact e

/-! ## Tapes -/

theorem set_getD0 (t : List ℤ) (i : ℕ) (x : ℤ) (h : i < t.length) : (t.set i x).getD i 0 = x := by
  rw [List.getD_eq_getElem?_getD, List.getElem?_set_self h]; rfl

theorem set_of_getD0 (t : List ℤ) (i : ℕ) : t.set i (t.getD i 0) = t := by
  by_cases h : i < t.length
  · rw [List.getD_eq_getElem?_getD, List.getElem?_eq_getElem h, Option.getD_some, List.set_getElem_self]
  · rw [List.set_eq_of_length_le (by omega)]

theorem getD_one {n idx : ℕ} {t : List ℤ} (ht : OneTape n t) (h : idx < n) : Reduced (t.getD idx 0) := by
  have hi : idx < t.length := by rw [ht.1]; exact h
  refine ht.2 _ ?_
  rw [List.getD_eq_getElem?_getD, List.getElem?_eq_getElem hi, Option.getD_some]; exact List.getElem_mem hi

theorem set_one {n idx : ℕ} {t : List ℤ} (ht : OneTape n t) {s : ℤ} (h : Reduced s) : OneTape n (t.set idx s) := by
  refine ⟨by rw [List.length_set, ht.1], fun x hx => ?_⟩
  rcases List.mem_or_eq_of_mem_set hx with hx | rfl
  · exact ht.2 _ hx
  · exact h

theorem map_encodeInt_inj : ∀ (a b : List ℤ), (∀ x ∈ a, Reduced x) → (∀ x ∈ b, Reduced x) → a.map encodeInt = b.map encodeInt → a = b
  | [], [], _, _, _ => rfl
  | [], _ :: _, _, _, h => by simp at h
  | _ :: _, [], _, _, h => by simp at h
  | x :: a, y :: b, ha, hb, h => by
    simp only [List.map_cons, List.cons.injEq] at h
    rw [encodeInt_inj (ha x (by simp)) (hb y (by simp)) h.1,
      map_encodeInt_inj a b (fun x hx => ha x (by simp [hx])) (fun x hx => hb x (by simp [hx])) h.2]

/-- What is written determines the scalars. -/
theorem clsagBytes_inj {n : ℕ} {ss ss' : List ℤ} {c1 c1' : ℤ} {D D' : Point} (h1 : OneTape n ss) (h2 : OneTape n ss') (hc : Reduced c1)
    (hc' : Reduced c1') (h : clsagBytes n ss c1 D = clsagBytes n ss' c1' D') : ss = ss' ∧ c1 = c1' := by
  unfold clsagBytes at h
  obtain ⟨e1, e2⟩ := List.append_inj h (by simp [h1.1, h2.1])
  obtain ⟨-, e3⟩ := List.append_inj e1 rfl
  simp only [List.cons.injEq] at e2
  exact ⟨map_encodeInt_inj _ _ h1.2 h2.2 e3, encodeInt_inj hc hc' e2.1⟩

/-! ## CLSAG -/

section
variable (H : Bytes → Bytes) (m : Bytes) {ring : List CtPub} {keys : List (Point × Point)} (hk : RingKeys ring keys) {x z a amount : ℤ} {idx : ℕ}
  {p : CtPub} (hreal : ring[idx]? = some p) (hx : Reduced x) (hz : Reduced z) {mP mC : ℤ}

/-- The loop of the signer, for its own representatives of the images. -/
def signerStep (H : Bytes → Bytes) (m : Bytes) (ring : List CtPub) (mP mC : ℤ) (p : CtPub) (x z a amount : ℤ) (ss : List ℤ) : ℕ → ℤ → Option ℤ :=
  clsagStep H m ring mP mC (smul (hp H p.dest) x) (smul (hp H p.dest) z) (genC a amount) ss

include hk hx hz in
theorem signerStep_eq {ss : List ℤ} {i : ℕ} {q : CtPub} {k : Point × Point} {s : ℤ} (hq : ring[i]? = some q) (hkey : keys[i]? = some k)
    (hs : ss[i]? = some s) (hs0 : 0 ≤ s) (c : ℤ) :
    signerStep H m ring mP mC p x z a amount ss i c = some (roundHash H ring (encPt (a • base + amount • hBase)) m
      (encPt (s • base + (mP * c % l) • k.1 + (mC * c % l) • (k.2 - (a • base + amount • hBase))))
      (encPt (s • hpt H q.dest + (mP * c % l) • (x • hpt H p.dest) + (mC * c % l) • (z • hpt H p.dest)))) := by
  obtain ⟨hi, rfl⟩ := List.getElem?_eq_some_iff.mp hq
  obtain ⟨hi', rfl⟩ := List.getElem?_eq_some_iff.mp hkey
  obtain ⟨P, C, d1, d2, d3, d4⟩ := (List.forall₂_iff_get.mp hk).2 i hi hi'
  exact clsagStep_rep H m (rep_smul (hpt_rep H p.dest) hx.1) (rep_smul (hpt_rep H p.dest) hz.1) (rep_genC a amount) hq hs d1 d2 d3 d4 hs0 c

include hk hx hz in
theorem signerStep_range {ss : List ℤ} (hss : OneTape ring.length ss) {i : ℕ} (hi : i < ring.length) (c : ℤ) :
    ∃ v, Reduced v ∧ signerStep H m ring mP mC p x z a amount ss i c = some v := by
  have h2 : i < ss.length := by rw [hss.1]; exact hi
  have h3 : i < keys.length := by rw [← hk.length_eq]; exact hi
  exact ⟨_, hs_range _ _, signerStep_eq H m hk hx hz (List.getElem?_eq_getElem hi) (List.getElem?_eq_getElem h3) (List.getElem?_eq_getElem h2)
    (hss.2 _ (List.getElem_mem h2)).1 c⟩

end

/-- What the signer computes from the secrets. -/
theorem genClsag_eq (H : Bytes → Bytes) (m : Bytes) {ring : List CtPub} {sec : CtSec} {a amount : ℤ} {idx : ℕ} {p : CtPub}
    (hreal : ring[idx]? = some p) (hx : Reduced sec.dest) {t : List ℤ} (ht : OneTape ring.length t) {D : Point} (hD : lN • D = 0)
    (h8 : (8 : ℤ) • D = (sec.mask - a) • hpt H p.dest) {mP mC : ℤ}
    (hmP : mP = muP H ring (encPt (sec.dest • hpt H p.dest)) (encPt D) (encPt (a • base + amount • hBase)))
    (hmC : mC = muC H ring (encPt (sec.dest • hpt H p.dest)) (encPt D) (encPt (a • base + amount • hBase))) :
    genClsag H m ring sec a (genC a amount) idx (t.getD idx 0) t =
      match ringLoop (signerStep H m ring mP mC p sec.dest (scSub sec.mask a) a amount t) ring.length idx ring.length ((idx + 1) % ring.length)
        (roundHash H ring (encPt (a • base + amount • hBase)) m (encPt (t.getD idx 0 • base)) (encPt (t.getD idx 0 • hpt H p.dest)))
        (if (idx + 1) % ring.length = 0 then
          roundHash H ring (encPt (a • base + amount • hBase)) m (encPt (t.getD idx 0 • base)) (encPt (t.getD idx 0 • hpt H p.dest)) else 0) with
      | none => none
      | some (c, c1) => some (clsagBytes ring.length
          (t.set idx (scMulsub c (scMuladd mC (scSub sec.mask a) (scMul mP sec.dest)) (t.getD idx 0))) c1 D) := by
  have hidx : idx < ring.length := (List.getElem?_eq_some_iff.mp hreal).1
  have lg := hpt_order H p.dest
  have rg := hpt_rep H p.dest
  have hn := getD_one ht hidx
  have hz : 0 ≤ scSub sec.mask a := (emod_l_range _).1
  have eD : scMul (scSub sec.mask a) eighth • hpt H p.dest = D := eighth_unique hD lg (by
    rw [h8, scSub, mod_smul lg])
  have r1 : encodePoint (smul (hp H p.dest) sec.dest) = encPt (sec.dest • hpt H p.dest) := encodePoint_rep (rep_smul rg hx.1)
  have r2 : encodePoint (smul (hp H p.dest) (scMul (scSub sec.mask a) eighth)) = encPt D := by
    rw [← eD]; exact encodePoint_rep (rep_smul rg (emod_l_range _).1)
  have r3 : encodePoint (genC a amount) = encPt (a • base + amount • hBase) := encodePoint_rep (rep_genC a amount)
  have r4 : encodePoint (scalarmultB (t.getD idx 0)) = encPt (t.getD idx 0 • base) := encodePoint_rep (rep_B _)
  have r5 : encodePoint (smul (hp H p.dest) (t.getD idx 0)) = encPt (t.getD idx 0 • hpt H p.dest) := encodePoint_rep (rep_smul rg hn.1)
  have i8 : decodeScalar invEight = some eighth := inv8_val
  unfold genClsag
  dsimp only
  rw [if_neg (by omega), hreal, i8]
  dsimp only
  rw [r1, r2, r3, r4, r5, ← hmP, ← hmC]
  have htk : t.take ring.length = t := by rw [← ht.1, List.take_length]
  rw [htk]
  rfl

/-- The signer always finishes, and the verifier meets its challenge again. -/
theorem clsag_facts (H : Bytes → Bytes) (m : Bytes) {ring : List CtPub} {keys : List (Point × Point)} (hk : RingKeys ring keys) {sec : CtSec}
    {a amount : ℤ} {idx : ℕ} {p : CtPub} (hreal : ring[idx]? = some p) (hx : Reduced sec.dest) {t : List ℤ} (ht : OneTape ring.length t)
    {D : Point} (hD : lN • D = 0) (h8 : (8 : ℤ) • D = (sec.mask - a) • hpt H p.dest) {mP mC : ℤ}
    (hmP : mP = muP H ring (encPt (sec.dest • hpt H p.dest)) (encPt D) (encPt (a • base + amount • hBase)))
    (hmC : mC = muC H ring (encPt (sec.dest • hpt H p.dest)) (encPt D) (encPt (a • base + amount • hBase))) :
    ∃ c c1 ss, genClsag H m ring sec a (genC a amount) idx (t.getD idx 0) t = some (clsagBytes ring.length ss c1 D) ∧
      ss = t.set idx (scMulsub c (scMuladd mC (scSub sec.mask a) (scMul mP sec.dest)) (t.getD idx 0)) ∧ Reduced c1 ∧
      chainLoop (signerStep H m ring mP mC p sec.dest (scSub sec.mask a) a amount ss) idx 0 c1 = some c := by
  have hidx : idx < ring.length := (List.getElem?_eq_some_iff.mp hreal).1
  have hz : Reduced (scSub sec.mask a) := emod_l_range _
  rw [genClsag_eq H m hreal hx ht hD h8 hmP hmC]
  obtain ⟨c0, hc0⟩ : ∃ c0, roundHash H ring (encPt (a • base + amount • hBase)) m (encPt (t.getD idx 0 • base))
    (encPt (t.getD idx 0 • hpt H p.dest)) = c0 := ⟨_, rfl⟩
  have hc0r : Reduced c0 := by rw [← hc0]; exact hs_range _ _
  rw [hc0]
  obtain ⟨f, hf⟩ : ∃ f : ℕ → ℤ → ℤ, f = fun i c => (signerStep H m ring mP mC p sec.dest (scSub sec.mask a) a amount t i c).getD 0 := ⟨_, rfl⟩
  have hst : ∀ (i : ℕ) (c : ℤ), i < ring.length → signerStep H m ring mP mC p sec.dest (scSub sec.mask a) a amount t i c = some (f i c) := by
    intro i c hi
    obtain ⟨v, -, hv⟩ := signerStep_range H m hk (p := p) (a := a) (amount := amount) (mP := mP) (mC := mC) hx hz ht hi c
    rw [hf]; dsimp only; rw [hv]; rfl
  have hfr : ∀ i c, Reduced (f i c) := by
    intro i c
    by_cases hi : i < ring.length
    · obtain ⟨v, hv1, hv⟩ := signerStep_range H m hk (p := p) (a := a) (amount := amount) (mP := mP) (mC := mC) hx hz ht hi c
      rw [hf]; dsimp only; rw [hv]; exact hv1
    · have : signerStep H m ring mP mC p sec.dest (scSub sec.mask a) a amount t i c = none := by
        unfold signerStep clsagStep
        rw [List.getElem?_eq_none (by omega)]
      rw [hf]; dsimp only; rw [this]; exact ⟨le_refl _, l_pos⟩
  rw [ring_gen (f := f) hidx (fun i c hi _ => hst i c hi) c0]
  refine ⟨_, _, _, rfl, rfl, walk_reduced Reduced hc0r hfr _, ?_⟩
  refine ring_ver_at hidx c0 ?_
  intro i c hi
  rw [← hst i c (by omega)]
  unfold signerStep clsagStep
  rw [List.getElem?_set_ne (by omega)]

/-- A tape is determined by what is written. -/
theorem clsag_inj (H : Bytes → Bytes) (m : Bytes) {ring : List CtPub} {keys : List (Point × Point)} (hk : RingKeys ring keys) {sec : CtSec}
    {a amount : ℤ} {idx : ℕ} {p : CtPub} (hreal : ring[idx]? = some p) (hx : Reduced sec.dest) {t t' : List ℤ} (ht : OneTape ring.length t)
    (ht' : OneTape ring.length t') {D : Point} (hD : lN • D = 0) (h8 : (8 : ℤ) • D = (sec.mask - a) • hpt H p.dest)
    (e : genClsag H m ring sec a (genC a amount) idx (t.getD idx 0) t = genClsag H m ring sec a (genC a amount) idx (t'.getD idx 0) t') : t = t' := by
  have hidx : idx < ring.length := (List.getElem?_eq_some_iff.mp hreal).1
  obtain ⟨mP, hmP⟩ : ∃ x, x = muP H ring (encPt (sec.dest • hpt H p.dest)) (encPt D) (encPt (a • base + amount • hBase)) := ⟨_, rfl⟩
  obtain ⟨mC, hmC⟩ : ∃ x, x = muC H ring (encPt (sec.dest • hpt H p.dest)) (encPt D) (encPt (a • base + amount • hBase)) := ⟨_, rfl⟩
  obtain ⟨c, c1, ss, f1, f2, f3, f4⟩ := clsag_facts H m hk (amount := amount) hreal hx ht hD h8 hmP hmC
  obtain ⟨c', c1', ss', g1, g2, g3, g4⟩ := clsag_facts H m hk (amount := amount) hreal hx ht' hD h8 hmP hmC
  rw [f1, g1, Option.some.injEq] at e
  have h1 : OneTape ring.length ss := by rw [f2]; exact set_one ht (emod_l_range _)
  have h2 : OneTape ring.length ss' := by rw [g2]; exact set_one ht' (emod_l_range _)
  obtain ⟨rfl, rfl⟩ := clsagBytes_inj h1 h2 f3 g3 e
  have hc : c = c' := Option.some.inj (f4.symm.trans g4)
  subst hc
  have hset := f2.symm.trans g2
  have hl : idx < t.length := by rw [ht.1]; exact hidx
  have hl' : idx < t'.length := by rw [ht'.1]; exact hidx
  have hcl := congrArg (fun l => l.getD idx 0) hset
  simp only [set_getD0 _ _ _ hl, set_getD0 _ _ _ hl'] at hcl
  have hal := nonce_eq (getD_one ht hidx) (getD_one ht' hidx) hcl
  have := congrArg (fun l => l.set idx (t.getD idx 0)) hset
  simp only [List.set_set] at this
  rw [set_of_getD0] at this
  rw [this, hal, set_of_getD0]

/-- A closed chain of challenges is met by the tape with the right nonce. -/
theorem clsag_exists (H : Bytes → Bytes) (m : Bytes) {ring : List CtPub} {keys : List (Point × Point)} (hk : RingKeys ring keys) {sec : CtSec}
    {a amount : ℤ} {idx : ℕ} {p : CtPub} (hreal : ring[idx]? = some p)
    (hown : keys[idx]? = some (sec.dest • base, sec.mask • base + amount • hBase)) (hx : Reduced sec.dest) {D : Point} (hD : lN • D = 0)
    (h8 : (8 : ℤ) • D = (sec.mask - a) • hpt H p.dest) {ss : List ℤ} (hss : OneTape ring.length ss) {c1 : ℤ}
    (hv : ClsagValid H m ring keys (sec.dest • hpt H p.dest) D (a • base + amount • hBase) ss c1) :
    ∃ t, OneTape ring.length t ∧ genClsag H m ring sec a (genC a amount) idx (t.getD idx 0) t = some (clsagBytes ring.length ss c1 D) := by
  have hidx : idx < ring.length := (List.getElem?_eq_some_iff.mp hreal).1
  have hl : idx < ss.length := by rw [hss.1]; exact hidx
  have lg := hpt_order H p.dest
  have hz : Reduced (scSub sec.mask a) := emod_l_range _
  have ez : scSub sec.mask a • hpt H p.dest = (8 : ℤ) • D := by rw [h8, scSub, mod_smul lg]
  have ez' : sec.mask • base + amount • hBase - (a • base + amount • hBase) = scSub sec.mask a • base := by
    rw [scSub_smul _ _ l_base]; abel
  obtain ⟨mP, hmP⟩ : ∃ x, x = muP H ring (encPt (sec.dest • hpt H p.dest)) (encPt D) (encPt (a • base + amount • hBase)) := ⟨_, rfl⟩
  obtain ⟨mC, hmC⟩ : ∃ x, x = muC H ring (encPt (sec.dest • hpt H p.dest)) (encPt D) (encPt (a • base + amount • hBase)) := ⟨_, rfl⟩
  rw [clsagValid_iff, ← hmP, ← hmC] at hv
  obtain ⟨b, e0, e1, e2⟩ := hv
  obtain ⟨K, hK⟩ : ∃ K, K = scMuladd mC (scSub sec.mask a) (scMul mP sec.dest) := ⟨_, rfl⟩
  have hs : ss[idx]? = some (ss.getD idx 0) := by
    rw [List.getD_eq_getElem?_getD, List.getElem?_eq_getElem hl, Option.getD_some]
  have ht : OneTape ring.length (ss.set idx (nonceOf (b idx) K (ss.getD idx 0))) := set_one hss (nonceOf_reduced _ _ _)
  have hans : scMulsub (b idx) K (nonceOf (b idx) K (ss.getD idx 0)) = ss.getD idx 0 := nonceOf_answer (getD_one hss hidx)
  have hgd : (ss.set idx (nonceOf (b idx) K (ss.getD idx 0))).getD idx 0 = nonceOf (b idx) K (ss.getD idx 0) := set_getD0 _ _ _ hl
  refine ⟨_, ht, ?_⟩
  rw [genClsag_eq H m hreal hx ht hD h8 hmP hmC, hgd]
  obtain ⟨al, hal⟩ : ∃ al, nonceOf (b idx) K (ss.getD idx 0) = al := ⟨_, rfl⟩
  rw [hal] at hans ht ⊢
  have hc0 : roundHash H ring (encPt (a • base + amount • hBase)) m (encPt (al • base)) (encPt (al • hpt H p.dest)) = b (idx + 1) := by
    rw [e2 idx p _ _ hreal hown hs, ← hans, hK]
    dsimp only
    rw [ez', ← ez, clsag_closes l_base, clsag_closes lg]
  rw [hc0, ring_gen_chain hidx _ b _ (e1.trans e0.symm)]
  · dsimp only
    rw [← hK, hans, List.set_set, set_of_getD0, e0]
  · intro i c hi
    obtain ⟨v, -, hv⟩ := signerStep_range H m hk (p := p) (a := a) (amount := amount) (mP := mP) (mC := mC) hx hz ht hi c
    rw [hv]; rfl
  · intro i hi hne
    have h2 : i < ss.length := by rw [hss.1]; exact hi
    have h3 : i < keys.length := by rw [← hk.length_eq]; exact hi
    have hg : (ss.set idx al)[i]? = some (ss[i]) := by rw [List.getElem?_set_ne (Ne.symm hne), List.getElem?_eq_getElem h2]
    rw [signerStep_eq H m hk hx hz (List.getElem?_eq_getElem hi) (List.getElem?_eq_getElem h3) hg (hss.2 _ (List.getElem_mem h2)).1,
      e2 i _ _ _ (List.getElem?_eq_getElem hi) (List.getElem?_eq_getElem h3) (List.getElem?_eq_getElem h2), ez]

/-! ## Pairs -/

theorem pair_set_getD (t : List (ℤ × ℤ)) (i : ℕ) (x : ℤ × ℤ) (h : i < t.length) : (t.set i x).getD i (0, 0) = x := by
  rw [List.getD_eq_getElem?_getD, List.getElem?_set_self h]; rfl

theorem pair_set_of_getD (t : List (ℤ × ℤ)) (i : ℕ) : t.set i (t.getD i (0, 0)) = t := by
  by_cases h : i < t.length
  · rw [List.getD_eq_getElem?_getD, List.getElem?_eq_getElem h, Option.getD_some, List.set_getElem_self]
  · rw [List.set_eq_of_length_le (by omega)]

theorem pair_getD {n idx : ℕ} {t : List (ℤ × ℤ)} (hl : t.length = n) (hr : ∀ x ∈ t, Reduced x.1 ∧ Reduced x.2) (h : idx < n) :
    Reduced (t.getD idx (0, 0)).1 ∧ Reduced (t.getD idx (0, 0)).2 := by
  have hi : idx < t.length := by rw [hl]; exact h
  refine hr _ ?_
  rw [List.getD_eq_getElem?_getD, List.getElem?_eq_getElem hi, Option.getD_some]; exact List.getElem_mem hi

/-- What the signer of a ring of pairs computes; the data that is hashed does not depend on the challenge `v`. -/
theorem genRing_eq (H : Bytes → Bytes) (pre : Bytes) {I P : Ext} {ps : List Ext} {x : ℤ} {idx : ℕ} (test : Bool) {k : ℤ} {rs : List (ℤ × ℤ)}
    (hP : ps[idx]? = some P) (rP : Rep P (x • base)) (hx : Reduced x) (hk : Reduced k) (hI : I = keyImage H (encodePoint P) x)
    (hl : rs.length = ps.length) {v : ℤ} (hv : 0 ≤ v) :
    ∃ c, Reduced c ∧ c = scSub (hs H (pre ++ memberBytes H I ps (rs.set idx (v, scMulsub v x k)))) (((rs.set idx (0, 0)).map (·.1)).sum % l) ∧
      genRing H pre I ps x idx test k rs = some (rs.set idx (c, scMulsub c x k)) := by
  have hidx : idx < ps.length := (List.getElem?_eq_some_iff.mp hP).1
  have rI : Rep I (x • hpt H (encPt (x • base))) := by
    rw [hI, keyImage, encodePoint_rep rP]
    exact rep_smul (hpt_rep _ _) hx.1
  have htest : (if test then ringTest H I ps x idx else some ()) = some () := by
    cases test with
    | false => rfl
    | true =>
      rw [if_pos rfl, ringTest, hP]
      dsimp only
      rw [pointEq, if_pos (show isOnCurve _ = true from rep_on (rep_B x)), (pointEqual_iff (rep_B x) rP).mpr rfl]
      dsimp only
      rw [← hI, pointEq, if_pos (show isOnCurve _ = true from rep_on rI), (pointEqual_iff rI rI).mpr rfl]
  have hgen : ringGenLoop H I idx k 0 ps rs (pre, 0) =
      some (pre ++ memberBytes H I ps (rs.set idx (v, scMulsub v x k)), ((rs.set idx (0, 0)).map (·.1)).sum % l) := by
    rw [genLoop_eq H I idx k (v, scMulsub v x k) 0 ps rs pre 0 hl ⟨le_refl _, l_pos⟩, zero_add, mark_set idx _ 0 rs (by omega),
      mark_set idx _ 0 rs (by omega), Nat.sub_zero]
    intro Q _ hQ
    rw [Nat.sub_zero, hP, Option.some.injEq] at hQ
    subst hQ
    exact member_closes H hk.1 rP rI hv
  refine ⟨_, emod_l_range _, rfl, ?_⟩
  unfold genRing
  rw [htest]
  dsimp only
  rw [hgen]
  dsimp only
  rw [if_pos hidx, ← hl, List.take_length]
  rfl

end Verif.Sig

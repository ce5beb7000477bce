import Verif.Lemmas.HidingOne

/-!
C110: CLSAG signatures and ring signatures with a key image say nothing about the position of the signer, or about its secrets, beyond the
published images.
-/

namespace Verif.Sig
open Verif Ed Key Edwards

/-- C110. Let the ring decode to `keys` and the secrets open the member at `idx`, with the key image `I = x·Hp` and the mask image `D`, that is,
an eighth of `(mask - a)·Hp`. Then every signature the verifier accepts with these images is written by the signer at `idx` for exactly one
choice of its random scalars, and every signature the signer at `idx` can write is accepted. The right side of `ClsagValid` does not mention
`idx` or the secrets. -/
theorem C110_clsag (H : Bytes → Bytes) (m : Bytes) (ring : List CtPub) (keys : List (Point × Point)) (hk : RingKeys ring keys) (sec : CtSec)
    (a amount : ℤ) (idx : ℕ) (p : CtPub) (hreal : ring[idx]? = some p)
    (hown : keys[idx]? = some (sec.dest • base, sec.mask • base + amount • hBase)) (hx : Reduced sec.dest) (I D : Point)
    (hI : I = sec.dest • hpt H p.dest) (hD : lN • D = 0) (h8 : (8 : ℤ) • D = (sec.mask - a) • hpt H p.dest)
    (ss : List ℤ) (c1 : ℤ) (hss : OneTape ring.length ss) (hc1 : Reduced c1) :
    (ClsagValid H m ring keys I D (a • base + amount • hBase) ss c1 →
      ∃! t, OneTape ring.length t ∧
        genClsag H m ring sec a (genC a amount) idx (t.getD idx 0) t = some (clsagBytes ring.length ss c1 D)) ∧
    ((∃ t, OneTape ring.length t ∧
        genClsag H m ring sec a (genC a amount) idx (t.getD idx 0) t = some (clsagBytes ring.length ss c1 D)) →
      ClsagValid H m ring keys I D (a • base + amount • hBase) ss c1) := by
  subst hI
  constructor
  · intro hv
    obtain ⟨t, ht, hg⟩ := clsag_exists H m hk hreal hown hx hD h8 hss hv
    refine ⟨t, ⟨ht, hg⟩, ?_⟩
    rintro u ⟨hu, hg'⟩
    exact clsag_inj H m hk hreal hx hu ht hD h8 (hg'.trans hg.symm)
  · rintro ⟨t, ht, hg⟩
    have hidx : idx < ring.length := (List.getElem?_eq_some_iff.mp hreal).1
    have hi' : idx < keys.length := (List.getElem?_eq_some_iff.mp hown).1
    have hdec : ∀ q ∈ ring, decodable q = true := by
      intro q hq
      obtain ⟨i, hi⟩ := List.mem_iff_getElem?.mp hq
      obtain ⟨h1, rfl⟩ := List.getElem?_eq_some_iff.mp hi
      obtain ⟨P, C, d1, d2, -, -⟩ := (List.forall₂_iff_get.mp hk).2 i h1 (by rw [← hk.length_eq]; exact h1)
      refine (decodable_iff _).mpr ⟨?_, ?_⟩
      · exact Option.isSome_iff_exists.mpr ⟨P, d1⟩
      · exact Option.isSome_iff_exists.mpr ⟨C, d2⟩
    have ho : owns p sec amount = true := by
      obtain ⟨h1, e1⟩ := List.getElem?_eq_some_iff.mp hreal
      obtain ⟨h2, e2⟩ := List.getElem?_eq_some_iff.mp hown
      obtain ⟨P, C, d1, d2, d3, d4⟩ := (List.forall₂_iff_get.mp hk).2 idx h1 h2
      simp only [List.get_eq_getElem] at d1 d2 d3 d4
      rw [e1] at d1 d2
      rw [e2] at d3 d4
      unfold owns decodesTo
      rw [d1, d2]
      dsimp only
      rw [(pointEqual_iff d3 (rep_B _)).mpr rfl, (pointEqual_iff d4 (rep_genC _ _)).mpr rfl]
      rfl
    have rI : Rep (keyImage H p.dest sec.dest) (sec.dest • hpt H p.dest) := rep_smul (hpt_rep H p.dest) hx.1
    obtain ⟨ss', c1', D', encD, g1, g2, g3, g4, g5, g6⟩ := C43_complete H m ring sec amount a idx (t.getD idx 0) t p hdec hreal ho hx
      (getD_one ht hidx) ht.1 ht.2 (keyImage H p.dest sec.dest) (rep_on rI) ((pointEqual_iff rI rI).mpr rfl)
    obtain ⟨mP, hmP⟩ : ∃ x, x = muP H ring (encPt (sec.dest • hpt H p.dest)) (encPt D) (encPt (a • base + amount • hBase)) := ⟨_, rfl⟩
    obtain ⟨mC, hmC⟩ : ∃ x, x = muC H ring (encPt (sec.dest • hpt H p.dest)) (encPt D) (encPt (a • base + amount • hBase)) := ⟨_, rfl⟩
    rw [g1, Option.some.injEq] at hg
    unfold clsagBytes at hg
    obtain ⟨e1, e2⟩ := List.append_inj hg (by simp [g2, hss.1])
    obtain ⟨-, e3⟩ := List.append_inj e1 rfl
    simp only [List.cons.injEq, and_true] at e2
    obtain ⟨e4, rfl⟩ := e2
    rw [e4, C35_scalar_roundtrip _ hc1.1 hc1.2, Option.some.injEq] at g4
    subst g4
    have hss' : ss' = ss := by
      refine List.ext_getElem (by rw [g2, hss.1]) fun i h1 h2 => ?_
      have := congrArg (fun l => l[i]?) e3
      simp only [List.getElem?_map, List.getElem?_eq_getElem h1, List.getElem?_eq_getElem h2, Option.map_some, Option.some.injEq] at this
      have h3 := g3 _ (List.getElem_mem h1)
      have h4 := hss.2 _ (List.getElem_mem h2)
      rw [this, C35_scalar_roundtrip _ h4.1 h4.2, Option.some.injEq] at h3
      exact h3.symm
    subst hss'
    have rD : Rep D' D := by
      rw [decode_encPt, Option.some.injEq] at g5
      rw [← g5]; exact rep_canon _
    exact (C43_accept_iff H m ring keys ss' c1 _ D' _ _ D _ rI rD (rep_genC a amount) hc1 (fun s hs => (hss.2 s hs).1) g2 hk).mp g6

/-- A ring of the given points. -/
noncomputable def ringOf (keys : List (Point × Point)) : List CtPub := keys.map fun k => ⟨encPt k.1, encPt k.2⟩

theorem ringOf_keys (keys : List (Point × Point)) : RingKeys (ringOf keys) keys := by
  unfold RingKeys ringOf
  rw [List.forall₂_map_left_iff]
  exact List.forall₂_same.mpr fun k _ => ⟨canon k.1, canon k.2, decode_encPt _, decode_encPt _, rep_canon _, rep_canon _⟩

/-- The hypotheses are met at each position of a ring of two members, for every hash function. -/
example (H : Bytes → Bytes) : ∃ (ring : List CtPub) (keys : List (Point × Point)), RingKeys ring keys ∧ ring.length = 2 ∧
    ∀ (i : ℕ) (sec : CtSec) (amount : ℤ), (i, sec, amount) ∈ [((0 : ℕ), (⟨3, 4⟩ : CtSec), (10 : ℤ)), (1, ⟨5, 77⟩, 1000)] →
      ∃ p D, ring[i]? = some p ∧ keys[i]? = some (sec.dest • base, sec.mask • base + amount • hBase) ∧ Reduced sec.dest ∧ lN • D = 0 ∧
        (8 : ℤ) • D = (sec.mask - 69) • hpt H p.dest := by
  refine ⟨_, [((3 : ℤ) • base, (4 : ℤ) • base + (10 : ℤ) • hBase), ((5 : ℤ) • base, (77 : ℤ) • base + (1000 : ℤ) • hBase)], ringOf_keys _, rfl, ?_⟩
  have hD : ∀ (z : ℤ) (b : Bytes), lN • scMul z eighth • hpt H b = 0 ∧ (8 : ℤ) • scMul z eighth • hpt H b = z • hpt H b := fun z b =>
    ⟨by rw [smul_comm, hpt_order, smul_zero], eight_inv8 z (hpt_order H b)⟩
  intro i sec amount h
  simp only [List.mem_cons, Prod.mk.injEq, List.not_mem_nil, or_false] at h
  rcases h with ⟨rfl, rfl, rfl⟩ | ⟨rfl, rfl, rfl⟩
  · exact ⟨⟨encPt ((3 : ℤ) • base), encPt ((4 : ℤ) • base + (10 : ℤ) • hBase)⟩, _, rfl, rfl, ⟨by decide, by decide⟩, hD (4 - 69) _⟩
  · exact ⟨⟨encPt ((5 : ℤ) • base), encPt ((77 : ℤ) • base + (1000 : ℤ) • hBase)⟩, _, rfl, rfl, ⟨by decide, by decide⟩, hD (77 - 69) _⟩

/-- C110. So two signers whose secrets open members with the same images, be it another member or the same one with another amount, write the
same signatures, equally often: what one writes for any tape, the other writes for exactly one. -/
theorem C110_clsag_anonymous (H : Bytes → Bytes) (m : Bytes) (ring : List CtPub) (keys : List (Point × Point)) (hk : RingKeys ring keys)
    (Co I D : Point) (hD : lN • D = 0) (sec sec' : CtSec) (a a' amount amount' : ℤ) (i j : ℕ) (p q : CtPub) (hi : ring[i]? = some p)
    (hj : ring[j]? = some q) (ho : keys[i]? = some (sec.dest • base, sec.mask • base + amount • hBase))
    (ho' : keys[j]? = some (sec'.dest • base, sec'.mask • base + amount' • hBase)) (hx : Reduced sec.dest) (hx' : Reduced sec'.dest)
    (hC : Co = a • base + amount • hBase) (hC' : Co = a' • base + amount' • hBase)
    (hI : I = sec.dest • hpt H p.dest) (hI' : I = sec'.dest • hpt H q.dest)
    (h8 : (8 : ℤ) • D = (sec.mask - a) • hpt H p.dest) (h8' : (8 : ℤ) • D = (sec'.mask - a') • hpt H q.dest) (t : List ℤ)
    (ht : OneTape ring.length t) :
    ∃ out, genClsag H m ring sec a (genC a amount) i (t.getD i 0) t = some out ∧
      ∃! u, OneTape ring.length u ∧ genClsag H m ring sec' a' (genC a' amount') j (u.getD j 0) u = some out := by
  obtain ⟨c, c1, ss, f1, f2, f3, f4⟩ := clsag_facts H m hk (amount := amount) hi hx ht hD h8 rfl rfl
  have hss : OneTape ring.length ss := by rw [f2]; exact set_one ht (emod_l_range _)
  refine ⟨_, f1, ?_⟩
  have hv := (C110_clsag H m ring keys hk sec a amount i p hi ho hx I D hI hD h8 ss c1 hss f3).2 ⟨t, ht, f1⟩
  rw [← hC, hC'] at hv
  exact (C110_clsag H m ring keys hk sec' a' amount' j q hj ho' hx' I D hI' hD h8' ss c1 hss f3).1 hv

/-- The hypotheses are met by every two amounts: a commitment can be opened to both, by adding the mask that makes up for the difference, and the
difference of the masks of input and pseudo output stays the same. -/
example (amount amount' mask a : ℤ) : ∃ mask' a' : ℤ, mask • base + amount • hBase = mask' • base + amount' • hBase ∧
    a • base + amount • hBase = a' • base + amount' • hBase ∧ mask' - a' = mask - a := by
  obtain ⟨h, -, eh⟩ := exists_log l_hBase
  refine ⟨mask + (amount - amount') * h, a + (amount - amount') * h, ?_, ?_, by ring⟩
  · rw [eh]; module
  · rw [eh]; module

/-- C110. The same for ring signatures with a key image. The checker refuses a scalar that is zero, so the signer can write signatures that are
not accepted (C40); apart from these, what it writes is what is accepted, each for exactly one choice of the random scalars. -/
theorem C110_ring (H : Bytes → Bytes) (pre : Bytes) (I P : Ext) (ps : List Ext) (ps' : List Point) (hps : List.Forall₂ Rep ps ps') (x : ℤ)
    (idx : ℕ) (test : Bool) (hP : ps[idx]? = some P) (hown : ps'[idx]? = some (x • base)) (hx : Reduced x)
    (hI : I = keyImage H (encodePoint P) x) (sig : List (ℤ × ℤ)) (hsig : ∀ v ∈ sig, Proper v.1 ∧ Proper v.2) :
    (RingValid H pre (x • hpt H (encPt (x • base))) ps' sig →
      ∃! t, PairTape ps.length idx t ∧ genRing H pre I ps x idx test (t.getD idx (0, 0)).1 t = some sig) ∧
    ((∃ t, PairTape ps.length idx t ∧ genRing H pre I ps x idx test (t.getD idx (0, 0)).1 t = some sig) →
      RingValid H pre (x • hpt H (encPt (x • base))) ps' sig) := by
  have hidx : idx < ps.length := (List.getElem?_eq_some_iff.mp hP).1
  have rP : Rep P (x • base) := by
    obtain ⟨h1, e1⟩ := List.getElem?_eq_some_iff.mp hP
    obtain ⟨h2, e2⟩ := List.getElem?_eq_some_iff.mp hown
    have := (List.forall₂_iff_get.mp hps).2 idx h1 h2
    simp only [List.get_eq_getElem] at this
    rwa [e1, e2] at this
  have rI : Rep I (x • hpt H (encPt (x • base))) := by
    rw [hI, keyImage, encodePoint_rep rP]
    exact rep_smul (hpt_rep _ _) hx.1
  constructor
  · intro hv
    have hl : sig.length = ps.length := by rw [hv.1, hps.length_eq]
    have hi : idx < sig.length := by omega
    obtain ⟨⟨c, r⟩, hcr⟩ : ∃ v, sig.getD idx (0, 0) = v := ⟨_, rfl⟩
    have hred := pair_getD hl (fun v hv => ⟨⟨(hsig v hv).1.1.le, (hsig v hv).1.2⟩, ⟨(hsig v hv).2.1.le, (hsig v hv).2.2⟩⟩) hidx
    rw [hcr] at hred
    obtain ⟨hc, hr⟩ := hred
    dsimp only at hc hr
    have hset : sig.set idx (c, r) = sig := by rw [← hcr, pair_set_of_getD]
    obtain ⟨k, hk⟩ : ∃ k, k = nonceOf c x r := ⟨_, rfl⟩
    have hkr : Reduced k := by rw [hk]; exact nonceOf_reduced _ _ _
    have hans : scMulsub c x k = r := by rw [hk]; exact nonceOf_answer hr
    have htl : (sig.set idx (k, 0)).length = ps.length := by rw [List.length_set, hl]
    have hgd : (sig.set idx (k, 0)).getD idx (0, 0) = (k, 0) := pair_set_getD _ _ _ hi
    have ht : PairTape ps.length idx (sig.set idx (k, 0)) := by
      refine ⟨htl, fun v hv => ?_, by rw [hgd]⟩
      rcases List.mem_or_eq_of_mem_set hv with h | h
      · exact ⟨⟨(hsig v h).1.1.le, (hsig v h).1.2⟩, ⟨(hsig v h).2.1.le, (hsig v h).2.2⟩⟩
      · rw [h]; exact ⟨hkr, le_refl _, l_pos⟩
    refine ⟨sig.set idx (k, 0), ⟨ht, ?_⟩, ?_⟩
    · obtain ⟨c', hc', ec, eg⟩ := genRing_eq H pre test hP rP hx hkr hI htl hc.1
      have hsum : (sig.map (·.1)).sum = ((sig.set idx (0, 0)).map (·.1)).sum + c := by
        have := mark_sum idx (c, r) 0 sig (by omega) (by omega)
        rw [mark_set idx _ 0 sig (by omega), mark_set idx _ 0 sig (by omega), Nat.sub_zero, hset] at this
        exact this
      rw [List.set_set, List.set_set, hans, hset, memberBytes_rep H rI hps sig
        (fun v hv => ⟨(hsig v hv).1.1.le, (hsig v hv).2.1.le⟩), ← hv.2.2, hsum, scSub, Int.emod_sub_emod, Int.sub_emod_emod, add_sub_cancel_left,
        Int.emod_eq_of_lt hc.1 hc.2] at ec
      rw [hgd, eg, ec, hans, List.set_set, hset]
    · rintro u ⟨hu, hg⟩
      obtain ⟨c', hc', -, eg⟩ := genRing_eq H pre test hP rP hx (pair_getD hu.1 hu.2.1 hidx).1 hI hu.1 (v := 0) (le_refl _)
      rw [eg, Option.some.injEq] at hg
      have hu' : idx < u.length := by rw [hu.1]; exact hidx
      have h1 := congrArg (fun l => l.getD idx (0, 0)) hg
      simp only [pair_set_getD _ _ _ hu'] at h1
      rw [hcr, Prod.mk.injEq] at h1
      obtain ⟨rfl, h2⟩ := h1
      have h3 : (u.getD idx (0, 0)).1 = k := nonce_eq (pair_getD hu.1 hu.2.1 hidx).1 hkr (h2.trans hans.symm)
      have h4 : u.getD idx (0, 0) = (k, 0) := Prod.ext h3 hu.2.2
      rw [← hg, List.set_set, ← h4, pair_set_of_getD]
  · rintro ⟨t, ht, hg⟩
    obtain ⟨sig', g1, g2, g3, g4⟩ := C40_ring_partial H pre I ps x idx test (t.getD idx (0, 0)).1 t P hP (by
      intro Q hQ
      obtain ⟨i, hi⟩ := List.mem_iff_getElem?.mp hQ
      obtain ⟨h1, rfl⟩ := List.getElem?_eq_some_iff.mp hi
      exact rep_on ((List.forall₂_iff_get.mp hps).2 i h1 (by rw [← hps.length_eq]; exact h1))) hx (pair_getD ht.1 ht.2.1 hidx).1
      ((pointEqual_iff (rep_B x) rP).mpr rfl) hI ht.1 ht.2.1
    rw [g1, Option.some.injEq] at hg
    subst hg
    rw [decide_eq_true (fun v hv => ⟨ne_of_gt (hsig v hv).1.1, ne_of_gt (hsig v hv).2.1⟩)] at g4
    exact (C40_ring_accept_iff H pre I _ ps ps' sig' rI hps g2).mp g4

/-- The hypotheses are met at each position of a ring of two. -/
example : List.Forall₂ Rep [scalarmultB 3, scalarmultB 5] [(3 : ℤ) • base, (5 : ℤ) • base] ∧
    ([scalarmultB 3, scalarmultB 5])[1]? = some (scalarmultB 5) ∧ ([(3 : ℤ) • base, (5 : ℤ) • base])[1]? = some ((5 : ℤ) • base) ∧ Reduced 5 :=
  ⟨.cons (rep_B 3) (.cons (rep_B 5) .nil), Eq.refl _, Eq.refl _, by decide, by decide⟩

end Verif.Sig

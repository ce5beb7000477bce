import Verif.Lemmas.Hiding
import Verif.Props.Mlsag

/-! C108: commitments, range proofs and ring signatures do not tell the secrets. -/

namespace Verif.Sig
open Verif Ed Key Edwards

attribute [local irreducible] hPow hPt bitIns masks verSums ident add

/-- C108. A commitment does not tell the amount: every point of the subgroup is a commitment to every amount, with exactly one mask. -/
theorem C108_commitment (C : Ext) (c : Point) (hC : Rep C c) (hc : lN • c = 0) (amount : ℤ) :
    ∃! mask, Reduced mask ∧ pointEqual C (genC mask amount) = true := by
  have h : lN • (c - amount • hBase) = 0 := by
    rw [nsmul_sub, hc, smul_comm, l_hBase, smul_zero, sub_zero]
  obtain ⟨x, hx, e⟩ := exists_log h
  refine ⟨x, ⟨hx, (pointEqual_iff hC (rep_genC x amount)).mpr (by rw [← e, sub_add_cancel])⟩, ?_⟩
  rintro y ⟨hy, e'⟩
  have e' := (pointEqual_iff hC (rep_genC y amount)).mp e'
  refine eq_of_smul_base hy hx ?_
  rw [← e, e', add_sub_cancel_right]

theorem encodeInt_inj {x y : ℤ} (hx : Reduced x) (hy : Reduced y) (h : encodeInt x = encodeInt y) : x = y := by
  have := C35_scalar_roundtrip x hx.1 hx.2
  rw [h, C35_scalar_roundtrip y hy.1 hy.2, Option.some.injEq] at this
  exact this.symm

theorem encodeInts_inj : ∀ {xs ys : List ℤ}, (∀ x ∈ xs, Reduced x) → (∀ y ∈ ys, Reduced y) → xs.map encodeInt = ys.map encodeInt → xs = ys
  | [], [], _, _, _ => rfl
  | [], _ :: _, _, _, h => by simp at h
  | _ :: _, [], _, _, h => by simp at h
  | x :: xs, y :: ys, hx, hy, h => by
    simp only [List.map_cons, List.cons.injEq] at h
    rw [encodeInt_inj (hx x (by simp)) (hy y (by simp)) h.1,
      encodeInts_inj (fun z hz => hx z (by simp [hz])) (fun z hz => hy z (by simp [hz])) h.2]

theorem encs_reps {Ps Qs : List Ext} {ps qs : List Point} (h : Reps Ps ps) : Reps Qs qs → Ps.map encodePoint = Qs.map encodePoint → ps = qs := by
  induction h generalizing Qs qs with
  | nil => intro hq e; cases hq with
    | nil => rfl
    | cons _ _ => simp at e
  | cons hP _ ih =>
    intro hq e
    cases hq with
    | nil => simp at e
    | cons hQ hq =>
      simp only [List.map_cons, List.cons.injEq] at e
      rw [encodePoint_rep hP, encodePoint_rep hQ] at e
      rw [encPt_injective e.1, ih hq e.2]

theorem reps_encs {Ps Qs : List Ext} {ps : List Point} (h : Reps Ps ps) : Reps Qs ps → Ps.map encodePoint = Qs.map encodePoint := by
  induction h generalizing Qs with
  | nil => intro hq; cases hq; rfl
  | cons hP _ ih =>
    intro hq
    cases hq with
    | cons hQ hq => rw [List.map_cons, List.map_cons, encodePoint_rep hP, encodePoint_rep hQ, ih hq]

theorem published_iff (H : Bytes → Bytes) {w : ℕ} (hw : w < 2 ^ 64) {t : List BitTape} (ht : RangeTape t) {C : Ext} {r : RangeSig} {cs : List Point}
    (hC : Rep C cs.sum) (hr : Reps r.Ci cs) (h0 : ∀ s ∈ r.asig.s0, Reduced s) (h1 : ∀ s ∈ r.asig.s1, Reduced s) (he : Reduced r.asig.ee) :
    published H w t = some (encodePoint C, encodeRangeSig r) ↔
      ∃ C' a' r', proveRangeOrig H w none (t.map BitTape.rnd) = some (C', a', r') ∧ r'.asig = r.asig ∧ Reps r'.Ci cs := by
  obtain ⟨D, a, u, ds, e1, e2, e3, e4, e5, e6, e7, e8, e9, e10⟩ := prove_facts H hw ht
  have her : Reduced u.asig.ee := by rw [e10]; exact hs_range _ _
  unfold published
  rw [e1, Option.map_some, Option.some.injEq, Prod.mk.injEq]
  dsimp only
  constructor
  · rintro ⟨-, q⟩
    unfold encodeRangeSig at q
    rw [RangeBytes.mk.injEq] at q
    obtain ⟨q1, q2, q3, q4⟩ := q
    refine ⟨D, a, u, Eq.refl _, ?_, ?_⟩
    · have : ∀ b b' : BoroSig, b.s0 = b'.s0 → b.s1 = b'.s1 → b.ee = b'.ee → b = b' := by
        rintro ⟨⟩ ⟨⟩ rfl rfl rfl; rfl
      exact this _ _ (encodeInts_inj e8 h0 q1) (encodeInts_inj e9 h1 q2) (encodeInt_inj her he q3)
    · rw [← encs_reps e2 hr q4]; exact e2
  · rintro ⟨C', a', r', q, qa, qr⟩
    rw [Option.some.injEq, Prod.mk.injEq, Prod.mk.injEq] at q
    obtain ⟨rfl, rfl, rfl⟩ := q
    have hcs : ds = cs := encs_reps e2 qr rfl
    subst hcs
    refine ⟨by rw [encodePoint_rep e3, encodePoint_rep hC], ?_⟩
    unfold encodeRangeSig
    rw [qa, reps_encs qr hr]

/-- C108. A range proof does not tell the amount: whatever commitment and proof are accepted, for every amount below 2^64 there is exactly one tape
with which the prover publishes them. The commitments to the bits are points of the subgroup and the scalars are reduced. -/
theorem C108_range (H : Bytes → Bytes) (C : Ext) (r : RangeSig) (hv : verRange H (some C) r = some true) (hC : checkPoint C = true)
    (hl : r.Ci.length = 64) (hsub : ∀ P ∈ r.Ci, ∃ p, Rep P p ∧ lN • p = 0) (l0 : r.asig.s0.length = 64) (l1 : r.asig.s1.length = 64)
    (h0 : ∀ s ∈ r.asig.s0, Reduced s) (h1 : ∀ s ∈ r.asig.s1, Reduced s) (he : Reduced r.asig.ee) (w : ℕ) (hw : w < 2 ^ 64) :
    ∃! t, RangeTape t ∧ published H w t = some (encodePoint C, encodeRangeSig r) := by
  obtain ⟨cs, hcs, hcs0⟩ : ∃ cs, Reps r.Ci cs ∧ ∀ c ∈ cs, lN • c = 0 := by
    clear hl hv
    generalize r.Ci = L at hsub
    induction L with
    | nil => exact ⟨[], .nil, by simp⟩
    | cons P Ps ih =>
      obtain ⟨cs, i1, i2⟩ := ih (fun Q hQ => hsub Q (by simp [hQ]))
      obtain ⟨p, p1, p2⟩ := hsub P (by simp)
      refine ⟨p :: cs, .cons p1 i1, ?_⟩
      intro c hc
      rcases List.mem_cons.mp hc with rfl | hc
      · exact p2
      · exact i2 c hc
  have hlen : cs.length = 64 := by rw [← hcs.length_eq, hl]
  obtain ⟨c, rC⟩ := (isOnCurve_iff _).mp hC
  obtain ⟨a1, a2⟩ := verSums_rep hcs hPt ident hBase 0 rep_hBase rep_ident
  rw [hl] at a1 a2
  rw [zero_add] at a2
  unfold verRange at hv
  rw [if_neg (by omega)] at hv
  dsimp only at hv
  rw [pointEq, if_pos (show isOnCurve _ = true from rep_on a2)] at hv
  obtain ⟨q, hq⟩ : ∃ q, pointEqual (verSums r.Ci (hPow 64 hPt) ident).2 C = q := ⟨_, rfl⟩
  rw [hq] at hv
  cases q with
  | false => simp at hv
  | true =>
    have hc := (pointEqual_iff a2 rC).mp hq
    rw [← hc] at rC
    have hz1 : (cs.zip (diffs cs hBase)).map (·.1) = cs := List.map_fst_zip (by rw [diffs_length])
    have hz2 : (cs.zip (diffs cs hBase)).map (·.2) = diffs cs hBase := List.map_snd_zip (by rw [diffs_length])
    obtain ⟨-, -, hee⟩ := (C41_accept_iff H (cs.zip (diffs cs hBase)) _ _ (by rw [hz1]; exact hcs) (by rw [hz2]; exact a1) _ _ _ he.1).mp hv
    obtain ⟨t, C', a', r', t1, t2, t3, t4, t5⟩ := range_exists H hw hlen l0 l1 hcs0 h0 h1 hee
    refine ⟨t, ⟨t1, (published_iff H hw t1 rC hcs h0 h1 he).mpr ⟨C', a', r', t2, t3, t4⟩⟩, ?_⟩
    rintro u ⟨u1, u2⟩
    obtain ⟨C'', a'', r'', q1, q2, q3⟩ := (published_iff H hw u1 rC hcs h0 h1 he).mp u2
    exact range_unique H hw u1 t1 q1 t2 q3 t4 (q2.trans t3.symm)

/-- C108. In particular two amounts lead to the same publications, equally often: for every tape used for the amount `v` there is exactly one
tape with which the prover publishes the same for `w`. -/
theorem C108_range_hides (H : Bytes → Bytes) (v w : ℕ) (hv : v < 2 ^ 64) (hw : w < 2 ^ 64) (t : List BitTape) (ht : RangeTape t) :
    (published H v t).isSome ∧ ∃! u, RangeTape u ∧ published H w u = published H v t := by
  obtain ⟨C, a, r, cs, e1, e2, e3, e4, e5, e6, e7, e8, e9, e10⟩ := prove_facts H hv ht
  have he : Reduced r.asig.ee := by rw [e10]; exact hs_range _ _
  have hp : published H v t = some (encodePoint C, encodeRangeSig r) := by unfold published; rw [e1]; rfl
  rw [hp]
  refine ⟨rfl, ?_⟩
  obtain ⟨u, C', a', r', t1, t2, t3, t4, t5⟩ := range_exists H hw e4 e6 e7 e5 e8 e9 e10
  refine ⟨u, ⟨t1, (published_iff H hw t1 e3 e2 e8 e9 he).mpr ⟨C', a', r', t2, t3, t4⟩⟩, ?_⟩
  rintro x ⟨u1, u2⟩
  obtain ⟨C'', a'', r'', q1, q2, q3⟩ := (published_iff H hw u1 e3 e2 e8 e9 he).mp u2
  exact range_unique H hw u1 t1 q1 t2 q3 t4 (q2.trans t3.symm)

theorem col_of {pk : List (List Ext)} {pk' : List (List Point)} (hpk : List.Forall₂ (List.Forall₂ Rep) pk pk') {idx : ℕ} {col : List Point}
    {xx : List ℤ} (hcol : pk'[idx]? = some col) (hopen : OpensCol col xx) :
    ∃ col0, pk[idx]? = some col0 ∧ Reps col0 col ∧ List.Forall₂ Opens col0 xx := by
  have hlen : pk.length = pk'.length := hpk.length_eq
  have hidx' : idx < pk'.length := (List.getElem?_eq_some_iff.mp hcol).1
  have hidx : idx < pk.length := by omega
  obtain ⟨col0, hcol0⟩ : ∃ c, pk[idx]? = some c := ⟨_, List.getElem?_eq_getElem hidx⟩
  have hrep : Reps col0 col := by
    obtain ⟨h1, e1⟩ := List.getElem?_eq_some_iff.mp hcol0
    obtain ⟨h2, e2⟩ := List.getElem?_eq_some_iff.mp hcol
    rw [← e1, ← e2]
    exact (List.forall₂_iff_get.mp hpk).2 idx h1 h2
  refine ⟨col0, hcol0, hrep, ?_⟩
  clear hcol hcol0
  unfold OpensCol at hopen
  induction hrep generalizing xx with
  | nil => cases hopen; exact .nil
  | cons h _ ih =>
    cases hopen with
    | cons ho hopen => exact .cons ⟨ho.1, ho.2 ▸ h⟩ (ih hopen)

/-- C108. A ring signature does not tell the signer beyond the key images: for every position and secrets that open it, the signatures the signer can
produce are exactly those the verifier accepts for the key images, each with exactly one tape. -/
theorem C108_mlsag (H : Bytes → Bytes) (m : Bytes) (pk : List (List Ext)) (pk' : List (List Point)) (hpk : List.Forall₂ (List.Forall₂ Rep) pk pk')
    (xx : List ℤ) (idx ds : ℕ) (col : List Point) (h2 : 2 ≤ pk.length) (hrows : 0 < xx.length) (hrect : ∀ col ∈ pk, col.length = xx.length)
    (hds : ds ≤ xx.length) (hcol : pk'[idx]? = some col) (hopen : OpensCol col xx) (ss : List (List ℤ)) (cc : ℤ) :
    (RingTape pk.length xx.length ss ∧ Reduced cc ∧ MlsagValid H m pk' ds (images H (col.take ds) (xx.take ds)) ss cc →
      ∃! t, RingTape pk.length xx.length t ∧ ∃ II c, genMlsag H m pk xx idx ds (t.getD idx []) t = some (⟨ss, cc, II⟩, c) ∧
        List.Forall₂ Rep II (images H (col.take ds) (xx.take ds))) ∧
    ((∃ t, RingTape pk.length xx.length t ∧ ∃ II c, genMlsag H m pk xx idx ds (t.getD idx []) t = some (⟨ss, cc, II⟩, c)) →
      RingTape pk.length xx.length ss ∧ Reduced cc ∧ MlsagValid H m pk' ds (images H (col.take ds) (xx.take ds)) ss cc) := by
  obtain ⟨col0, hcol0, hrep, hopen0⟩ := col_of hpk hcol hopen
  have hidx : idx < pk.length := (List.getElem?_eq_some_iff.mp hcol0).1
  have himg : ∀ als : List ℤ, als.length = xx.length →
      Reps (secretDs H (col0.take ds) (xx.take ds) (als.take ds)).2 (images H (col.take ds) (xx.take ds)) := fun als h =>
    secretDs_images H (List.forall₂_take ds hopen0) _ (List.forall₂_take ds hrep) _ (by simp [h])
  constructor
  · rintro ⟨hss, hcc, hv⟩
    obtain ⟨II, hII⟩ : ∃ II, (secretDs H (col0.take ds) (xx.take ds) (xx.take ds)).2 = II := ⟨_, rfl⟩
    have hIIr := himg xx rfl
    rw [hII] at hIIr
    have hver := (verMlsag_iff H m hpk (rv := ⟨ss, cc, II⟩) hIIr (fun s hs x hx => ((hss.2 s hs).2 x hx).1) hcc).mpr hv
    unfold verMlsag at hver
    split at hver
    · simp at hver
    rename_i r c' ha
    obtain ⟨-, rfl⟩ := verAssert_iff.mp ha
    split at hver
    · simp at hver
    rename_i c hch
    obtain ⟨a, e0, e1, e2⟩ := chainLoop_inv _ _ _ _ hch
    simp only [Nat.zero_add] at e0 e1 e2
    have hra : ∀ i, i ≤ pk.length → 0 ≤ a i ∧ a i < l := by
      intro i hi
      cases i with
      | zero => rw [e0]; exact hcc
      | succ i =>
        have := e2 i (by omega)
        unfold colStep at this
        split at this
        · rw [← Option.some.inj this]; exact hs_range _ _
        · simp at this
    have hceq : c = cc := (scSub_zero (by rw [← e1]; exact hra _ (le_refl _)) hcc).mp (Option.some.inj hver)
    obtain ⟨t, c2, ht, hg⟩ := gen_exists H m h2 hcol0 hrows hrect hds hss hopen0 a (fun i hi => (hra i hi).1) (by rw [e1, hceq, e0]) II
      (fun als h => by rw [← hII]; exact secretDs_snd H _ _ _ _ rfl (by simp [h])) e2
    rw [e0] at hg
    refine ⟨t, ⟨ht, II, c2, hg, hIIr⟩, ?_⟩
    rintro u ⟨hu, II', c3, hg', -⟩
    exact gen_inj H m h2 hcol0 hrows hrect hds hu ht hopen0 hg' hg
  · rintro ⟨t, ht, II, c, hg⟩
    obtain ⟨g1, g2⟩ := getD_tape ht hidx
    obtain ⟨mg, d, f1, f2, f3, f4, f5⟩ := gen_ver H m (pk := pk) (xx := xx) (idx := idx) (ds := ds) (rows := xx.length) (alpha := t.getD idx [])
      (rnd := t) h2 hcol0 hrows hrect hds g1 (fun a h => (g2 a h).1) ht.1 (fun s hs => (ht.2 s hs).1) hopen0
    rw [f1, Option.some.injEq, Prod.mk.injEq] at hg
    obtain ⟨rfl, rfl⟩ := hg
    dsimp only at f3 f4 f5
    have hss : RingTape pk.length xx.length ss := by
      rw [f5]; exact set_tape ht (closing_length _ _ _ g1.symm) (closing_range _ _ _)
    have hIIr := himg _ g1
    rw [← f3] at hIIr
    exact ⟨hss, f4, (verMlsag_iff H m hpk (rv := ⟨ss, cc, II⟩) hIIr (fun s hs x hx => ((hss.2 s hs).2 x hx).1) f4).mp f2⟩

/-- C108. In particular two owners of columns with the same key images (or no row with one) produce the same signatures, equally often. -/
theorem C108_anonymous (H : Bytes → Bytes) (m : Bytes) (pk : List (List Ext)) (pk' : List (List Point))
    (hpk : List.Forall₂ (List.Forall₂ Rep) pk pk') (ds rows : ℕ) (h2 : 2 ≤ pk.length) (hrows : 0 < rows) (hrect : ∀ col ∈ pk, col.length = rows)
    (hds : ds ≤ rows) (xx yy : List ℤ) (i j : ℕ) (ci cj : List Point) (hi : pk'[i]? = some ci) (hj : pk'[j]? = some cj) (hx : OpensCol ci xx)
    (hy : OpensCol cj yy) (himg : images H (ci.take ds) (xx.take ds) = images H (cj.take ds) (yy.take ds)) (t : List (List ℤ))
    (ht : RingTape pk.length rows t) :
    ∃ ss cc II c, genMlsag H m pk xx i ds (t.getD i []) t = some (⟨ss, cc, II⟩, c) ∧
      ∃! u, RingTape pk.length rows u ∧ ∃ II' c', genMlsag H m pk yy j ds (u.getD j []) u = some (⟨ss, cc, II'⟩, c') ∧
        II'.map encodePoint = II.map encodePoint := by
  have hcl : ∀ (k : ℕ) (c : List Point), pk'[k]? = some c → c.length = rows := by
    intro k c hk
    obtain ⟨h1, e1⟩ := List.getElem?_eq_some_iff.mp hk
    have h0 : k < pk.length := by rw [hpk.length_eq]; exact h1
    have := (List.forall₂_iff_get.mp hpk).2 k h0 h1
    rw [← e1]
    exact this.length_eq.symm.trans (hrect _ (List.getElem_mem h0))
  have lx : xx.length = rows := by rw [← hx.length_eq]; exact hcl i ci hi
  have ly : yy.length = rows := by rw [← hy.length_eq]; exact hcl j cj hj
  obtain ⟨col0, hcol0, hrep, hopen0⟩ := col_of hpk hi hx
  have hidx : i < pk.length := (List.getElem?_eq_some_iff.mp hcol0).1
  subst lx
  obtain ⟨⟨ss, cc, II⟩, c, f1, f2, f3, f4⟩ := gen_facts H m h2 hcol0 hrows hrect hds ht hopen0
  have hIIr : Reps II (images H (ci.take ds) (xx.take ds)) := by
    dsimp only at f3
    rw [f3]
    exact secretDs_images H (List.forall₂_take ds hopen0) _ (List.forall₂_take ds hrep) _
      (by rw [List.length_take, List.length_take, (getD_tape ht hidx).1])
  refine ⟨ss, cc, II, c, f1, ?_⟩
  have hval := (C108_mlsag H m pk pk' hpk xx i ds ci h2 hrows hrect hds hi hx ss cc).2 ⟨t, ht, II, c, f1⟩
  rw [himg] at hval hIIr
  rw [← ly] at hrows hrect hds hval ⊢
  obtain ⟨u, ⟨hu, II', c', g1, g2⟩, huniq⟩ := (C108_mlsag H m pk pk' hpk yy j ds cj h2 hrows hrect hds hj hy ss cc).1 hval
  refine ⟨u, ⟨hu, II', c', g1, reps_encs g2 hIIr⟩, ?_⟩
  rintro w ⟨hw, II'', c'', k1, k2⟩
  obtain ⟨col1, hcol1, hrep1, hopen1⟩ := col_of hpk hj hy
  exact gen_inj H m h2 hcol1 hrows hrect hds hw hu hopen1 k1 g1

/-! ## Cases -/

theorem small_reduced (n : ℕ) (h : n < 2 ^ 64) : Reduced (n : ℤ) := by
  refine ⟨by positivity, lt_trans (b := 2 ^ 64) (by exact_mod_cast h) (by decide +kernel)⟩

example : ∃! mask, Reduced mask ∧ pointEqual (scalarmultB 7) (genC mask 1000) = true :=
  C108_commitment _ _ (rep_B 7) (by rw [smul_comm, l_base, smul_zero]) 1000

theorem demo_range_tape : RangeTape (List.replicate 64 (1, 2, 3)) := by
  refine ⟨List.length_replicate, fun x hx => ?_⟩
  rw [List.eq_of_mem_replicate hx]
  exact ⟨small_reduced 1 (by norm_num), small_reduced 2 (by norm_num), small_reduced 3 (by norm_num)⟩

example (H : Bytes → Bytes) : ∃! u, RangeTape u ∧ published H 1000 u = published H 5 (List.replicate 64 (1, 2, 3)) :=
  (C108_range_hides H 5 1000 (by norm_num) (by norm_num) _ demo_range_tape).2

theorem opens_one (x : ℤ) (h : 0 ≤ x) : OpensCol [x • base] [x] := .cons ⟨h, rfl⟩ .nil

/-- Two members with the keys `3·G` and `5·G`, one row without a key image. -/
example (H : Bytes → Bytes) (m : Bytes) :
    ∃ ss cc II c, genMlsag H m [[scalarmultB 3], [scalarmultB 5]] [3] 0 0 [7] [[7], [11]] = some (⟨ss, cc, II⟩, c) ∧
      ∃! u, RingTape 2 1 u ∧ ∃ II' c', genMlsag H m [[scalarmultB 3], [scalarmultB 5]] [5] 1 0 (u.getD 1 []) u = some (⟨ss, cc, II'⟩, c') ∧
        II'.map encodePoint = II.map encodePoint :=
  C108_anonymous H m [[scalarmultB 3], [scalarmultB 5]] [[(3 : ℤ) • base], [(5 : ℤ) • base]]
    (.cons (.cons (rep_B 3) .nil) (.cons (.cons (rep_B 5) .nil) .nil)) 0 1 (by simp) (by simp) (by simp) (by simp) [3] [5] 0 1 [(3 : ℤ) • base]
    [(5 : ℤ) • base] rfl rfl (opens_one 3 (by norm_num)) (opens_one 5 (by norm_num)) (by simp [images]) [[7], [11]]
    (by
      refine ⟨by simp only [List.length_cons, List.length_nil], fun s hs => ?_⟩
      simp only [List.mem_cons, List.not_mem_nil, or_false] at hs
      rcases hs with rfl | rfl
      · exact ⟨rfl, fun x hx => by rw [List.mem_singleton.mp hx]; exact small_reduced 7 (by norm_num)⟩
      · exact ⟨rfl, fun x hx => by rw [List.mem_singleton.mp hx]; exact small_reduced 11 (by norm_num)⟩)

end Verif.Sig

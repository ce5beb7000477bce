import Verif.Lemmas.Sound
import Verif.Props.Sig
import Verif.Props.Mlsag
import Verif.Props.Clsag
import Verif.Props.Range

/-!
C99. What accepted signatures and range proofs prove: whoever can answer two challenges for the same first messages knows the secret key, with the right
key image, and the amount is in range (the extraction step of the forking lemma). Key images are unique up to order eight, and not more than that.
`RingValid`, `MlsagValid`, `ClsagValid`, `BoroValid` with the hashed bytes are in `Spec/Sig.lean`, `Fork`, `Known`, `KnownKey` in `Spec/Sound.lean`.
-/

namespace Verif.Sig
open Verif Ed Key Edwards

/-- C99. Schnorr signatures. -/
theorem C99_schnorr (H H' : Bytes → Bytes) (data : Bytes) (pub : Ext) (P : Point) (hP : Rep pub P) (c r c' r' : ℤ)
    (h : checkSignature H data c r pub = some true) (h' : checkSignature H' data c' r' pub = some true)
    (hsame : c • P + r • base = c' • P + r' • base) (hne : c ≠ c') : Known base P (secretOf c r c' r') := by
  obtain ⟨h1, -, -⟩ := (C40_accept_iff H data c r pub P hP).mp h
  obtain ⟨h2, -, -⟩ := (C40_accept_iff H' data c' r' pub P hP).mp h'
  exact extract (by rw [reduced_mod h1, reduced_mod h2]; exact hne) P base hsame

/-- C99. Ring signatures: two accepted signatures with the same bytes hashed and different hashes give the secret key of a member, and the key image is the
one of this member. -/
theorem C99_ring (H H' : Bytes → Bytes) (hf : Fork H H') (pre : Bytes) (I : Ext) (I' : Point) (ps : List Ext) (ps' : List Point) (sig sig' : List (ℤ × ℤ))
    (hI : Rep I I') (hps : List.Forall₂ Rep ps ps') (hl : sig.length = ps.length) (hl' : sig'.length = ps.length)
    (h : checkRing H pre I ps sig = some true) (h' : checkRing H' pre I ps sig' = some true)
    (hsame : ringData H I' ps' sig = ringData H' I' ps' sig')
    (hne : hs H (pre ++ ringData H I' ps' sig) ≠ hs H' (pre ++ ringData H' I' ps' sig')) :
    ∃ (i : ℕ) (P : Point) (v v' : ℤ × ℤ), ps'[i]? = some P ∧ sig[i]? = some v ∧ sig'[i]? = some v' ∧
      KnownKey H P I' (secretOf v.1 v.2 v'.1 v'.2) := by
  obtain ⟨a1, -, a3⟩ := (C40_ring_accept_iff H pre I I' ps ps' sig hI hps hl).mp h
  obtain ⟨b1, -, b3⟩ := (C40_ring_accept_iff H' pre I I' ps ps' sig' hI hps hl').mp h'
  obtain ⟨i, v, v', hv, hv', hc⟩ := sum_differs sig sig' (by omega) (by rw [a3, b3]; exact hne)
  have hi : i < ps'.length := by
    have := (List.getElem?_eq_some_iff.mp hv).1
    omega
  obtain ⟨e1, e2⟩ := ringData_inj hf I' ps' sig sig' a1 b1 hsame i ps'[i] v v' (List.getElem?_eq_getElem hi) hv hv'
  refine ⟨i, ps'[i], v, v', List.getElem?_eq_getElem hi, hv, hv', extract hc _ _ e1, extract hc _ _ ?_⟩
  rw [add_comm, e2, add_comm]

/-- C99. MLSAG: where a column is answered for two challenges, the secrets of all its keys are known, and the key images are theirs. -/
theorem C99_mlsag (H H' : Bytes → Bytes) (hf : Fork H H') (m m' : Bytes) (pk : List (List Ext)) (pk' : List (List Point)) (rv rv' : MgSig) (ds : ℕ)
    (II' : List Point) (hpk : List.Forall₂ (List.Forall₂ Rep) pk pk') (hI : List.Forall₂ Rep rv.II II') (hI' : List.Forall₂ Rep rv'.II II')
    (hss : ∀ s ∈ rv.ss, ∀ x ∈ s, 0 ≤ x) (hss' : ∀ s ∈ rv'.ss, ∀ x ∈ s, 0 ≤ x) (hcc : 0 ≤ rv.cc ∧ rv.cc < l) (hcc' : 0 ≤ rv'.cc ∧ rv'.cc < l)
    (h : verMlsag H m pk rv ds = some true) (h' : verMlsag H' m' pk rv' ds = some true) :
    ∃ c c' : ℕ → ℤ, c 0 = rv.cc ∧ c' 0 = rv'.cc ∧
      (∀ (i : ℕ) (col : List Point) (s : List ℤ), pk'[i]? = some col → rv.ss[i]? = some s → c (i + 1) = colHash H m ds II' col s (c i)) ∧
      (∀ (i : ℕ) (col : List Point) (s : List ℤ), pk'[i]? = some col → rv'.ss[i]? = some s → c' (i + 1) = colHash H' m' ds II' col s (c' i)) ∧
      ∀ (i : ℕ) (col : List Point) (s s' : List ℤ), pk'[i]? = some col → rv.ss[i]? = some s → rv'.ss[i]? = some s' → c i % l ≠ c' i % l →
        colDs H (c i) (col.take ds) (s.take ds) II' ++ colPlain (c i) (col.drop ds) (s.drop ds) =
          colDs H' (c' i) (col.take ds) (s'.take ds) II' ++ colPlain (c' i) (col.drop ds) (s'.drop ds) →
        ∀ (j : ℕ) (P : Point) (r r' : ℤ), col[j]? = some P → s[j]? = some r → s'[j]? = some r' →
          Known base P (secretOf (c i) r (c' i) r') ∧ ∀ I, II'[j]? = some I → KnownKey H P I (secretOf (c i) r (c' i) r') := by
  obtain ⟨rows, -, -, a1, a2, a3, a4, a5, c, c0, -, hc⟩ := (C42_accept_iff H m pk pk' rv ds II' hpk hI hss hcc).mp h
  obtain ⟨rows', -, -, b1, b2, -, b4, b5, c', c0', -, hc'⟩ := (C42_accept_iff H' m' pk pk' rv' ds II' hpk hI' hss' hcc').mp h'
  refine ⟨c, c', c0, c0', hc, hc', fun i col s s' hcol hs hs' hne hd j P r r' hP es es' => ?_⟩
  have l1 := a1 col (List.mem_of_getElem? hcol)
  have l1' := b1 col (List.mem_of_getElem? hcol)
  have l2 := a5 s (List.mem_of_getElem? hs)
  have l3 := b5 s' (List.mem_of_getElem? hs')
  have hj : j < col.length := (List.getElem?_eq_some_iff.mp hP).1
  obtain ⟨hp, hds⟩ := colDs_inj hf (c i) (c' i) _ _ (col.take ds) (s.take ds) (s'.take ds) II' (by simp; omega) (by simp; omega) (by simp; omega) hd
  have hex := fun P G => extract (r := r) (r' := r') hne P G
  by_cases hjd : j < ds
  · have eI : II'[j]? = some II'[j] := List.getElem?_eq_getElem (by omega)
    obtain ⟨e1, e2⟩ := hds j P II'[j] r r' (by rw [List.getElem?_take, if_pos hjd, hP]) eI (by rw [List.getElem?_take, if_pos hjd, es])
      (by rw [List.getElem?_take, if_pos hjd, es'])
    refine ⟨hex _ _ e1, fun I hI => ?_⟩
    rw [eI] at hI
    rw [← Option.some.inj hI]
    exact ⟨hex _ _ e1, hex _ _ e2⟩
  · have e1 := colPlain_inj (c i) (c' i) (col.drop ds) (s.drop ds) (s'.drop ds) (by simp; omega) (by simp; omega) hp (j - ds) P r r'
      (by rw [List.getElem?_drop, show ds + (j - ds) = j by omega, hP]) (by rw [List.getElem?_drop, show ds + (j - ds) = j by omega, es])
      (by rw [List.getElem?_drop, show ds + (j - ds) = j by omega, es'])
    refine ⟨hex _ _ e1, fun I hI => ?_⟩
    have := (List.getElem?_eq_some_iff.mp hI).1
    omega

theorem eight_mod (a : ℤ) (P : Point) : (8 : ℤ) • ((a % l) • P) = (8 : ℤ) • (a • P) := by
  rw [smul_comm, mod_smul (eight_order P), smul_comm]

/-- C99. CLSAG: where a member is answered for two challenges, with the same coefficients, the secret of its combined key is known, and the combined image
is its image. -/
theorem C99_clsag (H H' : Bytes → Bytes) (m m' : Bytes) (ring : List CtPub) (hf : ∀ p ∈ ring, hpt H' p.dest = hpt H p.dest) (keys : List (Point × Point))
    (ss ss' : List ℤ) (c1 c1' : ℤ) (I D Cout : Ext) (I' D' Co : Point) (hI : Rep I I') (hD : Rep D D') (hCo : Rep Cout Co) (hc1 : Reduced c1)
    (hc1' : Reduced c1') (hss : ∀ s ∈ ss, 0 ≤ s) (hss' : ∀ s ∈ ss', 0 ≤ s) (hl : ss.length = ring.length) (hl' : ss'.length = ring.length)
    (hk : List.Forall₂ (fun (p : CtPub) (k : Point × Point) => ∃ P C, decodePoint p.dest = some P ∧ decodePoint p.commitment = some C ∧
      Rep P k.1 ∧ Rep C k.2) ring keys)
    (mP mC : ℤ) (agg : Bytes) (hagg : agg = (ring.map (·.dest)).flatten ++ (ring.map (·.commitment)).flatten ++ encPt I' ++ encPt D' ++ encPt Co)
    (p1 : hs H (tagAgg0 ++ agg) = mP) (p2 : hs H' (tagAgg0 ++ agg) = mP) (p3 : hs H (tagAgg1 ++ agg) = mC) (p4 : hs H' (tagAgg1 ++ agg) = mC)
    (h : verClsag H m ss c1 I D ring Cout = some ()) (h' : verClsag H' m' ss' c1' I D ring Cout = some ()) :
    ∃ c c' : ℕ → ℤ, c 0 = c1 ∧ c' 0 = c1' ∧ c ring.length = c1 ∧ c' ring.length = c1' ∧
      (∀ (i : ℕ) (p : CtPub) (k : Point × Point) (s : ℤ), ring[i]? = some p → keys[i]? = some k → ss[i]? = some s →
        c (i + 1) = hs H (tagRound ++ ((ring.map (·.dest)).flatten ++ (ring.map (·.commitment)).flatten ++ encPt Co ++ m ++
          encPt (s • base + (mP * c i % l) • k.1 + (mC * c i % l) • (k.2 - Co)) ++
          encPt (s • hpt H p.dest + (mP * c i % l) • I' + (mC * c i % l) • (8 : ℤ) • D')))) ∧
      (∀ (i : ℕ) (p : CtPub) (k : Point × Point) (s : ℤ), ring[i]? = some p → keys[i]? = some k → ss'[i]? = some s →
        c' (i + 1) = hs H' (tagRound ++ ((ring.map (·.dest)).flatten ++ (ring.map (·.commitment)).flatten ++ encPt Co ++ m' ++
          encPt (s • base + (mP * c' i % l) • k.1 + (mC * c' i % l) • (k.2 - Co)) ++
          encPt (s • hpt H' p.dest + (mP * c' i % l) • I' + (mC * c' i % l) • (8 : ℤ) • D')))) ∧
      ∀ (i : ℕ) (p : CtPub) (k : Point × Point) (s s' : ℤ), ring[i]? = some p → keys[i]? = some k → ss[i]? = some s → ss'[i]? = some s' →
        c i % l ≠ c' i % l →
        s • base + (mP * c i % l) • k.1 + (mC * c i % l) • (k.2 - Co) = s' • base + (mP * c' i % l) • k.1 + (mC * c' i % l) • (k.2 - Co) →
        s • hpt H p.dest + (mP * c i % l) • I' + (mC * c i % l) • (8 : ℤ) • D' =
          s' • hpt H' p.dest + (mP * c' i % l) • I' + (mC * c' i % l) • (8 : ℤ) • D' →
        Known base (mP • k.1 + mC • (k.2 - Co)) (secretOf (c i) s (c' i) s') ∧
          Known (hpt H p.dest) (mP • I' + mC • (8 : ℤ) • D') (secretOf (c i) s (c' i) s') := by
  subst hagg
  obtain ⟨c, c0, cn, hc⟩ := (C43_accept_iff H m ring keys ss c1 I D Cout I' D' Co hI hD hCo hc1 hss hl hk).mp h
  obtain ⟨c', c0', cn', hc'⟩ := (C43_accept_iff H' m' ring keys ss' c1' I D Cout I' D' Co hI hD hCo hc1' hss' hl' hk).mp h'
  rw [p1, p3] at hc
  rw [p2, p4] at hc'
  refine ⟨c, c', c0, c0', cn, cn', hc, hc', fun i p k s s' hp hk' hs hs' hne e1 e2 => ?_⟩
  rw [hf p (List.mem_of_getElem? hp)] at e2
  have key : ∀ (A B G : Point), s • G + (mP * c i % l) • A + (mC * c i % l) • B = s' • G + (mP * c' i % l) • A + (mC * c' i % l) • B →
      Known G (mP • A + mC • B) (secretOf (c i) s (c' i) s') := by
    intro A B G e
    apply extract8 hne
    have e8 := congrArg (fun X => (8 : ℤ) • X) e
    simp only [zsmul_add, eight_mod] at e8
    simp only [zsmul_add]
    have t : ∀ (b d : ℤ) (Z : Point), (8 : ℤ) • (b • d • Z) = (8 : ℤ) • ((d * b) • Z) := by
      intro b d Z
      rw [← mul_zsmul Z b d, mul_comm b d]
    rw [t, t, t, t]
    generalize s • G = X at *
    generalize s' • G = Y at *
    calc _ = (8 : ℤ) • X + (8 : ℤ) • (mP * c i) • A + (8 : ℤ) • (mC * c i) • B := by abel
      _ = _ := e8
      _ = _ := by abel
  exact ⟨key _ _ _ e1, key _ _ _ e2⟩

/-- C99. Two combinations of a key and a commitment with different coefficients: key, image and blinding are known one by one. In particular the
commitment and the pseudo output hide the same amount. -/
theorem C99_clsag_separate (G P I Z E : Point) (a b a' b' x x' : ℤ) (hne : (a * b') % l ≠ (a' * b) % l)
    (h1 : Known base (a • P + b • Z) x) (h2 : Known base (a' • P + b' • Z) x') (h3 : Known G (a • I + b • E) x)
    (h4 : Known G (a' • I + b' • E) x') : Known base P (firstOf a b x a' b' x') ∧ Known G I (firstOf a b x a' b' x') ∧
      Known base Z (secondOf a b x a' b' x') ∧ Known G E (secondOf a b x a' b' x') := by
  have comb : ∀ (A B F : Point), Known F (a • A + b • B) x → Known F (a' • A + b' • B) x' →
      (8 : ℤ) • ((a * b') • A + (-(b' * x)) • F) = (8 : ℤ) • ((a' * b) • A + (-(b * x')) • F) ∧
      (8 : ℤ) • ((a' * b) • B + (-(a' * x)) • F) = (8 : ℤ) • ((a * b') • B + (-(a * x')) • F) := by
    intro A B F k1 k2
    unfold Known at k1 k2
    have q1 : (8 : ℤ) • (a • A + b • B - x • F) = 0 := by rw [zsmul_sub, k1, sub_self]
    have q2 : (8 : ℤ) • (a' • A + b' • B - x' • F) = 0 := by rw [zsmul_sub, k2, sub_self]
    constructor
    · have : (8 : ℤ) • ((a * b') • A + (-(b' * x)) • F) - (8 : ℤ) • ((a' * b) • A + (-(b * x')) • F) =
          b' • ((8 : ℤ) • (a • A + b • B - x • F)) - b • ((8 : ℤ) • (a' • A + b' • B - x' • F)) := by module
      rw [q1, q2, zsmul_zero, zsmul_zero, sub_zero] at this
      exact sub_eq_zero.mp this
    · have : (8 : ℤ) • ((a' * b) • B + (-(a' * x)) • F) - (8 : ℤ) • ((a * b') • B + (-(a * x')) • F) =
          a' • ((8 : ℤ) • (a • A + b • B - x • F)) - a • ((8 : ℤ) • (a' • A + b' • B - x' • F)) := by module
      rw [q1, q2, zsmul_zero, zsmul_zero, sub_zero] at this
      exact sub_eq_zero.mp this
  exact ⟨extract8 hne _ _ (comb P Z base h1 h2).1, extract8 hne _ _ (comb I E G h3 h4).1, extract8 hne.symm _ _ (comb P Z base h1 h2).2,
    extract8 hne.symm _ _ (comb I E G h3 h4).2⟩

/-- C99. One key has one key image, up to a point whose order divides eight. -/
theorem C99_linkable (H : Bytes → Bytes) (P I I' : Point) (x x' : ℤ) (h : KnownKey H P I x) (h' : KnownKey H P I' x') :
    (8 : ℤ) • I = (8 : ℤ) • I' := by
  have e := known_unique h.1 h'.1
  rw [h.2, h'.2, smul_comm, smul_comm (8 : ℤ) x']
  exact mod_mul (eight_order _) e

theorem bitPairs_length : ∀ (k : ℕ) (cs : List Point), (bitPairs k cs).length = cs.length
  | _, [] => rfl
  | k, c :: cs => by rw [bitPairs, List.length_cons, bitPairs_length (k + 1) cs, List.length_cons]

theorem open_bits {H H' : Bytes → Bytes} (hf : Fork H H') {ee ee' : ℤ} (hee : 0 ≤ ee) (hee' : 0 ≤ ee') (hne : ee % l ≠ ee' % l) :
    ∀ (k : ℕ) (Ci : List Ext) (cs : List Point) (s0 s1 t0 t1 : List ℤ), List.Forall₂ Rep Ci cs → cs.length ≤ s0.length → cs.length ≤ s1.length →
    cs.length ≤ t0.length → cs.length ≤ t1.length → NoCollision H ee ee' cs s0 t0 →
    boroData H ee (bitPairs k cs) s0 s1 = boroData H' ee' (bitPairs k cs) t0 t1 →
    (openRange H ee ee' Ci s0 s1 t0 t1).2 < 2 ^ cs.length ∧ (8 : ℤ) • cs.sum = (8 : ℤ) • ((openRange H ee ee' Ci s0 s1 t0 t1).1 • base +
      ((2 ^ k * (openRange H ee ee' Ci s0 s1 t0 t1).2 : ℕ) : ℤ) • hBase)
  | k, _, _, _, _, _, _, .nil, _, _, _, _, _, _ => by simp [openRange]
  | k, _, _, [], _, _, _, .cons _ _, h, _, _, _, _, _ => by simp at h
  | k, _, _, _ :: _, [], _, _, .cons _ _, _, h, _, _, _, _ => by simp at h
  | k, _, _, _ :: _, _ :: _, [], _, .cons _ _, _, _, h, _, _, _ => by simp at h
  | k, _, _, _ :: _, _ :: _, _ :: _, [], .cons _ _, _, _, _, h, _, _ => by simp at h
  | k, C :: Ci, c :: cs, a :: s0, b :: s1, a' :: t0, b' :: t1, .cons rC rCs, h1, h2, h3, h4, hn, h => by
    rw [NoCollision] at hn
    rw [bitPairs, boroData, boroData] at h
    obtain ⟨e, h⟩ := enc_append_inj h
    obtain ⟨hw, ih⟩ := open_bits hf hee hee' hne (k + 1) Ci cs s0 s1 t0 t1 rCs (by simpa using h1) (by simpa using h2) (by simpa using h3)
      (by simpa using h4) hn.2 h
    have r1 : encodePoint (add (scalarmultB a) (smul C ee)) = encPt (a • base + ee • c) := encodePoint_rep (rep_add (rep_B a) (rep_smul rC hee))
    have r2 : encodePoint (add (scalarmultB a') (smul C ee')) = encPt (a' • base + ee' • c) := encodePoint_rep (rep_add (rep_B a') (rep_smul rC hee'))
    have e0 : hs H' (encPt (a' • base + ee' • c)) = hs H (encPt (a' • base + ee' • c)) := by rw [hs, hs, hf _ (encPt_length _)]
    rw [e0] at e
    rw [openRange, r1, r2, List.length_cons, List.sum_cons, zsmul_add, ih, pow_succ 2 cs.length]
    have hn1 := hn.1
    have g1 := hs_range H (encPt (a • base + ee • c))
    have g2 := hs_range H (encPt (a' • base + ee' • c))
    generalize hs H (encPt (a • base + ee • c)) = u at *
    generalize hs H (encPt (a' • base + ee' • c)) = v at *
    generalize openRange H ee ee' Ci s0 s1 t0 t1 = o at *
    by_cases huv : u = v
    · rw [if_pos huv]
      have hx : Known base c (secretOf ee a ee' a') := extract hne c base (by rw [add_comm, hn1 huv, add_comm])
      generalize secretOf ee a ee' a' = x at *
      refine ⟨by dsimp only; omega, ?_⟩
      dsimp only
      rw [show (8 : ℤ) • c = (8 : ℤ) • (x • base) from hx, show 2 ^ (k + 1) * o.2 = 2 ^ k * (2 * o.2) by rw [pow_succ]; ring]
      generalize ((2 ^ k * (2 * o.2) : ℕ) : ℤ) = t
      module
    · rw [if_neg huv]
      have hx : Known base (c - (2 ^ k : ℤ) • hBase) (secretOf u b v b') :=
        extract (by rw [Int.emod_eq_of_lt g1.1 g1.2, Int.emod_eq_of_lt g2.1 g2.2]; exact huv) _ base (by rw [add_comm, e, add_comm])
      generalize secretOf u b v b' = x at *
      refine ⟨by dsimp only; omega, ?_⟩
      dsimp only
      have hx' : (8 : ℤ) • c = (8 : ℤ) • (x • base + (2 ^ k : ℤ) • hBase) := by
        have : (8 : ℤ) • (c - (2 ^ k : ℤ) • hBase) = (8 : ℤ) • (x • base) := hx
        rw [zsmul_sub] at this
        rw [zsmul_add, ← this]
        abel
      have : ((2 ^ k * (2 * o.2 + 1) : ℕ) : ℤ) = 2 ^ k + ((2 ^ (k + 1) * o.2 : ℕ) : ℤ) := by push_cast; ring
      rw [hx', this]
      generalize ((2 ^ (k + 1) * o.2 : ℕ) : ℤ) = t
      generalize (2 ^ k : ℤ) = w
      module

/-- C99. Range proofs: from two accepted proofs with the same points and different challenges an opening of the commitment with an amount below 2^64 is
computed. -/
theorem C99_range (H H' : Bytes → Bytes) (hf : Fork H H') {C : Ext} {c : Point} (hc : Rep C c) (r r' : RangeSig) (hCi : r'.Ci = r.Ci) {cs : List Point}
    (hC : List.Forall₂ Rep r.Ci cs) (hee : 0 ≤ r.asig.ee) (hee' : 0 ≤ r'.asig.ee) (h : verRange H (some C) r = some true)
    (h' : verRange H' (some C) r' = some true) (hn : NoCollision H r.asig.ee r'.asig.ee cs r.asig.s0 r'.asig.s0)
    (hsame : boroData H r.asig.ee (bitPairs 0 cs) r.asig.s0 r.asig.s1 = boroData H' r'.asig.ee (bitPairs 0 cs) r'.asig.s0 r'.asig.s1)
    (hne : r.asig.ee ≠ r'.asig.ee) (mask : ℤ) (amount : ℕ)
    (ho : openRange H r.asig.ee r'.asig.ee r.Ci r.asig.s0 r.asig.s1 r'.asig.s0 r'.asig.s1 = (mask, amount)) :
    amount < 2 ^ 64 ∧ (8 : ℤ) • c = (8 : ℤ) • (mask • base + (amount : ℤ) • hBase) := by
  obtain ⟨a1, a2, a3, a4, a5⟩ := (C41_range_accept_iff H hc r hC hee).mp h
  obtain ⟨-, -, b3, b4, b5⟩ := (C41_range_accept_iff H' hc r' (hCi ▸ hC) hee').mp h'
  have hne' : r.asig.ee % l ≠ r'.asig.ee % l := by
    have h1 := hs_range H (boroData H r.asig.ee (bitPairs 0 cs) r.asig.s0 r.asig.s1)
    have h2 := hs_range H' (boroData H' r'.asig.ee (bitPairs 0 cs) r'.asig.s0 r'.asig.s1)
    rw [← a5] at h1
    rw [← b5] at h2
    rw [Int.emod_eq_of_lt h1.1 h1.2, Int.emod_eq_of_lt h2.1 h2.2]
    exact hne
  have hl : (bitPairs 0 cs).length = cs.length := bitPairs_length 0 cs
  obtain ⟨hw, e⟩ := open_bits hf hee hee' hne' 0 r.Ci cs r.asig.s0 r.asig.s1 r'.asig.s0 r'.asig.s1 hC (hl ▸ a3) (hl ▸ a4) (hl ▸ b3) (hl ▸ b4) hn hsame
  rw [ho, a1] at hw
  rw [ho, a2, pow_zero, one_mul] at e
  exact ⟨hw, e⟩

/-- C99 fails for exact uniqueness of key images: a ring signature whose challenges are multiples of eight is accepted, unchanged, with other key images. -/
theorem C99_false_torsion (H : Bytes → Bytes) (pre : Bytes) (I : Ext) (ps : List Ext) (sig : List (ℤ × ℤ)) (hI : checkPoint I = true)
    (hps : ∀ P ∈ ps, checkPoint P = true) (hl : sig.length = ps.length) (h : checkRing H pre I ps sig = some true) (h8 : ∀ v ∈ sig, v.1 % 8 = 0) :
    ∃ J, checkPoint J = true ∧ pointEqual I J = false ∧ checkRing H pre J ps sig = some true := by
  obtain ⟨I', rI⟩ := (isOnCurve_iff I).mp hI
  have hall : ∃ ps' : List Point, List.Forall₂ Rep ps ps' := by
    clear h hl
    induction ps with
    | nil => exact ⟨[], .nil⟩
    | cons P ps ih =>
      obtain ⟨p, hp⟩ := (isOnCurve_iff P).mp (hps P (List.mem_cons_self ..))
      obtain ⟨ps', h'⟩ := ih (fun Q hQ => hps Q (List.mem_cons_of_mem _ hQ))
      exact ⟨p :: ps', .cons hp h'⟩
  obtain ⟨ps', rps⟩ := hall
  obtain ⟨T, hT⟩ := exists_order8
  have hT8 : (8 : ℤ) • T = 0 := by
    have : (8 : ℕ) • T = 0 := by rw [← hT]; exact addOrderOf_nsmul_eq_zero T
    exact_mod_cast this
  have hT0 : T ≠ 0 := by
    rintro rfl
    rw [addOrderOf_zero] at hT
    norm_num at hT
  have rJ := rep_canon (I' + T)
  refine ⟨canon (I' + T), rep_on rJ, ?_, ?_⟩
  · rw [Bool.eq_false_iff]
    intro he
    have := (pointEqual_iff rI rJ).mp he
    exact hT0 (by simpa using this.symm)
  · obtain ⟨a1, a2, a3⟩ := (C40_ring_accept_iff H pre I I' ps ps' sig rI rps hl).mp h
    refine (C40_ring_accept_iff H pre _ _ ps ps' sig rJ rps hl).mpr ⟨a1, a2, ?_⟩
    rw [ringData_torsion H I' T hT8 ps' sig h8]
    exact a3

/-! The hypotheses are met: a toy hash that is 1 on 32 bytes, 5 and 7 for the coefficients of a CLSAG, and a chosen number on everything else. -/

def forkH (k : ℕ) (d : Bytes) : Bytes :=
  UInt8.ofNat (if d.length = 32 then 1 else if d.take tagAgg0.length = tagAgg0 then 5 else if d.take tagAgg1.length = tagAgg1 then 7 else k) ::
    List.replicate 31 0

theorem fork_toy (k k' : ℕ) : Fork (forkH k) (forkH k') := fun d h => by rw [forkH, forkH, if_pos h, if_pos h]

/-- Secret 5, nonce 100, challenges 2 and 3. -/
example : checkSignature (forkH 2) [1] 2 90 (scalarmultB 5) = some true ∧ checkSignature (forkH 3) [1] 3 85 (scalarmultB 5) = some true ∧
    Rep (scalarmultB 5) ((5 : ℤ) • base) ∧
    (2 : ℤ) • (5 : ℤ) • base + (90 : ℤ) • base = (3 : ℤ) • (5 : ℤ) • base + (85 : ℤ) • base :=
  ⟨by decide +kernel, by decide +kernel, rep_B 5, by generalize base = B; module⟩

/-- A ring of two, the second member signs with secret 4. -/
example (pre : Bytes) (G : Point) (hG : G = hpt (forkH 3) (encPt ((4 : ℤ) • base))) :
    ringData (forkH 3) ((4 : ℤ) • G) [(3 : ℤ) • base, (4 : ℤ) • base] [(1, 2), (2, 92)] =
      ringData (forkH 4) ((4 : ℤ) • G) [(3 : ℤ) • base, (4 : ℤ) • base] [(1, 2), (3, 88)] := by
  rw [ringData_cons, ringData_cons, ringData_cons, ringData_cons, hp_fork (fork_toy 3 4), hp_fork (fork_toy 3 4), ← hG]
  have e1 : (2 : ℤ) • (4 : ℤ) • base + (92 : ℤ) • base = (3 : ℤ) • (4 : ℤ) • base + (88 : ℤ) • base := by generalize base = B; module
  have e2 : (92 : ℤ) • G + (2 : ℤ) • (4 : ℤ) • G = (88 : ℤ) • G + (3 : ℤ) • (4 : ℤ) • G := by module
  rw [e1, e2]
  simp [ringData]
example : let ps := [scalarmultB 3, scalarmultB 4]
    let I := keyImage (forkH 3) (encodePoint (scalarmultB 4)) 4
    checkRing (forkH 3) [1] I ps [(1, 2), (2, 92)] = some true ∧ checkRing (forkH 4) [1] I ps [(1, 2), (3, 88)] = some true ∧
      checkRing (forkH 3) [1] I ps [(1, 2), (3, 88)] = some false := by decide +kernel

/-- An MLSAG with two columns and one row, challenges 2 and 3 everywhere; images of secret 4. -/
example : let pk := [[scalarmultB 4], [scalarmultB 4]]
    let I := keyImage (forkH 2) (encodePoint (scalarmultB 4)) 4
    verMlsag (forkH 2) [1] pk ⟨[[92], [92]], 2, [I]⟩ 1 = some true ∧ verMlsag (forkH 3) [1] pk ⟨[[88], [88]], 3, [I]⟩ 1 = some true := by decide +kernel
example (G : Point) (hG : G = hpt (forkH 2) (encPt ((4 : ℤ) • base))) :
    colDs (forkH 2) 2 [(4 : ℤ) • base] [92] [(4 : ℤ) • G] ++ colPlain 2 [] [] =
      colDs (forkH 3) 3 [(4 : ℤ) • base] [88] [(4 : ℤ) • G] ++ colPlain 3 [] [] := by
  rw [colDs, colDs, hp_fork (fork_toy 2 3), ← hG]
  have e1 : (92 : ℤ) • base + (2 : ℤ) • (4 : ℤ) • base = (88 : ℤ) • base + (3 : ℤ) • (4 : ℤ) • base := by generalize base = B; module
  have e2 : (92 : ℤ) • G + (2 : ℤ) • (4 : ℤ) • G = (88 : ℤ) • G + (3 : ℤ) • (4 : ℤ) • G := by module
  rw [e1, e2]
  simp [colDs, colPlain]

/-- A CLSAG of one member with secret 4 and difference of masks 8: the combined secret is 5·4 + 7·8 = 76; D is an eighth of 8 times the hashed key. -/
example : let p := demoOut 4 18 1000
    let G := hp (forkH 2) p.dest
    verClsag (forkH 2) [1] [1000 - 2 * 76] 2 (smul G 4) G [p] (genC 10 1000) = some () ∧
      verClsag (forkH 3) [1] [1000 - 3 * 76] 3 (smul G 4) G [p] (genC 10 1000) = some () := by decide +kernel

/-- Range proofs of 64 zero bits, all with mask 1. -/
theorem range_toy : ∀ n j : ℕ, boroData (forkH 2) 2 (bitPairs j (List.replicate n base)) (List.replicate n 98) (List.replicate n 5) =
    boroData (forkH 3) 3 (bitPairs j (List.replicate n base)) (List.replicate n 97) (List.replicate n 5)
  | 0, _ => rfl
  | n + 1, j => by
    rw [List.replicate_succ, List.replicate_succ, List.replicate_succ, List.replicate_succ, bitPairs, boroData, boroData, range_toy n (j + 1)]
    have h : ∀ (k : ℕ) (p : Point), hs (forkH k) (encPt p) = 1 := fun k p => by
      rw [hs, forkH, if_pos (encPt_length p)]
      decide +kernel
    rw [h, h]
example : let Ci := List.replicate 64 (scalarmultB 1)
    verRange (forkH 2) (some (scalarmultB 64)) ⟨⟨List.replicate 64 98, List.replicate 64 5, 2⟩, Ci⟩ = some true ∧
      verRange (forkH 3) (some (scalarmultB 64)) ⟨⟨List.replicate 64 97, List.replicate 64 5, 3⟩, Ci⟩ = some true := by decide +kernel

theorem noCollision_toy : ∀ n : ℕ, NoCollision (forkH 2) 2 3 (List.replicate n base) (List.replicate n 98) (List.replicate n 97)
  | 0 => trivial
  | n + 1 => by
    rw [List.replicate_succ, List.replicate_succ, List.replicate_succ, NoCollision]
    exact ⟨fun _ => by generalize base = B; module, noCollision_toy n⟩
/-- The opening computed from them: 64 masks 1, amount 0. -/
example : openRange (forkH 2) 2 3 (List.replicate 64 (scalarmultB 1)) (List.replicate 64 98) (List.replicate 64 5) (List.replicate 64 97)
    (List.replicate 64 5) = (64, 0) := by decide +kernel
example : secretOf 2 90 3 85 = 5 ∧ firstOf 5 7 76 5 8 84 = 4 ∧ secondOf 5 7 76 5 8 84 = 8 := by decide +kernel

/-- A signature whose only challenge is eight. -/
example : let I := keyImage (forkH 8) (encodePoint (scalarmultB 4)) 4
    checkPoint I = true ∧ checkRing (forkH 8) [1] I [scalarmultB 4] [(8, 68)] = some true := by decide +kernel

end Verif.Sig

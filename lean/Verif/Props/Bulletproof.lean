import Verif.Lemmas.BpProve

/-!
C44, C45: Bulletproofs. `H` is Keccak-256; the challenges of a proof and the two equations are in Spec/Bulletproof.lean. A proof made of points of
the prime-order subgroup and of scalars is a `Pf`; `bytes` is its encoding.
-/

namespace Verif.Bp
open Verif Ed Key Sig Edwards

/-- The hash that is one everywhere; used to show that the hypotheses below can be met. -/
def oneH : Bytes → Bytes := fun _ => 1 :: List.replicate 31 0

theorem oneH_ne : ∀ d, Key.hs oneH d ≠ 0 := fun _ => by
  show (bitSum (1 :: List.replicate 31 0) 256 : ℤ) % l ≠ 0
  decide +kernel

/-- The amounts of a list as the prover gets them. -/
theorem amounts_bound {amounts : List ℕ} (h : ¬ amounts.any (fun a => 2 ^ 64 ≤ a) = true) :
    ∀ v ∈ amounts.map (fun a : ℕ => (a : ℤ)), 0 ≤ v ∧ v < 2 ^ 64 := by
  intro v hv
  obtain ⟨a, ha, rfl⟩ := List.mem_map.mp hv
  refine ⟨Int.natCast_nonneg _, ?_⟩
  by_contra hc
  exact h (List.any_eq_true.mpr ⟨a, ha, by rw [decide_eq_true_eq]; omega⟩)

/-- The prover's output in the group: both equations hold. -/
theorem C44_equations (H : Bytes → Bytes) (rnd : Rand) (hL : ∀ i, 0 ≤ rnd.sL i) (hR : ∀ i, 0 ≤ rnd.sR i) (amounts : List ℕ) (masks : List ℤ)
    (hlen : amounts.length = masks.length) (h32 : amounts.length ≤ 32) {π : Proof} (h : proveRangeBp H rnd amounts masks = some π)
    (hnz : Nonzero H π) : ∃ p : Pf Fl Sub, π = bytes p ∧ PreOk p ∧ StepOk H p ∧
      eq1 (gens H) (2 ^ logM p.V.length) (chs H π) p = 0 ∧ eq2 (gens H) (2 ^ logM p.V.length) (chs H π) p = 0 := by
  rw [proveRangeBp] at h
  split at h
  · simp at h
  rename_i hb
  have hl : (amounts.map fun a : ℕ => (a : ℤ)).length = amounts.length := List.length_map _
  obtain ⟨p, rfl, hV, hpre, hLl, -, -, heq⟩ := proveBatch_ok H rnd hL hR _ masks (by rw [hl, hlen]) (by rw [hl]; exact h32) (amounts_bound hb) h
  have hVl : p.V.length = amounts.length := by rw [hV, vPts, List.length_zipWith, hl, ← hlen, min_self]
  obtain ⟨e1, e2⟩ := heq hnz
  rw [hl] at hLl e1 e2
  refine ⟨p, rfl, hpre, ⟨by rw [hVl]; exact hLl, ?_, hnz⟩, by rw [hVl]; exact e1, by rw [hVl]; exact e2⟩
  rw [hVl]
  have := logM_ge h32
  omega

/-- C44: the proof produced for up to 32 amounts below 2^64 is accepted, whatever the weights the verifier draws. -/
theorem C44_complete (H : Bytes → Bytes) (rnd : Rand) (hL : ∀ i, 0 ≤ rnd.sL i) (hR : ∀ i, 0 ≤ rnd.sR i) (amounts : List ℕ) (masks : List ℤ)
    (hlen : amounts.length = masks.length) (h32 : amounts.length ≤ 32) {π : Proof} (h : proveRangeBp H rnd amounts masks = some π)
    (hnz : Nonzero H π) (wy wz : ℤ) : verify H π wy wz = some () := by
  obtain ⟨p, rfl, hpre, hok, e1, e2⟩ := C44_equations H rnd hL hR amounts masks hlen h32 h hnz
  refine (verifyBatch_enc H [p] true [(wy, wz)] rfl).mpr ⟨by simpa using ⟨hpre, hok⟩, ?_⟩
  rw [total, e1, e2, total]
  · simp
  · intros; simp_all

/-- C44: any number of such proofs is accepted as a batch, on the single and on the batched path. -/
theorem C44_batch (H : Bytes → Bytes) (πs : List Proof) (hπ : ∀ π ∈ πs, Nonzero H π ∧ ∃ (rnd : Rand) (amounts : List ℕ) (masks : List ℤ),
      (∀ i, 0 ≤ rnd.sL i) ∧ (∀ i, 0 ≤ rnd.sR i) ∧ amounts.length = masks.length ∧ amounts.length ≤ 32 ∧
      proveRangeBp H rnd amounts masks = some π) (singleOptim : Bool) (ws : List (ℤ × ℤ)) (hw : πs.length = ws.length) :
    verifyBatch H πs singleOptim ws = some () := by
  have hps : ∃ ps : List (Pf Fl Sub), πs = ps.map bytes ∧ ∀ p ∈ ps, (PreOk p ∧ StepOk H p) ∧
      eq1 (gens H) (2 ^ logM p.V.length) (chs H (bytes p)) p = 0 ∧ eq2 (gens H) (2 ^ logM p.V.length) (chs H (bytes p)) p = 0 := by
    clear hw
    induction πs with
    | nil => exact ⟨[], rfl, by simp⟩
    | cons π πs ih =>
      obtain ⟨ps, rfl, h⟩ := ih fun π hm => hπ π (List.mem_cons_of_mem _ hm)
      obtain ⟨hnz, rnd, am, ms, hL, hR, hlen, h32, hp⟩ := hπ π List.mem_cons_self
      obtain ⟨p, rfl, hpre, hok, e1, e2⟩ := C44_equations H rnd hL hR am ms hlen h32 hp hnz
      refine ⟨p :: ps, rfl, fun q hq => ?_⟩
      rcases List.mem_cons.mp hq with rfl | hq
      · exact ⟨⟨hpre, hok⟩, e1, e2⟩
      · exact h q hq
  obtain ⟨ps, rfl, h⟩ := hps
  rw [List.length_map] at hw
  refine (verifyBatch_enc H ps singleOptim ws hw).mpr ⟨fun p hp => (h p hp).1, ?_⟩
  clear hπ hw
  induction ps generalizing ws with
  | nil => rw [total]; intros; simp_all
  | cons p ps ih =>
    cases ws with
    | nil => rw [total]; intros; simp_all
    | cons w ws =>
      obtain ⟨e1, e2⟩ := (h p List.mem_cons_self).2
      rw [total, e1, e2, ih ws fun q hq => h q (List.mem_cons_of_mem _ hq)]
      simp

/-- C44: if no hash is zero modulo `l`, a proof is produced for every nonempty list of amounts below 2^64, and it is accepted. -/
theorem C44_produces (H : Bytes → Bytes) (h0 : ∀ d, Key.hs H d ≠ 0) (rnd : Rand) (hL : ∀ i, 0 ≤ rnd.sL i) (hR : ∀ i, 0 ≤ rnd.sR i)
    (amounts : List ℕ) (masks : List ℤ) (hne : amounts ≠ []) (hb : ∀ a ∈ amounts, a < 2 ^ 64) (hlen : amounts.length = masks.length)
    (h32 : amounts.length ≤ 32) : ∃ π, proveRangeBp H rnd amounts masks = some π ∧ ∀ wy wz, verify H π wy wz = some () := by
  have hany : ¬ amounts.any (fun a => 2 ^ 64 ≤ a) = true := by
    intro h
    obtain ⟨a, ha, h⟩ := List.any_eq_true.mp h
    rw [decide_eq_true_eq] at h
    exact absurd (hb a ha) (by omega)
  obtain ⟨π, hπ⟩ := proveBatch_some H h0 rnd hL hR (amounts.map fun a : ℕ => (a : ℤ)) masks (by rw [List.length_map, hlen])
    (by simpa using hne) fun v hv => (amounts_bound hany v hv).1
  have hp : proveRangeBp H rnd amounts masks = some π := by rw [proveRangeBp, if_neg hany, hπ]
  exact ⟨π, hp, fun wy wz => C44_complete H rnd hL hR amounts masks hlen h32 hp (nonzero_of H h0 π) wy wz⟩

example : ∃ π, proveRangeBp oneH ⟨3, 4, 5, 6, fun i => i, fun i => 2 * i⟩ [7, 2 ^ 64 - 1, 0] [11, 0, 13] = some π ∧
    ∀ wy wz, verify oneH π wy wz = some () :=
  C44_produces oneH oneH_ne _ (fun i => by simp) (fun i => by simp) _ _ (by simp) (by simp) rfl (by simp)

/-- C44: beyond the stored tables the generators are hashed from the base point `H`, the text "bulletproof" and the index; the two families use odd
and even indices. -/
theorem C44_generators (H : Bytes → Bytes) (i : ℕ) (hi : 256 ≤ i) :
    gGen H i = encPt (hpt H (H (xmrH ++ "bulletproof".toUTF8.toList ++ Varint.dumpNat (2 * i + 1)))) ∧
    hGen H i = encPt (hpt H (H (xmrH ++ "bulletproof".toUTF8.toList ++ Varint.dumpNat (2 * i)))) := by
  have e : "bulletproof".toUTF8.toList = [0x62, 0x75, 0x6c, 0x6c, 0x65, 0x74, 0x70, 0x72, 0x6f, 0x6f, 0x66] := by decide +kernel
  have hg : giPre[i]? = none := List.getElem?_eq_none (le_trans (by decide +kernel) hi)
  have hh : hiPre[i]? = none := List.getElem?_eq_none (le_trans (by decide +kernel) hi)
  rw [gGen, hGen, hg, hh, e]
  dsimp only
  rw [getExponent, getExponent, Nat.mul_comm i 2]
  exact ⟨encodePoint_rep (hpt_rep H _), encodePoint_rep (hpt_rep H _)⟩

example : 256 ≤ 64 * 32 - 1 := by norm_num

/-- C44: amounts of more than 64 bits, and lists of different lengths or without amounts, are refused. -/
theorem C44_refused (H : Bytes → Bytes) (rnd : Rand) (amounts : List ℕ) (masks : List ℤ)
    (h : (∃ a ∈ amounts, 2 ^ 64 ≤ a) ∨ amounts.length ≠ masks.length ∨ amounts = []) : proveRangeBp H rnd amounts masks = none := by
  rw [proveRangeBp]
  split
  · rfl
  rename_i hb
  rcases h with ⟨a, ha, h⟩ | h | rfl
  · exact absurd (List.any_eq_true.mpr ⟨a, ha, by rw [decide_eq_true_eq]; exact h⟩) hb
  · rw [proveBatch, if_pos (Or.inl (by rw [List.length_map]; exact h))]
  · rw [proveBatch, if_pos (Or.inr (by simp))]

example : ∃ a ∈ [5, 2 ^ 64], 2 ^ 64 ≤ a := ⟨2 ^ 64, by simp, le_rfl⟩

/-- C44: the commitments recomputed from the amounts and masks are those of the proof, so `verify_bp` with amounts and masks accepts as well. -/
theorem recomputeV_enc : ∀ (amounts : List ℕ) (masks : List ℤ), amounts.length = masks.length →
    recomputeV amounts masks = some ((vPts (amounts.map fun a : ℕ => (a : ℤ)) masks).map enc)
  | [], [], _ => by simp only [recomputeV, vPts, List.map_nil, List.zipWith_nil_left]
  | [], _ :: _, h => by simp at h
  | _ :: _, [], h => by simp at h
  | a :: as, m :: ms, h => by
    have e : encodePoint (smul (genC m a) (inv8 % l)) = enc ((inv8 : Fl) • ((m : Fl) • baseS + ((a : ℤ) : Fl) • hS)) := by
      have hg : Rep (genC m a) (((m : Fl) • baseS + ((a : ℤ) : Fl) • hS : Sub) : Point) := by
        rw [AddSubgroup.coe_add, coe_smul, coe_smul]; exact rep_genC m a
      rw [encode_rep (rep_smulS hg (emod_l_range inv8).1), cast_mod_l]
    rw [recomputeV, recomputeV_enc as ms (by simpa using h), Option.map_some, e, List.map_cons, vPts_cons, List.map_cons]

theorem C44_verify_bp (H : Bytes → Bytes) (rnd : Rand) (hL : ∀ i, 0 ≤ rnd.sL i) (hR : ∀ i, 0 ≤ rnd.sR i) (amounts : List ℕ) (masks : List ℤ)
    (hlen : amounts.length = masks.length) (h32 : amounts.length ≤ 32) {π : Proof} (h : proveRangeBp H rnd amounts masks = some π)
    (hnz : Nonzero H π) (wy wz : ℤ) (V : List Bytes) : verifyBp H { π with V := V } amounts masks wy wz = some () := by
  have hv := C44_complete H rnd hL hR amounts masks hlen h32 h hnz wy wz
  have hr := recomputeV_enc amounts masks hlen
  have hne : amounts ≠ [] := by rintro rfl; rw [C44_refused H rnd _ _ (Or.inr (Or.inr rfl))] at h; simp at h
  rw [proveRangeBp] at h
  split at h
  · simp at h
  rename_i hb
  have hl : (amounts.map fun a : ℕ => (a : ℤ)).length = amounts.length := List.length_map _
  obtain ⟨p, rfl, hV, -⟩ := proveBatch_ok H rnd hL hR _ masks (by rw [hl, hlen]) (by rw [hl]; exact h32) (amounts_bound hb) h
  rw [verifyBp, if_neg hne, hr, ← hV]
  exact hv

/-! ## What acceptance means -/

/-- C44: a batch of encoded proofs is accepted exactly if every proof has the right sizes and nonzero challenges and the weighted sum of all the
equations vanishes. -/
theorem C44_accept_iff (H : Bytes → Bytes) (ps : List (Pf Fl Sub)) (singleOptim : Bool) (ws : List (ℤ × ℤ)) (hw : ps.length = ws.length) :
    verifyBatch H (ps.map bytes) singleOptim ws = some () ↔
      (∀ p ∈ ps, (p.V ≠ [] ∧ p.L.length = p.R.length ∧ p.L ≠ []) ∧
        (p.L.length = 6 + logM p.V.length ∧ p.V.length ≤ 2 ^ logM p.V.length + 1 ∧ Nonzero H (bytes p))) ∧
      ((ps.zip ws).map fun t => (t.2.1 : Fl) • eq1 (gens H) (2 ^ logM t.1.V.length) (chs H (bytes t.1)) t.1 +
        (t.2.2 : Fl) • eq2 (gens H) (2 ^ logM t.1.V.length) (chs H (bytes t.1)) t.1).sum = 0 := by
  have e : ∀ (ps : List (Pf Fl Sub)) (ws : List (ℤ × ℤ)), total H ps ws =
      ((ps.zip ws).map fun t => (t.2.1 : Fl) • eq1 (gens H) (2 ^ logM t.1.V.length) (chs H (bytes t.1)) t.1 +
        (t.2.2 : Fl) • eq2 (gens H) (2 ^ logM t.1.V.length) (chs H (bytes t.1)) t.1).sum := by
    intro ps
    induction ps with
    | nil => intro ws; rw [total]; · rfl
             intros; simp_all
    | cons p ps ih =>
      intro ws
      cases ws with
      | nil => rw [total]; · rfl
               intros; simp_all
      | cons w ws => rw [total, ih ws, List.zip_cons_cons, List.map_cons, List.sum_cons]
  rw [verifyBatch_enc H ps singleOptim ws hw, e]
  rfl

/-- C44: a single encoded proof that violates one of its equations passes for at most one first weight (modulo `l`) if it violates the first, and
otherwise only for a zero second weight. -/
theorem C44_weights (H : Bytes → Bytes) (p : Pf Fl Sub) :
    (eq1 (gens H) (2 ^ logM p.V.length) (chs H (bytes p)) p ≠ 0 →
      ∀ wy wy' wz, verify H (bytes p) wy wz = some () → verify H (bytes p) wy' wz = some () → wy % l = wy' % l) ∧
    (eq1 (gens H) (2 ^ logM p.V.length) (chs H (bytes p)) p = 0 → eq2 (gens H) (2 ^ logM p.V.length) (chs H (bytes p)) p ≠ 0 →
      ∀ wy wz, verify H (bytes p) wy wz = some () → wz % l = 0) := by
  have hv : ∀ wy wz, verify H (bytes p) wy wz = some () → (wy : Fl) • eq1 (gens H) (2 ^ logM p.V.length) (chs H (bytes p)) p +
      (wz : Fl) • eq2 (gens H) (2 ^ logM p.V.length) (chs H (bytes p)) p = 0 := by
    intro wy wz h
    have := ((C44_accept_iff H [p] true [(wy, wz)] rfl).mp h).2
    simpa using this
  have hcast : ∀ a b : ℤ, (a : Fl) = b → a % l = b % l := fun a b h =>
    eq_l (emod_l_range a) (emod_l_range b) (by rw [cast_mod_l, cast_mod_l, h])
  constructor
  · intro h1 wy wy' wz ha hb
    have e := hv wy wz ha
    rw [← hv wy' wz hb, add_left_inj, ← sub_eq_zero, ← sub_smul, smul_eq_zero] at e
    exact hcast _ _ (sub_eq_zero.mp (e.resolve_right h1))
  · intro h1 h2 wy wz ha
    have e := hv wy wz ha
    rw [h1, smul_zero, zero_add, smul_eq_zero] at e
    have := hcast wz 0 (by rw [e.resolve_right h2, Int.cast_zero])
    rwa [Int.zero_emod] at this

/-! ## What is checked of arbitrary bytes -/

theorem reduced_spec {s : Bytes} {v : ℤ} (h : reduced s = some v) : encodeInt v = s := by
  rw [reduced, Option.bind_eq_some_iff] at h
  obtain ⟨w, -, h⟩ := h
  split at h
  · rename_i e; rw [← Option.some.inj h]; exact e
  · simp at h

theorem reduced_range {s : Bytes} {v : ℤ} (h : reduced s = some v) : 0 ≤ v ∧ v < l := by
  rw [reduced, Option.bind_eq_some_iff] at h
  obtain ⟨w, hw, h⟩ := h
  split at h
  · rw [← Option.some.inj h]
    rw [decodeScalar, Option.map_eq_some_iff] at hw
    obtain ⟨n, -, rfl⟩ := hw
    exact emod_l_range _
  · simp at h

/-- The bytes are the encoding of a number below `l`. -/
def Canonical (s : Bytes) : Prop := ∃ v, 0 ≤ v ∧ v < l ∧ encodeInt v = s

theorem canonical_of {s : Bytes} {v : ℤ} (h : reduced s = some v) : Canonical s := ⟨v, (reduced_range h).1, (reduced_range h).2, reduced_spec h⟩

theorem precheck_ok {p : Proof} {s : Scalars} (h : precheck p = some s) : Canonical p.taux ∧ Canonical p.mu ∧ Canonical p.a ∧ Canonical p.b ∧
    Canonical p.t ∧ p.V ≠ [] ∧ p.L.length = p.R.length := by
  unfold precheck at h
  simp only [Option.bind_eq_bind, Option.bind_eq_some_iff] at h
  obtain ⟨_, h1, _, h2, _, h3, _, h4, _, h5, h⟩ := h
  refine ⟨canonical_of h1, canonical_of h2, canonical_of h3, canonical_of h4, canonical_of h5, ?_, ?_⟩
  · rintro hV
    rw [hV, if_pos (by simp)] at h
    simp at h
  · by_contra hc
    rw [if_pos hc] at h
    split at h <;> simp at h

theorem prechecks_ok : ∀ (ps : List Proof) (ss : List Scalars), ps.mapM precheck = some ss → ps.length = ss.length ∧ ∀ p ∈ ps, ∃ s, precheck p = some s
  | [], ss, h => by
    simp at h
    subst h
    simp
  | p :: ps, ss, h => by
    rw [List.mapM_cons] at h
    simp only [Option.bind_eq_bind, Option.bind_eq_some_iff] at h
    obtain ⟨s, hs, ss', hss, h⟩ := h
    obtain ⟨hl, hm⟩ := prechecks_ok ps ss' hss
    rw [← Option.some.inj h]
    refine ⟨by simp [hl], fun x hx => ?_⟩
    rcases List.mem_cons.mp hx with rfl | hx
    · exact ⟨s, hs⟩
    · exact hm x hx

theorem verifyStep_ok {H : Bytes → Bytes} {single : Bool} {p : Proof} {s : Scalars} {wy wz : ℤ} {g g' : Agg} (hLR : p.L.length = p.R.length)
    (h : verifyStep H single p s wy wz g = some g') :
    p.L.length = 6 + logM p.V.length ∧ p.V.length ≤ 2 ^ logM p.V.length + 1 ∧ Nonzero H p := by
  rw [verifyStep] at h
  split at h
  · simp at h
  rename_i hL
  dsimp only at h
  rw [chY_mash] at h
  split at h
  · simp at h
  rename_i hy
  rw [show Key.hs H (encodeInt (chY H p)) = chZ H p from rfl] at h
  split at h
  · simp at h
  rename_i hz
  rw [chX_mash] at h
  split at h
  · simp at h
  rename_i hx
  rw [chXip_mash] at h
  split at h
  · simp at h
  rename_i hxip
  split at h
  · simp at h
  rename_i hV
  simp only [Option.bind_eq_bind, Option.bind_eq_some_iff] at h
  obtain ⟨_, -, _, -, ws, hws, -⟩ := h
  rw [roundChallenges_eq H _ _ _ hLR] at hws
  split at hws
  · rename_i hw
    exact ⟨by omega, by omega, hy, hz, hx, hxip, hw⟩
  · simp at hws

theorem verifyLoop_all {H : Bytes → Bytes} {single : Bool} : ∀ (ps : List (Proof × Scalars)) (ws : List (ℤ × ℤ)) (g g' : Agg),
    (∀ p ∈ ps, p.1.L.length = p.1.R.length) → verifyLoop H single ps ws g = some g' →
    ∀ p ∈ ps, p.1.L.length = 6 + logM p.1.V.length ∧ p.1.V.length ≤ 2 ^ logM p.1.V.length + 1 ∧ Nonzero H p.1
  | [], _, _, _, _, _, p, hp => by simp at hp
  | _ :: _, [], _, _, _, h, _, _ => by simp [verifyLoop] at h
  | (q, s) :: ps, (wy, wz) :: ws, g, g', hLR, h, p, hp => by
    rw [verifyLoop] at h
    split at h
    · rename_i g1 h1
      rcases List.mem_cons.mp hp with rfl | hp
      · exact verifyStep_ok (hLR _ List.mem_cons_self) h1
      · exact verifyLoop_all ps ws g1 g' (fun x hx => hLR x (List.mem_cons_of_mem _ hx)) h p hp
    · simp at h

/-- C44: whatever bytes they consist of, the proofs of an accepted batch have canonical scalars, the number of rounds for the number of
commitments, at most 33 commitments, and no zero challenge. -/
theorem C44_checks (H : Bytes → Bytes) (πs : List Proof) (singleOptim : Bool) (ws : List (ℤ × ℤ)) (h : verifyBatch H πs singleOptim ws = some ()) :
    ∀ π ∈ πs, (Canonical π.taux ∧ Canonical π.mu ∧ Canonical π.a ∧ Canonical π.b ∧ Canonical π.t) ∧ π.V ≠ [] ∧
      π.L.length = 6 + logM π.V.length ∧ π.R.length = π.L.length ∧ π.V.length ≤ 2 ^ logM π.V.length + 1 ∧ Nonzero H π := by
  intro π hπ
  unfold verifyBatch at h
  simp only [Option.bind_eq_bind, Option.bind_eq_some_iff] at h
  obtain ⟨ss, hss, h⟩ := h
  obtain ⟨hl, hm⟩ := prechecks_ok πs ss hss
  split at h
  · simp at h
  simp only [Option.bind_eq_some_iff] at h
  obtain ⟨g, hg, -⟩ := h
  have hpre : ∀ π ∈ πs, Canonical π.taux ∧ Canonical π.mu ∧ Canonical π.a ∧ Canonical π.b ∧ Canonical π.t ∧ π.V ≠ [] ∧ π.L.length = π.R.length :=
    fun π hπ => precheck_ok (hm π hπ).choose_spec
  obtain ⟨i, hi, rfl⟩ := List.mem_iff_getElem.mp hπ
  have hz : (πs[i], ss[i]'(by omega)) ∈ πs.zip ss := by
    rw [List.mem_iff_getElem]
    exact ⟨i, by rw [List.length_zip]; omega, List.getElem_zip⟩
  have := verifyLoop_all _ ws _ g (fun p hp => (hpre p.1 (List.of_mem_zip hp).1).2.2.2.2.2.2) hg _ hz
  obtain ⟨c1, c2, c3, c4, c5, c6, c7⟩ := hpre _ hπ
  exact ⟨⟨c1, c2, c3, c4, c5⟩, c6, this.1, c7.symm, this.2.1, this.2.2⟩

example : ∃ π, verifyBatch oneH [π] true [(3, 4)] = some () := by
  obtain ⟨π, -, h⟩ := C44_produces oneH oneH_ne ⟨3, 4, 5, 6, fun i => i, fun i => 2 * i⟩ (fun i => by simp) (fun i => by simp) [7] [11] (by simp) (by simp)
    rfl (by simp)
  exact ⟨π, h 3 4⟩

/-! ## Blinding -/

/-- What anyone can compute from a proof for one amount and the number of scalars drawn before it. -/
def recoverMask (H : Bytes → Bytes) (n : ℕ) (π : Proof) : Option ℤ :=
  (reduced π.taux).map fun taux =>
    scMul (scSub (scSub taux (scMul (prngAt H (List.replicate 32 0) (n + 2)) (chX H π)))
      (scMul (prngAt H (List.replicate 32 0) (n + 3)) (scMul (chX H π) (chX H π)))) (scInv (scMul (chZ H π) (chZ H π)))

theorem processRand_nn (H : Bytes → Bytes) (n : ℕ) : (∀ i, 0 ≤ (processRand H n).sL i) ∧ ∀ i, 0 ≤ (processRand H n).sR i :=
  ⟨fun _ => (hs_range H _).1, fun _ => (hs_range H _).1⟩

theorem taux_single (H : Bytes → Bytes) (rnd : Rand) (hL : ∀ i, 0 ≤ rnd.sL i) (hR : ∀ i, 0 ≤ rnd.sR i) (a : ℕ) (mask : ℤ) {π : Proof}
    (h : proveRangeBp H rnd [a] [mask] = some π) : ∃ taux : Fl, π.taux = encodeInt (num taux) ∧
      taux = (rnd.tau1 : Fl) * (chX H π : ℤ) + (rnd.tau2 : Fl) * ((chX H π : ℤ) : Fl) ^ 2 + ((chZ H π : ℤ) : Fl) ^ 2 * mask := by
  rw [proveRangeBp] at h
  split at h
  · simp at h
  rename_i hb
  obtain ⟨p, rfl, -, -, -, ht, -, -⟩ := proveBatch_ok H rnd hL hR ([a].map fun a : ℕ => (a : ℤ)) [mask] rfl (by simp) (amounts_bound hb) h
  refine ⟨p.taux, rfl, ?_⟩
  rw [ht, poly, poly, add_zero]
  rfl

theorem recover_algebra {z : Fl} (hz : z ≠ 0) (u v x m : Fl) : (u * x + v * x ^ 2 + z ^ 2 * m - u * x - v * (x * x)) * (z * z)⁻¹ = m := by
  rw [← div_eq_mul_inv, div_eq_iff (mul_ne_zero hz hz)]
  ring

/-- C45 is false: the blinding of the proofs the program makes comes from constant seeds, and the mask of the commitment of a proof for one amount
is computed from the proof alone. -/
theorem C45_false_mask (H : Bytes → Bytes) (n a : ℕ) (mask : ℤ) (hm : 0 ≤ mask ∧ mask < l) {π : Proof}
    (h : proveRangeBp H (processRand H n) [a] [mask] = some π) (hnz : Nonzero H π) : recoverMask H n π = some mask := by
  obtain ⟨taux, ht, e⟩ := taux_single H (processRand H n) (processRand_nn H n).1 (processRand_nn H n).2 a mask h
  have hz0 : ((chZ H π : ℤ) : Fl) ≠ 0 := (cast_ne_zero (hs_range H _)).mpr hnz.2.1
  rw [recoverMask, ht, reduced_num, Option.map_some]
  refine congrArg some (eq_l (emod_l_range (_ * _)) hm ?_)
  rw [show (processRand H n).tau1 = prngAt H (List.replicate 32 0) (n + 2) from rfl,
    show (processRand H n).tau2 = prngAt H (List.replicate 32 0) (n + 3) from rfl] at e
  rw [← recover_algebra hz0 (prngAt H (List.replicate 32 0) (n + 2) : ℤ) (prngAt H (List.replicate 32 0) (n + 3) : ℤ) (chX H π : ℤ) mask, ← e]
  rw [cast_scMul, cast_scSub, cast_scSub, cast_scInv, cast_scMul, cast_scMul, cast_scMul, cast_scMul, cast_num]

example : ∃ π, proveRangeBp oneH (processRand oneH 8) [1000] [12345] = some π ∧ recoverMask oneH 8 π = some 12345 := by
  obtain ⟨π, h, -⟩ := C44_produces oneH oneH_ne (processRand oneH 8) (processRand_nn oneH 8).1 (processRand_nn oneH 8).2 [1000] [12345] (by simp) (by simp)
    rfl (by simp)
  exact ⟨π, h, C45_false_mask oneH 8 1000 12345 ⟨by norm_num, by decide⟩ h (nonzero_of oneH oneH_ne π)⟩

/-- C45 is false: the commitment to the bits of the amounts is a function of the amounts, so a guess of the amounts can be tested: two proofs made at
the same point of the random stream have the same `A` whatever the masks, if the amounts are the same. -/
theorem C45_false_guess (H : Bytes → Bytes) (n : ℕ) (amounts : List ℕ) (masks masks' : List ℤ) {π π' : Proof}
    (h : proveRangeBp H (processRand H n) amounts masks = some π) (h' : proveRangeBp H (processRand H n) amounts masks' = some π') :
    π.A = π'.A ∧ π.S = π'.S := by
  have key : ∀ masks π, proveRangeBp H (processRand H n) amounts masks = some π →
      vecCommit ((List.range (2 ^ logM amounts.length * 64)).map (gGen H)) ((List.range (2 ^ logM amounts.length * 64)).map (hGen H))
        ((List.range (2 ^ logM amounts.length * 64)).map (aLAt (amounts.map fun a : ℕ => (a : ℤ))))
        ((List.range (2 ^ logM amounts.length * 64)).map (aRAt (amounts.map fun a : ℕ => (a : ℤ)))) (processRand H n).alpha = some π.A ∧
      vecCommit ((List.range (2 ^ logM amounts.length * 64)).map (gGen H)) ((List.range (2 ^ logM amounts.length * 64)).map (hGen H))
        ((List.range (2 ^ logM amounts.length * 64)).map (processRand H n).sL)
        ((List.range (2 ^ logM amounts.length * 64)).map (processRand H n).sR) (processRand H n).rho = some π.S := by
    intro masks π h
    rw [proveRangeBp] at h
    split at h
    · simp at h
    rw [proveBatch] at h
    split at h
    · simp at h
    dsimp only at h
    rw [List.length_map] at h
    simp only [Option.bind_eq_bind, Option.bind_eq_some_iff] at h
    obtain ⟨V, -, A, hA, S, hS, h⟩ := h
    rw [hA, hS]
    split at h
    · simp at h
    split at h
    · simp at h
    simp only [Option.bind_eq_some_iff] at h
    obtain ⟨T1, -, T2, -, h⟩ := h
    split at h
    · simp at h
    simp only [Option.bind_eq_some_iff] at h
    obtain ⟨H', -, r, -, h⟩ := h
    rw [← Option.some.inj h]
    exact ⟨rfl, rfl⟩
  obtain ⟨a, s⟩ := key _ _ h
  obtain ⟨a', s'⟩ := key _ _ h'
  exact ⟨Option.some.inj (a.symm.trans a'), Option.some.inj (s.symm.trans s')⟩

end Verif.Bp

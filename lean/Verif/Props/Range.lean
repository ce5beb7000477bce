import Verif.Lemmas.Borromean
import Verif.Spec.KeysDemo

/-! C41: Borromean signatures and range proofs. -/

namespace Verif.Sig
open Verif Ed Key Edwards

attribute [local irreducible] hPow hPt bitIns masks chunkFirst verSums ident add

/-- C41. For every list of bits, with commitments on the curve of which the one selected by the bit is `x·G`, and all random scalars, the
produced signature is accepted. -/
theorem C41_borromean (H : Bytes → Bytes) (ins : List BitIn) (hon : ∀ b ∈ ins, checkPoint b.P1 = true ∧ checkPoint b.P2 = true)
    (hopen : ∀ b ∈ ins, if b.bit = 0 then pointEqual b.P1 (scalarmultB b.x) = true else pointEqual b.P2 (scalarmultB b.x) = true) :
    verBorromean H (ins.map (·.P1)) (ins.map (·.P2)) (genBorromean H ins).s0 (genBorromean H ins).s1 (genBorromean H ins).ee = some true := by
  apply boro_complete
  intro b hb
  obtain ⟨h1, h2⟩ := hon b hb
  obtain ⟨p1, r1⟩ := (isOnCurve_iff _).mp h1
  obtain ⟨p2, r2⟩ := (isOnCurve_iff _).mp h2
  refine ⟨p1, p2, r1, r2, ?_, ?_⟩
  · intro h0
    have := hopen b hb
    rw [if_pos h0] at this
    exact (pointEqual_iff r1 (rep_B _)).mp this
  · intro h0
    have := hopen b hb
    rw [if_neg h0] at this
    exact (pointEqual_iff r2 (rep_B _)).mp this

/-- C41. Acceptance means that the challenge is the hash of the recomputed commitments of all bits, see `BoroValid`. -/
theorem C41_accept_iff (H : Bytes → Bytes) (ps : List (Point × Point)) (P1 P2 : List Ext) (h1 : List.Forall₂ Rep P1 (ps.map (·.1)))
    (h2 : List.Forall₂ Rep P2 (ps.map (·.2))) (s0 s1 : List ℤ) (ee : ℤ) (hee : 0 ≤ ee) :
    verBorromean H P1 P2 s0 s1 ee = some true ↔ BoroValid H ps s0 s1 ee := by
  unfold verBorromean BoroValid
  rw [boroCheck_rep H hee ps P1 P2 h1 h2 s0 s1]
  split
  · rename_i h
    simp only [Option.map_some, Option.some.injEq, beq_iff_eq]
    exact ⟨fun e => ⟨h.1, h.2, e.symm⟩, fun e => e.2.2.symm⟩
  · rename_i h
    simp only [Option.map_none]
    exact ⟨fun e => by simp at e, fun e => absurd ⟨e.1, e.2.1⟩ h⟩

theorem orig_facts (H : Bytes → Bytes) (amount : ℕ) (last : Option ℤ) (rnd : List BitRnd) (hn : rnd.length = 64) (bb : List ℕ) (hb : bb.length = 64)
    (hb1 : ∀ b ∈ bb, b ≤ 1) (hv : bitsVal bb = amount) :
    let m := masks last (rnd.map (·.ai)) 0
    let ins := bitIns m.1 bb (hPow 64 hPt) rnd
    ins.length = 64 ∧ (∀ b ∈ ins, ∃ p1 p2, BitOk b p1 p2) ∧ Rep ((ins.map (·.P1)).foldl add ident) (m.2 • base + (amount : ℤ) • hBase) := by
  intro m ins
  have hm : m.1.length = 64 := by rw [masks_length]; simp [hn]
  obtain ⟨e1, e2, e3⟩ := bitIns_spec m.1 bb rnd 64 hPt hBase hm hb hn rep_hBase hb1
  refine ⟨e1, e2, ?_⟩
  have := e3 ident 0 rep_ident
  rw [zero_add, hv] at this
  rw [masks_sum last l_base, zero_smul, zero_add]
  exact this

/-- C41. The range proof of every amount below 2^64, for all random scalars, with or without a prescribed total mask: the proof is accepted for
the returned commitment, the commitment is `a·G + amount·H` for the returned mask, and the mask is the prescribed one if there is one. -/
theorem C41_range (H : Bytes → Bytes) (amount : ℕ) (ha : amount < 2 ^ 64) (last : Option ℤ) (rnd : List BitRnd) (hn : rnd.length = 64) :
    ∃ C a r, proveRangeOrig H amount last rnd = some (C, a, r) ∧ verRange H (some C) r = some true ∧ checkPoint C = true ∧
      pointEqual C (genC a amount) = true ∧ Reduced a ∧ ∀ m, last = some m → a = m % l := by
  obtain ⟨bb, hd, hb, hv, hb1⟩ := d2bLoop_some 64 amount ha
  obtain ⟨e1, e2, e3⟩ := orig_facts H amount last rnd hn bb hb hb1 hv
  have hm : (masks last (rnd.map (·.ai)) 0).1.length = 64 := by rw [masks_length]; simp [hn]
  have hvs := verSums_bitIns (masks last (rnd.map (·.ai)) 0).1 bb rnd 64 hPt ident hm hb hn
  refine ⟨_, _, _, by unfold proveRangeOrig d2b; rw [hd], ?_, ?_, ?_, ?_, ?_⟩
  · unfold verRange
    dsimp only
    rw [if_neg (by simp [e1]), hvs]
    dsimp only
    rw [pointEq, if_pos (show isOnCurve _ = true from rep_on e3), (pointEqual_iff e3 e3).mpr rfl]
    exact boro_complete H _ e2
  · exact rep_on e3
  · exact (pointEqual_iff e3 (rep_genC _ _)).mpr rfl
  · exact masks_range last _ 0 ⟨le_refl _, l_pos⟩
  · rintro m rfl
    refine masks_last m _ 0 ?_
    intro h
    have := congrArg List.length h
    simp [hn] at this

/-- C41. The memory saving variant returns exactly the same, for the same random scalars. -/
theorem C41_mem_same (H : Bytes → Bytes) (amount : ℕ) (last : Option ℤ) (rnd : List BitRnd) (hn : rnd.length = 64) :
    proveRangeMem H amount last rnd = proveRangeOrig H amount last rnd := by
  by_cases ha : amount < 2 ^ 64
  · obtain ⟨bb, hd, hb, -, -⟩ := d2bLoop_some 64 amount ha
    have hm : (masks last (rnd.map (·.ai)) 0).1.length = 64 := by rw [masks_length]; simp [hn]
    obtain ⟨e1, e2, e3, e4, e5⟩ := memFirst_eq H last bb rnd 64 ⟨0, ident, hPt, [], [], []⟩ hb hn _ rfl _ rfl
    simp only [List.nil_append] at e1 e2 e3 e4 e5
    unfold proveRangeMem proveRangeOrig d2b
    rw [hd]
    dsimp only
    rw [e1, e2, e3, e4, e5, memSecond_eq H _ _ _ _ 64 hPt hm hb hn]
    rfl
  · unfold proveRangeMem proveRangeOrig d2b
    rw [d2bLoop_none 64 amount (by omega)]

/-- C41. Amounts that do not fit raise. -/
theorem C41_too_large (H : Bytes → Bytes) (amount : ℕ) (ha : 2 ^ 64 ≤ amount) (last : Option ℤ) (rnd : List BitRnd) :
    proveRangeOrig H amount last rnd = none ∧ proveRangeMem H amount last rnd = none := by
  unfold proveRangeMem proveRangeOrig d2b
  rw [d2bLoop_none 64 amount ha]
  exact ⟨rfl, rfl⟩

/-- C41. The chunked variant returns, for the same random scalars, byte for byte the encoded proof of the others — but for the amount modulo
2^64, without complaint. -/
theorem C41_chunked (H : Bytes → Bytes) (amount : ℕ) (last : Option ℤ) (rnd : List BitRnd) (hn : rnd.length = 64)
    (hr : ∀ r ∈ rnd, Reduced r.ai ∧ Reduced r.alpha) :
    ∃ C C' a r, proveRangeOrig H (amount % 2 ^ 64) last rnd = some (C, a, r) ∧
      proveRangeChunked H amount last rnd = some (C', a, encodeRangeSig r) ∧ checkPoint C' = true ∧ pointEqual C' C = true := by
  have hd : d2bLoop 64 (amount % 2 ^ 64) = some (shiftBits amount 0 64) := by
    have := shiftBits_d2b amount 64 0
    rwa [Nat.shiftRight_zero] at this
  obtain ⟨bb, hd', hb, hv, hb1⟩ := d2bLoop_some 64 (amount % 2 ^ 64) (Nat.mod_lt _ (by norm_num))
  rw [hd] at hd'
  obtain rfl := Option.some.inj hd'
  have hm : (masks last (rnd.map (·.ai)) 0).1.length = 64 := by rw [masks_length]; simp [hn]
  obtain ⟨e1, e2, e3, e4, e5, e6, e7⟩ := chunkFirst_eq H amount last 0 rnd 64 ⟨0, ident, hPt, [], [], [], [], []⟩ hn (by norm_num) hBase
    rep_hBase _ rfl _ rfl
  simp only [List.nil_append] at e1 e2 e3 e4 e5 e6 e7
  obtain ⟨q, r1, r2⟩ := e2 ident 0 rep_ident rep_ident
  refine ⟨_, (chunkFirst H amount last 0 rnd ⟨0, ident, hPt, [], [], [], [], []⟩).C, _, _, by unfold proveRangeOrig d2b; rw [hd], ?_,
    rep_on r1, (pointEqual_iff r1 r2).mpr rfl⟩
  unfold proveRangeChunked
  dsimp only
  rw [e1, e3, e4, e5, e6, e7, chunkSecond_eq H amount (hs_range _ _).1 _ 0 rnd 64 hPt hBase hm hn rep_hBase
    (masks_mem_range last _ _ (by simpa using fun r hr' => (hr r hr').1)) (fun r hr' => (hr r hr').2)]
  simp only [Option.map_some, encodeRangeSig, genBorromean, List.map_map]
  rfl

/-- C41. In particular the chunked variant silently proves a different amount when the amount does not fit: the commitment it returns for
2^64 + v is one to v. -/
theorem C41_chunked_truncates (H : Bytes → Bytes) (v : ℕ) (hv : v < 2 ^ 64) (last : Option ℤ) (rnd : List BitRnd) (hn : rnd.length = 64)
    (hr : ∀ r ∈ rnd, Reduced r.ai ∧ Reduced r.alpha) :
    ∃ C a rb, proveRangeChunked H (2 ^ 64 + v) last rnd = some (C, a, rb) ∧ pointEqual C (genC a v) = true := by
  obtain ⟨C, C', a, r, h1, h2, h3, h4⟩ := C41_chunked H (2 ^ 64 + v) last rnd hn hr
  rw [Nat.add_mod_left, Nat.mod_eq_of_lt hv] at h1
  obtain ⟨C1, a1, r1, g1, -, g2, g3, -⟩ := C41_range H v hv last rnd hn
  rw [g1] at h1
  have q1 : C1 = C := congrArg (fun x => x.1) (Option.some.inj h1)
  have q2 : a1 = a := congrArg (fun x => x.2.1) (Option.some.inj h1)
  rw [q1] at g2 g3
  rw [q2] at g3
  obtain ⟨c, rC⟩ := (isOnCurve_iff _).mp g2
  obtain ⟨c', rC'⟩ := (isOnCurve_iff _).mp h3
  exact ⟨C', a, _, h2, (pointEqual_iff rC' (rep_genC _ _)).mpr
    (((pointEqual_iff rC' rC).mp h4).trans ((pointEqual_iff rC (rep_genC _ _)).mp g3))⟩

/-! ## On the wire -/

theorem mapM_scalars (xs : List ℤ) (h : ∀ x ∈ xs, Reduced x) : (xs.map encodeInt).mapM decodeScalar = some xs := by
  induction xs with
  | nil => rfl
  | cons x xs ih =>
    have := h x (by simp)
    rw [List.map_cons, List.mapM_cons, C35_scalar_roundtrip x this.1 this.2, ih (fun y hy => h y (by simp [hy]))]
    rfl

theorem mapM_points {Ps : List Ext} {ps : List Point} (h : List.Forall₂ Rep Ps ps) : (Ps.map encodePoint).mapM decodePoint = some (ps.map canon) := by
  induction h with
  | nil => rfl
  | cons hP _ ih =>
    rw [List.map_cons, List.mapM_cons, encodePoint_rep hP, decode_encPt, ih]
    rfl

/-- `c_i - 2^i·h`. -/
noncomputable def diffs : List Point → Point → List Point
  | [], _ => []
  | c :: cs, h => (c - h) :: diffs cs (h + h)

theorem diffs_length : ∀ (cs : List Point) (h : Point), (diffs cs h).length = cs.length
  | [], _ => rfl
  | c :: cs, h => by rw [diffs, List.length_cons, diffs_length cs, List.length_cons]

theorem verSums_rep {Cs : List Ext} {cs : List Point} (h : List.Forall₂ Rep Cs cs) : ∀ (P acc : Ext) (p q : Point), Rep P p → Rep acc q →
    Reps (verSums Cs (hPow Cs.length P) acc).1 (diffs cs p) ∧ Rep (verSums Cs (hPow Cs.length P) acc).2 (q + cs.sum) := by
  induction h with
  | nil =>
    intro P acc p q _ hq
    rw [verSums.eq_def]
    exact ⟨.nil, by simpa using hq⟩
  | cons hC _ ih =>
    intro P acc p q hp hq
    obtain ⟨e1, e2⟩ := ih (add P P) (add acc _) (p + p) _ (rep_add hp hp) (rep_add hq hC)
    rw [List.length_cons, hPow, verSums]
    refine ⟨.cons (rep_sub hC hp) e1, ?_⟩
    rw [List.sum_cons, ← add_assoc]
    exact e2

/-- The verdict depends on the points only, not on their coordinates. -/
theorem verRange_congr (H : Bytes → Bytes) (C : Ext) {c : Point} (hC : Rep C c) (r r' : RangeSig) (cs : List Point) (h1 : Reps r.Ci cs)
    (h2 : Reps r'.Ci cs) (hl : cs.length = 64) (ha : r.asig = r'.asig) (hee : 0 ≤ r.asig.ee) : verRange H (some C) r = verRange H (some C) r' := by
  have l1 : r.Ci.length = 64 := by rw [h1.length_eq, hl]
  have l2 : r'.Ci.length = 64 := by rw [h2.length_eq, hl]
  obtain ⟨a1, a2⟩ := verSums_rep h1 hPt ident hBase 0 rep_hBase rep_ident
  obtain ⟨b1, b2⟩ := verSums_rep h2 hPt ident hBase 0 rep_hBase rep_ident
  rw [l1] at a1 a2
  rw [l2] at b1 b2
  unfold verRange
  rw [if_neg (by omega), if_neg (by omega)]
  dsimp only
  rw [pointEq, pointEq, if_pos (show isOnCurve _ = true from rep_on a2), if_pos (show isOnCurve _ = true from rep_on b2)]
  have : pointEqual (verSums r.Ci (hPow 64 hPt) ident).2 C = pointEqual (verSums r'.Ci (hPow 64 hPt) ident).2 C := by
    rw [Bool.eq_iff_iff, pointEqual_iff a2 hC, pointEqual_iff b2 hC]
  rw [this]
  have hz1 : (cs.zip (diffs cs hBase)).map (·.1) = cs := List.map_fst_zip (by rw [diffs_length])
  have hz2 : (cs.zip (diffs cs hBase)).map (·.2) = diffs cs hBase := List.map_snd_zip (by rw [diffs_length])
  have hv : verBorromean H r.Ci (verSums r.Ci (hPow 64 hPt) ident).1 r.asig.s0 r.asig.s1 r.asig.ee =
      verBorromean H r'.Ci (verSums r'.Ci (hPow 64 hPt) ident).1 r'.asig.s0 r'.asig.s1 r'.asig.ee := by
    unfold verBorromean
    rw [boroCheck_rep H hee (cs.zip (diffs cs hBase)) _ _ (by rw [hz1]; exact h1) (by rw [hz2]; exact a1),
      ← ha, boroCheck_rep H hee (cs.zip (diffs cs hBase)) _ _ (by rw [hz1]; exact h2) (by rw [hz2]; exact b1)]
  rw [hv]

theorem cut_append : ∀ (xs : List Bytes) (n : ℕ) (rest : Bytes), xs.length = n → (∀ x ∈ xs, x.length = 32) → cut n (xs.flatten ++ rest) = (xs, rest)
  | [], 0, rest, _, _ => rfl
  | x :: xs, n + 1, rest, h, hx => by
    have h32 := hx x (by simp)
    rw [cut]
    simp only [List.flatten_cons, List.append_assoc]
    rw [← h32, List.drop_left, List.take_left, cut_append xs n rest (by simpa using h) (fun y hy => hx y (by simp [hy]))]

/-- C41. Flattening an encoded range signature and cutting it up again returns it. -/
theorem C41_flatten_roundtrip (r : RangeBytes) (h0 : r.s0.length = 64) (h1 : r.s1.length = 64) (hC : r.Ci.length = 64)
    (hl : ∀ x ∈ r.s0 ++ r.s1 ++ [r.ee] ++ r.Ci, x.length = 32) : inflateRsig (flattenRsig r) = r := by
  simp only [List.mem_append, List.mem_singleton] at hl
  unfold inflateRsig flattenRsig
  have e : r.s0.flatten ++ r.s1.flatten ++ r.ee ++ r.Ci.flatten = r.s0.flatten ++ (r.s1.flatten ++ ([r.ee].flatten ++ (r.Ci.flatten ++ []))) := by simp
  rw [e, cut_append r.s0 64 _ h0 (fun x hx => hl x (by tauto))]
  dsimp only
  rw [cut_append r.s1 64 _ h1 (fun x hx => hl x (by tauto))]
  dsimp only
  rw [cut_append [r.ee] 1 _ rfl (fun x hx => hl x (by simp only [List.mem_singleton] at hx; tauto))]
  dsimp only
  rw [cut_append r.Ci 64 _ hC (fun x hx => hl x (by tauto))]
  rfl

/-- C41. What travels: for every amount below 2^64 and reduced random scalars, the proof encoded, flattened, cut up and decoded again is
accepted for the returned commitment. -/
theorem C41_wire (H : Bytes → Bytes) (amount : ℕ) (ha : amount < 2 ^ 64) (last : Option ℤ) (rnd : List BitRnd) (hn : rnd.length = 64)
    (hr : ∀ r ∈ rnd, Reduced r.s0 ∧ Reduced r.s1) :
    ∃ C a r r', proveRangeOrig H amount last rnd = some (C, a, r) ∧ decodeRangeSig (inflateRsig (flattenRsig (encodeRangeSig r))) = some r' ∧
      verRange H (some C) r' = some true := by
  obtain ⟨bb, hd, hb, hv, hb1⟩ := d2bLoop_some 64 amount ha
  obtain ⟨e1, e2, e3⟩ := orig_facts H amount last rnd hn bb hb hb1 hv
  obtain ⟨C, a, r, g1, g2, g3, -⟩ := C41_range H amount ha last rnd hn
  generalize hins : bitIns (masks last (rnd.map (·.ai)) 0).1 bb (hPow 64 hPt) rnd = ins at *
  have hrs : r = ⟨genBorromean H ins, ins.map (·.P1)⟩ := by
    unfold proveRangeOrig d2b at g1
    rw [hd] at g1
    dsimp only at g1
    rw [hins] at g1
    exact (congrArg (fun x => x.2.2) (Option.some.inj g1)).symm
  have hrnd : ∀ b ∈ ins, Reduced b.rnd.s0 ∧ Reduced b.rnd.s1 := by
    intro b hb
    apply hr
    rw [← hins] at hb
    exact bitIns_rnd _ _ _ _ b hb
  have hcs : ∃ cs, Reps (ins.map (·.P1)) cs := by
    clear hins e1 e3 hrs hrnd
    induction ins with
    | nil => exact ⟨[], .nil⟩
    | cons b ins ih =>
      obtain ⟨p1, p2, hok⟩ := e2 b (by simp)
      obtain ⟨cs, h⟩ := ih (fun x hx => e2 x (by simp [hx]))
      exact ⟨p1 :: cs, .cons hok.r1 h⟩
  obtain ⟨cs, hcs⟩ := hcs
  have hcl : cs.length = 64 := by rw [← hcs.length_eq, List.length_map, e1]
  have hred : ∀ b ∈ ins, ∀ ee, Reduced (boroSecond H ee b.x b.P1 b.bit b.rnd).1 ∧ Reduced (boroSecond H ee b.x b.P1 b.bit b.rnd).2 := by
    intro b hb ee
    unfold boroSecond
    split
    · exact ⟨emod_l_range _, (hrnd b hb).2⟩
    · exact ⟨(hrnd b hb).1, emod_l_range _⟩
  refine ⟨C, a, r, ⟨r.asig, cs.map canon⟩, g1, ?_, ?_⟩
  · rw [C41_flatten_roundtrip]
    · rw [hrs]
      unfold decodeRangeSig encodeRangeSig
      dsimp only
      rw [mapM_points hcs, mapM_scalars, mapM_scalars, show decodeScalar (encodeInt (genBorromean H ins).ee) = some (genBorromean H ins).ee from
        C35_scalar_roundtrip _ (hs_range _ _).1 (hs_range _ _).2]
      · intro x hx
        simp only [genBorromean, List.map_map, List.mem_map, Function.comp] at hx
        obtain ⟨b, hb, rfl⟩ := hx
        exact (hred b hb _).2
      · intro x hx
        simp only [genBorromean, List.map_map, List.mem_map, Function.comp] at hx
        obtain ⟨b, hb, rfl⟩ := hx
        exact (hred b hb _).1
    · rw [hrs]; simp [encodeRangeSig, genBorromean, e1]
    · rw [hrs]; simp [encodeRangeSig, genBorromean, e1]
    · rw [hrs]; simp [encodeRangeSig, e1]
    · intro x hx
      simp only [encodeRangeSig, List.mem_append, List.mem_map, List.mem_singleton] at hx
      rcases hx with ((⟨y, -, rfl⟩ | ⟨y, -, rfl⟩) | rfl) | ⟨y, -, rfl⟩
      · rw [encodeInt, packBits_length]
      · rw [encodeInt, packBits_length]
      · rw [encodeInt, packBits_length]
      · rw [encodePoint, packBits_length]
  · obtain ⟨c, rC⟩ := (isOnCurve_iff _).mp g3
    rw [← g2]
    refine verRange_congr H C rC _ _ cs ?_ ?_ hcl rfl ?_
    · clear hcl hcs
      induction cs with
      | nil => exact .nil
      | cons x cs ih => exact .cons (rep_canon x) ih
    · rw [hrs]; exact hcs
    · rw [hrs]; exact (hs_range _ _).1

/-- Two bits, one and zero; a forged answer is not accepted. -/
example : (let ins : List BitIn := [⟨5, add (scalarmultB 5) hPt, scalarmultB 5, 1, ⟨0, 3, 4, 0⟩⟩, ⟨6, scalarmultB 6, sub (scalarmultB 6) hPt, 0, ⟨0, 9, 0, 8⟩⟩]
    let s := genBorromean demoH ins
    (verBorromean demoH (ins.map (·.P1)) (ins.map (·.P2)) s.s0 s.s1 s.ee,
     verBorromean demoH (ins.map (·.P1)) (ins.map (·.P2)) s.s0 (s.s1.map (· + 1)) s.ee)) = (some true, some false) := by decide +kernel
example : d2b 18446744073709551615 64 = some (List.replicate 64 1) ∧ d2b 18446744073709551616 64 = none := by decide +kernel

theorem verSums_len : ∀ (cs hs : List Ext) (acc : Ext), (verSums cs hs acc).1.length = min cs.length hs.length
  | [], hs, acc => by rw [verSums.eq_def]; simp
  | c :: cs, [], acc => by rw [verSums.eq_def]; simp
  | c :: cs, h :: hs, acc => by rw [verSums, List.length_cons, verSums_len cs hs, List.length_cons, List.length_cons]; omega

theorem boroCheck_len (H : Bytes → Bytes) (ee : ℤ) : ∀ (P1 P2 : List Ext) (s0 s1 : List ℤ) (b : Bytes), boroCheck H ee P1 P2 s0 s1 = some b → P1.length ≤ P2.length
  | [], _, _, _, _, _ => by simp
  | P :: P1, [], s0, s1, b, h => by rw [boroCheck.eq_def] at h; simp at h
  | P :: P1, Q :: P2, [], s1, b, h => by rw [boroCheck.eq_def] at h; simp at h
  | P :: P1, Q :: P2, s :: s0, [], b, h => by rw [boroCheck.eq_def] at h; simp at h
  | P :: P1, Q :: P2, s :: s0, t :: s1, b, h => by
    rw [boroCheck] at h
    obtain ⟨r, hr, -⟩ := Option.map_eq_some_iff.mp h
    have := boroCheck_len H ee P1 P2 s0 s1 r hr
    simpa using this

/-- The pairs of a range proof: the commitment of bit `k`, and the same less `2^k·H`. -/
noncomputable def bitPairs : ℕ → List Point → List (Point × Point)
  | _, [] => []
  | k, c :: cs => (c, c - (2 ^ k : ℤ) • hBase) :: bitPairs (k + 1) cs

theorem verSums_pairs : ∀ (n k : ℕ) (Ci : List Ext) (cs : List Point) (P : Ext) (acc : Ext) (q : Point), Reps Ci cs → Ci.length = n → Rep P ((2 ^ k : ℤ) • hBase) → Rep acc q →
    Reps (verSums Ci (hPow n P) acc).1 ((bitPairs k cs).map (·.2)) ∧ Rep (verSums Ci (hPow n P) acc).2 (q + cs.sum)
  | 0, k, Ci, cs, P, acc, q, hC, hl, hP, ha => by
    obtain rfl := List.length_eq_zero_iff.mp hl
    cases hC
    rw [verSums.eq_def]
    simpa [bitPairs] using ha
  | n + 1, k, _, _, P, acc, q, .cons (a := C) (b := c) (l₁ := Ci) (l₂ := cs) h1 h2, hl, hP, ha => by
    rw [hPow, verSums, bitPairs]
    have := verSums_pairs n (k + 1) Ci cs (add P P) (add acc C) (q + c) h2 (by simpa using hl)
      (by rw [pow_succ, mul_two, add_smul]; exact rep_add hP hP) (rep_add ha h1)
    refine ⟨.cons (rep_sub h1 hP) this.1, ?_⟩
    rw [List.sum_cons, ← add_assoc]
    exact this.2

theorem bitPairs_fst : ∀ (k : ℕ) (cs : List Point), (bitPairs k cs).map (·.1) = cs
  | _, [] => rfl
  | k, c :: cs => by rw [bitPairs, List.map_cons, bitPairs_fst]

/-- C41. A range proof is accepted exactly if it has 64 commitments, they add up to the commitment in question, and the Borromean signature over
the pairs is right. -/
theorem C41_range_accept_iff (H : Bytes → Bytes) {C : Ext} {c : Point} (hc : Rep C c) (r : RangeSig) {cs : List Point}
    (hC : List.Forall₂ Rep r.Ci cs) (hee : 0 ≤ r.asig.ee) :
    verRange H (some C) r = some true ↔ cs.length = 64 ∧ cs.sum = c ∧ BoroValid H (bitPairs 0 cs) r.asig.s0 r.asig.s1 r.asig.ee := by
  have hlen := hC.length_eq
  unfold verRange
  split
  · rename_i h
    exact ⟨fun e => by simp at e, fun e => by omega⟩
  rename_i h
  by_cases h64 : r.Ci.length = 64
  · obtain ⟨a1, a2⟩ := verSums_pairs 64 0 r.Ci cs hPt ident 0 hC h64 (by rw [pow_zero, one_smul]; exact rep_hBase) rep_ident
    rw [zero_add] at a2
    dsimp only
    rw [pointEq, if_pos ((isOnCurve_iff _).mpr ⟨_, a2⟩)]
    have hb := C41_accept_iff H (bitPairs 0 cs) r.Ci _ (by rw [bitPairs_fst]; exact hC) a1 r.asig.s0 r.asig.s1 r.asig.ee hee
    cases hq : pointEqual (verSums r.Ci (hPow 64 hPt) ident).2 C with
    | false =>
      have : ¬ cs.sum = c := fun e => by rw [(pointEqual_iff a2 hc).mpr e] at hq; simp at hq
      simp [this]
    | true =>
      have := (pointEqual_iff a2 hc).mp hq
      dsimp only
      rw [hb]
      exact ⟨fun e => ⟨by omega, this, e⟩, fun e => e.2.2⟩
  · refine ⟨fun e => ?_, fun e => by omega⟩
    dsimp only at e
    split at e
    · simp at e
    · simp at e
    · unfold verBorromean at e
      obtain ⟨b, hb, -⟩ := Option.map_eq_some_iff.mp e
      have := boroCheck_len H _ _ _ _ _ _ hb
      rw [verSums_len, hPow_length] at this
      omega
/-- The proofs made for amounts below 2^64 meet the hypotheses, and are accepted. -/
example (H : Bytes → Bytes) (rnd : List BitRnd) (hn : rnd.length = 64) : ∃ C a r, proveRangeOrig H 5 none rnd = some (C, a, r) ∧ verRange H (some C) r = some true := by
  obtain ⟨C, a, r, h1, h2, -⟩ := C41_range H 5 (by norm_num) none rnd hn
  exact ⟨C, a, r, h1, h2⟩

end Verif.Sig

import Verif.Lemmas.SigRings
import Verif.Spec.Rings

/-! C42: MLSAG ring signatures. -/

namespace Verif.Sig
open Verif Ed Key Edwards

theorem decodable_iff (p : CtPub) : decodable p = true ↔ Decodes p := by simp [decodable, Decodes]

theorem rep_decodesTo {b : Bytes} {P : Ext} {p : Point} (h : decodesTo b P = true) (hP : Rep P p) : ∃ Q, decodePoint b = some Q ∧ Rep Q p := by
  unfold decodesTo at h
  split at h
  · rename_i Q hQ; exact ⟨Q, hQ, rep_of_decode hQ hP h⟩
  · simp at h

/-- C42, one ring per input (what the device does). Let the ring have at least two members with decodable points, let the secrets belong to
the member at `idx`, and let the pseudo output `cout` commit to the same amount with the mask `a`. Then for every message and all random
scalars a signature is produced, the verifier accepts it, and it carries the key image `x·Hp(P)`. -/
theorem C42_simple (H : Bytes → Bytes) (m : Bytes) (ring : List CtPub) (sec : CtSec) (amount a : ℤ) (idx : ℕ) (alpha : List ℤ)
    (rnd : List (List ℤ)) (p : CtPub) (h2 : 2 ≤ ring.length) (hdec : ∀ q ∈ ring, decodable q = true) (hreal : ring[idx]? = some p)
    (hown : owns p sec amount = true) (hx : 0 ≤ sec.dest) (hal : alpha.length = 2) (hal0 : ∀ x ∈ alpha, 0 ≤ x)
    (hrnd : Random ring.length 2 rnd) :
    ∃ mg c P, proveMgSimple H m ring sec a (genC a amount) idx alpha rnd = some (mg, c) ∧
      verMgSimple H m mg ring (genC a amount) = some true ∧ decodePoint p.dest = some P ∧
      mg.II = [smul (hp H (encodePoint P)) sec.dest] := by
  obtain ⟨M, h1, hl, hrect, hM⟩ := simpleMatrix_some (genC a amount) ring (fun q hq => (decodable_iff q).mp (hdec q hq))
  obtain ⟨d, c, hd, hc, hcol⟩ := hM idx p hreal
  unfold owns at hown
  rw [Bool.and_eq_true] at hown
  obtain ⟨d', hd', rd⟩ := rep_decodesTo hown.1 (rep_B sec.dest)
  obtain ⟨c', hc', rc⟩ := rep_decodesTo hown.2 (rep_genC sec.mask amount)
  rw [hd, Option.some.injEq] at hd'
  rw [hc, Option.some.injEq] at hc'
  subst hd' hc'
  have rz : Rep (sub c (genC a amount)) (scSub sec.mask a • base) := by
    have := rep_sub rc (rep_genC a amount)
    rw [scSub_smul _ _ l_base]
    rwa [show sec.mask • base + amount • hBase - (a • base + amount • hBase) = sec.mask • base - a • base by abel] at this
  obtain ⟨mg, c2, e1, e2, e3, -, -⟩ := gen_ver H m (pk := M) (xx := [sec.dest, scSub sec.mask a]) (idx := idx) (ds := 1) (rows := 2)
    (alpha := alpha) (rnd := rnd) (by omega) hcol (by omega) hrect (by omega) hal hal0 (by rw [hrnd.1, hl]) (fun s hs => (hrnd.2 s hs).1)
    (.cons ⟨hx, rd⟩ (.cons ⟨(emod_l_range _).1, rz⟩ .nil))
  refine ⟨mg, c2, d, ?_, ?_, hd, ?_⟩
  · unfold proveMgSimple; rw [if_neg (by omega), h1]; exact e1
  · unfold verMgSimple; rw [if_neg (by omega), h1]; exact e2
  · rw [e3]
    obtain ⟨x, y, hxy⟩ := List.length_eq_two.mp hal
    rw [hxy]
    simp only [List.take_succ_cons, List.take_zero, secretDs]

/-- C42, the signing step of the device: once its two checks pass, it returns a signature (its own verification never fails), and that
signature is accepted. -/
theorem C42_device (H : Bytes → Bytes) (m : Bytes) (ring : List CtPub) (sec : CtSec) (amount a : ℤ) (idx : ℕ) (alpha : List ℤ)
    (rnd : List (List ℤ)) (p : CtPub) (h2 : 2 ≤ ring.length) (hdec : ∀ q ∈ ring, decodable q = true) (hreal : ring[idx]? = some p)
    (hown : owns p sec amount = true) (hx : 0 ≤ sec.dest) (hal : alpha.length = 2) (hal0 : ∀ x ∈ alpha, 0 ≤ x)
    (hrnd : Random ring.length 2 rnd) :
    ∃ mg, deviceSign H m ring sec amount a (genC a amount) idx alpha rnd = some mg ∧
      verMgSimple H m mg ring (genC a amount) = some true := by
  obtain ⟨mg, c, P, e1, e2, e3, -⟩ := C42_simple H m ring sec amount a idx alpha rnd p h2 hdec hreal hown hx hal hal0 hrnd
  refine ⟨mg, ?_, e2⟩
  obtain ⟨C, hC⟩ := Option.isSome_iff_exists.mp ((decodable_iff p).mp (hdec p (List.mem_of_getElem? hreal))).2
  obtain ⟨q1, q2⟩ := (Bool.and_eq_true _ _).mp hown
  have o1 : pointEq P (scalarmultB sec.dest) = some true := by
    rw [decodesTo, e3] at q1
    obtain ⟨_, r⟩ := decodePoint_rep e3
    rw [pointEq, if_pos (show isOnCurve _ = true from rep_on r)]
    exact congrArg some q1
  have o2 : pointEq C (genC sec.mask amount) = some true := by
    rw [decodesTo, hC] at q2
    obtain ⟨_, r⟩ := decodePoint_rep hC
    rw [pointEq, if_pos (show isOnCurve _ = true from rep_on r)]
    exact congrArg some q2
  unfold deviceSign
  simp only [hreal, e3, hC]
  rw [if_neg (by rw [o1]; simp), if_neg (by rw [o2]; simp), e1]
  dsimp only
  rw [e2]

/-- C42, the other way round: whatever the device returns, for any keys and any pseudo output, is accepted, and the keys open the ring member at the
real position. -/
theorem C42_device_releases_valid (H : Bytes → Bytes) (m : Bytes) (ring : List CtPub) (sec : CtSec) (amount a : ℤ) (cout : Ext) (idx : ℕ)
    (alpha : List ℤ) (rnd : List (List ℤ)) (mg : MgSig) (h : deviceSign H m ring sec amount a cout idx alpha rnd = some mg) :
    verMgSimple H m mg ring cout = some true ∧ ∃ p, ring[idx]? = some p ∧ owns p sec amount = true := by
  have eq_of : ∀ {P Q : Ext}, pointEq P Q = some true → pointEqual P Q = true := by
    intro P Q hpq
    unfold pointEq at hpq
    split at hpq
    · simpa using hpq
    · simp at hpq
  unfold deviceSign at h
  split at h
  · simp at h
  rename_i p hp
  split at h
  · rename_i d c hd hc
    split at h
    · simp at h
    rename_i h1
    split at h
    · simp at h
    rename_i h2
    split at h
    · simp at h
    split at h
    · rename_i hv
      cases h
      refine ⟨hv, p, hp, ?_⟩
      rw [owns, decodesTo, decodesTo, hd, hc, Bool.and_eq_true]
      exact ⟨eq_of (by simpa using h1), eq_of (by simpa using h2)⟩
    · simp at h
  · simp at h

theorem owns_reps {real : List CtPub} {kas : List (CtSec × ℤ)} (h : List.Forall₂ (fun p (ka : CtSec × ℤ) => owns p ka.1 ka.2 = true) real kas) :
    List.Forall₂ (fun (x : CtPub) c => ∃ C, decodePoint x.commitment = some C ∧ Rep C c) real
      (kas.map fun ka => ka.1.mask • base + ka.2 • hBase) := by
  induction h with
  | nil => exact .nil
  | cons h _ ih => exact .cons (rep_decodesTo ((Bool.and_eq_true _ _).mp h).2 (rep_genC _ _)) ih

theorem outs_reps {outPk : List Bytes} {mas : List (ℤ × ℤ)}
    (h : List.Forall₂ (fun o (ma : ℤ × ℤ) => decodesTo o (genC ma.1 ma.2) = true) outPk mas) :
    List.Forall₂ (fun o c => ∃ C, decodePoint o = some C ∧ Rep C c) outPk (mas.map fun ma => ma.1 • base + ma.2 • hBase) := by
  induction h with
  | nil => exact .nil
  | cons h _ ih => exact .cons (rep_decodesTo h (rep_genC _ _)) ih

theorem dests_open {real : List CtPub} {ds : List Ext} (hd : List.Forall₂ (fun (x : CtPub) d => decodePoint x.dest = some d) real ds) :
    ∀ {secs : List CtSec} {ins : List ℤ}, List.Forall₂ (fun p (ka : CtSec × ℤ) => owns p ka.1 ka.2 = true) real (secs.zip ins) →
      ins.length = secs.length → (∀ k ∈ secs, 0 ≤ k.dest) → List.Forall₂ Opens ds (secs.map (·.dest)) := by
  induction hd with
  | nil =>
    intro secs ins h hl _
    match secs, ins, hl with
    | [], _, _ => exact .nil
    | _ :: _, _ :: _, _ => cases h
  | cons hd _ ih =>
    intro secs ins h hl h0
    match secs, ins, hl with
    | [], _, _ => cases h
    | k :: secs, a :: ins, hl =>
      cases h with
      | cons h1 h =>
        obtain ⟨Q, e1, e2⟩ := rep_decodesTo ((Bool.and_eq_true _ _).mp h1).1 (rep_B _)
        rw [hd, Option.some.injEq] at e1
        subst e1
        exact .cons ⟨h0 k (by simp), e2⟩ (ih h (by simpa using hl) (fun k hk => h0 k (by simp [hk])))

theorem sum_zip_keys (g h : Point) : ∀ (secs : List CtSec) (ins : List ℤ), ins.length = secs.length →
    ((secs.zip ins).map fun ka => ka.1.mask • g + ka.2 • h).sum = (secs.map fun k => k.mask • g).sum + ins.sum • h
  | [], [], _ => by simp
  | k :: secs, a :: ins, hl => by
    simp only [List.zip_cons_cons, List.map_cons, List.sum_cons, sum_zip_keys g h secs ins (by simpa using hl)]
    module

theorem sum_zip_masks (g h : Point) : ∀ (ms os : List ℤ), os.length = ms.length →
    ((ms.zip os).map fun ma => ma.1 • g + ma.2 • h).sum = (ms.map fun m => m • g).sum + os.sum • h
  | [], [], _ => by simp
  | k :: secs, a :: ins, hl => by
    simp only [List.zip_cons_cons, List.map_cons, List.sum_cons, sum_zip_masks g h secs ins (by simpa using hl)]
    module

/-- C42, one ring matrix for all inputs. Column `idx` is made of outputs owned by the signer (`secs` with amounts `ins`), the outputs commit to
`outs` with the masks `outMasks`, and inputs equal outputs plus fee. Then for every message and all random scalars a signature is produced
and the verifier accepts it. -/
theorem C42_full (H : Bytes → Bytes) (m : Bytes) (pubs : List (List CtPub)) (real : List CtPub) (secs : List CtSec) (ins outs outMasks : List ℤ)
    (outPk : List Bytes) (fee : ℤ) (idx : ℕ) (alpha : List ℤ) (rnd : List (List ℤ)) (h2 : 2 ≤ pubs.length) (hn : 0 < secs.length)
    (hrect : ∀ col ∈ pubs, col.length = secs.length ∧ ∀ q ∈ col, decodable q = true) (hreal : pubs[idx]? = some real)
    (hown : List.Forall₂ (fun p (ka : CtSec × ℤ) => owns p ka.1 ka.2 = true) real (secs.zip ins)) (hins : ins.length = secs.length)
    (hout : List.Forall₂ (fun o (ma : ℤ × ℤ) => decodesTo o (genC ma.1 ma.2) = true) outPk (outMasks.zip outs))
    (houts : outs.length = outMasks.length) (hbal : ins.sum = outs.sum + fee) (hx : ∀ k ∈ secs, 0 ≤ k.dest)
    (hal : alpha.length = secs.length + 1) (hal0 : ∀ x ∈ alpha, 0 ≤ x) (hrnd : Random pubs.length (secs.length + 1) rnd) :
    ∃ mg c, proveMg H m pubs secs outMasks outPk idx (genC 0 fee) alpha rnd = some (mg, c) ∧
      verMg H mg pubs outPk (genC 0 fee) m = some true := by
  have hfee : Rep (genC 0 fee) (fee • hBase) := by have := rep_genC 0 fee; rwa [zero_smul, zero_add] at this
  have hdo : ∀ o ∈ outPk, (decodePoint o).isSome := by
    intro o ho
    obtain ⟨i, hi⟩ := List.mem_iff_getElem?.mp ho
    obtain ⟨hi', rfl⟩ := List.getElem?_eq_some_iff.mp hi
    have hr := outs_reps hout
    obtain ⟨C, hC, -⟩ := (List.forall₂_iff_get.mp hr).2 i hi' (hr.length_eq ▸ hi')
    exact Option.isSome_iff_exists.mpr ⟨C, hC⟩
  have hrows : (pubs.headD []).length = secs.length := by
    cases pubs with
    | nil => simp at h2
    | cons c cs => exact (hrect c (by simp)).1
  have hany : (pubs.any fun c => c.length ≠ secs.length) = false := by
    simp only [List.any_eq_false, decide_eq_true_eq, not_not]
    exact fun c hc => (hrect c hc).1
  have hmo : outMasks.length = outPk.length := by rw [hout.length_eq, List.length_zip, houts, Nat.min_self]
  obtain ⟨M, h1, hl, hr, hM⟩ := fullMatrix_some outPk (genC 0 fee) (fee • hBase) hfee hdo secs.length pubs
    (fun c hc => ⟨(hrect c hc).1, fun x hx => (decodable_iff x).mp ((hrect c hc).2 x hx)⟩)
  obtain ⟨ds, Z, hcol, hds, hZ⟩ := hM idx real hreal
  have rZ := hZ _ _ (owns_reps hown) (outs_reps hout)
  set z := outMasks.foldl (fun s m => scSub s m) (secs.foldl (fun s k => scAdd s k.mask) 0) with hz
  have ez : z • base = ((secs.zip ins).map fun ka => ka.1.mask • base + ka.2 • hBase).sum -
      ((outMasks.zip outs).map fun ma => ma.1 • base + ma.2 • hBase).sum - fee • hBase := by
    rw [hz, foldl_scSub, foldl_scAdd, sum_zip_keys _ _ _ _ hins, sum_zip_masks _ _ _ _ houts, hbal]
    module
  rw [← ez] at rZ
  have hdl : ds.length = secs.length := by rw [← hds.length_eq]; exact (hrect real (List.mem_of_getElem? hreal)).1
  obtain ⟨mg, c2, e1, e2, -, -, -⟩ := gen_ver H m (pk := M) (xx := secs.map (·.dest) ++ [z]) (idx := idx) (ds := secs.length)
    (rows := secs.length + 1) (alpha := alpha) (rnd := rnd) (by omega) hcol (by omega) hr (by omega) hal hal0 (by rw [hrnd.1, hl])
    (fun s hs => (hrnd.2 s hs).1)
    (List.rel_append (dests_open hds hown hins hx) (.cons ⟨foldl_range _ _ (foldl_range' _ _ (le_refl 0)), rZ⟩ .nil))
  refine ⟨mg, c2, ?_, ?_⟩
  · unfold proveMg
    simp only [hrows]
    rw [if_neg (by omega), if_neg (by omega), if_neg (by rw [hany]; simp), if_neg (by simp), if_neg (by simp [hmo]), h1]
    exact e1
  · unfold verMg
    simp only [hrows]
    rw [if_neg (by omega), if_neg (by omega), if_neg (by rw [hany]; simp), h1]
    exact e2

/-- C42. The verifier accepts exactly the signatures whose challenges go round: see `MlsagValid`. -/
theorem C42_accept_iff (H : Bytes → Bytes) (m : Bytes) (pk : List (List Ext)) (pk' : List (List Point)) (rv : MgSig) (ds : ℕ) (II' : List Point)
    (hpk : List.Forall₂ (List.Forall₂ Rep) pk pk') (hI : List.Forall₂ Rep rv.II II') (hss : ∀ s ∈ rv.ss, ∀ x ∈ s, 0 ≤ x)
    (hcc : 0 ≤ rv.cc ∧ rv.cc < l) :
    verMlsag H m pk rv ds = some true ↔ MlsagValid H m pk' ds II' rv.ss rv.cc :=
  verMlsag_iff H m hpk hI hss hcc

/-- The hypotheses are met: a ring of three, the real output in the middle, worth 1000. -/
example : ∃ (ring : List CtPub) (p : CtPub), ring[1]? = some p ∧ 2 ≤ ring.length ∧ (∀ q ∈ ring, decodable q = true) ∧ owns p ⟨5, 77⟩ 1000 = true :=
  ⟨[demoOut 3 4 10, demoOut 5 77 1000, demoOut 8 9 3], demoOut 5 77 1000, rfl, by decide, by decide +kernel, by decide +kernel⟩
/-- Two inputs worth 7 and 5, two outputs worth 8 and 3, fee 1. -/
example : ∃ pubs : List (List CtPub), ∃ real, pubs[1]? = some real ∧ (∀ col ∈ pubs, col.length = 2 ∧ ∀ q ∈ col, decodable q = true) ∧
    (real.zip [((⟨5, 77⟩ : CtSec), (7 : ℤ)), (⟨6, 78⟩, 5)]).all (fun x => owns x.1 x.2.1 x.2.2) = true ∧ [(7 : ℤ), 5].sum = [(8 : ℤ), 3].sum + 1 :=
  ⟨[[demoOut 3 4 10, demoOut 8 9 3], [demoOut 5 77 7, demoOut 6 78 5]], _, rfl, by decide +kernel, by decide +kernel, by decide⟩
/-- A signature changed in one scalar is rejected, and so is another message. -/
example : (proveMgSimple demoH [1] [demoOut 3 4 10, demoOut 5 77 1000] ⟨5, 77⟩ 9 (genC 9 1000) 1 [11, 12] [[1, 2], [3, 4]]).map (fun r =>
    (verMgSimple demoH [1] r.1 [demoOut 3 4 10, demoOut 5 77 1000] (genC 9 1000),
     verMgSimple demoH [2] r.1 [demoOut 3 4 10, demoOut 5 77 1000] (genC 9 1000),
     verMgSimple demoH [1] { r.1 with ss := [[1, 2], [3, 5]] } [demoOut 3 4 10, demoOut 5 77 1000] (genC 9 1000))) =
    some (some true, some false, some false) := by decide +kernel

end Verif.Sig

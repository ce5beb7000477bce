import Verif.Lemmas.SignerClashMasks
import Verif.Props.SignerClash

/-!
C115, continued: the masks balance (C08) without idealised primitives.
-/

set_option linter.unusedSectionVars false

namespace Verif.Signer
open Verif
variable {S P : Type} [CommRing S] [AddCommGroup P] [Module S P] [DecidableEq S] [DecidableEq P]

/-- The pseudo outputs returned with the signatures commit to the amounts of the registered inputs, with masks that add up to those of the outputs; and they
add up to the output commitments plus `fee·H`. -/
def Balances (env : Env S P) (s : List (Event S)) (tsx : TsxData) : Prop :=
  ∃ (inMasks outMasks : List S) (inAmounts : List Nat),
    inMasks.length = tsx.numInputs ∧ outMasks.length = tsx.outputs.length ∧
    inAmounts.Perm ((inputs s).map (·.src.amount)) ∧
    (signs s).map (·.resultPseudoOut) = List.zipWith (fun m a => env.ptEnc (genC env m a)) inMasks inAmounts ∧
    (∀ (i : Nat) (o : OutputRec) (m : S), (outputs s)[i]? = some o → outMasks[i]? = some m →
      ∃ key, o.ack.outPk = key ++ env.ptEnc (genC env m o.dst.amount)) ∧
    inMasks.sum = outMasks.sum ∧
    (List.zipWith (genC env) inMasks inAmounts).sum =
      (List.zipWith (genC env) outMasks ((outputs s).map (·.dst.amount))).sum + (tsx.fee : S) • env.H

theorem Inv.balances_of {env : Env S P} {hd : Head S P} {s : List (Event S)} {b : Builder S P} {g : Ghost S} (hI : Inv env hd s b g)
    (hst : b.state.s = .SIGNATURE_DONE) (hnd : b.perm.Nodup) (hm : ∀ (i : Nat) (v : SignRec), (signs s)[i]? = some v → MaskAt env s b g i v)
    (hval : ((inputs s).map (·.src.amount)).sum = ((outputs s).map (·.dst.amount)).sum + hd.tsx.fee) : Balances env s hd.tsx := by
  obtain ⟨hperm, hsum, hpo⟩ := hI.masks_of hst hnd hm
  have hgl : (g.used).length = hd.tsx.numInputs := by rw [hI.signLen.2, hI.signsLen hst]
  have hol : (outputs s).length = hd.tsx.outputs.length := hI.outputsLen hst
  refine ⟨g.used, g.masks, (b.perm.take hd.tsx.numInputs).map fun q => (((inputs s)[q]?).map (·.src.amount)).getD 0, hgl,
    by rw [hI.masksLen, hol], ?_, hpo, ?_, hsum, ?_⟩
  · have h1 := hperm.map fun q => (((inputs s)[q]?).map (·.src.amount)).getD 0
    refine h1.trans (List.Perm.of_eq ?_)
    rw [← hI.inputsLen hst]
    exact getD_range_map _ _ _
  · intro i o m ho hm
    obtain ⟨_, _, _, d', sp, _, _, _, _, _, hpk, _⟩ := hI.outputsOk i o m ho hm
    exact ⟨_, hpk⟩
  · have hz : ∀ (ms : List S) (as : List Nat), ms.length = as.length →
        (List.zipWith (genC env) ms as).sum = ms.sum • env.G + ((as.sum : Nat) : S) • env.H := by
      intro ms
      induction ms with
      | nil => intro as hl; have : as = [] := List.length_eq_zero_iff.1 hl.symm; simp [this]
      | cons m ms ih =>
        intro as hl
        cases as with
        | nil => simp at hl
        | cons a as =>
          simp only [List.zipWith_cons_cons, List.sum_cons, ih as (by simpa using hl), genC, add_smul,
            Nat.cast_add]
          abel
    have hpl : (b.perm.take hd.tsx.numInputs).length = hd.tsx.numInputs := by rw [hperm.length_eq, List.length_range]
    rw [hz _ _ (by rw [List.length_map, hgl, hpl]), hz _ _ (by simp [hI.masksLen]), hsum]
    have h1 : ((b.perm.take hd.tsx.numInputs).map fun q => (((inputs s)[q]?).map (·.src.amount)).getD 0).sum =
        ((inputs s).map (·.src.amount)).sum := by
      have h1 := hperm.map fun q => (((inputs s)[q]?).map (·.src.amount)).getD 0
      rw [h1.sum_eq]
      congr 1
      rw [← hI.inputsLen hst]
      exact getD_range_map _ _ _
    rw [h1, hval]
    push_cast
    rw [add_smul]
    abel

/-- C115: in a completed session in which the permutation names no position twice, the masks balance, or the host broke a tag or a seal with one of its
signing requests. Nothing is assumed of the hash and tag functions; of the cipher and the encodings only that they can be undone. -/
theorem C115_masks {env : Env S P} (hpb : env.pbDst = Dst.pb) (hopen : ∀ k m n, env.decPack k (env.encPack k m n) = some m)
    (hsc : ∀ x, env.scDec (env.scEnc x) = x) (hpt : ∀ p, env.ptDec (env.ptEnc p) = some p) (hr : ∀ r, env.respOk r = true)
    {log : List (Event S)} {d : Device S P} (h : Reach env log d) (hfinal : .final ∈ kinds (session env log))
    {tsx : TsxData} {rnd : Rand S} {hmacs : List Bytes} (hinit : initOf (session env log) = some (tsx, rnd, hmacs))
    {p : List Nat} (hp : perms (session env log) = [p]) (hnd : p.Nodup) :
    Balances env (session env log) tsx ∨ ∃ (i pos : Nat) (v : SignRec) (secret sealSecret : Bytes),
      secretOf env (session env log) = some secret ∧ sealSecretOf env (session env log) = some sealSecret ∧
      (signs (session env log))[i]? = some v ∧ p[i]? = some pos ∧
      (Broken env secret (session env log) (viniItem env pos v.src v.vini) v.viniHmac ∨
        Broken env secret (session env log) (commItem pos v.pseudoOut) v.pseudoOutHmac ∨
        SealBroken env sealSecret (session env log) pos v.alphaEnc) := by
  have hval := C07_value_conserved hr h hinit
  obtain ⟨secret, hsec, _, _, _, _, _, hsig⟩ := C115_pinned hpb hr h hinit
  rcases reach_obs hr h with h0 | ⟨hd, s, b, g, hI, e1, e2, e3, e4, e5, e6, e7⟩
  · rw [h0] at hfinal; simp [kinds] at hfinal
  have hst : b.state.s = .SIGNATURE_DONE := by
    rcases e7 with ⟨e7, e8⟩ | ⟨_, e8⟩
    · rw [e7] at hfinal; exact absurd hfinal e8
    · exact e8
  have hks : kinds (session env log) = kinds s ++ [.final] := by
    rcases e7 with ⟨e7, e8⟩ | ⟨e7, _⟩
    · rw [e7] at hfinal; exact absurd hfinal e8
    · exact e7
  have hval := hval (by
    rw [hks]
    have := hI.stage
    rw [hst] at this
    rw [this.2.2.2.2]
    simp [preSign])
  have e6' := e6
  rw [hinit] at e6'
  simp only [Option.some.injEq, Prod.mk.injEq] at e6'
  obtain ⟨rfl, rfl, rfl⟩ := e6'
  have hpbm : p = b.perm := by
    rw [e2, hI.perm (by rw [hst]; rfl)] at hp
    simpa using hp.symm
  subst hpbm
  rw [e1, e4] at hval
  by_contra hc
  rw [not_or] at hc
  obtain ⟨hc1, hc2⟩ := hc
  apply hc1
  have hB : Balances env s hd.tsx := by
    refine hI.balances_of hst hnd (fun i v hv => ?_) hval
    obtain ⟨q, pos, h1, h2, h3, h4⟩ := hsig i v (by rw [e5]; exact hv)
    obtain rfl : b.perm = q := by rw [hp] at h1; simpa using h1
    have hno := fun x => hc2 ⟨i, pos, v, secret, b.keyEnc, hsec, sealSecretOf_eq hI e6, by rw [e5]; exact hv, h2, x⟩
    obtain ⟨r, hr1, _⟩ := h3.resolve_right fun x => hno (.inl x)
    rw [e1] at hr1 h4
    refine hI.maskAt hopen hsc hpt hst hv h2 hr1 ?_ ?_
    · rcases h4 with ⟨k1, k2⟩ | ⟨r', k1, k2⟩ | k1
      · left
        rw [hI.modes.2.2, hI.counts.1]
        exact ⟨by simpa using k2, k1⟩
      · right
        rw [hr1] at k1
        obtain rfl : r = r' := by simpa using k1
        exact k2
      · exact absurd (.inr (.inl k1)) hno
    · by_contra hne
      obtain ⟨_, _, _, _, pos', kA, aB, kS, sB, real, full, pOut, rnd, hp', _, hk, hdec, _⟩ := hI.signAt hv
      rw [h2] at hp'
      obtain rfl : pos = pos' := by simpa using hp'
      exact hno (.inr (.inr ⟨⟨kA, aB, keyFor_of (p := .txinAlpha) hk, hdec⟩, r, by rw [e1]; exact hr1, fun e => hne e.symm⟩))
  obtain ⟨x1, x2, x3, x4, x5, x6, x7, x8, x9, x10⟩ := hB
  exact ⟨x1, x2, x3, x4, x5, by rw [e1]; exact x6, by rw [e5]; exact x7, by rw [e4]; exact x8, x9, by rw [e4]; exact x10⟩

/-- The premises are met in both mask modes. -/
example : (∀ k m n, pbEnv.decPack k (pbEnv.encPack k m n) = some m) ∧ (∀ x, pbEnv.scDec (pbEnv.scEnc x) = x) ∧
    (∀ p, pbEnv.ptDec (pbEnv.ptEnc p) = some p) ∧ ∀ bpv ∈ [1, 2],
    .final ∈ kinds (session pbEnv (Demo.drive pbEnv (Demo.honest bpv) [] {}).1) ∧
    perms (session pbEnv (Demo.drive pbEnv (Demo.honest bpv) [] {}).1) = [[1, 0]] := by
  refine ⟨Demo.sealing.openSeal, Demo.sealing.scRound, Demo.sealing.ptRound, ?_⟩
  decide +kernel

/-- C115 covers the idealised statement: with primitives that never collide and a cipher that opens only under the right key, presenting a sealed mask the
device handed out does not break a seal. -/
theorem C115_ideal_seal {env : Env S P} (hB : Binding env) (hS : Sealing env) (hr : ∀ r, env.respOk r = true)
    {log : List (Event S)} {d : Device S P} (h : Reach env log d) {sealSecret : Bytes} (hs : sealSecretOf env (session env log) = some sealSecret)
    {pos : Nat} {blob : Bytes} (hm : blob ∈ (inputs (session env log)).map (·.alphaEnc)) : ¬ SealBroken env sealSecret (session env log) pos blob := by
  rintro ⟨⟨key, mask, hkey, hdec⟩, r, hr1, hne⟩
  rcases reach_obs hr h with h0 | ⟨hd, s, b, g, hI, e1, e2, e3, e4, e5, e6, e7⟩
  · rw [h0] at hm; simp [inputs] at hm
  rw [sealSecretOf_eq hI e6, Option.some_inj] at hs
  subst hs
  rw [e1] at hm hr1
  have hkl : b.keyEnc.length = 32 := by rw [hI.keyEnc]; exact hB.keyLen _
  obtain ⟨r', hr', rfl⟩ := List.mem_map.1 hm
  obtain ⟨j, hj⟩ := List.mem_iff_getElem?.1 hr'
  obtain ⟨_, _, _, ⟨k, hk2, hae⟩, _⟩ := hI.inputsOk j r' hj
  rw [hae] at hdec
  have hkk := hS.bind _ _ _ _ _ hdec
  subst hkk
  obtain ⟨buf, hb1, hb2⟩ := hkey
  have hk3 : buildKey env b.keyEnc Purpose.txinAlpha.label (some pos) = some k := by rw [buildKey, hb1, Option.map_some, hb2]
  have hjp := (buildKey_inj hB hkl (p := .txinAlpha) (q := .txinAlpha) hk2 hk3).2
  subst hjp
  rw [hj] at hr1
  obtain rfl : r' = r := by simpa using hr1
  exact hne rfl

end Verif.Signer

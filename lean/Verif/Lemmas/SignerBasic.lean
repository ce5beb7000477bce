import Verif.Model.Signer

/-! Inversion of the exception monad used by the handlers, and the explicit effect of every handler. -/

set_option linter.unusedSectionVars false
set_option linter.unusedSimpArgs false

namespace Verif.Signer
open Verif

theorem bind_ok {α β : Type} {o : Except Err β} {f : β → Except Err α} {x : α} :
    (o >>= f) = .ok x ↔ ∃ a, o = .ok a ∧ f a = .ok x := by
  cases o <;> simp [bind, Except.bind]

theorem pure_ok {α : Type} {a x : α} : (pure a : Except Err α) = .ok x ↔ a = x := by
  simp [pure, Except.pure]

theorem ensure_ok {c : Bool} {u : Unit} : ensure c = .ok u ↔ c = true := by
  cases c <;> simp [ensure]

theorem orFail_ok {α : Type} {o : Option α} {a : α} : orFail o = .ok a ↔ o = some a := by
  cases o <;> simp [orFail]

theorem exists_unit {p : Unit → Prop} : (∃ u, p u) ↔ p () := ⟨fun ⟨_, h⟩ => h, fun h => ⟨_, h⟩⟩

theorem err_ok {α : Type} {e : Err} {a : α} : (Except.error e : Except Err α) = .ok a ↔ False := by simp

variable {S P : Type} [CommRing S] [AddCommGroup P] [Module S P] [DecidableEq S] [DecidableEq P]

/-- The serialised transaction input for a source entry with key image `ki`. -/
def viniOf (env : Env S P) (src : Src) (ki : P) : Bytes :=
  [2] ++ env.serTxin (if src.rct then 0 else src.amount) (env.ptEnc ki)
    (Offsets.toRelative (src.outputs.map fun x => (x.idx : Int)))

theorem setInput_eff {env : Env S P} {b b' : Builder S P} {src : Src} {rnd : Rand S} {resp : Resp}
    (h : setInput env b src rnd = .ok (b', resp)) :
    (b.state.s = .INP_CNT ∨ b.state.s = .INPUT) ∧ b.inpIdx + 1 < b.inputCount ∧
    ∃ real outKey txKey addKeys subs xi ki hmac pHmac kAlpha kSpend,
      src.outputs[src.realOutput]? = some real ∧ env.ptDec real.dest = some outKey ∧
      env.ptDec src.txKey = some txKey ∧ src.addKeys.mapM env.ptDec = some addKeys ∧
      b.subs = some subs ∧ env.keyImage subs outKey txKey addKeys src.inTxIndex = some (xi, ki) ∧
      hmacVini env b.keyHmac src (viniOf env src ki) (b.inpIdx + 1).toNat = some hmac ∧
      tag env b.keyHmac dTxinComm (b.inpIdx + 1).toNat (env.ptEnc (genC env rnd.alpha src.amount)) = some pHmac ∧
      buildKey env b.keyEnc dTxinAlpha (some (b.inpIdx + 1).toNat) = some kAlpha ∧
      buildKey env b.keyEnc dSpend (some (b.inpIdx + 1).toNat) = some kSpend ∧
      b' = { b with
        state := { b.state with s := if b.inpIdx + 1 + 1 = b.inputCount then .INPUT_DONE else .INPUT },
        inpIdx := b.inpIdx + 1, sumIn := b.sumIn + src.amount, sumpouts := b.sumpouts + rnd.alpha,
        inputLastAmount := if b.inpIdx + 1 + 1 = b.inputCount then src.amount else b.inputLastAmount,
        subs := if b.inpIdx + 1 + 1 = b.inputCount then none else b.subs } ∧
      resp = .inputAck (viniOf env src ki) hmac (env.ptEnc (genC env rnd.alpha src.amount)) pHmac
        (env.encPack kAlpha (env.scEnc rnd.alpha) rnd.nonceAlpha)
        (env.encPack kSpend (env.scEnc xi) rnd.nonceSpend) := by
  simp only [setInput, bind_ok, pure_ok, ensure_ok, orFail_ok, TState.input, exists_unit] at h
  obtain ⟨_, ⟨hst, rfl⟩, _, hlt, real, h1, outKey, h2, txKey, h3, addKeys, h4, subs, h5, ⟨xi, ki⟩, h6,
    hmac, h7, pHmac, h8, kA, h9, kS, h10, b1, hb1, hr⟩ := h
  have hlt' : b.inpIdx + 1 < b.inputCount := by simpa using hlt
  refine ⟨by simpa using hst, hlt', real, outKey, txKey, addKeys, subs, xi, ki, hmac, pHmac, kA, kS,
    h1, h2, h3, h4, h5, h6, h7, h8, h9, h10, ?_⟩
  simp only [inputsDone, TState.inputDone] at hb1
  split at hb1
  · rename_i hl
    simp only [bind_ok, pure_ok, ensure_ok, exists_unit] at hb1
    obtain ⟨_, ⟨_, rfl⟩, rfl⟩ := hb1
    simp only [Prod.mk.injEq] at hr
    obtain ⟨rfl, rfl⟩ := hr
    simp [hl, viniOf]
  · rename_i hl
    simp only [pure_ok] at hb1
    subst hb1
    simp only [Prod.mk.injEq] at hr
    obtain ⟨rfl, rfl⟩ := hr
    simp [hl, viniOf]

theorem setPermutation_eff {b b' : Builder S P} {perm : List Nat} {rnd : Rand S} {resp : Resp}
    (h : setPermutation b perm rnd = .ok (b', resp)) :
    b.state.s = .INPUT_DONE ∧
    b' = { b with state := { b.state with s := .INPUT_PERM }, perm := perm, inpIdx := -1 } ∧
    resp = .permutationAck := by
  simp only [setPermutation, bind_ok, pure_ok, ensure_ok, TState.inputPermutation, exists_unit] at h
  obtain ⟨_, _, ⟨hst, rfl⟩, hr⟩ := h
  simp only [Prod.mk.injEq] at hr
  exact ⟨by simpa using hst, hr.1.symm, hr.2.symm⟩

theorem inputVini_eff {env : Env S P} {b b' : Builder S P} {src : Src} {vini hmac : Bytes}
    {rnd : Rand S} {resp : Resp} (h : inputVini env b src vini hmac rnd = .ok (b', resp)) :
    (b.state.s = .INPUT_PERM ∨ b.state.s = .INPUT_VINS) ∧ b.inpIdx < b.inputCount ∧ b.useBp = true ∧
    ∃ pos ph, b.perm[(b.inpIdx + 1).toNat]? = some pos ∧ b.prefixHasher = some ph ∧
      hmacVini env b.keyHmac src vini pos = some hmac ∧
      b' = { b with state := { b.state with s := .INPUT_VINS }, inpIdx := b.inpIdx + 1,
                    prefixHasher := some (ph ++ vini) } ∧
      resp = .viniAck := by
  simp only [inputVini, bind_ok, pure_ok, ensure_ok, orFail_ok, TState.inputVins, exists_unit] at h
  obtain ⟨_, hlt, _, ⟨hst, rfl⟩, pos, h1, hm, h2, h3, ph, h4, h5, hr⟩ := h
  simp only [Prod.mk.injEq] at hr
  have : hm = hmac := by simpa using h3
  subst this
  exact ⟨by simpa using hst, by simpa using hlt, h5, pos, ph, h1, h4, h2, hr.1.symm, hr.2.symm⟩

theorem allInSet_eff {env : Env S P} {b b' : Builder S P} {rnd : Rand S} {resp : Resp}
    (h : allInSet env b rnd = .ok (b', resp)) :
    (b.state.inMem = false → b.state.s = .INPUT_VINS) ∧
    ((b.isDetMask = true ∧ resp = .allInputsAck [] ∧
      b' = { b with state := { b.state with s := .INPUT_ALL_DONE }, sumout := 0 }) ∨
     (b.isDetMask = false ∧ ∃ masks,
      computeMasksAux env b.keyEnc b.sumpouts b.outputCount b.outputCount 0 0 = some (masks, b.sumpouts) ∧
      resp = .allInputsAck (if b.rsigOffload then (masks.map env.scEnc).flatten else []) ∧
      b' = { b with state := { b.state with s := .INPUT_ALL_DONE }, sumout := 0,
                    outputLastMask := masks.getLast? })) := by
  simp only [allInSet, bind_ok, pure_ok, ensure_ok, TState.inputAllDone, exists_unit] at h
  obtain ⟨_, ⟨hst, rfl⟩, _, h⟩ := h
  refine ⟨?_, ?_⟩
  · intro hm
    simpa [hm] using hst
  · change (if b.isDetMask = true then _ else _) = _ at h
    by_cases hd : b.isDetMask = true
    · rw [if_pos hd] at h
      left
      simp only [pure_ok, Prod.mk.injEq] at h
      exact ⟨hd, h.2.symm, h.1.symm⟩
    · rw [if_neg hd] at h
      right
      simp only [bind_ok, orFail_ok, ensure_ok, exists_unit, pure_ok, Prod.mk.injEq] at h
      obtain ⟨⟨masks, s⟩, h1, h2, rfl, rfl⟩ := h
      have : b.sumpouts = s := by simpa using h2
      subst this
      exact ⟨by simpa using hd, masks, h1, rfl, rfl⟩

theorem rsigChecks_eff {b : Builder S P} {rsig : Bytes} {last : Bool}
    (h : s6RsigChecks b rsig = .ok last) :
    lastInBatch b.rsigGrp b.outIdx = some last ∧
    (rsig ≠ [] → b.rsigOffload = true ∧ last = true) ∧
    (b.rsigOffload = true → last = true → rsig = [] → b.isDetMask = true ∧ b.procOff = false) := by
  simp only [s6RsigChecks, bind_ok, pure_ok, ensure_ok, orFail_ok, exists_unit] at h
  obtain ⟨h1, l, h2, h3, h4, rfl⟩ := h
  refine ⟨h2, ?_, ?_⟩
  · intro hne
    simp [hne] at h1 h3
    simp only [h1] at h3
    exact ⟨h1, by simpa using h3⟩
  · intro ho hl hr
    simpa [ho, hl, hr] using h4

theorem validate_eff {env : Env S P} {b b' : Builder S P} {dst : Dst} {hmac : Bytes} {isOff : Bool}
    (h : s6Validate env b dst hmac isOff = .ok b') :
    b.inpIdx + 1 = b.inputCount ∧
    ((isOff = true ∧ b.rsigOffload = true ∧ b.isDetMask = true ∧ b.outIdx < b.outputCount ∧
        b' = { b with procOff := true }) ∨
     (isOff = false ∧ (b.isDetMask && b.rsigOffload) = false ∧ b.procOff = true ∧ b' = b ∧ b.isDetMask = true) ∨
     (isOff = false ∧ (b.isDetMask && b.rsigOffload = true ∨ b.procOff = false) ∧
        (b.state.s = .INPUT_ALL_DONE ∨ b.state.s = .OUTPUT) ∧
        b.outIdx + 1 < b.outputCount ∧ hmacDst env b.keyHmac dst (b.outIdx + 1).toNat = some hmac ∧
        (b.isDetMask = true → b.rsigOffload = true → lastInBatch b.rsigGrp b.outIdx = some true → b.procOff = true) ∧
        b' = { b with state := { b.state with s := .OUTPUT }, outIdx := b.outIdx + 1, procOff := false })) := by
  simp only [s6Validate, bind_ok, pure_ok, ensure_ok, exists_unit] at h
  obtain ⟨h1, b1, hb1, b2, hb2, h3, h4, h5, h6, rfl⟩ := h
  simp only [s6Offload] at hb1
  cases isOff
  · -- normal message
    by_cases hd : (b.isDetMask && b.rsigOffload) = true
    · rw [if_pos hd] at hb1
      simp only [bind_ok, orFail_ok, ensure_ok, exists_unit, pure_ok] at hb1
      obtain ⟨last, hl, hc, rfl⟩ := hb1
      simp only [s6Advance, Bool.not_false, if_true, bind_ok, pure_ok, TState.setOutput, ensure_ok,
        exists_unit] at hb2
      obtain ⟨_, ⟨hst, rfl⟩, rfl⟩ := hb2
      simp only [s6Hmac, Bool.not_false, if_true, bind_ok, orFail_ok, ensure_ok] at h6
      obtain ⟨hm, hm1, hm2⟩ := h6
      have : hmac = hm := by simpa using hm2
      subst this
      refine ⟨by simpa using h3, Or.inr (Or.inr ⟨rfl, Or.inl (by simpa using hd), by simpa using hst, by simpa using h4,
        hm1, ?_, rfl⟩)⟩
      intro _ _ hlast
      rw [hl] at hlast
      simp only [Option.some.injEq] at hlast
      subst hlast
      simpa using hc
    · have hd' : (b.isDetMask && b.rsigOffload) = false := by simpa using hd
      rw [if_neg hd] at hb1
      simp only [pure_ok] at hb1
      subst hb1
      cases hp : b.procOff
      · simp only [s6Advance, hp, Bool.not_false, if_true, bind_ok, pure_ok, TState.setOutput, ensure_ok,
          exists_unit] at hb2
        obtain ⟨_, ⟨hst, rfl⟩, rfl⟩ := hb2
        simp only [s6Hmac, hp, Bool.not_false, if_true, bind_ok, orFail_ok, ensure_ok] at h6
        obtain ⟨hm, hm1, hm2⟩ := h6
        have : hmac = hm := by simpa using hm2
        subst this
        refine ⟨by simpa using h3, Or.inr (Or.inr ⟨rfl, Or.inr rfl, by simpa using hst, by simpa using h4,
          hm1, ?_, by simp [hp]⟩)⟩
        intro h7 h8
        simp [h7, h8] at hd'
      · simp only [s6Advance, hp, Bool.not_true, pure_ok, Bool.false_eq_true, if_false] at hb2
        subst hb2
        refine ⟨by simpa using h3, Or.inr (Or.inl ⟨rfl, hd', rfl, rfl, by simpa [hp] using h5⟩)⟩
  · -- offloaded message
    have hd : b.rsigOffload = true ∧ b.isDetMask = true := by simpa using h1
    rw [if_pos (by simp [hd.1, hd.2])] at hb1
    simp only [bind_ok, orFail_ok, ensure_ok, exists_unit, pure_ok] at hb1
    obtain ⟨last, hl, hc, rfl⟩ := hb1
    simp only [s6Advance, Bool.not_true, pure_ok, Bool.false_eq_true, if_false] at hb2
    subst hb2
    exact ⟨by simpa using h3, Or.inl ⟨rfl, hd.1, hd.2, by simpa using h4, rfl⟩⟩


theorem cleanup_eq (b : Builder S P) : s6Cleanup b = { b with
    outputAmounts := if b.outIdx + 1 = (b.outputCount : Int) ∧ (!b.rsigOffload || b.procOff) then none else b.outputAmounts,
    outputMasks := if b.outIdx + 1 = (b.outputCount : Int) ∧ (!b.rsigOffload || b.procOff) then none else b.outputMasks } := by
  unfold s6Cleanup
  split <;> simp_all

theorem processBp_eff {env : Env S P} {b b' : Builder S P} {rsig : Bytes}
    (h : s6ProcessBp env b rsig = .ok b') :
    ∃ bp h0 fh am ms, env.bpParse rsig = some bp ∧ b.fullHasher = some h0 ∧ h0.rsigVal bp = some fh ∧
      b.outputAmounts = some am ∧ b.outputMasks = some ms ∧ env.bpVerify bp am ms = true ∧
      b' = { b with fullHasher := some fh, outputAmounts := some [], outputMasks := some [] } := by
  simp only [s6ProcessBp, bind_ok, pure_ok, ensure_ok, orFail_ok, exists_unit, Option.bind_eq_some_iff] at h
  obtain ⟨bp, h1, fh, ⟨h0, h2, h3⟩, am, h4, ms, h5, h6, rfl⟩ := h
  exact ⟨bp, h0, fh, am, ms, h1, h2, h3, h4, h5, h6, rfl⟩

theorem rsigBp_eff {env : Env S P} {b : Builder S P} {rnd : Rand S} {res}
    (h : s6RsigBp env b rnd = .ok res) :
    ∃ bp h0 fh am ms, b.fullHasher = some h0 ∧ h0.rsigVal bp = some fh ∧
      b.outputAmounts = some am ∧ b.outputMasks = some ms ∧ env.bpProve am ms rnd.bpRand = some bp ∧
      env.bpDump bp = some res.2 ∧
      res.1 = { b with fullHasher := some fh, outputAmounts := some [], outputMasks := some [] } := by
  simp only [s6RsigBp, bind_ok, pure_ok, ensure_ok, orFail_ok, exists_unit, Option.bind_eq_some_iff] at h
  obtain ⟨am, h1, ms, h2, bp, h3, fh, ⟨h0, h4, h5⟩, bin, h6, rfl⟩ := h
  exact ⟨bp, h0, fh, am, ms, h4, h5, h1, h2, h3, h6, rfl⟩

theorem setOutputOff_eff {env : Env S P} {b b' : Builder S P} {rsig : Bytes} {resp : Resp}
    (hp : b.procOff = true) (h : setOutputOff env b rsig = .ok (b', resp)) :
    resp = .outputAck none ∧ ∃ last, lastInBatch b.rsigGrp b.outIdx = some last ∧
    ((last = false ∧ rsig = [] ∧ b' = b) ∨
     (last = true ∧ ∃ bp h0 fh am ms, env.bpParse rsig = some bp ∧ b.fullHasher = some h0 ∧
        h0.rsigVal bp = some fh ∧ b.outputAmounts = some am ∧ b.outputMasks = some ms ∧
        env.bpVerify bp am ms = true ∧
        b' = { b with
          fullHasher := some fh,
          outputAmounts := if b.outIdx + 1 = (b.outputCount : Int) then none else some [],
          outputMasks := if b.outIdx + 1 = (b.outputCount : Int) then none else some [] })) := by
  simp only [setOutputOff, bind_ok] at h
  obtain ⟨last, h1, h2⟩ := h
  obtain ⟨h3, h4, h5⟩ := rsigChecks_eff h1
  cases last
  · simp only [Bool.not_false, if_true, pure_ok, Prod.mk.injEq] at h2
    refine ⟨h2.2.symm, false, h3, Or.inl ⟨rfl, ?_, h2.1.symm⟩⟩
    by_contra hne
    simpa using (h4 hne).2
  · simp only [Bool.not_true, Bool.false_eq_true, if_false, bind_ok, pure_ok, Prod.mk.injEq] at h2
    obtain ⟨b1, hb1, rfl, rfl⟩ := h2
    obtain ⟨bp, h0, fh, am, ms, e1, e2, e3, e4, e5, e6, rfl⟩ := processBp_eff hb1
    refine ⟨rfl, true, h3, Or.inr ⟨rfl, bp, h0, fh, am, ms, e1, e2, e3, e4, e5, e6, ?_⟩⟩
    simp [cleanup_eq, hp]

/-- Outcome of the range-proof part of a normal output. -/
theorem rangeProof_eff {env : Env S P} {b : Builder S P} {rsig : Bytes} {rnd : Rand S} {res}
    (hp : b.procOff = false) (h : s6RangeProof env b rsig rnd = .ok res) :
    ∃ last, lastInBatch b.rsigGrp b.outIdx = some last ∧
    (((last = false ∨ (b.rsigOffload = true ∧ b.isDetMask = true)) ∧ res = (b, none)) ∨
     (last = true ∧ (b.rsigOffload && b.isDetMask) = false ∧
      ∃ bp h0 fh am ms, b.fullHasher = some h0 ∧ h0.rsigVal bp = some fh ∧
        b.outputAmounts = some am ∧ b.outputMasks = some ms ∧
        ((b.rsigOffload = false ∧ env.bpProve am ms rnd.bpRand = some bp ∧
            ∃ bin, env.bpDump bp = some bin ∧ res.2 = some bin) ∨
         (b.rsigOffload = true ∧ env.bpParse rsig = some bp ∧ env.bpVerify bp am ms = true ∧ res.2 = none)) ∧
        res.1 = { b with
          fullHasher := some fh,
          outputAmounts := if b.outIdx + 1 = (b.outputCount : Int) ∧ b.rsigOffload = false then none else some [],
          outputMasks := if b.outIdx + 1 = (b.outputCount : Int) ∧ b.rsigOffload = false then none else some [] })) := by
  simp only [s6RangeProof, bind_ok] at h
  obtain ⟨last, h1, h2⟩ := h
  obtain ⟨h3, h4, h5⟩ := rsigChecks_eff h1
  refine ⟨last, h3, ?_⟩
  cases last
  · simp only [Bool.not_false, if_true, pure_ok] at h2
    exact Or.inl ⟨Or.inl rfl, h2.symm⟩
  · simp only [Bool.not_true, Bool.false_eq_true, if_false] at h2
    cases ho : b.rsigOffload
    · simp only [ho, Bool.not_false, if_true, bind_ok, pure_ok] at h2
      obtain ⟨r1, hr1, rfl⟩ := h2
      obtain ⟨bp, h0, fh, am, ms, e1, e2, e3, e4, e5, e6, e7⟩ := rsigBp_eff hr1
      refine Or.inr ⟨rfl, rfl, bp, h0, fh, am, ms, e1, e2, e3, e4, Or.inl ⟨rfl, e5, r1.2, e6, rfl⟩, ?_⟩
      simp [cleanup_eq, e7, ho]
    · simp only [ho, Bool.not_true, Bool.false_eq_true, if_false] at h2
      cases hd : b.isDetMask
      · simp only [hd, Bool.false_eq_true, if_false, bind_ok, pure_ok] at h2
        obtain ⟨b1, hb1, rfl⟩ := h2
        obtain ⟨bp, h0, fh, am, ms, e1, e2, e3, e4, e5, e6, rfl⟩ := processBp_eff hb1
        refine Or.inr ⟨rfl, rfl, bp, h0, fh, am, ms, e2, e3, e4, e5, Or.inr ⟨rfl, e1, e6, rfl⟩, ?_⟩
        simp [cleanup_eq, ho, hp]
      · simp only [hd, if_true, pure_ok] at h2
        subst h2
        refine Or.inl ⟨Or.inr ⟨rfl, rfl⟩, ?_⟩
        simp only [s6Cleanup, ho, hp]
        simp

theorem setOutputNormal_eff {env : Env S P} {b b' : Builder S P} {dst : Dst} {rsig : Bytes}
    {rnd : Rand S} {resp : Resp} (hp : b.procOff = false)
    (h : setOutputNormal env b dst rsig rnd = .ok (b', resp)) :
    ∃ ph am ms keys d spend mask lastMask last fh fh' oa om rsigNew vHmac ecdh,
      b.prefixHasher = some ph ∧ b.outputAmounts = some am ∧ b.outputMasks = some ms ∧
      s6AddKeys env b dst rnd = some keys ∧ s6Derivation env b dst rnd = some d ∧
      env.ptDec dst.addr.spend = some spend ∧
      s6Mask env b (derivToScalar env d b.outIdx.toNat) = some (mask, lastMask) ∧
      lastInBatch b.rsigGrp b.outIdx = some last ∧
      (((last = false ∨ (b.rsigOffload = true ∧ b.isDetMask = true)) ∧ b.fullHasher = some fh ∧
          oa = some (am ++ [dst.amount]) ∧ om = some (ms ++ [mask]) ∧ rsigNew = none) ∨
       (last = true ∧ (b.rsigOffload && b.isDetMask) = false ∧
        ∃ bp h0, b.fullHasher = some h0 ∧ h0.rsigVal bp = some fh ∧
          ((b.rsigOffload = false ∧ env.bpProve (am ++ [dst.amount]) (ms ++ [mask]) rnd.bpRand = some bp ∧
              ∃ bin, env.bpDump bp = some bin ∧ rsigNew = some bin) ∨
           (b.rsigOffload = true ∧ env.bpParse rsig = some bp ∧
              env.bpVerify bp (am ++ [dst.amount]) (ms ++ [mask]) = true ∧ rsigNew = none)) ∧
          oa = (if b.outIdx + 1 = (b.outputCount : Int) ∧ b.rsigOffload = false then none else some []) ∧
          om = (if b.outIdx + 1 = (b.outputCount : Int) ∧ b.rsigOffload = false then none else some []))) ∧
      hmacVouti env b.keyHmac dst ([0, 2] ++ env.ptEnc (derivToScalar env d b.outIdx.toNat • env.G + spend))
        b.outIdx.toNat = some vHmac ∧
      env.ecdh mask dst.amount (env.scEnc (derivToScalar env d b.outIdx.toNat)) b.isBpV2 = some ecdh ∧
      fh.setEcdh ecdh = some fh' ∧
      b' = { b with
        prefixHasher := some ((if b.outIdx = 0 then ph ++ Varint.dumpNat b.outputCount else ph) ++
          ([0, 2] ++ env.ptEnc (derivToScalar env d b.outIdx.toNat • env.G + spend))),
        sumOut := b.sumOut + dst.amount, addPub := keys.1, addPriv := keys.2,
        outputAmounts := oa, outputMasks := om, outputLastMask := lastMask,
        sumout := b.sumout + mask, fullHasher := some fh',
        outputPk := b.outputPk ++ [env.ptEnc (genC env mask dst.amount)] } ∧
      resp = .outputAck (some {
        txOut := [0, 2] ++ env.ptEnc (derivToScalar env d b.outIdx.toNat • env.G + spend),
        voutiHmac := vHmac, rsig := rsigNew,
        mask := if b.isDetMask && b.rsigOffload then some (env.scEnc mask) else none,
        outPk := env.ptEnc (derivToScalar env d b.outIdx.toNat • env.G + spend) ++
          env.ptEnc (genC env mask dst.amount),
        ecdh := ecdh }) := by
  simp only [setOutputNormal, bind_ok, pure_ok, orFail_ok, Option.bind_eq_some_iff] at h
  obtain ⟨ph, h1, am, h2, keys, h3, d, h4, spend, h5, ⟨mask, lm⟩, h6, ms, h7, r1, h8, ph', h9, vH, h10,
    ecdh, h11, fh', ⟨fh, h12, h13⟩, hr⟩ := h
  obtain ⟨last, hl, hrp⟩ := rangeProof_eff (by exact hp) h8
  simp only [Prod.mk.injEq] at hr
  obtain ⟨rfl, rfl⟩ := hr
  rcases hrp with ⟨hc, rfl⟩ | ⟨hc1, hc2, bp, h0, fh1, am1, ms1, e1, e2, e3, e4, e5, e6⟩
  · simp only [Option.some.injEq] at h9
    subst h9
    refine ⟨ph, am, ms, keys, d, spend, mask, lm, last, fh, fh', _, _, _, vH, ecdh, h1, h2, h7, h3, h4, h5,
      h6, hl, Or.inl ⟨hc, h12, rfl, rfl, rfl⟩, h10, h11, h13, rfl, rfl⟩
  · obtain ⟨rb, rs⟩ := r1
    simp only at e5 e6 h8 h9 h10 h11 h12 e3 e4 e1
    subst e6
    simp only [Option.some.injEq] at h9 h12 e3 e4
    subst h9 h12 e3 e4
    refine ⟨ph, am, ms, keys, d, spend, mask, lm, last, fh1, fh', _, _, rs, vH, ecdh, h1, h2, h7, h3, h4, h5,
      h6, hl, Or.inr ⟨hc1, hc2, bp, h0, e1, e2, e5, rfl, rfl⟩, h10, h11, h13, rfl, rfl⟩

theorem allOutSet_eff {env : Env S P} {b b' : Builder S P} {rnd : Rand S} {resp : Resp}
    (h : allOutSet env b rnd = .ok (b', resp)) :
    b.state.s = .OUTPUT ∧ b.outIdx + 1 = b.outputCount ∧ b.sumIn = b.sumOut + b.fee ∧
    b.outputCount = b.outputPk.length ∧
    ∃ tx extra ph fh0 ty fh1 fh2 fh3 full, b.tx = some tx ∧ txExtra env b tx.extra = some extra ∧
      b.prefixHasher = some ph ∧ b.fullHasher = some fh0 ∧ b.rctType = some ty ∧
      feedOutPks b.outputPk
        { fh0 with master := fh0.master ++ env.keccak (ph ++ Varint.dumpNat extra.length ++ extra) } = some fh1 ∧
      fh1.rctsigBaseDone env.keccak = some fh2 ∧ fh2.getDigest env.keccak = some (fh3, full) ∧
      b' = { b with
        state := { b.state with s := .FINAL_MESSAGE },
        prefixHash := some (env.keccak (ph ++ Varint.dumpNat extra.length ++ extra)),
        prefixHasher := none, fullHasher := none, tx := none, addPub := [],
        outIdx := -1, inpIdx := -1, fullMessage := some full } ∧
      resp = .allOutAck extra (env.keccak (ph ++ Varint.dumpNat extra.length ++ extra)) b.fee ty full := by
  simp only [allOutSet, bind_ok, pure_ok, ensure_ok, orFail_ok, exists_unit, Option.bind_eq_some_iff,
    TState.setOutputDone, TState.setFinalMessageDone, PreMlsag.setMessage] at h
  obtain ⟨_, ⟨hst, rfl⟩, _, ho, hf, tx, h1, extra, h2, hle, ph, h3, fh, ⟨fh0, h4, h5⟩, _, ty, h6,
    _, ⟨_, rfl⟩, hpk, fh2, ⟨fh1, h7, h8⟩, ⟨fh3, full⟩, h9, hr⟩ := h
  simp only [Option.some.injEq] at h5
  subst h5
  simp only [Prod.mk.injEq] at hr
  obtain ⟨rfl, rfl⟩ := hr
  have hf' : (b.fee : Int) = (b.sumIn : Int) - b.sumOut := by simpa using hf
  exact ⟨by simpa using hst, by simpa using ho, by omega, by simpa using hpk, tx, extra, ph, fh0, ty, fh1, fh2,
    fh3, full, h1, h2, h3, h4, h6, h7, h8, h9, rfl, rfl⟩

theorem signPseudo_eff {env : Env S P} {b : Builder S P} {pos : Nat} {alpha : S} {po poH : Bytes} {res}
    (h : signPseudo env b pos alpha po poH = .ok res) :
    (b.isDetMask = true ∧ pos + 1 = b.inputCount ∧
      res = ({ b with sumpouts := b.sumpouts + (b.sumout - b.sumpouts) },
        alpha + (b.sumout - b.sumpouts),
        genC env (alpha + (b.sumout - b.sumpouts)) b.inputLastAmount)) ∨
    ((b.isDetMask = true → pos + 1 ≠ b.inputCount) ∧
      (b.inpIdx + 1 = (b.inputCount : Int) → b.sumpouts = b.sumout) ∧
      tag env b.keyHmac dTxinComm pos po = some poH ∧
      ∃ p, env.ptDec po = some p ∧ res = (b, alpha, p)) := by
  unfold signPseudo at h
  split at h
  · rename_i hc
    simp only [bind_ok, ensure_ok, exists_unit, pure_ok] at h
    left
    simp at hc
    exact ⟨hc.1, hc.2, h.2.symm⟩
  · rename_i hc
    simp only [bind_ok, ensure_ok, exists_unit, pure_ok, orFail_ok] at h
    obtain ⟨h1, hm, h2, h3, p, h4, rfl⟩ := h
    right
    have : hm = poH := by simpa using h3
    subst this
    refine ⟨by simpa using hc, ?_, h2, p, h4, rfl⟩
    intro hl
    simpa [hl] using h1

theorem signInput_eff {env : Env S P} {b b' : Builder S P} {src : Src}
    {vini hmac po poH aEnc sEnc : Bytes} {rnd : Rand S} {resp : Resp}
    (h : signInput env b src vini hmac po poH aEnc sEnc rnd = .ok (b', resp)) :
    (b.state.s = .FINAL_MESSAGE ∨ b.state.s = .SIGNATURE) ∧ b.inpIdx + 1 < b.inputCount ∧
    ∃ pos kAlpha alphaB kSpend spendB real dest comm full sig alpha pOut sumpouts',
      b.perm[(b.inpIdx + 1).toNat]? = some pos ∧ hmacVini env b.keyHmac src vini pos = some hmac ∧
      buildKey env b.keyEnc dTxinAlpha (some pos) = some kAlpha ∧ env.decPack kAlpha aEnc = some alphaB ∧
      buildKey env b.keyEnc dSpend (some pos) = some kSpend ∧ env.decPack kSpend sEnc = some spendB ∧
      src.outputs[src.realOutput]? = some real ∧ env.ptDec real.dest = some dest ∧
      dest = env.scDec spendB • env.G ∧ env.ptDec real.commitment = some comm ∧
      comm = genC env (env.scDec src.mask) src.amount ∧ b.fullMessage = some full ∧
      ((b.isDetMask = true ∧ pos + 1 = b.inputCount ∧ sumpouts' = b.sumpouts + (b.sumout - b.sumpouts) ∧
          alpha = env.scDec alphaB + (b.sumout - b.sumpouts) ∧ pOut = genC env alpha b.inputLastAmount) ∨
       ((b.isDetMask = true → pos + 1 ≠ b.inputCount) ∧
          (b.inpIdx + 1 + 1 = (b.inputCount : Int) → b.sumpouts = b.sumout) ∧
          tag env b.keyHmac dTxinComm pos po = some poH ∧ env.ptDec po = some pOut ∧
          alpha = env.scDec alphaB ∧ sumpouts' = b.sumpouts)) ∧
      env.mlsag full src.outputs (env.scDec spendB) (env.scDec src.mask) alpha pOut src.realOutput
        rnd.mlsagRand = some sig ∧
      b' = { b with
        state := { b.state with s := if b.inpIdx + 1 + 1 = b.inputCount then .SIGNATURE_DONE else .SIGNATURE },
        inpIdx := b.inpIdx + 1, sumpouts := sumpouts' } ∧
      resp = .signAck sig (env.ptEnc pOut) := by
  simp only [signInput, bind_ok, pure_ok, ensure_ok, orFail_ok, exists_unit, TState.setSignature] at h
  obtain ⟨_, ⟨hst, rfl⟩, _, hlt, pos, h1, hm, h2, h3, kA, h4, aB, h5, ⟨b1, alpha, pOut⟩, h6, kS, h7, sB, h8,
    real, h9, dest, h10, h11, comm, h12, h13, full, h14, sig, h15, b2, h16, hr⟩ := h
  have : hm = hmac := by simpa using h3
  subst this
  simp only [Prod.mk.injEq] at hr
  obtain ⟨rfl, rfl⟩ := hr
  have hd : dest = env.scDec sB • env.G := by simpa using h11
  have hc : comm = genC env (env.scDec src.mask) src.amount := by simpa using h13
  have hsd : ∀ bb : Builder S P, signaturesDone bb = .ok b2 → bb.state.s = .SIGNATURE →
      b2 = { bb with state := { bb.state with
        s := if bb.inpIdx + 1 = (bb.inputCount : Int) then .SIGNATURE_DONE else .SIGNATURE } } := by
    intro bb hbb hs
    simp only [signaturesDone, TState.setSignatureDone] at hbb
    split at hbb
    · rename_i hl
      simp only [bind_ok, pure_ok, ensure_ok, exists_unit] at hbb
      obtain ⟨_, ⟨_, rfl⟩, rfl⟩ := hbb
      simp [hl]
    · rename_i hl
      simp only [pure_ok] at hbb
      subst hbb
      simp only [hl, if_false]
      rw [← hs]
  refine ⟨by simpa using hst, by simpa using hlt, pos, kA, aB, kS, sB, real, dest, comm, full, sig, alpha, pOut,
    b1.sumpouts, h1, h2, h4, h5, ?_, h8, h9, h10, hd, h12, hc, ?_, ?_, h15, ?_, rfl⟩
  · rcases signPseudo_eff h6 with ⟨_, _, hres⟩ | ⟨_, _, _, p, _, hres⟩ <;>
      (simp only [Prod.mk.injEq] at hres; obtain ⟨rfl, _⟩ := hres; exact h7)
  · rcases signPseudo_eff h6 with ⟨_, _, hres⟩ | ⟨_, _, _, p, _, hres⟩ <;>
      (simp only [Prod.mk.injEq] at hres; obtain ⟨rfl, _⟩ := hres; exact h14)
  · rcases signPseudo_eff h6 with ⟨e1, e2, hres⟩ | ⟨e1, e2, e3, p, e4, hres⟩
    · simp only [Prod.mk.injEq] at hres
      obtain ⟨rfl, rfl, rfl⟩ := hres
      exact Or.inl ⟨e1, e2, rfl, rfl, rfl⟩
    · simp only [Prod.mk.injEq] at hres
      obtain ⟨rfl, rfl, rfl⟩ := hres
      exact Or.inr ⟨e1, e2, e3, e4, rfl, rfl⟩
  · rcases signPseudo_eff h6 with ⟨e1, e2, hres⟩ | ⟨e1, e2, e3, p, e4, hres⟩ <;>
      (simp only [Prod.mk.injEq] at hres; obtain ⟨rfl, rfl, rfl⟩ := hres; exact hsd _ h16 rfl)

theorem finalMsg_eff {env : Env S P} {b b' : Builder S P} {rnd : Rand S} {resp : Resp}
    (h : finalMsg env b rnd = .ok (b', resp)) :
    b.state.s = .SIGNATURE_DONE ∧ ∃ ph, b.prefixHash = some ph ∧
    b' = { b with state := { b.state with s := .FINAL } } ∧
    resp = .finalAck rnd.salt (env.scEnc rnd.randMult)
      (env.encPack (env.mac rnd.salt (env.keccak2 (env.scEnc (env.spendPriv + rnd.randMult) ++ ph)))
        (env.scEnc b.r ++ (b.addPriv.map env.scEnc).flatten) rnd.nonceFinal) := by
  simp only [finalMsg, bind_ok, pure_ok, ensure_ok, orFail_ok, exists_unit, TState.setFinal] at h
  obtain ⟨_, ⟨hst, rfl⟩, ph, h1, _, hr⟩ := h
  simp only [Prod.mk.injEq] at hr
  exact ⟨by simpa using hst, ph, h1, hr.1.symm, hr.2.symm⟩

end Verif.Signer

import Verif.Lemmas.SignerStep1

set_option linter.unusedSectionVars false
set_option linter.unusedSimpArgs false

namespace Verif.Signer
open Verif
variable {S P : Type} [CommRing S] [AddCommGroup P] [Module S P] [DecidableEq S] [DecidableEq P]

theorem count_preIn (n : Nat) (K : Kind) : (preIn n).count K =
    (if K = .init then 1 else 0) + (if K = .input then n else 0) + (if K = .perm then 1 else 0) := by
  cases K <;> simp [preIn, List.count_append, List.count_replicate, List.count_cons]

theorem count_preOut (n k : Nat) (K : Kind) : (preOut n k).count K =
    (if K = .init then 1 else 0) + (if K = .input then n else 0) + (if K = .perm then 1 else 0) +
    (if K = .vini then k else 0) + (if K = .allIn then 1 else 0) := by
  simp only [preOut, List.count_append, count_preIn]
  cases K <;> simp [List.count_replicate, List.count_cons]

theorem count_preSign (n m : Nat) (K : Kind) : (preSign n m).count K =
    (if K = .init then 1 else 0) + (if K = .input then n else 0) + (if K = .perm then 1 else 0) +
    (if K = .vini then n else 0) + (if K = .allIn then 1 else 0) + (if K = .output then m else 0) +
    (if K = .allOut then 1 else 0) := by
  simp only [preSign, List.count_append, count_preOut]
  cases K <;> simp [List.count_replicate, List.count_cons]

theorem Inv.setPermutation {env : Env S P} {hd : Head S P} {s : List (Event S)} {b b' : Builder S P} {g : Ghost S}
    {perm : List Nat} {rnd : Rand S} {resp : Resp} (hI : Inv env hd s b g)
    (h : Signer.setPermutation b perm rnd = .ok (b', resp)) :
    Inv env hd (s ++ [⟨.permutation perm, rnd, resp⟩]) b' g := by
  obtain ⟨hst, rfl, hresp⟩ := setPermutation_eff h
  obtain ⟨hn, hm, _⟩ := hI.counts
  have hstage := hI.stage
  rw [hst] at hstage
  simp only [Stage] at hstage
  obtain ⟨hk1, hk0, hk2, hk3⟩ := hstage
  have holen : outputs s = [] := by
    rw [← List.length_eq_zero_iff, outputs_length, hk3]; simp [List.count_replicate]
  have hvlen : vinis s = [] := by
    rw [← List.length_eq_zero_iff, vinis_length, hk3]; simp [List.count_replicate]
  have hplen : perms s = [] := by
    rw [← List.length_eq_zero_iff, perms_length, hk3]; simp [List.count_replicate]
  have hslen : signs s = [] := by
    rw [← List.length_eq_zero_iff, signs_length, hk3]; simp [List.count_replicate]
  have hhash : b.state.s.hashing = true := by rw [hst]; rfl
  clear h
  generalize he : (⟨.permutation perm, rnd, resp⟩ : Event S) = e
  have ek : e.kind? = some .perm := by rw [← he, hresp]; rfl
  have ki' : kinds (s ++ [e]) = kinds s ++ [.perm] := by rw [kinds_snoc, ek]; rfl
  have ii : inputs (s ++ [e]) = inputs s := by rw [inputs_snoc, ← he, hresp]; exact List.append_nil _
  have pi : perms (s ++ [e]) = perms s ++ [perm] := by rw [perms_snoc, ← he, hresp]; rfl
  have vi : vinis (s ++ [e]) = vinis s := by rw [vinis_snoc, ← he, hresp]; exact List.append_nil _
  have oi : outputs (s ++ [e]) = outputs s := by rw [outputs_snoc, ← he, hresp]; exact List.append_nil _
  have si : signs (s ++ [e]) = signs s := by rw [signs_snoc, ← he, hresp]; exact List.append_nil _
  constructor
  case initOk => exact hI.initOk
  case head => exact head_snoc e hI.head
  case accepted => exact accepted_snoc hI.accepted (by simp [ek])
  case static => exact hI.static
  case stage =>
    rw [ki', hk3]
    exact ⟨rfl, hk0, hk2, rfl⟩
  case procOff => exact hI.procOff
  case sumIn => rw [ii]; exact hI.sumIn
  case sumOut => rw [oi]; exact hI.sumOut
  case inputsOk => rw [ii]; exact hI.inputsOk
  case lastAmount => intro _; rw [ii]; exact hI.lastAmount (by rw [hst]; rfl)
  case perm => intro _; rw [pi, hplen]; rfl
  case vinisOk => rw [vi, hvlen]; simp
  case masksLen => rw [oi]; exact hI.masksLen
  case outputsOk => rw [oi, holen]; simp
  case sumout => exact hI.sumout
  case outputPk => simp only [commitments, oi]; exact hI.outputPk
  case pending => rw [oi]; exact hI.pending
  case batchesOk => exact hI.batchesOk
  case hashing =>
    intro _
    have := hI.hashing hhash
    simp only [prefixBytes, vi, oi] at this ⊢
    exact this
  case addKeys => rw [oi]; exact hI.addKeys
  case hashed => intro hs; simp [St.hashing] at hs
  case preMasks => intro _ hs; simp [St.masksSet] at hs
  case signLen => rw [si]; exact hI.signLen
  case signsOk => rw [si, hslen]; simp
  case alphaSum => rw [ii]; exact hI.alphaSum
  case signed => intro hs; simp at hs
  case balance => intro hs; simp [St.hashing] at hs
  case closing => intro hs; simp [St.hashing] at hs
  case uploaded => rintro ⟨e', h1, h2⟩; simp at h1; subst h1; rw [← he] at h2; simp [Event.isProofUpload, hresp] at h2
  case flushed => intro _ hc; rw [oi, holen] at hc; simp at hc

theorem Inv.inputVini {env : Env S P} {hd : Head S P} {s : List (Event S)} {b b' : Builder S P} {g : Ghost S}
    {src : Src} {vini hmac : Bytes} {rnd : Rand S} {resp : Resp} (hI : Inv env hd s b g)
    (h : Signer.inputVini env b src vini hmac rnd = .ok (b', resp)) :
    Inv env hd (s ++ [⟨.inputVini src vini hmac, rnd, resp⟩]) b' g := by
  obtain ⟨hst, hlt, hbp, pos, ph, h1, h2, h3, rfl, hresp⟩ := inputVini_eff h
  obtain ⟨hn, hm, _⟩ := hI.counts
  have hstage := hI.stage
  have hks : ∃ k : Nat, b.inpIdx + 1 = k ∧ b.outIdx = -1 ∧
      kinds s = preIn hd.tsx.numInputs ++ List.replicate k .vini ∧ k ≤ hd.tsx.numInputs ∧ 0 < hd.tsx.numInputs := by
    rcases hst with hst | hst <;> rw [hst] at hstage <;> simp only [Stage] at hstage
    · exact ⟨0, by omega, hstage.2.2.1, by simpa using hstage.2.2.2, by omega, hstage.2.1⟩
    · obtain ⟨k, e1, e2, e0, e3, e4⟩ := hstage
      exact ⟨k + 1, by omega, e3, e4, by omega, e0⟩
  obtain ⟨k, hk1, hk2, hk3, hk4, hk0⟩ := hks
  have hhash : b.state.s.hashing = true := by rcases hst with hst | hst <;> rw [hst] <;> rfl
  have hins : b.state.s.inputsSet = true := by rcases hst with hst | hst <;> rw [hst] <;> rfl
  have hpers : b.state.s.permSet = true := by rcases hst with hst | hst <;> rw [hst] <;> rfl
  have holen : outputs s = [] := by
    rw [← List.length_eq_zero_iff, outputs_length, hk3, List.count_append, count_preIn]; simp [List.count_replicate]
  have hvlen : (vinis s).length = k := by
    rw [vinis_length, hk3, List.count_append, count_preIn]; simp [List.count_replicate]
  have hslen : signs s = [] := by
    rw [← List.length_eq_zero_iff, signs_length, hk3, List.count_append, count_preIn]; simp [List.count_replicate]
  clear h
  generalize he : (⟨.inputVini src vini hmac, rnd, resp⟩ : Event S) = e
  have ek : e.kind? = some .vini := by rw [← he, hresp]; rfl
  have ki' : kinds (s ++ [e]) = kinds s ++ [.vini] := by rw [kinds_snoc, ek]; rfl
  have ii : inputs (s ++ [e]) = inputs s := by rw [inputs_snoc, ← he, hresp]; exact List.append_nil _
  have pi : perms (s ++ [e]) = perms s := by rw [perms_snoc, ← he, hresp]; exact List.append_nil _
  have vi : vinis (s ++ [e]) = vinis s ++ [⟨src, vini, hmac⟩] := by rw [vinis_snoc, ← he, hresp]; rfl
  have oi : outputs (s ++ [e]) = outputs s := by rw [outputs_snoc, ← he, hresp]; exact List.append_nil _
  have si : signs (s ++ [e]) = signs s := by rw [signs_snoc, ← he, hresp]; exact List.append_nil _
  constructor
  case initOk => exact hI.initOk
  case head => exact head_snoc e hI.head
  case accepted => exact accepted_snoc hI.accepted (by simp [ek])
  case static => exact hI.static
  case stage =>
    rw [ki', hk3]
    refine ⟨k, hk1, hk4, hk0, hk2, ?_⟩
    rw [List.replicate_succ']; simp
  case procOff => exact hI.procOff
  case sumIn => rw [ii]; exact hI.sumIn
  case sumOut => rw [oi]; exact hI.sumOut
  case inputsOk => rw [ii]; exact hI.inputsOk
  case lastAmount => intro _; rw [ii]; exact hI.lastAmount hins
  case perm => intro _; rw [pi]; exact hI.perm hpers
  case vinisOk =>
    intro i r hr
    rw [vi] at hr
    rcases getElem?_snoc hr with hr | ⟨rfl, rfl⟩
    · exact hI.vinisOk i r hr
    · refine ⟨pos, ?_, h3⟩
      rw [hvlen, ← h1]
      congr 1
      show _ = (b.inpIdx + 1).toNat
      omega
  case masksLen => rw [oi]; exact hI.masksLen
  case outputsOk => rw [oi, holen]; simp
  case sumout => exact hI.sumout
  case outputPk => simp only [commitments, oi]; exact hI.outputPk
  case pending => rw [oi]; exact hI.pending
  case batchesOk => exact hI.batchesOk
  case hashing =>
    intro _
    have := hI.hashing hhash
    simp only [prefixBytes, vi, oi, holen, if_true, List.append_nil] at this ⊢
    obtain ⟨t1, t2, t3⟩ := this
    refine ⟨t1, ?_, t3⟩
    rw [h2] at t2
    simp only [Option.some.injEq] at t2
    rw [t2]
    simp
  case addKeys => rw [oi]; exact hI.addKeys
  case hashed => intro hs; simp [St.hashing] at hs
  case preMasks => intro _ hs; simp [St.masksSet] at hs
  case signLen => rw [si]; exact hI.signLen
  case signsOk => rw [si, hslen]; simp
  case alphaSum => rw [ii]; exact hI.alphaSum
  case signed => intro hs; simp at hs
  case balance => intro hs; simp [St.hashing] at hs
  case closing => intro hs; simp [St.hashing] at hs
  case uploaded => rintro ⟨e', h1, h2⟩; simp at h1; subst h1; rw [← he] at h2; simp [Event.isProofUpload, hresp] at h2
  case flushed => intro _ hc; rw [oi, holen] at hc; simp at hc

theorem Inv.allInSet {env : Env S P} {hd : Head S P} {s : List (Event S)} {b b' : Builder S P} {g : Ghost S}
    {rnd : Rand S} {resp : Resp} (hI : Inv env hd s b g)
    (h : Signer.allInSet env b rnd = .ok (b', resp)) :
    Inv env hd (s ++ [⟨.allInputsSet, rnd, resp⟩]) b' g := by
  obtain ⟨hst, h⟩ := allInSet_eff h
  obtain ⟨hn, hm, _, _, _, _, hinm, _⟩ := hI.counts
  replace hst := hst hinm
  have hstage := hI.stage
  rw [hst] at hstage
  simp only [Stage] at hstage
  obtain ⟨k, hk1, hk4, hk0, hk2, hk3⟩ := hstage
  have hhash : b.state.s.hashing = true := by rw [hst]; rfl
  have hins : b.state.s.inputsSet = true := by rw [hst]; rfl
  have hpers : b.state.s.permSet = true := by rw [hst]; rfl
  have holen : outputs s = [] := by
    rw [← List.length_eq_zero_iff, outputs_length, hk3, List.count_append, count_preIn]; simp [List.count_replicate]
  have hslen : signs s = [] := by
    rw [← List.length_eq_zero_iff, signs_length, hk3, List.count_append, count_preIn]; simp [List.count_replicate]
  have hmask : g.masks = [] := by
    rw [← List.length_eq_zero_iff, hI.masksLen, holen]; rfl
  have hdec : g.dec = [] ∧ g.used = [] := by
    have := hI.signLen
    rw [hslen] at this
    simpa using this
  have hsum : b.sumpouts = ((inputs s).map (·.rnd.alpha)).sum := by
    have := hI.alphaSum
    rw [hdec.1, hdec.2] at this
    simpa using this
  have hresp : ∃ m, resp = .allInputsAck m := by
    rcases h with ⟨_, h, _⟩ | ⟨_, _, _, h, _⟩ <;> exact ⟨_, h⟩
  obtain ⟨am, hresp⟩ := hresp
  generalize he : (⟨.allInputsSet, rnd, resp⟩ : Event S) = e
  have ek : e.kind? = some .allIn := by rw [← he, hresp]; rfl
  have ki' : kinds (s ++ [e]) = kinds s ++ [.allIn] := by rw [kinds_snoc, ek]; rfl
  have ii : inputs (s ++ [e]) = inputs s := by rw [inputs_snoc, ← he, hresp]; exact List.append_nil _
  have pi : perms (s ++ [e]) = perms s := by rw [perms_snoc, ← he, hresp]; exact List.append_nil _
  have vi : vinis (s ++ [e]) = vinis s := by rw [vinis_snoc, ← he, hresp]; exact List.append_nil _
  have oi : outputs (s ++ [e]) = outputs s := by rw [outputs_snoc, ← he, hresp]; exact List.append_nil _
  have si : signs (s ++ [e]) = signs s := by rw [signs_snoc, ← he, hresp]; exact List.append_nil _
  have hb : ∃ olm, b' = { b with
      state := { b.state with s := .INPUT_ALL_DONE }, sumout := 0, outputLastMask := olm } ∧
      (b.isDetMask = false → ∃ masks, computeMasksAux env b.keyEnc b.sumpouts b.outputCount b.outputCount 0 0
        = some (masks, b.sumpouts) ∧ olm = masks.getLast?) := by
    rcases h with ⟨hd, _, rfl⟩ | ⟨hd, masks, hc, _, rfl⟩
    · exact ⟨b.outputLastMask, rfl, by simp [hd]⟩
    · exact ⟨_, rfl, fun _ => ⟨masks, hc, rfl⟩⟩
  clear h
  obtain ⟨olm, rfl, hpre⟩ := hb
  constructor
  case initOk => exact hI.initOk
  case head => exact head_snoc e hI.head
  case accepted => exact accepted_snoc hI.accepted (by simp [ek])
  case static => exact hI.static
  case stage =>
    rw [ki', hk3]
    exact ⟨k, hk1, hk4, hk0, hk2, rfl⟩
  case procOff => exact hI.procOff
  case sumIn => rw [ii]; exact hI.sumIn
  case sumOut => rw [oi]; exact hI.sumOut
  case inputsOk => rw [ii]; exact hI.inputsOk
  case lastAmount => intro _; rw [ii]; exact hI.lastAmount hins
  case perm => intro _; rw [pi]; exact hI.perm hpers
  case vinisOk => rw [vi]; exact hI.vinisOk
  case masksLen => rw [oi]; exact hI.masksLen
  case outputsOk => rw [oi, holen]; simp
  case sumout => rw [hmask]; rfl
  case outputPk => simp only [commitments, oi]; exact hI.outputPk
  case pending => rw [oi]; exact hI.pending
  case batchesOk => exact hI.batchesOk
  case hashing =>
    intro _
    have := hI.hashing hhash
    simp only [prefixBytes, vi, oi] at this ⊢
    exact this
  case addKeys => rw [oi]; exact hI.addKeys
  case hashed => intro hs; simp [St.hashing] at hs
  case preMasks =>
    intro hd _
    obtain ⟨masks, hc, h2⟩ := hpre hd
    rw [hsum] at hc
    rw [ii, oi, holen, hmask]
    exact ⟨masks, hc, by simp, fun _ => h2⟩
  case signLen => rw [si]; exact hI.signLen
  case signsOk => rw [si, hslen]; simp
  case alphaSum => rw [ii]; exact hI.alphaSum
  case signed => intro hs; simp at hs
  case balance => intro hs; simp [St.hashing] at hs
  case closing => intro hs; simp [St.hashing] at hs
  case uploaded => rintro ⟨e', h1, h2⟩; simp at h1; subst h1; rw [← he] at h2; simp [Event.isProofUpload, hresp] at h2
  case flushed => intro _ hc; rw [oi, holen] at hc; simp at hc

end Verif.Signer

import Verif.Lemmas.SignerStep3
import Mathlib.Tactic.LinearCombination
import Mathlib.Tactic.Ring

set_option linter.unusedSectionVars false
set_option linter.unusedSimpArgs false

namespace Verif.Signer
open Verif
variable {S P : Type} [CommRing S] [AddCommGroup P] [Module S P] [DecidableEq S] [DecidableEq P]

theorem feedOutPks_eff : ∀ (pks : List Bytes) (h h' : PreMlsag) (x : Bytes), h.rct = some x →
    feedOutPks pks h = some h' →
    h' = { h with rct := some (x ++ pks.flatten), state := if pks = [] then h.state else 5 } := by
  intro pks
  induction pks with
  | nil =>
    intro h h' x hx he
    simp only [feedOutPks, Option.some.injEq] at he
    subst he
    cases h
    simp_all
  | cons pk pks ih =>
    intro h h' x hx he
    simp only [feedOutPks, PreMlsag.setOutPk, Option.bind_eq_some_iff] at he
    obtain ⟨h1, e1, e2⟩ := he
    split at e1
    · simp at e1
    · simp only [PreMlsag.feedRct, hx, Option.map_some, Option.some.injEq] at e1
      subst e1
      have := ih _ _ _ rfl e2
      rw [this]
      simp

theorem Inv.allOutSet {env : Env S P} {hd : Head S P} {s : List (Event S)} {b b' : Builder S P} {g : Ghost S}
    {rnd : Rand S} {resp : Resp} (hI : Inv env hd s b g)
    (h : Signer.allOutSet env b rnd = .ok (b', resp)) :
    Inv env hd (s ++ [⟨.allOutSet, rnd, resp⟩]) b' g ∧
    b.sumIn = b.sumOut + b.fee ∧
    resp = .allOutAck (extraOf env hd g) (prefixHashOf env hd s g) hd.tsx.fee hd.ty
      (getPreMlsagHash env.keccak (rctOf env hd s g (prefixHashOf env hd s g))) := by
  obtain ⟨hst, hlast, hfee, hpk, tx, extra, ph, fh0, ty, fh1, fh2, fh3, full, h1, h2, h3, h4, h5, h6, h7, h8, rfl,
    hresp⟩ := allOutSet_eff h
  clear h
  obtain ⟨hn, hm, hf, hna, hrp, _, _, hbp⟩ := hI.counts
  have hh : b.state.s.hashing = true := by rw [hst]; rfl
  have hins : b.state.s.inputsSet = true := by rw [hst]; rfl
  have hpers : b.state.s.permSet = true := by rw [hst]; rfl
  have hmset : b.state.s.masksSet = true := by rw [hst]; rfl
  have hstage := hI.stage
  rw [hst] at hstage
  simp only [Stage] at hstage
  obtain ⟨hs1, hs2, k, hs3, hs4, hs5⟩ := hstage
  have holen := hI.outLen hh
  have hkm : k + 1 = hd.tsx.outputs.length := by omega
  have hone : outputs s ≠ [] := by
    intro hc; rw [hc] at holen; simp at holen; omega
  have hslen : signs s = [] := by
    rw [← List.length_eq_zero_iff, signs_length, hs5, List.count_append, count_preOut]
    simp [List.count_replicate]
  obtain ⟨t1, t2, t3, simple, t4⟩ := hI.hashing hh
  have hex : extra = extraOf env hd g := by
    rw [t1] at h1
    simp only [Option.some.injEq] at h1
    subst h1
    simp only [txExtra] at h2
    simp only [extraOf, ← hna]
    split at h2
    · rename_i hc
      split at h2
      · simp at h2
      · simp only [Option.some.injEq] at h2
        rw [← h2, hc, t3, hrp]
        simp
    · rename_i hc
      simp only [Option.some.injEq] at h2
      rw [← h2, hrp]
      simp [hc]
  have hph : env.keccak (ph ++ Varint.dumpNat extra.length ++ extra) = prefixHashOf env hd s g := by
    rw [t2] at h3
    simp only [Option.some.injEq] at h3
    subst h3 hex
    rfl
  have hty : ty = hd.ty := by
    simp only [Builder.rctType, hbp] at h5
    rcases hI.initOk.tyOk with ⟨q1, q2⟩ | ⟨q1, q2⟩ <;> simp [q1] at h5 <;> rw [q2, ← h5]
  have hfull : full = getPreMlsagHash env.keccak (rctOf env hd s g (prefixHashOf env hd s g)) := by
    rw [h4] at t4
    simp only [Option.some.injEq] at t4
    subst t4
    rw [hph] at h6
    have := feedOutPks_eff _ _ _ _ rfl h6
    subst this
    have hpkne : b.outputPk ≠ [] := by
      intro hc; rw [hc] at hpk; simp at hpk; omega
    simp only [hpkne, if_false, PreMlsag.rctsigBaseDone, ne_eq, not_true_eq_false, Option.some.injEq] at h7
    subst h7
    simp only [PreMlsag.getDigest, ne_eq, not_true_eq_false, if_false, Option.some.injEq, Prod.mk.injEq] at h8
    rw [← h8.2, hI.outputPk]
    simp [getPreMlsagHash, RctSig.base, rctOf, List.append_assoc, Function.comp_def]
  refine ⟨?_, hfee, by rw [hresp, hph, hty, hfull, hf, hex]⟩
  rw [hph, hfull]
  generalize he : (⟨.allOutSet, rnd, resp⟩ : Event S) = e
  have ek : e.kind? = some .allOut := by rw [← he, hresp]; rfl
  have ki' : kinds (s ++ [e]) = kinds s ++ [.allOut] := by rw [kinds_snoc, ek]; rfl
  have ii : inputs (s ++ [e]) = inputs s := by rw [inputs_snoc, ← he, hresp]; exact List.append_nil _
  have pi : perms (s ++ [e]) = perms s := by rw [perms_snoc, ← he, hresp]; exact List.append_nil _
  have vi : vinis (s ++ [e]) = vinis s := by rw [vinis_snoc, ← he, hresp]; exact List.append_nil _
  have oi : outputs (s ++ [e]) = outputs s := by rw [outputs_snoc, ← he, hresp]; exact List.append_nil _
  have si : signs (s ++ [e]) = signs s := by rw [signs_snoc, ← he, hresp]; exact List.append_nil _
  constructor
  case initOk => exact hI.initOk
  case head => exact head_snoc e hI.head
  case accepted => exact accepted_snoc hI.accepted (by simp [ek])
  case static => exact hI.static
  case stage =>
    rw [ki', hs5, hkm]
    exact ⟨rfl, rfl, hs2, by omega, rfl⟩
  case procOff => exact hI.procOff
  case sumIn => rw [ii]; exact hI.sumIn
  case sumOut => rw [oi]; exact hI.sumOut
  case inputsOk => rw [ii]; exact hI.inputsOk
  case lastAmount => intro _; rw [ii]; exact hI.lastAmount hins
  case perm => intro _; rw [pi]; exact hI.perm hpers
  case vinisOk => rw [vi]; exact hI.vinisOk
  case masksLen => rw [oi]; exact hI.masksLen
  case outputsOk => rw [oi]; exact hI.outputsOk
  case sumout => exact hI.sumout
  case outputPk => simp only [commitments, oi]; exact hI.outputPk
  case pending => rw [oi]; exact hI.pending
  case batchesOk => exact hI.batchesOk
  case hashing => intro hs; simp [St.hashing] at hs
  case addKeys => rw [oi]; exact hI.addKeys
  case hashed =>
    intro _
    simp only [rctOf, prefixHashOf, prefixBytes, commitments, vi, oi, and_self]
  case preMasks => intro h1 _; rw [ii, oi]; exact hI.preMasks h1 hmset
  case signLen => rw [si]; exact hI.signLen
  case signsOk => rw [si, hslen]; simp
  case alphaSum => rw [ii]; exact hI.alphaSum
  case signed => intro hs; simp at hs
  case balance => intro _; exact hfee
  case closing => exact fun _ => ⟨e, by simp, _, _, _, _, _, by rw [← he], by rw [← he, hfull.symm]; exact hresp, rfl⟩
  case uploaded => rintro ⟨e', h1, h2⟩; simp at h1; subst h1; rw [← he] at h2; simp [Event.isProofUpload, hresp] at h2
  case flushed => intro hs; simp [St.hashing] at hs

theorem Inv.signInput {env : Env S P} {hd : Head S P} {s : List (Event S)} {b b' : Builder S P} {g : Ghost S}
    {src : Src} {vini hmac po poH aEnc sEnc : Bytes} {rnd : Rand S} {resp : Resp} (hI : Inv env hd s b g)
    (h : Signer.signInput env b src vini hmac po poH aEnc sEnc rnd = .ok (b', resp)) :
    ∃ g', Inv env hd (s ++ [⟨.signInput src vini hmac po poH aEnc sEnc, rnd, resp⟩]) b' g' := by
  obtain ⟨hst, hlt, pos, kA, aB, kS, sB, real, dest, comm, full, sig, alpha, pOut, sp', h1, h2, h3, h4, h5, h6, h7,
    h8, h9, h10, h11, h12, h13, h14, rfl, hresp⟩ := signInput_eff h
  clear h
  obtain ⟨hn, hm, _⟩ := hI.counts
  have hh : b.state.s.hashing = false := by rcases hst with hst | hst <;> rw [hst] <;> rfl
  have hins : b.state.s.inputsSet = true := by rcases hst with hst | hst <;> rw [hst] <;> rfl
  have hpers : b.state.s.permSet = true := by rcases hst with hst | hst <;> rw [hst] <;> rfl
  have hmset : b.state.s.masksSet = true := by rcases hst with hst | hst <;> rw [hst] <;> rfl
  have hks : ∃ k : Nat, b.inpIdx + 1 = k ∧ b.outIdx = -1 ∧ k < hd.tsx.numInputs ∧ 0 < hd.tsx.outputs.length ∧
      kinds s = preSign hd.tsx.numInputs hd.tsx.outputs.length ++ List.replicate k .sign := by
    have hs := hI.stage
    rcases hst with hst | hst <;> rw [hst] at hs <;> simp only [Stage] at hs
    · exact ⟨0, by omega, hs.2.1, by omega, hs.2.2.2.1, by simpa using hs.2.2.2.2⟩
    · obtain ⟨k, e1, e2, e3, e4, e5⟩ := hs
      exact ⟨k + 1, by omega, e3, e2, e4, e5⟩
  obtain ⟨k, hk1, hk2, hk3, hk4, hk5⟩ := hks
  have hkt : (b.inpIdx + 1).toNat = k := by omega
  have hslen : (signs s).length = k := by
    rw [signs_length, hk5, List.count_append, count_preSign]; simp [List.count_replicate]
  have hlast : (b.inpIdx + 1 + 1 = (b.inputCount : Int)) ↔ k + 1 = hd.tsx.numInputs := by omega
  have hnewst : ∀ {q : St → Bool}, q .SIGNATURE = q .SIGNATURE_DONE →
      q (if b.inpIdx + 1 + 1 = (b.inputCount : Int) then St.SIGNATURE_DONE else St.SIGNATURE) = q .SIGNATURE := by
    intro q hq; split <;> simp [hq]
  rw [hkt] at h1
  generalize he : (⟨.signInput src vini hmac po poH aEnc sEnc, rnd, resp⟩ : Event S) = e
  have ek : e.kind? = some .sign := by rw [← he, hresp]; rfl
  have es : e.sign? = some ⟨src, vini, hmac, po, poH, aEnc, sEnc, sig, env.ptEnc pOut⟩ := by rw [← he, hresp]; rfl
  have ki' : kinds (s ++ [e]) = kinds s ++ [.sign] := by rw [kinds_snoc, ek]; rfl
  have si := signs_snoc s e
  simp only [es, Option.toList_some] at si
  have ii : inputs (s ++ [e]) = inputs s := by rw [inputs_snoc, ← he, hresp]; exact List.append_nil _
  have pi : perms (s ++ [e]) = perms s := by rw [perms_snoc, ← he, hresp]; exact List.append_nil _
  have vi : vinis (s ++ [e]) = vinis s := by rw [vinis_snoc, ← he, hresp]; exact List.append_nil _
  have oi : outputs (s ++ [e]) = outputs s := by rw [outputs_snoc, ← he, hresp]; exact List.append_nil _
  refine ⟨{ g with dec := g.dec ++ [env.scDec aB], used := g.used ++ [alpha] }, ?_⟩
  constructor
  case initOk => exact hI.initOk
  case head => exact head_snoc e hI.head
  case accepted => exact accepted_snoc hI.accepted (by simp [ek])
  case static => exact hI.static
  case stage =>
    rw [ki', hk5]
    by_cases hl : b.inpIdx + 1 + 1 = (b.inputCount : Int)
    · simp only [hl, if_true, Stage]
      refine ⟨by omega, by omega, hk2, hk4, ?_⟩
      have := hlast.1 hl
      have e : List.replicate hd.tsx.numInputs Kind.sign = List.replicate k .sign ++ [.sign] := by
        rw [← this, List.replicate_succ']
      rw [e]; simp
    · simp only [hl, if_false, Stage]
      refine ⟨k, hk1, ?_, hk2, hk4, ?_⟩
      · have := mt hlast.2 hl; omega
      · rw [List.replicate_succ']; simp
  case procOff => exact hI.procOff
  case sumIn => rw [ii]; exact hI.sumIn
  case sumOut => rw [oi]; exact hI.sumOut
  case inputsOk => rw [ii]; exact hI.inputsOk
  case lastAmount => intro _; rw [ii]; exact hI.lastAmount hins
  case perm => intro _; rw [pi]; exact hI.perm hpers
  case vinisOk => rw [vi]; exact hI.vinisOk
  case masksLen => rw [oi]; exact hI.masksLen
  case outputsOk => rw [oi]; exact hI.outputsOk
  case sumout => exact hI.sumout
  case outputPk => simp only [commitments, oi]; exact hI.outputPk
  case pending => rw [oi]; exact hI.pending
  case batchesOk => exact hI.batchesOk
  case hashing =>
    intro hs
    rw [hnewst (q := St.hashing) rfl] at hs
    simp [St.hashing] at hs
  case addKeys => rw [oi]; exact hI.addKeys
  case hashed =>
    intro _
    have := hI.hashed hh
    simp only [rctOf, prefixHashOf, prefixBytes, commitments, extraOf, vi, oi] at this ⊢
    exact this
  case preMasks => intro h1 _; rw [ii, oi]; exact hI.preMasks h1 hmset
  case signLen => rw [si]; simp [hI.signLen]
  case signsOk =>
    intro i r d u hr hdd huu
    rw [si] at hr
    obtain ⟨l1, l2⟩ := hI.signLen
    rcases getElem?_snoc hr with hr | ⟨rfl, rfl⟩
    · have hi := (List.getElem?_eq_some_iff.1 hr).1
      rw [List.getElem?_append_left (by omega)] at hdd huu
      exact hI.signsOk i r d u hr hdd huu
    · have e1 : d = env.scDec aB := by rw [← l1] at hdd; simpa using hdd.symm
      have e2 : u = alpha := by rw [← l2] at huu; simpa using huu.symm
      subst e1 e2 h9 h11
      rw [hslen]
      refine ⟨pos, kA, aB, kS, sB, real, full, pOut, rnd.mlsagRand, h1, h2, h3, h4, rfl, h5, h6, h7, h8, h10,
        h12, h14, rfl, ?_⟩
      rcases h13 with ⟨q1, q2, _, _, q3⟩ | ⟨q1, _, q2, q3, q4, _⟩
      · exact Or.inl ⟨q1, q2, q3⟩
      · exact Or.inr ⟨q1, q2, q3, q4⟩
  case alphaSum =>
    have := hI.alphaSum
    rw [ii]
    simp only [List.sum_append, List.sum_cons, List.sum_nil, add_zero]
    rcases h13 with ⟨_, _, q1, q2, _⟩ | ⟨_, _, _, _, q2, q1⟩ <;> rw [q1, q2] <;> linear_combination this
  case signed =>
    intro hs
    simp only at hs ⊢
    by_cases hl : b.inpIdx + 1 + 1 = (b.inputCount : Int)
    · rcases h13 with ⟨_, _, q1, _⟩ | ⟨_, q, _, _, _, q1⟩
      · rw [q1]; ring
      · rw [q1]; exact q hl
    · simp [hl] at hs
  case balance => intro _; exact hI.balance hh
  case closing => exact fun _ => let ⟨e', h1, h2⟩ := hI.closing hh; ⟨e', List.mem_append_left _ h1, h2⟩
  case uploaded => rintro ⟨e', h1, h2⟩; simp at h1; subst h1; rw [← he] at h2; simp [Event.isProofUpload, hresp] at h2
  case flushed =>
    intro hs
    rw [hnewst (q := St.hashing) rfl] at hs
    simp [St.hashing] at hs

theorem Inv.init {env : Env S P} {tsx : TsxData} {rnd : Rand S} {rPub : P} {pid extra : Bytes} {ty : UInt8}
    {hmacs : List Bytes} {off : Bool} (h : InitOk env tsx rnd rPub pid extra ty hmacs) :
    Inv env ⟨tsx, rnd, rPub, pid, extra, ty, hmacs⟩ [⟨.init tsx, rnd, .initAck hmacs off⟩]
      (initBuilder env tsx rnd rPub pid extra ty) {} := by
  generalize he : (⟨.init tsx, rnd, .initAck hmacs off⟩ : Event S) = e
  have ii : inputs [e] = [] := by rw [← he]; rfl
  have vi : vinis [e] = [] := by rw [← he]; rfl
  have oi : outputs [e] = [] := by rw [← he]; rfl
  have si : signs [e] = [] := by rw [← he]; rfl
  have ki : kinds [e] = [.init] := by rw [← he]; rfl
  constructor
  case initOk => exact h
  case head => exact ⟨off, [], by rw [← he]⟩
  case accepted => intro e' he'; simp at he'; subst he'; rw [← he]; intro hc; simp [Event.kind?] at hc
  case static => rfl
  case stage => exact ⟨rfl, rfl, ki⟩
  case procOff => intro hs; simp [initBuilder] at hs
  case sumIn => rw [ii]; rfl
  case sumOut => rw [oi]; rfl
  case inputsOk => intro i r hr; rw [ii] at hr; simp at hr
  case lastAmount => intro hs; simp [initBuilder, St.inputsSet] at hs
  case perm => intro hs; simp [initBuilder, St.permSet] at hs
  case vinisOk => intro i r hr; rw [vi] at hr; simp at hr
  case masksLen => rw [oi]; rfl
  case outputsOk => intro i r m hr; rw [oi] at hr; simp at hr
  case sumout => simp [initBuilder]
  case outputPk => rfl
  case pending => exact Or.inl ⟨[], [], rfl, rfl, by rw [oi]; rfl, rfl⟩
  case batchesOk => intro x hx; simp at hx
  case hashing =>
    intro _
    refine ⟨rfl, ?_, rfl, some (decide (tsx.numInputs > 1) || decide (tsx.rsigType ≠ 0)), ?_⟩
    · simp [prefixBytes, initBuilder, vi, oi]
    · simp [initBuilder, oi]
  case addKeys => intro _; rw [oi]; rfl
  case hashed => intro hs; simp [initBuilder, St.hashing] at hs
  case preMasks => intro _ hs; simp [initBuilder, St.masksSet] at hs
  case signLen => rw [si]; exact ⟨rfl, rfl⟩
  case signsOk => intro i r d u hr; rw [si] at hr; simp at hr
  case alphaSum => rw [ii]; simp [initBuilder]
  case signed => intro hs; simp [initBuilder] at hs
  case balance => intro hs; simp [initBuilder, St.hashing] at hs
  case closing => intro hs; simp [initBuilder, St.hashing] at hs
  case uploaded => rintro ⟨e', h1, h2⟩; simp at h1; subst h1; rw [← he] at h2; simp [Event.isProofUpload] at h2
  case flushed => intro _ hc; rw [oi] at hc; simp at hc

end Verif.Signer

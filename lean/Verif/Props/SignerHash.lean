import Verif.Lemmas.SignerAllOut
import Verif.Lemmas.SignerBalance
import Verif.Lemmas.SignerDemo
import Verif.Spec.TxPrefix

/-! C10, C14, C56, C57: range-proof coverage, the signed message, the transaction prefix. -/

set_option linter.unusedSectionVars false

namespace Verif.Signer
open Verif
variable {S P : Type} [CommRing S] [AddCommGroup P] [Module S P] [DecidableEq S] [DecidableEq P]

/-! ### C14 -/

/-- Feed ECDH data (`inl`) and range proofs (`inr`) in any order. -/
def feedAll : List (Bytes ⊕ Bp) → PreMlsag → Option PreMlsag
  | [], h => some h
  | .inl e :: xs, h => (h.setEcdh e).bind (feedAll xs)
  | .inr p :: xs, h => (h.rsigVal p).bind (feedAll xs)

/-- Feed pseudo outputs. -/
def feedPseudo : List Bytes → PreMlsag → Option PreMlsag
  | [], h => some h
  | x :: xs, h => (h.setPseudoOut x).bind (feedPseudo xs)

/-- The streaming computation the device does: type and fee at init, ECDH data and range proofs as outputs come
in, then the prefix hash, the output commitments, and the digest. -/
def streamed (H : Bytes → Bytes) (simple : Bool) (ty : UInt8) (fee : Nat) (pseudo : List Bytes)
    (feeds : List (Bytes ⊕ Bp)) (msg : Bytes) (outPk : List Bytes) : Option Bytes := do
  let h ← PreMlsag.init {} simple
  let h ← h.setTypeFee ty fee
  let h ← feedPseudo pseudo h
  let h ← feedAll feeds h
  let h ← h.setMessage msg
  let h ← feedOutPks outPk h
  let h ← h.rctsigBaseDone H
  let (_, d) ← h.getDigest H
  pure d

def ecdhOf (feeds : List (Bytes ⊕ Bp)) : List Bytes := feeds.filterMap fun x => x.getLeft?
def proofsOf (feeds : List (Bytes ⊕ Bp)) : List Bp := feeds.filterMap fun x => x.getRight?

@[simp] theorem ecdhOf_inl (e : Bytes) (xs) : ecdhOf (.inl e :: xs) = e :: ecdhOf xs := rfl
@[simp] theorem ecdhOf_inr (p : Bp) (xs) : ecdhOf (.inr p :: xs) = ecdhOf xs := rfl
@[simp] theorem proofsOf_inl (e : Bytes) (xs) : proofsOf (.inl e :: xs) = proofsOf xs := rfl
@[simp] theorem proofsOf_inr (p : Bp) (xs) : proofsOf (.inr p :: xs) = p :: proofsOf xs := rfl

theorem feedPseudo_eq : ∀ (xs : List Bytes) (h : PreMlsag) (c : Bytes), h.rct = some c → h.state = 2 ∨ h.state = 3 →
    feedPseudo xs h = some { h with rct := some (c ++ xs.flatten), state := if xs = [] then h.state else 3 } := by
  intro xs
  induction xs with
  | nil => intro h c hc hs; cases h; simp_all [feedPseudo]
  | cons x xs ih =>
    intro h c hc hs
    have h1 : h.setPseudoOut x = some { h with state := 3, rct := some (c ++ x) } := by
      unfold PreMlsag.setPseudoOut
      rw [if_neg (by omega)]
      simp [PreMlsag.feedRct, hc]
    rw [feedPseudo, h1, Option.bind_some, ih _ _ rfl (Or.inr rfl)]
    simp

theorem feedAll_eq : ∀ (xs : List (Bytes ⊕ Bp)) (h : PreMlsag) (c r : Bytes), h.rct = some c → h.rsig = some r →
    (h.state = 2 ∨ h.state = 3 ∨ h.state = 4) →
    feedAll xs h = some { h with
      rct := some (c ++ (ecdhOf xs).flatten), rsig := some (r ++ ((proofsOf xs).map Bp.hashed).flatten),
      state := if ecdhOf xs = [] then h.state else 4 } := by
  intro xs
  induction xs with
  | nil => intro h c r hc hr hs; cases h; simp_all [feedAll, ecdhOf, proofsOf]
  | cons x xs ih =>
    intro h c r hc hr hs
    cases x with
    | inl e =>
      have h1 : h.setEcdh e = some { h with state := 4, rct := some (c ++ e) } := by
        unfold PreMlsag.setEcdh
        rw [if_neg (by omega)]
        simp [PreMlsag.feedRct, hc]
      rw [feedAll, h1, Option.bind_some, ih { h with state := 4, rct := some (c ++ e) } _ _ rfl hr (Or.inr (Or.inr rfl))]
      simp
    | inr p =>
      have h1 : h.rsigVal p = some { h with rsig := some (r ++ p.hashed) } := by
        unfold PreMlsag.rsigVal
        rw [if_neg (by omega), hr]
      rw [feedAll, h1, Option.bind_some, ih { h with rsig := some (r ++ p.hashed) } _ _ hc rfl hs]
      simp only [ecdhOf_inr, proofsOf_inr, List.map_cons, List.flatten_cons, List.append_assoc]
      congr

theorem feedOutPks_eq : ∀ (xs : List Bytes) (h : PreMlsag) (c : Bytes), h.rct = some c → h.state = 4 ∨ h.state = 5 →
    feedOutPks xs h = some { h with rct := some (c ++ xs.flatten), state := if xs = [] then h.state else 5 } := by
  intro xs
  induction xs with
  | nil => intro h c hc hs; cases h; simp_all [feedOutPks]
  | cons x xs ih =>
    intro h c hc hs
    have h1 : h.setOutPk x = some { h with state := 5, rct := some (c ++ x) } := by
      unfold PreMlsag.setOutPk
      rw [if_neg (by omega)]
      simp [PreMlsag.feedRct, hc]
    rw [feedOutPks, h1, Option.bind_some, ih _ _ rfl (Or.inr rfl)]
    simp

/-- C14: for any interleaving of ECDH data and range proofs, with at least one output, streaming gives the
hash of prefix hash, hash of the base (type, fee, pseudo outputs, ECDH data, commitments), hash of the proofs. -/
theorem C14_streaming (H : Bytes → Bytes) (simple : Bool) (ty : UInt8) (fee : Nat) (pseudo : List Bytes)
    (feeds : List (Bytes ⊕ Bp)) (msg : Bytes) (outPk : List Bytes) (he : ecdhOf feeds ≠ []) (ho : outPk ≠ []) :
    streamed H simple ty fee pseudo feeds msg outPk = some (H (msg ++
      H ([ty] ++ Varint.dumpNat fee ++ pseudo.flatten ++ (ecdhOf feeds).flatten ++ outPk.flatten) ++
      H ((proofsOf feeds).map Bp.hashed).flatten)) := by
  unfold streamed
  simp only [PreMlsag.init, PreMlsag.setTypeFee, PreMlsag.feedRct, ne_eq, not_true_eq_false, if_false,
    Option.map_some, Option.bind_eq_bind, Option.bind_some]
  rw [feedPseudo_eq _ _ _ rfl (Or.inl rfl)]
  simp only [Option.bind_some]
  rw [feedAll_eq _ _ _ _ rfl rfl (by simp only; split <;> simp)]
  simp only [Option.bind_some, PreMlsag.setMessage, if_neg he]
  rw [feedOutPks_eq _ _ _ rfl (Or.inl rfl)]
  simp [ho, PreMlsag.rctsigBaseDone, PreMlsag.getDigest]

/-- The same against the one-shot computation over the finished signature object (no pseudo outputs in the base
for bulletproof types). -/
theorem C14_streaming_eq_oneshot (H : Bytes → Bytes) (simple : Bool) (rv : RctSig) (feeds : List (Bytes ⊕ Bp))
    (he : ecdhOf feeds = rv.ecdhInfo) (hp : proofsOf feeds = rv.bulletproofs) (hn : rv.ecdhInfo ≠ [])
    (ho : rv.outPk ≠ []) :
    streamed H simple rv.type rv.txnFee [] feeds rv.message rv.outPk = some (getPreMlsagHash H rv) := by
  rw [C14_streaming H simple _ _ _ _ _ _ (by rw [he]; exact hn) ho, he, hp]
  simp [getPreMlsagHash, RctSig.base]

example : ecdhOf [.inl [1], .inr Demo.bp0, .inl [2]] = [[1], [2]] ∧
    proofsOf [.inl [1], .inr Demo.bp0, .inl [2]] = [Demo.bp0] := by decide

/-- C14 in the device: the message digest in the closing answer is the one-shot hash of the answered prefix hash,
type and fee, of the ECDH data and commitments it answered for every output, and of range proofs the device made
or checked. -/
theorem C14_device {env : Env S P} (hr : ∀ r, env.respOk r = true) {log pre post : List (Event S)} {e : Event S}
    {d : Device S P} (h : Reach env log d) (hlog : log = pre ++ e :: post) (hk : e.kind? = some .allOut) :
    ∃ x p fee ty full commitments proofs, e.resp = .allOutAck x p fee ty full ∧
      full = getPreMlsagHash env.keccak ⟨p, ty, fee, (outputs (session env pre)).map (·.ack.ecdh), commitments, proofs⟩ ∧
      commitments.length = (outputs (session env pre)).length ∧
      (∀ (i : Nat) (o : OutputRec) (c : Bytes), (outputs (session env pre))[i]? = some o → commitments[i]? = some c →
        ∃ key, o.ack.outPk = key ++ c) ∧
      ∀ q ∈ proofs, ∃ amounts masks, (∃ rnd, env.bpProve amounts masks rnd = some q) ∨
        env.bpVerify q amounts masks = true := by
  obtain ⟨hd, b, g, b', hI, hs⟩ := allOut_step hr h hlog hk
  obtain ⟨_, _, h3⟩ := hI.allOutSet hs
  refine ⟨_, _, _, _, _, commitments env (session env pre) g, g.batches.map (·.1), h3, rfl, ?_, ?_, ?_⟩
  · simp [commitments, hI.masksLen]
  · intro i o c ho hc
    simp only [commitments, List.getElem?_zipWith, ho] at hc
    cases hm : g.masks[i]? with
    | none => simp [hm] at hc
    | some m =>
      obtain ⟨_, _, _, d', sp, _, _, _, _, _, hpk, _⟩ := hI.outputsOk i o m ho hm
      simp only [hm, Option.some.injEq] at hc
      subst hc
      exact ⟨_, hpk⟩
  · intro q hq
    obtain ⟨y, hy, rfl⟩ := List.mem_map.1 hq
    exact ⟨_, _, hI.batchesOk y hy⟩

/-! ### C56 -/

/-- C56: the prefix hash in the closing answer is the hash of the serialised transaction prefix made of the
unlock time of the init message, the accepted inputs in the order they were presented, the outputs the device
answered, and the extra field of the closing answer. -/
theorem C56_prefix_hash {env : Env S P} (hr : ∀ r, env.respOk r = true) {log pre post : List (Event S)} {e : Event S}
    {d : Device S P} (h : Reach env log d) (hlog : log = pre ++ e :: post) {x p : Bytes} {fee : Nat} {ty : UInt8}
    {full : Bytes} (hm : e.msg = .allOutSet) (hresp : e.resp = .allOutAck x p fee ty full) {tsx : TsxData}
    {rnd : Rand S} {hmacs : List Bytes} (hinit : initOf (session env pre) = some (tsx, rnd, hmacs)) :
    p = env.keccak (TxPrefix.bytes {
      version := 2
      unlockTime := tsx.unlockTime
      vin := (vinis (session env pre)).map (·.vini)
      vout := (outputs (session env pre)).map (·.ack.txOut)
      extra := x }) := by
  obtain ⟨hd, b, g, b', hI, hs⟩ := allOut_step hr h hlog (by simp [Event.kind?, hm, hresp])
  obtain ⟨_, _, h3⟩ := hI.allOutSet hs
  obtain ⟨hv, ho, hne⟩ := hI.closingLens hs
  rw [initOf_head hI.head] at hinit
  simp only [Option.some.injEq, Prod.mk.injEq] at hinit
  obtain ⟨rfl, rfl, rfl⟩ := hinit
  rw [hresp] at h3
  simp only [Resp.allOutAck.injEq] at h3
  rw [h3.2.1, h3.1]
  unfold prefixHashOf prefixBytes TxPrefix.bytes
  rw [if_neg hne]
  simp only [List.length_map, hv, ho, List.append_assoc]

/-! ### C10 -/

/-- C10 (partial): if the batch sizes fit the number of outputs, and — when proofs are computed by the host — the
last message before closing was a proof upload, then the outputs are covered, in order and exactly once, by
batches, each with a proof the device made itself or checked against its own amounts and masks; these are the
proofs hashed into the signed message, and the masks open the commitments the device answered.
What is missing: neither condition is checked by the device (`C10_false_no_upload`, `C10_false_grouping`). -/
theorem C10_covered_partial {env : Env S P} (hr : ∀ r, env.respOk r = true) {log pre post : List (Event S)}
    {e : Event S} {d : Device S P} (h : Reach env log d) (hlog : log = pre ++ e :: post)
    (hk : e.kind? = some .allOut) {tsx : TsxData} {rnd : Rand S} {hmacs : List Bytes}
    (hinit : initOf (session env pre) = some (tsx, rnd, hmacs))
    (hgrp : ∃ k, (tsx.grouping.take k).sum = tsx.outputs.length)
    (hup : tsx.rsigType > 0 → tsx.outputs.length > 2 → (tsx.bpVersion ≥ 2 ∨ tsx.clientVersion > 0) →
      ∃ u, (session env pre).getLast? = some u ∧ u.isProofUpload = true) :
    ∃ (batches : List (Bp × List Nat × List S)) (x p : Bytes) (fee : Nat) (ty : UInt8),
      (batches.map (·.2.1)).flatten = (outputs (session env pre)).map (·.dst.amount) ∧
      (batches.map (·.2.2)).flatten.length = (outputs (session env pre)).length ∧
      (∀ (i : Nat) (o : OutputRec) (m : S), (outputs (session env pre))[i]? = some o →
        (batches.map (·.2.2)).flatten[i]? = some m →
        ∃ key, o.ack.outPk = key ++ env.ptEnc (genC env m o.dst.amount)) ∧
      (∀ q ∈ batches, (∃ rnd, env.bpProve q.2.1 q.2.2 rnd = some q.1) ∨ env.bpVerify q.1 q.2.1 q.2.2 = true) ∧
      e.resp = .allOutAck x p fee ty (getPreMlsagHash env.keccak
        ⟨p, ty, fee, (outputs (session env pre)).map (·.ack.ecdh),
          List.zipWith (fun m o => env.ptEnc (genC env m o.dst.amount)) (batches.map (·.2.2)).flatten
            (outputs (session env pre)), batches.map (·.1)⟩) := by
  obtain ⟨hd, b, g, b', hI, hs⟩ := allOut_step hr h hlog hk
  obtain ⟨_, _, h3⟩ := hI.allOutSet hs
  obtain ⟨hv, ho, hne⟩ := hI.closingLens hs
  obtain ⟨hst, hidx⟩ := hI.closingState hs
  rw [initOf_head hI.head] at hinit
  simp only [Option.some.injEq, Prod.mk.injEq] at hinit
  obtain ⟨rfl, rfl, rfl⟩ := hinit
  obtain ⟨m1, m2, m3⟩ := hI.modes
  have hcov : batchAmounts g = (outputs (session env pre)).map (·.dst.amount) ∧ batchMasks g = g.masks := by
    have hf := hI.flushed (by rw [hst]; rfl) hne (by
      by_cases hc : (b.rsigOffload && b.isDetMask) = true
      · left
        rw [m2, m3] at hc
        simp only [Bool.and_eq_true, decide_eq_true_eq, Bool.or_eq_true] at hc
        exact hI.uploaded (hup hc.1.1 hc.1.2 hc.2)
      · right; simpa using hc) (by
      obtain ⟨k, hk⟩ := hgrp
      have hpos : 0 < hd.tsx.outputs.length := by
        rw [← ho]; exact List.length_pos_iff.2 hne
      rw [m1, hidx]
      exact lastInBatch_full hpos hk)
    rcases hI.pending with ⟨am, ms, h1, h2, h4, h5⟩ | ⟨_, h1, h2, _⟩
    · rcases hf with hf | ⟨hf1, hf2⟩
      · rw [hf] at h1; simp at h1
      · rw [hf1] at h1
        rw [hf2] at h2
        simp only [Option.some.injEq] at h1 h2
        subst h1 h2
        exact ⟨by simpa using h4, by simpa using h5⟩
    · exact ⟨h1, h2⟩
  refine ⟨g.batches, extraOf env hd g, prefixHashOf env hd (session env pre) g, hd.tsx.fee, hd.ty, hcov.1, ?_, ?_, hI.batchesOk, ?_⟩
  · exact (congrArg List.length hcov.2).trans hI.masksLen
  · intro i o m ho hm
    replace hm : (batchMasks g)[i]? = some m := hm
    rw [hcov.2] at hm
    obtain ⟨_, _, _, d', sp, _, _, _, _, _, hpk, _⟩ := hI.outputsOk i o m ho hm
    exact ⟨_, hpk⟩
  · rw [h3]
    change _ = Resp.allOutAck _ _ _ _ (getPreMlsagHash env.keccak ⟨_, _, _, _, List.zipWith _ (batchMasks g) _, _⟩)
    rw [hcov.2]
    rfl

/-- The premises of `C10_covered_partial` are met by an offloading session with an upload. -/
def offloadHost : Demo.Host :=
  [Demo.mInit (Demo.tsx 1 [Demo.dst 1, Demo.dst2 3, Demo.dst2 2] [3] 2), Demo.mInput (Demo.src 7 7) 10,
   Demo.mPerm [0], Demo.mVini 0, Demo.mAllIn, Demo.mOut (Demo.dst 1) 0, Demo.mOut (Demo.dst2 3) 1,
   Demo.mOut (Demo.dst2 2) 2, Demo.mProof [7], Demo.mAllOut]

example : ∃ (log pre post : List (Event Int)) (e : Event Int) (d : Device Int Int), Reach Demo.env log d ∧
    log = pre ++ e :: post ∧ e.kind? = some .allOut ∧
    (initOf (session Demo.env pre)).map (fun t => (t.1.grouping, t.1.outputs.length)) = some ([3], 3) ∧
    ((session Demo.env pre).getLast?.map (·.isProofUpload)) = some true := by
  refine ⟨_, (Demo.demoLog offloadHost).take 9, [], (Demo.demoLog offloadHost)[9]'(by decide +kernel), _,
    Demo.demo_reach offloadHost, ?_, ?_, ?_, ?_⟩
  · conv_lhs => rw [← List.take_append_drop 9 (Demo.demoLog offloadHost)]
    congr 1
  all_goals decide +kernel

/-- A world where no range proof can be made and none verifies. -/
def noProofEnv : Env Int Int :=
  { Demo.env with bpProve := fun _ _ _ => none, bpVerify := fun _ _ _ => false }

def noUploadHost : Demo.Host :=
  [Demo.mInit (Demo.tsx 1 [Demo.dst 1, Demo.dst2 3, Demo.dst2 2] [3] 2), Demo.mInput (Demo.src 7 7) 10,
   Demo.mPerm [0], Demo.mVini 0, Demo.mAllIn, Demo.mOut (Demo.dst 1) 0, Demo.mOut (Demo.dst2 3) 1,
   Demo.mOut (Demo.dst2 2) 2, Demo.mAllOut, Demo.mSign 0, Demo.mFinal]

/-- C10 is false: with host-computed proofs and three outputs, a host that never uploads a proof gets the whole
transaction signed, in a world where no proof can be made or verified. -/
theorem C10_false_no_upload : ∃ (log : List (Event Int)) (d : Device Int Int), Reach noProofEnv log d ∧
    kinds (session noProofEnv log) = protocol 1 1 3 ∧ (session noProofEnv log).all (!·.isProofUpload) = true :=
  ⟨_, _, Demo.drive_reach noUploadHost .start, by decide +kernel, by decide +kernel⟩

def badGroupHost : Demo.Host :=
  [Demo.mInit (Demo.tsx 1 [Demo.dst 1, Demo.dst2 3] [5] 2), Demo.mInput (Demo.src 5 7) 10,
   Demo.mPerm [0], Demo.mVini 0, Demo.mAllIn, Demo.mOut (Demo.dst 1) 0, Demo.mOut (Demo.dst2 3) 1,
   Demo.mAllOut, Demo.mSign 0, Demo.mFinal]

/-- C10 is false without offloading too: a batch size larger than the number of outputs never completes, and
the transaction is signed without any range proof. -/
theorem C10_false_grouping : ∃ (log : List (Event Int)) (d : Device Int Int), Reach noProofEnv log d ∧
    kinds (session noProofEnv log) = protocol 1 1 2 ∧
    (initOf (session noProofEnv log)).map (·.1.grouping) = some [5] :=
  ⟨_, _, Demo.drive_reach badGroupHost .start, by decide +kernel, by decide +kernel⟩

/-! ### C57 -/

/-- C57: every signature handed out was made for the message digest of the session's closing answer, over the
presented ring, with a secret key matching the ring's real member and a mask opening its commitment to the
presented amount. -/
theorem C57_signature {env : Env S P} (hr : ∀ r, env.respOk r = true) {log : List (Event S)} {d : Device S P}
    (h : Reach env log d) {v : SignRec} (hv : v ∈ signs (session env log)) :
    ∃ e ∈ session env log, ∃ x p fee ty full, e.resp = .allOutAck x p fee ty full ∧
      ∃ (secret alpha : S) (pOut : P) (real : RingMember) (rnd : Bytes),
        v.src.outputs[v.src.realOutput]? = some real ∧
        env.ptDec real.dest = some (secret • env.G) ∧
        env.ptDec real.commitment = some (genC env (env.scDec v.src.mask) v.src.amount) ∧
        v.resultPseudoOut = env.ptEnc pOut ∧
        env.mlsag full v.src.outputs secret (env.scDec v.src.mask) alpha pOut v.src.realOutput rnd =
          some v.signature := by
  obtain ⟨hd, s, b, g, hI, e5, hsub⟩ := signs_obs hr h hv
  rw [e5] at hv
  obtain ⟨i, hi⟩ := List.mem_iff_getElem?.1 hv
  obtain ⟨dd, u, _, _, pos, kA, aB, kS, sB, real, full, pOut, rnd, _, _, _, _, _, _, _, h1, h2, h3, h4, h5, h6, _⟩ :=
    hI.signAt hi
  obtain ⟨e, he, x, p, fee, ty, full', _, hresp, hf⟩ := hI.closing (hI.stage.notHashing (hI.signStage hv))
  rw [hf] at h4
  simp only [Option.some.injEq] at h4
  subst h4
  exact ⟨e, hsub e he, x, p, fee, ty, full', hresp, _, _, _, _, _, h1, h2, h3, h6, h5⟩

end Verif.Signer

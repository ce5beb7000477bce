import Verif.Lemmas.AgentIn

/-! The outputs on the device. -/

set_option linter.unusedSectionVars false
set_option linter.unusedSimpArgs false

namespace Verif.Agent
open Verif Verif.Signer Verif.Batches
variable {S P : Type} [CommRing S] [AddCommGroup P] [Module S P] [DecidableEq S] [DecidableEq P]

/-- An output as the device builds it: destination, additional key, amount key, mask, one-time key and encrypted amount. -/
structure OutV (S P : Type) where
  dst : Dst
  addKey : S
  addPub : P
  ak : S
  mask : S
  key : P
  ecdh : Bytes

/-- `o` is what the session of `b` makes at place `j` with randomness `rnd`. -/
structure OutOk (env : Env S P) (b : Builder S P) (j : Nat) (rnd : Rand S) (o : OutV S P) : Prop where
  keys : ∃ spend d, env.ptDec o.dst.addr.spend = some spend ∧ s6Derivation env b o.dst rnd = some d ∧ o.ak = derivToScalar env d j ∧
    o.key = o.ak • env.G + spend ∧ o.addPub = (if o.dst.isSub then rnd.addKey • spend else rnd.addKey • env.G)
  add : o.addKey = rnd.addKey
  mask : o.mask = env.hashToScalar (ascii "commitment_mask" ++ env.scEnc o.ak)
  ecdh : env.ecdh o.mask o.dst.amount (env.scEnc o.ak) b.isBpV2 = some o.ecdh

/-- The commitment of an output. -/
def OutV.comm (env : Env S P) (o : OutV S P) : Bytes := env.ptEnc (genC env o.mask o.dst.amount)

/-- Its serialised `TxOut`. -/
def OutV.txOut (env : Env S P) (o : OutV S P) : Bytes := [0, 2] ++ env.ptEnc o.key

/-- The hash of the signed message after outputs `os` with proofs `ps`. -/
def bHash (b2 : Builder S P) (os : List (OutV S P)) (ps : List Bp) : Option PreMlsag :=
  b2.fullHasher.bind fun h => h.rct.map fun c =>
    { h with state := if os = [] then h.state else 4, rct := some (c ++ (os.map (·.ecdh)).flatten),
             rsig := h.rsig.map (· ++ (ps.map Bp.hashed).flatten) }

/-- The builder after outputs `os`, range proofs `ps`, with outputs `part` waiting for a proof (`fin`: the lists were dropped). -/
def bOut (env : Env S P) (b2 : Builder S P) (os : List (OutV S P)) (ps : List Bp) (part : List (OutV S P)) (po fin : Bool) : Builder S P :=
  { b2 with
    state := ⟨if os = [] then .INPUT_ALL_DONE else .OUTPUT, false⟩
    outIdx := (os.length : Int) - 1
    prefixHasher := b2.prefixHasher.map (· ++ ((if os = [] then [] else Varint.dumpNat b2.outputCount) ++ (os.map (·.txOut env)).flatten))
    sumOut := (os.map (·.dst.amount)).sum
    addPub := if b2.needAdd then os.map fun o => env.ptEnc o.addPub else []
    addPriv := if b2.needAdd then os.map (·.addKey) else []
    outputAmounts := if fin then none else some (part.map (·.dst.amount))
    outputMasks := if fin then none else some (part.map (·.mask))
    sumout := (os.map (·.mask)).sum
    fullHasher := bHash b2 os ps
    outputPk := os.map (·.comm env)
    procOff := po }

/-- What is used of the builder when the outputs begin. -/
structure Mid (b2 : Builder S P) (ph : Bytes) (h0 : PreMlsag) (c0 : Bytes) : Prop where
  s : b2.state = ⟨.INPUT_ALL_DONE, false⟩
  inpIdx : b2.inpIdx + 1 = b2.inputCount
  outIdx : b2.outIdx = -1
  ph : b2.prefixHasher = some ph
  fh : b2.fullHasher = some h0
  rct : h0.rct = some c0
  rsig : h0.rsig = some []
  hst : h0.state = 2
  sumOut : b2.sumOut = 0
  sumout : b2.sumout = 0
  pk : b2.outputPk = []
  addPub : b2.addPub = []
  addPriv : b2.addPriv = []
  am : b2.outputAmounts = some []
  ms : b2.outputMasks = some []
  po : b2.procOff = false
  hmac : b2.keyHmac.length = 32
  det : b2.isDetMask = true
  small : b2.outputCount ≤ 2 ^ 42

theorem bOut_nil (env : Env S P) {b2 : Builder S P} {ph : Bytes} {h0 : PreMlsag} {c0 : Bytes} (h : Mid b2 ph h0 c0) :
    bOut env b2 [] [] [] false false = b2 := by
  have e1 := h.s; have e2 := h.outIdx; have e3 := h.ph; have e4 := h.fh; have e5 := h.rct; have e6 := h.rsig; have e7 := h.sumOut
  have e8 := h.sumout; have e9 := h.pk; have e10 := h.addPub; have e11 := h.addPriv; have e12 := h.am; have e13 := h.ms; have e14 := h.po
  cases b2
  cases h0
  simp_all [bOut, bHash]

theorem bHash_eq {b2 : Builder S P} {ph : Bytes} {h0 : PreMlsag} {c0 : Bytes} (h : Mid b2 ph h0 c0) (os : List (OutV S P)) (ps : List Bp) :
    bHash b2 os ps = some ⟨h0.isSimple, if os = [] then 2 else 4, h0.master, some (ps.map Bp.hashed).flatten,
      some (c0 ++ (os.map (·.ecdh)).flatten)⟩ := by
  simp [bHash, h.fh, h.rct, h.rsig, h.hst]

theorem bHash_proof {b2 : Builder S P} {ph : Bytes} {h0 : PreMlsag} {c0 : Bytes} (h : Mid b2 ph h0 c0) (os : List (OutV S P)) (ps : List Bp) (p : Bp) :
    ((bHash b2 os ps).bind fun h => h.rsigVal p) = bHash b2 os (ps ++ [p]) := by
  rw [bHash_eq h, bHash_eq h, Option.bind_some, PreMlsag.rsigVal, if_neg (by simp only; split <;> omega)]
  simp

theorem bHash_ecdh {b2 : Builder S P} {ph : Bytes} {h0 : PreMlsag} {c0 : Bytes} (h : Mid b2 ph h0 c0) (os : List (OutV S P)) (ps : List Bp)
    (o : OutV S P) : ((bHash b2 os ps).bind fun h => h.setEcdh o.ecdh) = bHash b2 (os ++ [o]) ps := by
  rw [bHash_eq h, bHash_eq h, Option.bind_some, PreMlsag.setEcdh, if_neg (by simp only; split <;> omega)]
  simp [PreMlsag.feedRct]

/-- The proof that closes the waiting outputs together with `o`. -/
structure ProofOk (env : Env S P) (rnd : Bytes) (os : List (OutV S P)) (bp : Bp) (bin : Bytes) : Prop where
  prove : env.bpProve (os.map (·.dst.amount)) (os.map (·.mask)) rnd = some bp
  verify : env.bpVerify bp (os.map (·.dst.amount)) (os.map (·.mask)) = true
  dump : env.bpDump bp = some bin
  parse : env.bpParse bin = some bp
  ne : bin ≠ []

theorem validate_run {env : Env S P} {b2 : Builder S P} {ph : Bytes} {h0 : PreMlsag} {c0 : Bytes} (h : Mid b2 ph h0 c0)
    {os part : List (OutV S P)} {ps : List Bp} {po : Bool} {dst : Dst} (hj : os.length < b2.outputCount)
    (hoff : b2.rsigOffload = true → ∃ l0, lastInBatch b2.rsigGrp ((os.length : Int) - 1) = some l0 ∧ (l0 = true → po = true))
    (hon : b2.rsigOffload = false → po = false) :
    s6Validate env (bOut env b2 os ps part po false) dst (dstTag env b2.keyHmac dst os.length) false =
      .ok { bOut env b2 os ps part po false with
        state := ⟨.OUTPUT, false⟩, outIdx := os.length, procOff := false } := by
  have hdet : (bOut env b2 os ps part po false).isDetMask = true := h.det
  have hst : (bOut env b2 os ps part po false).state = ⟨if os = [] then .INPUT_ALL_DONE else .OUTPUT, false⟩ := rfl
  simp only [s6Validate, bind_ok, pure_ok, ensure_ok, exists_unit]
  have hmac : ∀ b : Builder S P, b.procOff = false → b.keyHmac = b2.keyHmac → b.outIdx = os.length →
      s6Hmac env b dst (dstTag env b2.keyHmac dst os.length) = .ok () := by
    intro b e1 e2 e3
    simp only [s6Hmac, e1, e2, e3, Bool.not_false, if_true, bind_ok, orFail_ok, ensure_ok]
    refine ⟨_, hmacDst_ok env h.hmac dst (by have := h.small; simp; omega), by simp⟩
  have hadv : ∀ b : Builder S P, b.procOff = false → b.state = (bOut env b2 os ps part po false).state →
      b.outIdx = (os.length : Int) - 1 → s6Advance b = .ok { b with outIdx := os.length, state := ⟨.OUTPUT, false⟩ } := by
    intro b e1 e2 e3
    simp only [s6Advance, e1, Bool.not_false, if_true, bind_ok, pure_ok, TState.setOutput, ensure_ok, exists_unit]
    refine ⟨_, ⟨?_, rfl⟩, ?_⟩
    · rw [e2, hst]; by_cases ho : os = [] <;> simp [ho]
    · rw [e2, e3, hst]; simp
  cases ho : b2.rsigOffload with
  | false =>
    refine ⟨by simp, bOut env b2 os ps part po false, ?_, { bOut env b2 os ps part po false with
        state := ⟨.OUTPUT, false⟩, outIdx := os.length, procOff := false }, ?_, ?_, ?_, ?_, hmac _ rfl rfl rfl, rfl⟩
    · simp only [s6Offload, hdet]
      rw [show (bOut env b2 os ps part po false).rsigOffload = false from ho]
      rfl
    · rw [hadv _ (by exact hon ho) rfl rfl, hon ho]; rfl
    · simpa [bOut] using h.inpIdx
    · simp [bOut]; exact hj
    · simp
  | true =>
    obtain ⟨l0, e1, e2⟩ := hoff ho
    refine ⟨by simp, { bOut env b2 os ps part po false with procOff := false }, ?_, { bOut env b2 os ps part po false with
        state := ⟨.OUTPUT, false⟩, outIdx := os.length, procOff := false }, ?_, ?_, ?_, ?_, hmac _ rfl rfl rfl, rfl⟩
    · simp only [s6Offload, hdet]
      rw [show (bOut env b2 os ps part po false).rsigOffload = true from ho]
      simp only [Bool.true_and, if_true, bind_ok, orFail_ok, ensure_ok, exists_unit, pure_ok]
      refine ⟨l0, e1, ?_, trivial⟩
      cases l0
      · rfl
      · show (!true || po != false) = true
        rw [e2 rfl]; rfl
    · exact hadv { bOut env b2 os ps part po false with procOff := false } rfl rfl rfl
    · simpa [bOut] using h.inpIdx
    · simp [bOut]; exact hj
    · simp

theorem rangeProof_wait {env : Env S P} {b : Builder S P} {rnd : Rand S} {last : Bool} (hl : lastInBatch b.rsigGrp b.outIdx = some last)
    (hpo : b.procOff = false) (hd : b.isDetMask = true) (hc : last = false ∨ b.rsigOffload = true) :
    s6RangeProof env b [] rnd = .ok (b, none) := by
  simp only [s6RangeProof, s6RsigChecks, bind_ok, pure_ok, ensure_ok, orFail_ok, exists_unit]
  refine ⟨last, ⟨by simp, last, hl, by simp, by simp [hd, hpo], rfl⟩, ?_⟩
  cases last with
  | false => rfl
  | true =>
    have ho : b.rsigOffload = true := by simpa using hc
    simp only [ho, hd, Bool.not_true, Bool.false_eq_true, if_false, if_true]
    simp [s6Cleanup, ho, hpo, pure_ok]

theorem rangeProof_made {env : Env S P} {b : Builder S P} {rnd : Rand S} {am : List Nat} {ms : List S} {bp : Bp} {bin : Bytes} {fh : PreMlsag}
    (hl : lastInBatch b.rsigGrp b.outIdx = some true) (ho : b.rsigOffload = false) (h1 : b.outputAmounts = some am)
    (h2 : b.outputMasks = some ms) (h3 : env.bpProve am ms rnd.bpRand = some bp) (h4 : (b.fullHasher.bind fun h => h.rsigVal bp) = some fh)
    (h5 : env.bpDump bp = some bin) :
    s6RangeProof env b [] rnd = .ok ({ b with
      fullHasher := some fh, outputAmounts := if b.outIdx + 1 = (b.outputCount : Int) then none else some [],
      outputMasks := if b.outIdx + 1 = (b.outputCount : Int) then none else some [] }, some bin) := by
  simp only [s6RangeProof, s6RsigChecks, bind_ok, pure_ok, ensure_ok, orFail_ok, exists_unit]
  refine ⟨true, ⟨by simp, true, hl, by simp, by simp [ho], rfl⟩, ?_⟩
  simp only [ho, Bool.not_true, Bool.not_false, Bool.false_eq_true, if_false, if_true, bind_ok, pure_ok]
  refine ⟨({ b with fullHasher := some fh, outputAmounts := some [], outputMasks := some [] }, bin), ?_, ?_⟩
  · simp only [s6RsigBp, bind_ok, pure_ok, orFail_ok]
    exact ⟨am, h1, ms, h2, bp, h3, fh, h4, bin, h5, rfl⟩
  · simp [cleanup_eq, ho]

/-- The answer to an output. -/
def ackOf (env : Env S P) (b2 : Builder S P) (j : Nat) (o : OutV S P) (rs : Option Bytes) : OutAck where
  txOut := o.txOut env
  voutiHmac := tagOf env b2.keyHmac .txout j (env.keccak (env.pbDst o.dst ++ o.txOut env))
  rsig := rs
  mask := if b2.rsigOffload then some (env.scEnc o.mask) else none
  outPk := env.ptEnc o.key ++ o.comm env
  ecdh := o.ecdh

/-- The builder inside an output message, before the range proof. -/
def bMid (env : Env S P) (b2 : Builder S P) (os : List (OutV S P)) (ps : List Bp) (part : List (OutV S P)) (o : OutV S P) : Builder S P :=
  { bOut env b2 (os ++ [o]) ps (part ++ [o]) false false with
    prefixHasher := b2.prefixHasher.map (· ++ (Varint.dumpNat b2.outputCount ++ (os.map (·.txOut env)).flatten))
    sumout := (os.map (·.mask)).sum, fullHasher := bHash b2 os ps, outputPk := os.map (·.comm env) }

/-- A destination message, given what the range-proof part does. -/
theorem output_run {env : Env S P} {b2 : Builder S P} {ph : Bytes} {h0 : PreMlsag} {c0 : Bytes} (h : Mid b2 ph h0 c0)
    {os part part' : List (OutV S P)} {ps ps' : List Bp} {po fin : Bool} {o : OutV S P} {rnd : Rand S} {rs : Option Bytes}
    (hj : os.length < b2.outputCount) (hu : rnd.uiOk = true)
    (hoff : b2.rsigOffload = true → ∃ l0, lastInBatch b2.rsigGrp ((os.length : Int) - 1) = some l0 ∧ (l0 = true → po = true))
    (hon : b2.rsigOffload = false → po = false) (ho : OutOk env b2 os.length rnd o)
    (hrp : s6RangeProof env (bMid env b2 os ps part o) [] rnd = .ok ({ bMid env b2 os ps part o with
      fullHasher := bHash b2 os ps', outputAmounts := if fin then none else some (part'.map (·.dst.amount)),
      outputMasks := if fin then none else some (part'.map (·.mask)) }, rs)) :
    setOutput env (bOut env b2 os ps part po false) o.dst (dstTag env b2.keyHmac o.dst os.length) [] false rnd =
      .ok (bOut env b2 (os ++ [o]) ps' part' false fin, .outputAck (some (ackOf env b2 os.length o rs))) := by
  obtain ⟨spend, d, k1, k2, k3, k4, k5⟩ := ho.keys
  simp only [setOutput, bind_ok, ensure_ok, exists_unit]
  refine ⟨by simpa using hu, _, validate_run h hj hoff hon, ?_⟩
  simp only [Bool.false_eq_true, if_false]
  generalize hbv : ({ bOut env b2 os ps part po false with state := ⟨.OUTPUT, false⟩, outIdx := os.length, procOff := false } : Builder S P) = bv
  have hph : bv.prefixHasher = some (ph ++ ((if os = [] then [] else Varint.dumpNat b2.outputCount) ++ (os.map (·.txOut env)).flatten)) := by
    rw [← hbv]; simp [bOut, h.ph]
  have hadd : s6AddKeys env { bv with prefixHasher := some (if bv.outIdx = 0 then ph ++ ((if os = [] then [] else Varint.dumpNat b2.outputCount) ++
      (os.map (·.txOut env)).flatten) ++ Varint.dumpNat bv.outputCount else ph ++ ((if os = [] then [] else Varint.dumpNat b2.outputCount) ++
      (os.map (·.txOut env)).flatten)), outputAmounts := some (part.map (·.dst.amount) ++ [o.dst.amount]), sumOut := bv.sumOut + o.dst.amount } o.dst rnd =
      some ((bMid env b2 os ps part o).addPub, (bMid env b2 os ps part o).addPriv) := by
    rw [← hbv]
    cases hn : b2.needAdd with
    | false => simp [s6AddKeys, bOut, bMid, hn]
    | true =>
      cases hsub : o.dst.isSub with
      | false => simp [s6AddKeys, bOut, bMid, hn, hsub, k5, ho.add]
      | true => simp [s6AddKeys, bOut, bMid, hn, hsub, k5, ho.add, k1]
  simp only [setOutputNormal, bind_ok, orFail_ok, pure_ok]
  refine ⟨_, hph, part.map (·.dst.amount), by rw [← hbv]; simp [bOut], _, hadd, d, by rw [← hbv]; exact k2, spend, k1, ?_⟩
  have hidx : bv.outIdx = os.length := by rw [← hbv]
  have hak : derivToScalar env d bv.outIdx.toNat = o.ak := by rw [hidx, k3]; rfl
  simp only [hak]
  refine ⟨(o.mask, bv.outputLastMask), ?_, part.map (·.mask), by rw [← hbv]; simp [bOut], ({ bMid env b2 os ps part o with
      fullHasher := bHash b2 os ps', outputAmounts := if fin then none else some (part'.map (·.dst.amount)),
      outputMasks := if fin then none else some (part'.map (·.mask)) }, rs), ?_, ?_⟩
  · rw [← hbv, ho.mask]
    simp only [s6Mask]
    rw [if_pos (by exact h.det)]
  · refine Eq.trans ?_ hrp
    congr 1
    rw [← hbv]
    simp only [bMid, bOut, h.ph]
    by_cases hos : os = []
    · subst hos; simp
    · simp [hos]
  · simp only [← k4]
    refine ⟨ph ++ (Varint.dumpNat b2.outputCount ++ (os.map (·.txOut env)).flatten), by simp [bMid, h.ph],
      _, hmacVouti_ok env h.hmac _ _ (by rw [hidx]; have := h.small; simp; omega), o.ecdh, ho.ecdh,
      _, (bHash_ecdh h os ps' o).trans (bHash_eq h _ _), ?_⟩
    · rw [← bHash_eq h, hidx]
      have hd : b2.isDetMask = true := h.det
      simp only [Prod.mk.injEq]
      constructor
      · simp [bMid, bOut, h.ph, OutV.txOut, OutV.comm]
      · refine congrArg Resp.outputAck (congrArg some ?_)
        simp only [ackOf, OutV.txOut, OutV.comm, Int.toNat_natCast, OutAck.mk.injEq, true_and, and_true]
        show (if b2.isDetMask && b2.rsigOffload then _ else _) = _
        rw [hd, Bool.true_and]

/-- A destination message that is not followed by a proof of the device. -/
theorem output_wait {env : Env S P} {b2 : Builder S P} {ph : Bytes} {h0 : PreMlsag} {c0 : Bytes} (h : Mid b2 ph h0 c0)
    {os part : List (OutV S P)} {ps : List Bp} {po last : Bool} {o : OutV S P} {rnd : Rand S}
    (hj : os.length < b2.outputCount) (hu : rnd.uiOk = true)
    (hoff : b2.rsigOffload = true → ∃ l0, lastInBatch b2.rsigGrp ((os.length : Int) - 1) = some l0 ∧ (l0 = true → po = true))
    (hon : b2.rsigOffload = false → po = false) (ho : OutOk env b2 os.length rnd o)
    (hl : lastInBatch b2.rsigGrp os.length = some last) (hc : last = false ∨ b2.rsigOffload = true) :
    setOutput env (bOut env b2 os ps part po false) o.dst (dstTag env b2.keyHmac o.dst os.length) [] false rnd =
      .ok (bOut env b2 (os ++ [o]) ps (part ++ [o]) false false, .outputAck (some (ackOf env b2 os.length o none))) := by
  refine output_run h hj hu hoff hon ho ?_
  have hidx : (bMid env b2 os ps part o).outIdx = os.length := by simp [bMid, bOut]
  exact rangeProof_wait (by rw [hidx]; exact hl) rfl (by exact h.det) hc

/-- A destination message that the device answers with a proof for the waiting outputs. -/
theorem output_made {env : Env S P} {b2 : Builder S P} {ph : Bytes} {h0 : PreMlsag} {c0 : Bytes} (h : Mid b2 ph h0 c0)
    {os part : List (OutV S P)} {ps : List Bp} {o : OutV S P} {rnd : Rand S} {bp : Bp} {bin : Bytes}
    (hj : os.length < b2.outputCount) (hu : rnd.uiOk = true) (hof : b2.rsigOffload = false) (ho : OutOk env b2 os.length rnd o)
    (hl : lastInBatch b2.rsigGrp os.length = some true) (hp : ProofOk env rnd.bpRand (part ++ [o]) bp bin) :
    setOutput env (bOut env b2 os ps part false false) o.dst (dstTag env b2.keyHmac o.dst os.length) [] false rnd =
      .ok (bOut env b2 (os ++ [o]) (ps ++ [bp]) [] false (decide (os.length + 1 = b2.outputCount)),
        .outputAck (some (ackOf env b2 os.length o (some bin)))) := by
  refine output_run h hj hu (by simp [hof]) (by simp) ho ?_
  have hidx : (bMid env b2 os ps part o).outIdx = os.length := by simp [bMid, bOut]
  rw [rangeProof_made (am := (part ++ [o]).map (·.dst.amount)) (ms := (part ++ [o]).map (·.mask)) (bp := bp) (bin := bin)
    (fh := ⟨h0.isSimple, if os = [] then 2 else 4, h0.master, some ((ps ++ [bp]).map Bp.hashed).flatten, some (c0 ++ (os.map (·.ecdh)).flatten)⟩)
    (by rw [hidx]; exact hl) (by exact hof) rfl rfl hp.prove (by exact (bHash_proof h os ps bp).trans (bHash_eq h _ _)) hp.dump, ← bHash_eq h, hidx]
  congr 2
  have hcond : ((os.length : Int) + 1 = ((bMid env b2 os ps part o).outputCount : Int)) ↔ decide (os.length + 1 = b2.outputCount) = true := by
    show ((os.length : Int) + 1 = (b2.outputCount : Int)) ↔ _
    rw [decide_eq_true_eq]; omega
  simp only [hcond, hidx, List.map_nil]

/-- The host's proof for the waiting outputs. -/
theorem upload_run {env : Env S P} {b2 : Builder S P} {ph : Bytes} {h0 : PreMlsag} {c0 : Bytes} (h : Mid b2 ph h0 c0)
    {os part : List (OutV S P)} {ps : List Bp} {rnd : Rand S} {dst : Dst} {hm hrnd : Bytes} {bp : Bp} {bin : Bytes}
    (hj : os.length ≤ b2.outputCount) (h0' : os ≠ []) (hof : b2.rsigOffload = true)
    (hl : lastInBatch b2.rsigGrp ((os.length : Int) - 1) = some true) (hp : ProofOk env hrnd part bp bin) :
    setOutput env (bOut env b2 os ps part false false) dst hm bin true rnd =
      .ok (bOut env b2 os (ps ++ [bp]) [] true (decide (os.length = b2.outputCount)), .outputAck none) := by
  have hdet : (bOut env b2 os ps part false false).isDetMask = true := h.det
  have hro : (bOut env b2 os ps part false false).rsigOffload = true := hof
  have hpos : 0 < os.length := List.length_pos_iff.2 h0'
  simp only [setOutput, bind_ok, ensure_ok, exists_unit]
  refine ⟨by simp, { bOut env b2 os ps part false false with procOff := true }, ?_, ?_⟩
  · simp only [s6Validate, bind_ok, pure_ok, ensure_ok, exists_unit]
    refine ⟨by simp [hro, hdet], { bOut env b2 os ps part false false with procOff := true }, ?_,
      { bOut env b2 os ps part false false with procOff := true }, rfl, ?_, ?_, ?_, rfl, rfl⟩
    · simp only [s6Offload, hdet, hro, Bool.true_and, if_true, bind_ok, orFail_ok, ensure_ok, exists_unit, pure_ok]
      exact ⟨true, hl, rfl, trivial⟩
    · simpa [bOut] using h.inpIdx
    · simp [bOut]; omega
    · exact Bool.or_eq_true_iff.2 (Or.inl h.det)
  · simp only [if_true, setOutputOff, s6RsigChecks, bind_ok, pure_ok, ensure_ok, orFail_ok, exists_unit]
    refine ⟨true, ⟨by simp [hro], true, hl, by simp, by simp [hp.ne], rfl⟩, ?_⟩
    simp only [Bool.not_true, Bool.false_eq_true, if_false, bind_ok, pure_ok]
    refine ⟨{ bOut env b2 os ps part false false with
      procOff := true, fullHasher := bHash b2 os (ps ++ [bp]), outputAmounts := some [], outputMasks := some [] }, ?_, ?_⟩
    · simp only [s6ProcessBp, bind_ok, pure_ok, ensure_ok, orFail_ok, exists_unit]
      refine ⟨bp, hp.parse, _, (bHash_proof h os ps bp).trans (bHash_eq h _ _), _, rfl, _, rfl, hp.verify, ?_⟩
      rw [← bHash_eq h]
    · have hcond : ((os.length : Int) = (b2.outputCount : Int)) ↔ os.length = b2.outputCount := by omega
      simp [cleanup_eq, bOut, hcond]

end Verif.Agent

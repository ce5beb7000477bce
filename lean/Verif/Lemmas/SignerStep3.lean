import Verif.Lemmas.SignerStep2

set_option linter.unusedSectionVars false
set_option linter.unusedSimpArgs false

namespace Verif.Signer
open Verif
variable {S P : Type} [CommRing S] [AddCommGroup P] [Module S P] [DecidableEq S] [DecidableEq P]

theorem Inv.outLen {env : Env S P} {hd : Head S P} {s : List (Event S)} {b : Builder S P} {g : Ghost S}
    (hI : Inv env hd s b g) (hh : b.state.s.hashing = true) : ((outputs s).length : Int) = b.outIdx + 1 := by
  have hs := hI.stage
  rw [outputs_length]
  rcases hst : b.state.s <;> simp only [hst, St.hashing, Stage, Bool.false_eq_true] at hh hs
  · rw [hs.2.1, hs.2.2]; simp
  · obtain ⟨k, _, _, h2, h3⟩ := hs
    rw [h2, h3]; simp [List.count_replicate]
  · obtain ⟨_, _, h2, h3⟩ := hs
    rw [h2, h3]; simp [List.count_replicate]
  · obtain ⟨_, _, h2, h3⟩ := hs
    rw [h2, h3, count_preIn]; simp
  · obtain ⟨k, _, _, _, h2, h3⟩ := hs
    rw [h2, h3, List.count_append, count_preIn]; simp [List.count_replicate]
  · obtain ⟨k, _, _, _, h2, h3⟩ := hs
    rw [h2, h3, count_preOut]; simp
  · obtain ⟨_, _, k, h2, _, h3⟩ := hs
    rw [h2, h3, List.count_append, count_preOut]; simp [List.count_replicate]

theorem Inv.setOutputOff {env : Env S P} {hd : Head S P} {s : List (Event S)} {b b' : Builder S P} {g : Ghost S}
    {dst : Dst} {hmac rsig : Bytes} {rnd : Rand S} {resp : Resp} (hI : Inv env hd s b g)
    (hdet : b.isDetMask = true) (hoff : b.rsigOffload = true)
    (h : Signer.setOutputOff env { b with procOff := true } rsig = .ok (b', resp)) :
    ∃ g', Inv env hd (s ++ [⟨.setOutput dst hmac rsig true, rnd, resp⟩]) b' g' := by
  obtain ⟨hresp, last, hl, hcase⟩ := setOutputOff_eff rfl h
  obtain ⟨hn, hm, _⟩ := hI.counts
  clear h
  generalize he : (⟨.setOutput dst hmac rsig true, rnd, resp⟩ : Event S) = e
  have ek : e.kind? = none := by rw [← he, hresp]; rfl
  have eu : e.isProofUpload = true := by rw [← he, hresp]; rfl
  have ki : kinds (s ++ [e]) = kinds s := by rw [kinds_snoc, ek]; exact List.append_nil _
  have ii : inputs (s ++ [e]) = inputs s := by rw [inputs_snoc, ← he, hresp]; exact List.append_nil _
  have pi : perms (s ++ [e]) = perms s := by rw [perms_snoc, ← he, hresp]; exact List.append_nil _
  have vi : vinis (s ++ [e]) = vinis s := by rw [vinis_snoc, ← he, hresp]; exact List.append_nil _
  have oi : outputs (s ++ [e]) = outputs s := by rw [outputs_snoc, ← he, hresp]; exact List.append_nil _
  have si : signs (s ++ [e]) = signs s := by rw [signs_snoc, ← he, hresp]; exact List.append_nil _
  have hpb : ∀ g, prefixBytes hd (s ++ [e]) = prefixBytes hd s ∧ commitments env (s ++ [e]) g = commitments env s g ∧
      prefixHashOf env hd (s ++ [e]) g = prefixHashOf env hd s g ∧
      ∀ ph, rctOf env hd (s ++ [e]) g ph = rctOf env hd s g ph := by
    intro g
    simp only [rctOf, prefixHashOf, prefixBytes, commitments, vi, oi, implies_true, and_self]
  rcases hcase with ⟨_, _, rfl⟩ | ⟨rfl, bp, h0, fh, am, ms, e1, e2, e3, e4, e5, e6, rfl⟩
  · refine ⟨g, ?_⟩
    constructor
    case initOk => exact hI.initOk
    case head => exact head_snoc e hI.head
    case accepted => exact accepted_snoc hI.accepted (fun _ => eu)
    case static => exact hI.static
    case stage => rw [ki]; exact hI.stage
    case procOff => exact fun _ => ⟨hdet, hoff⟩
    case sumIn => rw [ii]; exact hI.sumIn
    case sumOut => rw [oi]; exact hI.sumOut
    case inputsOk => rw [ii]; exact hI.inputsOk
    case lastAmount => rw [ii]; exact hI.lastAmount
    case perm => rw [pi]; exact hI.perm
    case vinisOk => rw [vi]; exact hI.vinisOk
    case masksLen => rw [oi]; exact hI.masksLen
    case outputsOk => rw [oi]; exact hI.outputsOk
    case sumout => exact hI.sumout
    case outputPk => rw [(hpb g).2.1]; exact hI.outputPk
    case pending => rw [oi]; exact hI.pending
    case batchesOk => exact hI.batchesOk
    case hashing => rw [(hpb g).1, oi]; exact hI.hashing
    case addKeys => rw [oi]; exact hI.addKeys
    case hashed => rw [(hpb g).2.2.1, (hpb g).2.2.2]; exact hI.hashed
    case preMasks => rw [ii, oi]; exact hI.preMasks
    case signLen => rw [si]; exact hI.signLen
    case signsOk => rw [si]; exact hI.signsOk
    case alphaSum => rw [ii]; exact hI.alphaSum
    case signed => exact hI.signed
    case balance => exact hI.balance
    case closing => exact fun hs => let ⟨e', h1, h2⟩ := hI.closing hs; ⟨e', List.mem_append_left _ h1, h2⟩
    case uploaded => exact fun _ => rfl
    case flushed => intro _ _ _ hl'; change lastInBatch b.rsigGrp b.outIdx = some true at hl'; simp_all
  · replace e2 : b.fullHasher = some h0 := e2
    replace e4 : b.outputAmounts = some am := e4
    replace e5 : b.outputMasks = some ms := e5
    have hh : b.state.s.hashing = true := by
      by_contra hc
      have := (hI.hashed (by simpa using hc)).1
      rw [this] at e2
      simp at e2
    have holen := hI.outLen hh
    have hpend : batchAmounts g ++ am = (outputs s).map (·.dst.amount) ∧ batchMasks g ++ ms = g.masks := by
      rcases hI.pending with ⟨am', ms', q1, q2, q3, q4⟩ | ⟨q1, _⟩
      · rw [e4] at q1; rw [e5] at q2
        simp only [Option.some.injEq] at q1 q2
        subst q1 q2
        exact ⟨q3, q4⟩
      · rw [e4] at q1; simp at q1
    refine ⟨{ g with batches := g.batches ++ [(bp, am, ms)] }, ?_⟩
    constructor
    case initOk => exact hI.initOk
    case head => exact head_snoc e hI.head
    case accepted => exact accepted_snoc hI.accepted (fun _ => eu)
    case static => exact hI.static
    case stage => rw [ki]; exact hI.stage
    case procOff => exact fun _ => ⟨hdet, hoff⟩
    case sumIn => rw [ii]; exact hI.sumIn
    case sumOut => rw [oi]; exact hI.sumOut
    case inputsOk => rw [ii]; exact hI.inputsOk
    case lastAmount => rw [ii]; exact hI.lastAmount
    case perm => rw [pi]; exact hI.perm
    case vinisOk => rw [vi]; exact hI.vinisOk
    case masksLen => rw [oi]; exact hI.masksLen
    case outputsOk => rw [oi]; exact hI.outputsOk
    case sumout => exact hI.sumout
    case outputPk => rw [(hpb _).2.1]; exact hI.outputPk
    case pending =>
      rw [oi]
      by_cases hlo : b.outIdx + 1 = (b.outputCount : Int)
      · right
        refine ⟨by simp [hlo], ?_, ?_, by omega⟩
        · simpa [batchAmounts] using hpend.1
        · simpa [batchMasks] using hpend.2
      · left
        refine ⟨[], [], by simp [hlo], by simp [hlo], ?_, ?_⟩
        · simpa [batchAmounts] using hpend.1
        · simpa [batchMasks] using hpend.2
    case batchesOk =>
      intro x hx
      rcases List.mem_append.1 hx with hx | hx
      · exact hI.batchesOk x hx
      · simp only [List.mem_singleton] at hx
        subst hx
        exact Or.inr e6
    case hashing =>
      intro _
      rw [(hpb g).1, oi]
      obtain ⟨q1, q2, q3, simple, q4⟩ := hI.hashing hh
      refine ⟨q1, q2, q3, simple, ?_⟩
      rw [e2] at q4
      simp only [Option.some.injEq] at q4
      subst q4
      have h8 : ¬((if outputs s = [] then 2 else 4) = 8) := by split <;> simp
      simp only [PreMlsag.rsigVal, h8, if_false, Option.some.injEq] at e3
      subst e3
      simp
    case addKeys => rw [oi]; exact hI.addKeys
    case hashed => intro hc; change b.state.s.hashing = false at hc; rw [hh] at hc; simp at hc
    case preMasks => rw [ii, oi]; exact hI.preMasks
    case signLen => rw [si]; exact hI.signLen
    case signsOk => rw [si]; exact hI.signsOk
    case alphaSum => rw [ii]; exact hI.alphaSum
    case signed => exact hI.signed
    case balance => exact hI.balance
    case closing => exact fun hs => let ⟨e', h1, h2⟩ := hI.closing hs; ⟨e', List.mem_append_left _ h1, h2⟩
    case uploaded => exact fun _ => rfl
    case flushed => intro _ _ _ _; simp only; split <;> simp

theorem computeMasks_succ {env : Env S P} {key : Bytes} {sp : S} {count n i : Nat} {so t : S} {pre : List S}
    (h : computeMasksAux env key sp count (n + 1) i so = some (pre, t)) :
    ∃ cur rest, (if i + 1 = count then some (sp - so) else detCommMask env key i) = some cur ∧
      computeMasksAux env key sp count n (i + 1) (so + cur) = some (rest, t) ∧ pre = cur :: rest := by
  unfold computeMasksAux at h
  by_cases hc : i + 1 = count
  · simp only [hc, if_true, Option.bind_eq_bind, Option.bind_some, Option.bind_eq_some_iff, Option.pure_def,
      Option.some.injEq, Prod.mk.injEq, Prod.exists] at h ⊢
    obtain ⟨rest, s', h2, rfl, rfl⟩ := h
    exact ⟨_, rest, rfl, h2, rfl⟩
  · simp only [hc, if_false, Option.bind_eq_bind, Option.bind_eq_some_iff, Option.pure_def,
      Option.some.injEq, Prod.mk.injEq, Prod.exists] at h ⊢
    obtain ⟨cur, h1, rest, s', h2, rfl, rfl⟩ := h
    exact ⟨cur, rest, h1, h2, rfl⟩

theorem computeMasks_spec {env : Env S P} {key : Bytes} {sp : S} {count : Nat} :
    ∀ (n i : Nat) (so : S) (pre : List S) (t : S), i + n = count →
      computeMasksAux env key sp count n i so = some (pre, t) →
      pre.length = n ∧ ∀ j, i + j + 1 < count → pre[j]? = detCommMask env key (i + j) := by
  intro n
  induction n with
  | zero =>
    intro i so pre t hc h
    simp only [computeMasksAux, Option.some.injEq, Prod.mk.injEq] at h
    obtain ⟨rfl, _⟩ := h
    exact ⟨rfl, fun j hj => by omega⟩
  | succ n ih =>
    intro i so pre t hc h
    obtain ⟨cur, rest, h1, h2, rfl⟩ := computeMasks_succ h
    obtain ⟨h3, h4⟩ := ih (i + 1) _ _ _ (by omega) h2
    refine ⟨by simp [h3], ?_⟩
    intro j hj
    cases j with
    | zero =>
      rw [if_neg (by omega)] at h1
      simp [h1]
    | succ j =>
      have := h4 j (by omega)
      simp only [List.getElem?_cons_succ, this]
      congr 1; omega

theorem Inv.setOutputNormal {env : Env S P} {hd : Head S P} {s : List (Event S)} {b b' : Builder S P} {g : Ghost S}
    {dst : Dst} {hmac rsig : Bytes} {rnd : Rand S} {resp : Resp} {off : Bool} (hI : Inv env hd s b g)
    (hin : b.inpIdx + 1 = b.inputCount)
    (hst : b.state.s = .INPUT_ALL_DONE ∨ b.state.s = .OUTPUT) (hlt : b.outIdx + 1 < b.outputCount)
    (hhm : hmacDst env b.keyHmac dst (b.outIdx + 1).toNat = some hmac)
    (h : Signer.setOutputNormal env { b with
      state := { b.state with s := .OUTPUT }, outIdx := b.outIdx + 1, procOff := false } dst rsig rnd = .ok (b', resp)) :
    ∃ g', Inv env hd (s ++ [⟨.setOutput dst hmac rsig off, rnd, resp⟩]) b' g' := by
  obtain ⟨ph, am, ms, keys, d, spend, mask, lastMask, last, fh, fh', oa, om, rsigNew, vHmac, ecdh, h1, h2, h3,
    h4, h5, h6, h7, h8, h9, h10, h11, h12, rfl, hresp⟩ := setOutputNormal_eff rfl h
  clear h
  obtain ⟨hn, hm, _, hna, _⟩ := hI.counts
  have hh : b.state.s.hashing = true := by rcases hst with hst | hst <;> rw [hst] <;> rfl
  have hins : b.state.s.inputsSet = true := by rcases hst with hst | hst <;> rw [hst] <;> rfl
  have hpers : b.state.s.permSet = true := by rcases hst with hst | hst <;> rw [hst] <;> rfl
  have hmset : b.state.s.masksSet = true := by rcases hst with hst | hst <;> rw [hst] <;> rfl
  have holen := hI.outLen hh
  obtain ⟨k, hk⟩ : ∃ k : Nat, (outputs s).length = k := ⟨_, rfl⟩
  have hok : b.outIdx + 1 = k := by omega
  have hkt : (b.outIdx + 1).toNat = k := by omega
  have hn0 : 0 < hd.tsx.numInputs ∧ b.inpIdx + 1 = hd.tsx.numInputs ∧
      kinds s = preOut hd.tsx.numInputs hd.tsx.numInputs ++ List.replicate k .output := by
    have hs := hI.stage
    rcases hst with hst | hst <;> rw [hst] at hs <;> simp only [Stage] at hs
    · obtain ⟨j, e1, e2, e3, e4, e5⟩ := hs
      have hk0 : k = 0 := by omega
      have hj : j + 1 = hd.tsx.numInputs := by omega
      subst hk0
      refine ⟨e3, by omega, ?_⟩
      rw [e5, hj]; simp
    · obtain ⟨e1, e2, j, e3, e4, e5⟩ := hs
      have hj : j + 1 = k := by omega
      exact ⟨e2, e1, by rw [e5, hj]⟩
  simp only [hkt] at h5 h6 h7 h10 h11 h12 hresp hhm ⊢
  have hslen : signs s = [] := by
    rw [← List.length_eq_zero_iff, signs_length, hn0.2.2, List.count_append, count_preOut]
    simp [List.count_replicate]
  obtain ⟨t1, t2, t3, simple, t4⟩ := hI.hashing hh
  replace h1 : b.prefixHasher = some ph := h1
  replace h2 : b.outputAmounts = some am := h2
  replace h3 : b.outputMasks = some ms := h3
  rw [h1] at t2
  simp only [Option.some.injEq] at t2
  have hpend : batchAmounts g ++ am = (outputs s).map (·.dst.amount) ∧ batchMasks g ++ ms = g.masks := by
    rcases hI.pending with ⟨am', ms', q1, q2, q3, q4⟩ | ⟨q1, _⟩
    · rw [h2] at q1; rw [h3] at q2
      simp only [Option.some.injEq] at q1 q2
      subst q1 q2
      exact ⟨q3, q4⟩
    · rw [h2] at q1; simp at q1
  replace h7 : (if b.isDetMask = true then
      some (env.hashToScalar (ascii "commitment_mask" ++ env.scEnc (derivToScalar env d k)), b.outputLastMask)
    else if b.outIdx + 1 + 1 < (b.outputCount : Int) then
      (detCommMask env b.keyEnc (b.outIdx + 1).toNat).map fun m => (m, b.outputLastMask)
    else b.outputLastMask.map fun m => (m, none)) = some (mask, lastMask) := h7
  -- the range-proof part
  obtain ⟨bs, hb1, hb2, hb3⟩ : ∃ bs : List (Bp × List Nat × List S),
      (∀ x ∈ bs, (∃ rnd, env.bpProve x.2.1 x.2.2 rnd = some x.1) ∨ env.bpVerify x.1 x.2.1 x.2.2 = true) ∧
      fh = ⟨simple, if outputs s = [] then 2 else 4, [], some ((bs.map (·.1.hashed)).flatten),
        some ([hd.ty] ++ Varint.dumpNat hd.tsx.fee ++ ((outputs s).map (·.ack.ecdh)).flatten)⟩ ∧
      ((∃ am' ms', oa = some am' ∧ om = some ms' ∧
        (bs.map fun x => x.2.1).flatten ++ am' = (outputs s).map (·.dst.amount) ++ [dst.amount] ∧
        (bs.map fun x => x.2.2).flatten ++ ms' = g.masks ++ [mask]) ∨
       (oa = none ∧ (bs.map fun x => x.2.1).flatten = (outputs s).map (·.dst.amount) ++ [dst.amount] ∧
        (bs.map fun x => x.2.2).flatten = g.masks ++ [mask] ∧ k + 1 = hd.tsx.outputs.length)) := by
    rcases h9 with ⟨_, q1, q2, q3, _⟩ | ⟨_, _, bp, h0, q1, q2, q3, q4, q5⟩
    · replace q1 : b.fullHasher = some fh := q1
      rw [q1] at t4
      simp only [Option.some.injEq] at t4
      refine ⟨g.batches, hI.batchesOk, t4, Or.inl ⟨_, _, q2, q3, ?_, ?_⟩⟩
      · rw [← List.append_assoc, ← hpend.1]; rfl
      · rw [← List.append_assoc, ← hpend.2]; rfl
    · replace q1 : b.fullHasher = some h0 := q1
      rw [q1] at t4
      simp only [Option.some.injEq] at t4
      subst t4
      have h8 : ¬((if outputs s = [] then 2 else 4) = 8) := by split <;> simp
      simp only [PreMlsag.rsigVal, h8, if_false, Option.some.injEq] at q2
      have ha : ((g.batches ++ [(bp, am ++ [dst.amount], ms ++ [mask])]).map fun x => x.2.1).flatten =
          (outputs s).map (·.dst.amount) ++ [dst.amount] := by
        rw [← hpend.1]; simp [batchAmounts]
      have hb : ((g.batches ++ [(bp, am ++ [dst.amount], ms ++ [mask])]).map fun x => x.2.2).flatten =
          g.masks ++ [mask] := by
        rw [← hpend.2]; simp [batchMasks]
      refine ⟨g.batches ++ [(bp, am ++ [dst.amount], ms ++ [mask])], ?_, ?_, ?_⟩
      · intro x hx
        rcases List.mem_append.1 hx with hx | hx
        · exact hI.batchesOk x hx
        · simp only [List.mem_singleton] at hx
          subst hx
          rcases q3 with ⟨_, q, _⟩ | ⟨_, _, q, _⟩
          · exact Or.inl ⟨_, q⟩
          · exact Or.inr q
      · rw [← q2]; simp
      · by_cases hc : b.outIdx + 1 + 1 = (b.outputCount : Int) ∧ b.rsigOffload = false
        · right
          rw [if_pos hc] at q4
          exact ⟨q4, ha, hb, by omega⟩
        · left
          rw [if_neg hc] at q4 q5
          exact ⟨[], [], q4, q5, by simpa using ha, by simpa using hb⟩
  have hfl : (b.rsigOffload && b.isDetMask) = false → last = true →
      oa = none ∨ (oa = some [] ∧ om = some []) := by
    intro hc hl
    rcases h9 with ⟨q0 | q0, _⟩ | ⟨_, _, _, _, _, _, _, q4, q5⟩
    · simp [hl] at q0
    · replace q0 : b.rsigOffload = true ∧ b.isDetMask = true := q0
      simp [q0.1, q0.2] at hc
    · rw [q4, q5]; split <;> simp
  clear h9
  have hfh' : fh' = ⟨simple, 4, [], some ((bs.map (·.1.hashed)).flatten),
      some ([hd.ty] ++ Varint.dumpNat hd.tsx.fee ++ ((outputs s).map (·.ack.ecdh)).flatten ++ ecdh)⟩ := by
    subst hb2
    have : ¬ ((if outputs s = [] then 2 else 4) ≠ 2 ∧ (if outputs s = [] then 2 else 4) ≠ 3 ∧
      (if outputs s = [] then 2 else 4) ≠ 4) := by split <;> simp
    simp only [PreMlsag.setEcdh, this, if_false, PreMlsag.feedRct, Option.map_some, Option.some.injEq] at h12
    exact h12.symm
  generalize he : (⟨.setOutput dst hmac rsig off, rnd, resp⟩ : Event S) = e
  have ek : e.kind? = some .output := by rw [← he, hresp]; rfl
  have eo : e.output? = some ⟨dst, hmac, {
      txOut := [0, 2] ++ env.ptEnc (derivToScalar env d k • env.G + spend),
      voutiHmac := vHmac, rsig := rsigNew,
      mask := if b.isDetMask && b.rsigOffload then some (env.scEnc mask) else none,
      outPk := env.ptEnc (derivToScalar env d k • env.G + spend) ++ env.ptEnc (genC env mask dst.amount),
      ecdh := ecdh }⟩ := by rw [← he, hresp]; rfl
  have ki' : kinds (s ++ [e]) = kinds s ++ [.output] := by rw [kinds_snoc, ek]; rfl
  have oi := outputs_snoc s e
  simp only [eo, Option.toList_some] at oi
  have ii : inputs (s ++ [e]) = inputs s := by rw [inputs_snoc, ← he, hresp]; exact List.append_nil _
  have pi : perms (s ++ [e]) = perms s := by rw [perms_snoc, ← he, hresp]; exact List.append_nil _
  have vi : vinis (s ++ [e]) = vinis s := by rw [vinis_snoc, ← he, hresp]; exact List.append_nil _
  have si : signs (s ++ [e]) = signs s := by rw [signs_snoc, ← he, hresp]; exact List.append_nil _
  have hap : ∀ (i : Nat) (x : Bytes), g.addPub[i]? = some x → keys.1[i]? = some x := by
    intro i x hx
    simp only [s6AddKeys] at h4
    split at h4
    · simp only [Option.map_eq_some_iff] at h4
      obtain ⟨a, _, rfl⟩ := h4
      simp only [t3]
      have hlt := (List.getElem?_eq_some_iff.1 hx).1
      rw [List.getElem?_append_left hlt, hx]
    · simp only [Option.some.injEq] at h4
      subst h4
      simpa only [t3] using hx
  have hal : b.needAdd = true → keys.1[k]? =
      some (env.ptEnc (rnd.addKey • (if dst.isSub then spend else env.G))) ∧ keys.1.length = k + 1 := by
    intro hna
    have hgl := hI.addKeys hna
    simp only [s6AddKeys, hna, if_true, Option.map_eq_some_iff, t3] at h4
    obtain ⟨a, ha, rfl⟩ := h4
    have : a = rnd.addKey • (if dst.isSub then spend else env.G) := by
      cases hsub : dst.isSub
      · simp only [hsub, Bool.false_eq_true, if_false, Option.some.injEq] at ha ⊢
        exact ha.symm
      · simp only [hsub, if_true, h6, Option.map_some, Option.some.injEq] at ha ⊢
        exact ha.symm
    subst this
    rw [hk] at hgl
    constructor
    · rw [List.getElem?_append_right (by omega)]; simp [hgl]
    · simp [hgl]
  refine ⟨{ g with masks := g.masks ++ [mask], batches := bs, addPub := keys.1 }, ?_⟩
  constructor
  case initOk => exact hI.initOk
  case head => exact head_snoc e hI.head
  case accepted => exact accepted_snoc hI.accepted (by simp [ek])
  case static => exact hI.static
  case stage =>
    rw [ki', hn0.2.2]
    refine ⟨hn0.2.1, hn0.1, k, hok, by omega, ?_⟩
    rw [List.replicate_succ']; simp
  case procOff => intro hc; simp at hc
  case sumIn => rw [ii]; exact hI.sumIn
  case sumOut => rw [oi]; simp [hI.sumOut]
  case inputsOk => rw [ii]; exact hI.inputsOk
  case lastAmount => intro _; rw [ii]; exact hI.lastAmount hins
  case perm => intro _; rw [pi]; exact hI.perm hpers
  case vinisOk => rw [vi]; exact hI.vinisOk
  case masksLen => rw [oi]; simp [hI.masksLen]
  case outputsOk =>
    intro i r m hr hmm
    rw [oi] at hr
    have hlm := hI.masksLen
    rcases getElem?_snoc hr with hr | ⟨rfl, rfl⟩
    · have hi := (List.getElem?_eq_some_iff.1 hr).1
      have hmm' : g.masks[i]? = some m := by
        rwa [List.getElem?_append_left (by omega)] at hmm
      obtain ⟨q1, q0, rnd', d', sp', q2, q3, q4, q5⟩ := hI.outputsOk i r m hr hmm'
      exact ⟨q1, q0, rnd', d', sp', q2, q3, fun hna => hap _ _ (q4 hna), q5⟩
    · have : m = mask := by
        rw [← hlm] at hmm
        simpa using hmm.symm
      subst this
      rw [hk]
      refine ⟨hhm, h10, rnd, d, spend, h5, h6, fun hna => (hal hna).1, ?_, rfl, rfl, h11⟩
      intro hdet
      replace hdet : b.isDetMask = true := hdet
      rw [if_pos hdet] at h7
      simp only [Option.some.injEq, Prod.mk.injEq] at h7
      exact h7.1.symm
  case sumout => simp [hI.sumout]
  case outputPk =>
    simp only [commitments, oi]
    rw [List.zipWith_append hI.masksLen, hI.outputPk]
    rfl
  case pending =>
    rw [oi]
    simp only [batchAmounts, batchMasks, List.map_append, List.map_cons, List.map_nil, List.length_append, hk,
      List.length_cons, List.length_nil, Nat.zero_add]
    exact hb3
  case batchesOk => exact hb1
  case hashing =>
    intro _
    refine ⟨t1, ?_, rfl, simple, ?_⟩
    · simp only [prefixBytes, vi, oi, t2]
      have e1 : (outputs s ++ [(⟨dst, hmac, {
        txOut := [0, 2] ++ env.ptEnc (derivToScalar env d k • env.G + spend),
        voutiHmac := vHmac, rsig := rsigNew,
        mask := if b.isDetMask && b.rsigOffload then some (env.scEnc mask) else none,
        outPk := env.ptEnc (derivToScalar env d k • env.G + spend) ++ env.ptEnc (genC env mask dst.amount),
        ecdh := ecdh }⟩ : OutputRec)]) ≠ [] := by simp
      rw [if_neg e1]
      by_cases hk0 : outputs s = []
      · have : b.outIdx + 1 = 0 := by rw [hk0] at hk; simp at hk; omega
        simp [hk0, this, hm]
      · have : ¬ (b.outIdx + 1 = 0) := by
          have : (outputs s).length ≠ 0 := by simpa using hk0
          omega
        simp [hk0, this]
    · rw [hfh']; simp [oi]
  case addKeys => intro hna; rw [oi, (hal hna).2]; simp [hk]
  case hashed => intro hs; simp [St.hashing] at hs
  case preMasks =>
    intro hd _
    replace hd : b.isDetMask = false := hd
    obtain ⟨pre, p1, p2, p3⟩ := hI.preMasks hd hmset
    rw [ii, oi]
    refine ⟨pre, p1, ?_, ?_⟩
    · obtain ⟨l1, l2⟩ := computeMasks_spec _ _ _ _ _ (by simp) p1
      have hnew : pre[k]? = some mask := by
        have h7' := h7
        rw [if_neg (by simp [hd])] at h7'
        split at h7'
        · rw [hkt] at h7'
          have := l2 k (by omega)
          simp only [Nat.zero_add] at this
          rw [this]
          simp only [Option.map_eq_some_iff, Prod.mk.injEq] at h7'
          obtain ⟨a, ha, rfl, _⟩ := h7'
          exact ha
        · rw [p3 (by omega)] at h7'
          simp only [Option.map_eq_some_iff, Prod.mk.injEq] at h7'
          obtain ⟨a, ha, rfl, _⟩ := h7'
          rw [List.getLast?_eq_getElem?, l1] at ha
          rw [← ha]; congr 1; omega
      simp only [List.length_append, List.length_cons, List.length_nil, hk, Nat.zero_add]
      rw [List.take_add_one, hnew, p2, hk]
      rfl
    · intro hlen
      have h7' := h7
      rw [if_neg (by simp [hd])] at h7'
      simp only [List.length_append, List.length_cons, List.length_nil, hk, Nat.zero_add] at hlen
      replace hlen : k + 1 < b.outputCount := hlen
      rw [if_pos (by omega)] at h7'
      simp only [Option.map_eq_some_iff, Prod.mk.injEq] at h7'
      obtain ⟨a, ha, _, rfl⟩ := h7'
      exact p3 (by omega)
  case signLen => rw [si]; exact hI.signLen
  case signsOk => rw [si, hslen]; simp
  case alphaSum => rw [ii]; exact hI.alphaSum
  case signed => intro hs; simp at hs
  case balance => intro hs; simp [St.hashing] at hs
  case closing => intro hs; simp [St.hashing] at hs
  case uploaded => rintro ⟨e', h1, h2⟩; simp at h1; subst h1; rw [← he] at h2; simp [Event.isProofUpload, hresp] at h2
  case flushed =>
    intro _ _ hc hl
    replace hl : lastInBatch b.rsigGrp (b.outIdx + 1) = some true := hl
    replace hc : false = true ∨ (b.rsigOffload && b.isDetMask) = false := hc
    replace h8 : lastInBatch b.rsigGrp (b.outIdx + 1) = some last := h8
    rw [hl] at h8
    simp only [Option.some.injEq] at h8
    subst h8
    exact hfl (by simpa using hc) rfl

theorem Inv.setOutput {env : Env S P} {hd : Head S P} {s : List (Event S)} {b b' : Builder S P} {g : Ghost S}
    {dst : Dst} {hmac rsig : Bytes} {off : Bool} {rnd : Rand S} {resp : Resp} (hI : Inv env hd s b g)
    (h : Signer.setOutput env b dst hmac rsig off rnd = .ok (b', resp)) :
    ∃ g', Inv env hd (s ++ [⟨.setOutput dst hmac rsig off, rnd, resp⟩]) b' g' := by
  simp only [Signer.setOutput, bind_ok, ensure_ok, exists_unit] at h
  obtain ⟨_, b1, hv, h⟩ := h
  obtain ⟨hin, hv⟩ := validate_eff hv
  rcases hv with ⟨rfl, ho, hd', _, rfl⟩ | ⟨_, hf, hp, _, _⟩ | ⟨rfl, _, hst, hlt, hh, _, rfl⟩
  · rw [if_pos rfl] at h
    exact hI.setOutputOff hd' ho h
  · have := hI.procOff hp
    simp [this.1, this.2] at hf
  · rw [if_neg (by simp)] at h
    exact hI.setOutputNormal hin hst hlt hh h

end Verif.Signer

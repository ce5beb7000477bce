import Verif.Lemmas.AgentFind
import Verif.Props.AgentLimits
import Verif.Props.Permutation

/-! From a finished run back to what the request must have been. -/

set_option linter.unusedSectionVars false

namespace Verif.Agent
open Verif Verif.Signer Verif.Batches
variable {S P : Type} [CommRing S] [AddCommGroup P] [Module S P] [DecidableEq S] [DecidableEq P]

/-- What the device knows about its subaddresses while it takes inputs; `j` inputs were taken. -/
structure Taking (ke : Bytes) (t : SubTable) (j : Nat) (c : Conn S P) : Prop where
  dev : ∃ b, c.dev = ⟨some b⟩ ∧ b.keyEnc = ke ∧ b.inpIdx + 1 = j ∧ (b.subs = some t ∨ b.subs = none)

theorem initStep_taking {env : Env S P} {rnd : Nat → Rand S} {c c' : Conn S P} {tsx : TsxData} {x : List Bytes × Bool}
    (h : initStep env rnd tsx c = some (x, c')) :
    ∃ ke, Taking ke (if tsx.minorIndices.isEmpty then [] else env.subaddresses tsx.account tsx.minorIndices) 0 c' ∧
      ∀ hd s, InSession env hd s c' → ke = (hd.builder env).keyEnc := by
  unfold initStep at h
  obtain ⟨⟨r, c1⟩, h1, h2⟩ := Option.bind_eq_some_iff.1 h
  obtain ⟨b', h3, rfl⟩ := call_some h1
  have hw : wakeUp c.dev (.init tsx) = freshBuilder := rfl
  rw [hw] at h3
  rcases init_eff h3 with ⟨_, rfl, rfl⟩ | ⟨rPub, pid, extra, ty, hmacs, hok, rfl, rfl⟩
  · simp at h2
  · dsimp only at h2
    simp only [Option.some.injEq, Prod.mk.injEq] at h2
    obtain ⟨rfl, rfl⟩ := h2
    refine ⟨_, ⟨_, rfl, rfl, rfl, ?_⟩, ?_⟩
    · left
      simp only [initBuilder]
      split <;> rfl
    · rintro hd s ⟨b, g, hb, hI⟩
      have := hI.static
      have hb' : b = initBuilder env tsx (rnd c.n) rPub pid extra ty := by
        have : (initBuilder env tsx (rnd c.n) rPub pid extra ty).state.isTerminal = false := rfl
        simpa [this] using hb.symm
      simp only [Builder.static, Prod.mk.injEq] at this
      rw [← hb']
      exact this.2.1

/-- What the host holds for source `src`, taken as number `j`. -/
structure Taken (env : Env S P) (ke : Bytes) (t : SubTable) (j : Nat) (r : InRec) : Prop where
  known : ∃ real outKey txKey addKeys xi ki k n, r.src.outputs[r.src.realOutput]? = some real ∧ env.ptDec real.dest = some outKey ∧
    env.ptDec r.src.txKey = some txKey ∧ r.src.addKeys.mapM env.ptDec = some addKeys ∧
    env.keyImage t outKey txKey addKeys r.src.inTxIndex = some (xi, ki) ∧ buildKey env ke dSpend (some j) = some k ∧
    r.spendEnc = env.encPack k (env.scEnc xi) n

theorem inputLoop_taken {env : Env S P} {cdc : Codec} {rnd : Nat → Rand S} {ke : Bytes} {t : SubTable} :
    ∀ (srcs : List Src) {j : Nat} {c c' : Conn S P} {rs : List InRec}, Taking ke t j c → inputLoop env cdc rnd srcs c = some (rs, c') →
    ∀ i r, rs[i]? = some r → Taken env ke t (j + i) r := by
  intro srcs
  induction srcs with
  | nil =>
    intro j c c' rs hs h i r hi
    simp only [inputLoop, Option.some.injEq, Prod.mk.injEq] at h
    obtain ⟨rfl, rfl⟩ := h
    simp at hi
  | cons src srcs ih =>
    intro j c c' rs hs h
    rw [inputLoop] at h
    obtain ⟨⟨r0, c1⟩, h1, h2⟩ := Option.bind_eq_some_iff.1 h
    obtain ⟨⟨is, c2⟩, h3, h4⟩ := Option.map_eq_some_iff.1 h2
    simp only [Prod.mk.injEq] at h4
    obtain ⟨rfl, rfl⟩ := h4
    unfold inputStep at h1
    obtain ⟨⟨r, c3⟩, h5, h6⟩ := Option.bind_eq_some_iff.1 h1
    obtain ⟨b', h7, rfl⟩ := call_some h5
    obtain ⟨b, hb, hke, hj, hsub⟩ := hs.dev
    rw [hb] at h7
    obtain ⟨_, _, real, outKey, txKey, addKeys, subs, xi, ki, hmac, pHmac, kA, kS, g1, g2, g3, g4, g5, g6, g7, g8, g9, g10, hb', rfl⟩ := setInput_eff (b := b) h7
    have hsubs : subs = t := by
      rcases hsub with e | e <;> rw [e] at g5 <;> simp at g5
      exact g5.symm
    subst hsubs
    dsimp only at h6
    obtain ⟨v, _, hv⟩ := Option.map_eq_some_iff.1 h6
    simp only [Prod.mk.injEq] at hv
    obtain ⟨rfl, rfl⟩ := hv
    intro i r hi
    cases i with
    | zero =>
      simp only [List.getElem?_cons_zero, Option.some.injEq] at hi
      subst hi
      refine ⟨real, outKey, txKey, addKeys, xi, ki, kS, _, g1, g2, g3, g4, g6, ?_, rfl⟩
      rw [hke, hj] at g10
      exact g10
    | succ i =>
      rw [List.getElem?_cons_succ] at hi
      have ht : b'.state.isTerminal = false := by
        rw [hb']
        unfold TState.isTerminal
        dsimp only
        split <;> rfl
      have := ih (j := j + 1) ⟨⟨b', by rw [ht]; rfl, by rw [hb']; exact hke, by rw [hb']; dsimp only; rw [hj]; rfl, by
        rw [hb']
        dsimp only
        split
        · exact .inr rfl
        · exact hsub⟩⟩ h3 i r hi
      rwa [show j + (i + 1) = j + 1 + i by omega]

theorem allInStep_session {env : Env S P} {cfg : Config} {rnd : Nat → Rand S} {hd : Head S P} {s : List (Event S)} {c : Conn S P} {off : Bool}
    {m : Nat} {x : List Bytes × Conn S P} (hs : InSession env hd s c) (h : allInStep env cfg rnd off m c = some x) :
    ∃ t, InSession env hd (s ++ t) x.2 := by
  unfold allInStep at h
  obtain ⟨⟨r, c1⟩, h1, h2⟩ := Option.bind_eq_some_iff.1 h
  refine ⟨[⟨.allInputsSet, rnd c.n, r⟩], ?_⟩
  have := (call_step rfl (by simp) hs h1).1
  dsimp only at h2
  split at h2
  · split at h2
    · cases h2; exact this
    · split at h2
      · cases h2; exact this
      · cases h2
  · cases h2

theorem upload_session {env : Env S P} {d : TxData} {rnd : Nat → Rand S} {hrnd : Nat → Bytes} {hd : Head S P} {s : List (Event S)} {c : Conn S P}
    {bs : List Nat} {idx : Nat} {st : OutSt} {x : OutSt × Conn S P} (hs : InSession env hd s c)
    (h : upload env d rnd hrnd bs idx st c = some x) : ∃ t, InSession env hd (s ++ t) x.2 := by
  unfold upload at h
  obtain ⟨o, h1, h2⟩ := Option.bind_eq_some_iff.1 h
  cases o with
  | none =>
    dsimp only at h2
    cases h2
    exact ⟨[], by simpa using hs⟩
  | some y =>
    dsimp only at h2
    obtain ⟨⟨r, c1⟩, h3, h4⟩ := Option.map_eq_some_iff.1 h2
    subst h4
    exact ⟨_, (call_step rfl (by simp) hs h3).1⟩

theorem outputStep_session {env : Env S P} {cfg : Config} {cdc : Codec} {d : TxData} {rnd : Nat → Rand S} {hrnd : Nat → Bytes} {hd : Head S P}
    {s : List (Event S)} {c : Conn S P} {bs : List Nat} {off : Bool} {idx : Nat} {dst : Dst} {hmac : Bytes} {st : OutSt} {x : OutSt × Conn S P}
    (hs : InSession env hd s c) (h : outputStep env cfg cdc d rnd hrnd bs off idx dst hmac st c = some x) :
    ∃ t, InSession env hd (s ++ t) x.2 ∧ ∃ o ∈ outputs t, o.dst = dst := by
  unfold outputStep at h
  obtain ⟨a, h1, h2⟩ := Option.bind_eq_some_iff.1 h
  obtain ⟨⟨r, c1⟩, h3, h4⟩ := Option.bind_eq_some_iff.1 h2
  have hc := (call_step rfl (by simp) hs h3).1
  dsimp only at h4
  split at h4
  · rename_i ack
    obtain ⟨st2, h5, h6⟩ := Option.bind_eq_some_iff.1 h4
    split at h6
    · obtain ⟨t, ht⟩ := upload_session hc h6
      refine ⟨_ :: t, by simpa using ht, ⟨dst, hmac, ack⟩, ?_, rfl⟩
      simp [outputs, Event.output?]
    · obtain ⟨st3, h7, h8⟩ := Option.map_eq_some_iff.1 h6
      subst h8
      refine ⟨_, hc, ⟨dst, hmac, ack⟩, ?_, rfl⟩
      simp [outputs, Event.output?]
  · cases h4

theorem outputLoop_session {env : Env S P} {cfg : Config} {cdc : Codec} {d : TxData} {rnd : Nat → Rand S} {hrnd : Nat → Bytes} {hd : Head S P}
    {bs : List Nat} {off : Bool} {hmacs : List Bytes} : ∀ (dsts : List Dst) {idx : Nat} {s : List (Event S)} {c : Conn S P} {st : OutSt}
    {x : OutSt × Conn S P}, InSession env hd s c → outputLoop env cfg cdc d rnd hrnd bs off hmacs idx dsts st c = some x →
    ∃ t, InSession env hd (s ++ t) x.2 ∧ ∀ dst ∈ dsts, ∃ o ∈ outputs t, o.dst = dst := by
  intro dsts
  induction dsts with
  | nil =>
    intro idx s c st x hs h
    simp only [outputLoop, Option.some.injEq] at h
    subst h
    exact ⟨[], by simpa using hs, by simp⟩
  | cons dst dsts ih =>
    intro idx s c st x hs h
    rw [outputLoop] at h
    obtain ⟨hm, _, h1⟩ := Option.bind_eq_some_iff.1 h
    obtain ⟨y, h2, h3⟩ := Option.bind_eq_some_iff.1 h1
    obtain ⟨t, ht, o, ho, hod⟩ := outputStep_session hs h2
    obtain ⟨t2, ht2, hall⟩ := ih ht h3
    refine ⟨t ++ t2, by simpa using ht2, ?_⟩
    intro z hz
    rcases List.mem_cons.1 hz with rfl | hz
    · exact ⟨o, by simp [outputs, List.filterMap_append] at ho ⊢; exact .inl ho, hod⟩
    · obtain ⟨o', ho', e⟩ := hall z hz
      exact ⟨o', by simp [outputs, List.filterMap_append] at ho' ⊢; exact .inr ho', e⟩

theorem allOutStep_session {env : Env S P} {d : TxData} {rnd : Nat → Rand S} {hd : Head S P} {s : List (Event S)} {c : Conn S P}
    {ins : List InRec} {st : OutSt} {x : Tx × Conn S P} (hs : InSession env hd s c) (h : allOutStep env d rnd ins st c = some x) :
    ∃ e : Event S, InSession env hd (s ++ [e]) x.2 ∧ e.kind? = some .allOut := by
  unfold allOutStep at h
  obtain ⟨⟨r, c1⟩, h1, h2⟩ := Option.bind_eq_some_iff.1 h
  have hc := (call_step rfl (by simp) hs h1).1
  dsimp only at h2
  split at h2
  · split at h2
    · split at h2
      · cases h2
        exact ⟨_, hc, rfl⟩
      · cases h2
    · cases h2
  · cases h2

theorem signLoop_session {env : Env S P} {cfg : Config} {rnd : Nat → Rand S} {hd : Head S P} : ∀ (rs : List InRec) {s : List (Event S)}
    {c : Conn S P} {x : List (Bytes × Bytes) × Conn S P}, InSession env hd s c → signLoop env cfg rnd rs c = some x →
    ∃ t, InSession env hd (s ++ t) x.2 ∧ (signs t).map (fun v => (v.src, v.spendEnc)) = rs.map fun r => (r.src, r.spendEnc) := by
  intro rs
  induction rs with
  | nil =>
    intro s c x hs h
    simp only [signLoop, Option.some.injEq] at h
    subst h
    exact ⟨[], by simpa using hs, rfl⟩
  | cons i rs ih =>
    intro s c x hs h
    rw [signLoop] at h
    obtain ⟨⟨r, c1⟩, h1, h2⟩ := Option.bind_eq_some_iff.1 h
    have hc := (call_step rfl (by simp) hs h1).1
    dsimp only at h2
    split at h2
    · rename_i sig po
      obtain ⟨q, h3, h4⟩ := Option.map_eq_some_iff.1 h2
      subst h4
      obtain ⟨t, ht, hl⟩ := ih hc h3
      refine ⟨_ :: t, by simpa using ht, ?_⟩
      simp only [signs, List.filterMap_cons, Event.sign?, List.map_cons]
      simpa [signs] using hl
    · cases h2

/-- After all outputs are closed and before the first signature. -/
theorem signs_before {env : Env S P} {hd : Head S P} {s : List (Event S)} {e : Event S} {c : Conn S P} (h : InSession env hd (s ++ [e]) c)
    (he : e.kind? = some .allOut) : signs (s ++ [e]) = [] ∧ 0 < hd.tsx.outputs.length := by
  obtain ⟨b, g, _, hI⟩ := h
  have hst := hI.stage
  have hk : kinds (s ++ [e]) = kinds s ++ [.allOut] := by rw [kinds_snoc, he]; rfl
  have hlast : (kinds (s ++ [e])).getLast? = some .allOut := by rw [hk]; simp
  have hsl := signs_length (s ++ [e])
  generalize kinds (s ++ [e]) = ks at hst hlast hsl
  have key : ks.count .sign = 0 ∧ 0 < hd.tsx.outputs.length := by
    rcases hb : b.state.s <;> rw [hb] at hst <;> simp only [Stage] at hst
    · obtain ⟨_, _, rfl⟩ := hst; simp at hlast
    · obtain ⟨k, _, _, _, rfl⟩ := hst
      rw [List.replicate_succ', ← List.append_assoc, List.getLast?_concat] at hlast; cases hlast
    · obtain ⟨_, h0, _, rfl⟩ := hst
      obtain ⟨n, hn⟩ := Nat.exists_eq_succ_of_ne_zero (by omega : hd.tsx.numInputs ≠ 0)
      rw [hn, List.replicate_succ', ← List.append_assoc, List.getLast?_concat] at hlast; cases hlast
    · obtain ⟨_, _, _, rfl⟩ := hst; rw [preIn, List.getLast?_concat] at hlast; cases hlast
    · obtain ⟨k, _, _, _, _, rfl⟩ := hst
      rw [List.replicate_succ', ← List.append_assoc, List.getLast?_concat] at hlast; cases hlast
    · obtain ⟨k, _, _, _, _, rfl⟩ := hst; rw [preOut, List.getLast?_concat] at hlast; cases hlast
    · obtain ⟨_, _, k, _, _, rfl⟩ := hst
      rw [List.replicate_succ', ← List.append_assoc, List.getLast?_concat] at hlast; cases hlast
    · obtain ⟨_, _, _, hm, rfl⟩ := hst
      exact ⟨by rw [count_preSign]; simp, hm⟩
    · obtain ⟨k, _, _, _, _, rfl⟩ := hst
      rw [List.replicate_succ', ← List.append_assoc, List.getLast?_concat] at hlast; cases hlast
    · obtain ⟨_, h0, _, _, rfl⟩ := hst
      obtain ⟨n, hn⟩ := Nat.exists_eq_succ_of_ne_zero (by omega : hd.tsx.numInputs ≠ 0)
      rw [hn, List.replicate_succ', ← List.append_assoc, List.getLast?_concat] at hlast; cases hlast
  exact ⟨List.length_eq_zero_iff.1 (hsl.trans key.1), key.2⟩

theorem e_perm {s : List (Event S)} {e : Event S} {p : List Nat} (hacc : ∀ e ∈ s, e.kind? = none → e.isProofUpload = true) (he : e ∈ s)
    (hm : e.msg = .permutation p) : e.perm? = some p := by
  obtain ⟨m, r, x⟩ := e
  simp only at hm
  subst hm
  have := hacc _ he
  unfold Event.perm?
  unfold Event.kind? Event.isProofUpload at this
  cases x <;> simp at this ⊢

theorem outputs_known {env : Env S P} {hd : Head S P} {s : List (Event S)} {b : Builder S P} {g : Ghost S} (hI : Signer.Inv env hd s b g)
    {o : OutputRec} (ho : o ∈ outputs s) : (∃ p, env.ptDec o.dst.addr.spend = some p) ∧
      ((∀ a, b.changeAddr = some a → o.dst.addr ≠ a) → ∃ p, env.ptDec o.dst.addr.view = some p) := by
  obtain ⟨i, hi⟩ := List.mem_iff_getElem?.1 ho
  have hlt : i < g.masks.length := by rw [hI.masksLen]; exact (List.getElem?_eq_some_iff.1 hi).1
  obtain ⟨_, _, rnd, dv, spend, h1, h2, _⟩ := hI.outputsOk i o _ hi (List.getElem?_eq_getElem hlt)
  refine ⟨⟨spend, h2⟩, fun hne => ?_⟩
  unfold s6Derivation at h1
  rw [if_neg] at h1
  · obtain ⟨v, hv, _⟩ := Option.map_eq_some_iff.1 h1
    exact ⟨v, hv⟩
  · cases hc : b.changeAddr with
    | none => simp
    | some a =>
      dsimp only
      rw [addrEq_iff]
      exact hne a hc

/-- Whatever the request was, if the host got a transaction it was one the device was ready to sign. -/
theorem ready_of_run {env : Env S P} {cfg : Config} {cdc : Codec} {rnd : Nat → Rand S} {hrnd : Nat → Bytes} {d : TxData} {c : Conn S P}
    {x : Tx × Conn S P} (hl : Lawful env cdc) (hv : 1 ≤ cfg.clientVersion) (hf : 9 ≤ cfg.hf) (hns : d.sources.length ≤ 2 ^ 42)
    (hnd : d.dsts.length ≤ 2 ^ 42) (ham : ∀ dst ∈ d.dsts, dst.amount < 2 ^ 64)
    (hp : ∀ m o y a b q i r, (env.mlsag m o y a b q i r).isSome) (hrun : signTransaction env cfg cdc rnd hrnd d c = some x) :
    Ready env cfg d (rnd c.n).r ∧ (rnd c.n).confirm = true := by
  have hbp : d.useBp = true := by
    rcases h : d.useBp with _ | _
    · rw [C72_only_bulletproofs env cfg cdc rnd hrnd d c h] at hrun; cases hrun
    · rfl
  simp only [signTransaction_eq, Option.bind_eq_some_iff, Option.map_eq_some_iff] at hrun
  obtain ⟨tsx, e0, ⟨hx, c0⟩, e1, ⟨rs, c1⟩, e2, ⟨rs', c2⟩, e3, c3, e4, ⟨ms, c4⟩, e5, ⟨st, c5⟩, e6, ⟨tx, c6⟩, e7, ⟨sg, c7⟩, e8, -⟩ := hrun
  have htab : (if tsx.minorIndices.isEmpty then [] else env.subaddresses tsx.account tsx.minorIndices) = tableOf env d := by
    unfold tsxData at e0
    obtain ⟨s0, _, e0⟩ := Option.bind_eq_some_iff.1 e0
    obtain ⟨bs, _, e0⟩ := Option.bind_eq_some_iff.1 e0
    split at e0
    · cases e0; rfl
    · cases e0
  have hacc0 : tsx.account = d.account := by
    unfold tsxData at e0
    obtain ⟨s0, _, e0⟩ := Option.bind_eq_some_iff.1 e0
    obtain ⟨bs, _, e0⟩ := Option.bind_eq_some_iff.1 e0
    split at e0
    · cases e0; rfl
    · cases e0
  obtain ⟨hne, houts, hni, hch, hpid, hty, hcv, hbv, _, hfee⟩ := tsxData_some e0
  obtain ⟨hd, h1, h1r, _, _, hs0⟩ := initStep_session e1
  obtain ⟨ke, htk, hke⟩ := initStep_taking e1
  replace hke := hke hd _ hs0
  rw [htab] at htk
  have htaken := inputLoop_taken _ htk e2
  obtain ⟨t1, hs1, _, hsrc⟩ := inputLoop_session _ hs0 e2
  obtain ⟨ep, hs2, hep, swaps, hsw1, hsw2⟩ := permStep_session hs1 e3
  obtain ⟨t2, hs3, _⟩ := viniLoop_session _ hs2 e4
  obtain ⟨t3, hs4⟩ := allInStep_session hs3 e5
  obtain ⟨t4, hs5, hout⟩ := outputLoop_session _ hs4 e6
  obtain ⟨eo, hs6, heo⟩ := allOutStep_session hs5 e7
  obtain ⟨hnosign, hm⟩ := signs_before hs6 heo
  obtain ⟨t5, hs7, hsg⟩ := signLoop_session _ hs6 e8
  obtain ⟨b, g, hb, hI⟩ := hs7
  have hstat := hI.static
  simp only [Builder.static, Prod.mk.injEq] at hstat
  have hchb : b.change = some d.change := by
    rw [hstat.2.2.2.2.2.2.2.2.1]; simp only [Head.builder, initBuilder]; rw [h1, hch]
  have hkeb : b.keyEnc = ke := by rw [hstat.2.1, hke]
  refine ⟨⟨hv, hf, hbp, hne, ?_, hns, hnd, by omega, ham, ?_, ?_, ?_, ?_, ?_⟩, ?_⟩
  · rintro e
    rw [h1, houts, e] at hm
    simp at hm
  · intro src hsrcm
    obtain ⟨q, hq⟩ := List.mem_iff_getElem?.1 hsrcm
    -- its number in the host's records
    rw [← hsrc, List.getElem?_map] at hq
    obtain ⟨r, hr, rfl⟩ := Option.map_eq_some_iff.1 hq
    have htr := (htaken q r hr).known
    rw [Nat.zero_add] at htr
    -- its place after the permutation
    generalize hpp : Common.sortPermutation (rs.map (·.vin.ki)) = p at hep hsw1
    have hplen : p.length = rs.length := by rw [← hpp]; simp [Common.sortPermutation]
    have hperm : p.Perm (List.range p.length) := by rw [← hpp]; exact (Common.C33_sorted _).1
    obtain ⟨calls, hcalls, happ⟩ := Common.C33_apply hperm
    rw [hcalls _ (Nat.lt_succ_self _)] at hsw1
    cases hsw1
    obtain ⟨_, hget, _⟩ := happ _ rs hplen.symm
    have hqlt : q < p.length := by rw [hplen]; exact (List.getElem?_eq_some_iff.1 hr).1
    have hqm : q ∈ p := hperm.mem_iff.2 (List.mem_range.2 hqlt)
    obtain ⟨j, hj⟩ := List.mem_iff_getElem?.1 hqm
    have hjlt : j < p.length := (List.getElem?_eq_some_iff.1 hj).1
    have hrj : rs'[j]? = some r := by
      rw [hsw2, hget j hjlt, hj]
      exact hr
    -- the device's permutation is the one sent
    have hns : b.state.s.hashing = false := hI.stage.notHashing (by
      simp only [kinds, List.mem_filterMap]
      exact ⟨eo, by simp, heo⟩)
    have hps : b.state.s.permSet = true := by
      revert hns
      cases b.state.s <;> simp [St.hashing, St.permSet]
    have hpb : p = b.perm := by
      have h2 := hI.perm hps
      have h3 := e_perm hI.accepted (e := ep) (by simp) hep
      rw [← List.mem_singleton, ← h2]
      exact List.mem_filterMap.2 ⟨ep, by simp, h3⟩
    -- its signature
    have hsgj : ∃ v, (signs t5)[j]? = some v ∧ v.src = r.src ∧ v.spendEnc = r.spendEnc := by
      have h2 := congrArg (fun l => l[j]?) hsg
      dsimp only at h2
      rw [List.getElem?_map, List.getElem?_map, hrj] at h2
      obtain ⟨v, hv1, hv2⟩ := Option.map_eq_some_iff.1 h2
      simp only [Prod.mk.injEq] at hv2
      exact ⟨v, hv1, hv2.1, hv2.2⟩
    obtain ⟨v, hv1, hv2, hv3⟩ := hsgj
    have hall : ∀ l : List (Event S), signs l = [] → signs (l ++ t5) = signs t5 := by
      intro l hnil
      unfold signs at hnil ⊢
      rw [List.filterMap_append, hnil, List.nil_append]
    rw [← hall _ hnosign] at hv1
    have hjl := (List.getElem?_eq_some_iff.1 hv1).1
    obtain ⟨pos, kA, aB, kS, sB, real, full, pOut, rn, k1, k2, k3, k4, k5, k6, k7, k8, k9, k10, _⟩ := hI.signsOk j v _ _ hv1
      (List.getElem?_eq_getElem (by rw [hI.signLen.1]; exact hjl)) (List.getElem?_eq_getElem (by rw [hI.signLen.2]; exact hjl))
    have hpos : pos = q := by
      rw [← hpb, hj] at k1
      simpa using k1.symm
    subst hpos
    obtain ⟨real', outKey, txKey, addKeys, xi, ki, k, n, w1, w2, w3, w4, w5, w6, w7⟩ := htr
    rw [hv2, w1] at k8
    cases k8
    rw [hkeb, w6] at k6
    cases k6
    rw [hv3, w7, hl.openSeal] at k7
    cases k7
    rw [hl.scRound, w2] at k9
    cases k9
    refine ⟨xi, ki, ⟨⟨real, txKey, addKeys, w1, w2, ?_, w3, w4, w5⟩⟩, fun _ _ _ => hp _ _ _ _ _ _ _ _⟩
    rw [hv2] at k10
    exact k10
  · intro dst hdst
    obtain ⟨o, ho, rfl⟩ := hout dst hdst
    exact (outputs_known hI (by
      simp only [outputs, List.filterMap_append, List.mem_append] at ho ⊢
      tauto)).1
  · intro dst hdst hne
    obtain ⟨o, ho, rfl⟩ := hout dst hdst
    refine (outputs_known hI (by
      simp only [outputs, List.filterMap_append, List.mem_append] at ho ⊢
      tauto)).2 ?_
    intro a ha
    rw [Builder.changeAddr, hchb] at ha
    cases ha
    exact hne
  · have := hI.initOk.changeOk
    rwa [h1, houts, hch, hacc0] at this
  · have := hI.initOk.pidOk
    rw [h1, h1r, hch] at this
    intro tsx' ho' hp'
    refine ⟨hd.pid, hd.extra, ?_⟩
    rw [← this]
    simp only [processPaymentId, ho', hp', houts, hpid, Option.map_some]
  · have := hI.initOk.confirmed
    rwa [h1r] at this

end Verif.Agent

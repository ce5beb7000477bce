import Verif.Lemmas.SignerTrace
import Verif.Spec.SignerDemo

/-!
C01 – C04: order of messages, no resumption, confirmation, counts.

`Reach env log d` ranges over every host, every user decision and all randomness. The hypothesis
`∀ r, env.respOk r = true` says that the device can serialise its own answers (`test_pb_msg(res)` of
token.py:124 does not raise); `C02_unserialisable_answer` shows what happens otherwise.
-/

set_option linter.unusedSectionVars false

namespace Verif.Signer
open Verif
variable {S P : Type} [CommRing S] [AddCommGroup P] [Module S P] [DecidableEq S] [DecidableEq P]

/-! ### C01 -/

/-- C01 (partial): in every reachable state the accepted exchanges of the current session start with an
init and follow the protocol for the declared counts. What is missing from the full statement: the number
`k` of prefix inputs may differ from the declared one until the first output is accepted
(`C01_exact_prefix_count_false`), and a proof upload may be acknowledged outside the output phase
(`C01_upload_outside_output_phase`). -/
theorem C01_order_partial {env : Env S P} (hr : ∀ r, env.respOk r = true) {log : List (Event S)} {d : Device S P}
    (h : Reach env log d) : session env log = [] ∨ ∃ tsx rnd hmacs k,
      initOf (session env log) = some (tsx, rnd, hmacs) ∧
      kinds (session env log) <+: protocol tsx.numInputs k tsx.outputs.length ∧
      k ≤ tsx.numInputs + 1 ∧
      (.output ∈ kinds (session env log) → k = tsx.numInputs) ∧
      (∀ e ∈ session env log, e.kind? = none → e.isProofUpload = true) := by
  rcases reach_session hr h with h0 | ⟨hd, s, b, g, hI, hs | ⟨hst, rnd, x, y, z, hs⟩⟩
  · exact Or.inl h0
  · right
    obtain ⟨k, h1, h2, h3, _⟩ := hI.stage.prefix
    rw [hs]
    exact ⟨hd.tsx, hd.rnd, hd.hmacs, k, initOf_head hI.head, h1, h2, h3, hI.accepted⟩
  · right
    rw [hs]
    have hk := hI.stage
    rw [hst] at hk
    simp only [Stage] at hk
    refine ⟨hd.tsx, hd.rnd, hd.hmacs, hd.tsx.numInputs, initOf_snoc (initOf_head hI.head), ?_, by omega,
      fun _ => rfl, accepted_snoc hI.accepted (by simp [Event.kind?])⟩
    rw [kinds_snoc, hk.2.2.2.2]
    simp [protocol, preSign, preOut, preIn, Event.kind?]

/-- C01, completed sessions: if the final message was accepted then the session consisted of exactly the
declared number of messages of every kind, in order. -/
theorem C01_complete {env : Env S P} (hr : ∀ r, env.respOk r = true) {log : List (Event S)} {d : Device S P}
    (h : Reach env log d) (hf : .final ∈ kinds (session env log)) : ∃ tsx rnd hmacs,
      initOf (session env log) = some (tsx, rnd, hmacs) ∧
      kinds (session env log) = protocol tsx.numInputs tsx.numInputs tsx.outputs.length := by
  rcases reach_session hr h with h0 | ⟨hd, s, b, g, hI, hs | ⟨hst, rnd, x, y, z, hs⟩⟩
  · simp [h0, kinds] at hf
  · rw [hs] at hf
    exact absurd hf hI.stage.noFinal
  · rw [hs]
    have hk := hI.stage
    rw [hst] at hk
    simp only [Stage] at hk
    refine ⟨hd.tsx, hd.rnd, hd.hmacs, initOf_snoc (initOf_head hI.head), ?_⟩
    rw [kinds_snoc, hk.2.2.2.2]
    simp [protocol, preSign, preOut, preIn, Event.kind?]

/-- A complete honest session exists (both mask modes). -/
example : kinds (session Demo.env (Demo.demoLog (Demo.honest 1))) = protocol 2 2 2 ∧
    kinds (session Demo.env (Demo.demoLog (Demo.honest 2))) = protocol 2 2 2 := by decide +kernel

def missingVini : Demo.Host :=
  [Demo.mInit (Demo.tsx 2 [Demo.dst 1, Demo.dst2 3] [2] 2), Demo.mInput (Demo.src 2 7) 10,
   Demo.mInput (Demo.src 3 8) 20, Demo.mPerm [1, 0], Demo.mVini 1, Demo.mAllIn]

/-- C01, disagreement: the number of prefix inputs is not enforced when they are closed: with two inputs
declared, the "all inputs" message is accepted after one prefix input. -/
theorem C01_exact_prefix_count_false : ∃ (log : List (Event Int)) (d : Device Int Int),
    Reach Demo.env log d ∧ (∀ r, Demo.env.respOk r = true) ∧ ∃ tsx rnd hmacs,
      initOf (session Demo.env log) = some (tsx, rnd, hmacs) ∧
      ¬ kinds (session Demo.env log) <+: protocol tsx.numInputs tsx.numInputs tsx.outputs.length := by
  have h1 : (initOf (session Demo.env (Demo.demoLog missingVini))).map
      (fun x => (x.1.numInputs, x.1.outputs.length)) = some (2, 2) := by decide +kernel
  have h2 : ¬ kinds (session Demo.env (Demo.demoLog missingVini)) <+: protocol 2 2 2 := by decide +kernel
  refine ⟨_, _, Demo.demo_reach missingVini, fun _ => rfl, ?_⟩
  obtain ⟨⟨tsx, rnd, hm⟩, h3, h4⟩ := Option.map_eq_some_iff.1 h1
  simp only [Prod.mk.injEq] at h4
  exact ⟨tsx, rnd, hm, h3, by rw [h4.1, h4.2]; exact h2⟩

def earlyUpload : Demo.Host :=
  [Demo.mInit (Demo.tsx 1 [Demo.dst 1, Demo.dst2 3, Demo.dst 2] [3] 2), Demo.mInput (Demo.src 7 7) 10, Demo.mProof []]

/-- C01, disagreement: a proof upload is acknowledged (as a no-op) while the device still waits for the
input permutation. -/
theorem C01_upload_outside_output_phase : ∃ (log : List (Event Int)) (d : Device Int Int),
    Reach Demo.env log d ∧ kinds (session Demo.env log) = [.init, .input] ∧
    (session Demo.env log).any (·.isProofUpload) = true := by
  refine ⟨_, _, Demo.demo_reach earlyUpload, ?_, ?_⟩ <;> decide +kernel

/-! ### C02 -/

/-- C02: after an exchange that failed, or after the final message, every further message is answered with
a failure until a new init is accepted. (`msgOk` false: the message could not even be parsed and is
ignored, see `C02_unparsable_message_keeps_session`.) -/
theorem C02_nothing_to_resume_partial {env : Env S P} (hr : ∀ r, env.respOk r = true) {log : List (Event S)}
    {d : Device S P} (h : Reach env log d) {pre post : List (Event S)} {e : Event S}
    (hlog : log = pre ++ e :: post) (hmsg : env.msgOk e.msg = true)
    (he : e.resp.isFailure = true ∨ ∃ x y z, e.resp = .finalAck x y z)
    (hno : ∀ e' ∈ post, ∀ hm off, e'.resp ≠ .initAck hm off) :
    ∀ e' ∈ post, e'.resp.isFailure = true := by
  -- the session stays quiet
  suffices H : ∀ n (post : List (Event S)) (log : List (Event S)) (d : Device S P), post.length = n →
      Reach env log d → log = pre ++ e :: post → (∀ e' ∈ post, ∀ hm off, e'.resp ≠ .initAck hm off) →
      (∀ e' ∈ post, e'.resp.isFailure = true) ∧ Quiet (session env log) from
    (H _ post log d rfl h hlog hno).1
  intro n
  induction n with
  | zero =>
    intro post log d hn h hlog _
    have : post = [] := by simpa using hn
    subst this
    refine ⟨by simp, ?_⟩
    obtain ⟨d0, hr0, hresp, _⟩ := h.split hlog
    rw [hlog, session_snoc]
    have hmsg' : (!env.msgOk e.msg) = false := by simp [hmsg]
    unfold sessionStep
    rw [if_neg (by simp [hmsg])]
    rcases he with he | ⟨x, y, z, he⟩
    · cases hc : e.resp <;> simp [hc, Resp.isFailure] at he ⊢
      exact Or.inl rfl
    · simp only [he]
      have hinv := (reach_inv hr hr0).step hr e.msg e.rnd
      rw [← hresp] at hinv
      unfold sessionStep at hinv
      rw [if_neg (by simp [hmsg])] at hinv
      simp only [he] at hinv
      have hk : e = ⟨.final, e.rnd, .finalAck x y z⟩ := by
        have hfail : ∀ {s : List (Event S)} {hd : Head S P} {b : Builder S P} {g : Ghost S},
            Inv env hd s b g → (⟨e.msg, e.rnd, .finalAck x y z⟩ : Event S) ∈ s →
            e = ⟨.final, e.rnd, .finalAck x y z⟩ := by
          intro s hd b g hI hmem
          have := hI.accepted _ hmem
          cases hm : e.msg <;> simp [hm, Event.kind?, Event.isProofUpload] at this
          cases e; simp_all
        generalize hg : session env pre ++ [(⟨e.msg, e.rnd, .finalAck x y z⟩ : Event S)] = t at hinv
        generalize (tsxSign env d0 e.msg e.rnd).1 = d1 at hinv
        cases hinv with
        | idle _ => simp at hg
        | live hI => exact hfail hI (by rw [← hg]; simp)
        | done _ _ =>
          obtain ⟨_, h2⟩ := List.append_inj' hg rfl
          simp only [List.cons.injEq, Event.mk.injEq, and_true] at h2
          cases e; simp_all
      rw [hk]
      exact Or.inr ⟨_, _, _, _, _, rfl⟩
  | succ n ih =>
    intro post log d hn h hlog hno
    rcases List.eq_nil_or_concat post with rfl | ⟨post', x, rfl⟩
    · simp at hn
    · rw [List.concat_eq_append] at hlog hno hn ⊢
      have hlog' : log = (pre ++ e :: post') ++ x :: [] := by rw [hlog]; simp
      obtain ⟨d0, hr0, hresp, _⟩ := h.split hlog'
      obtain ⟨h1, h2⟩ := ih post' _ d0 (by simpa using hn) hr0 rfl (fun e' he' => hno e' (by simp [he']))
      have hx : x.resp.isFailure = true := by
        by_cases hm : x.msg.isInit = true
        · -- an init that is not acknowledged fails
          have hxno := hno x (by simp)
          cases hxm : x.msg <;> simp [hxm, Msg.isInit] at hm
          rw [hxm] at hresp
          unfold tsxSign at hresp
          split at hresp
          · rw [hresp]; rfl
          · rw [show wakeUp d0 (.init _) = freshBuilder from rfl] at hresp
            cases hs : Signer.sign env freshBuilder (.init _) x.rnd with
            | error er => rw [hs] at hresp; cases er <;> (rw [hresp]; rfl)
            | ok y =>
              obtain ⟨b, resp⟩ := y
              rw [hs] at hresp
              simp only [hr, if_true] at hresp
              rcases init_eff hs with ⟨_, rfl, _⟩ | ⟨_, _, _, _, _, _, _, rfl⟩
              · rw [hresp]; rfl
              · exact absurd hresp (hxno _ _)
        · rw [hresp]
          exact (reach_inv hr hr0).quiet_reject h2 (by simpa using hm) _
      constructor
      · intro e' he'
        rcases List.mem_append.1 he' with he' | he'
        · exact h1 e' he'
        · simp at he'; subst he'; exact hx
      · rw [hlog', session_snoc]
        unfold sessionStep
        split
        · exact h2
        · cases hc : x.resp <;> simp [hc, Resp.isFailure] at hx ⊢
          exact Or.inl rfl

/-- C02: the answer to an init does not depend on what happened before. -/
theorem C02_init_forgets {env : Env S P} (d d' : Device S P) (tsx : TsxData) (rnd : Rand S)
    (h : env.msgOk (.init tsx) = true) :
    tsxSign env d (.init tsx) rnd = tsxSign env d' (.init tsx) rnd := by
  unfold tsxSign
  rw [show wakeUp d (.init tsx) = wakeUp d' (.init tsx) from rfl]
  simp [h]

def probed : Demo.Host := [Demo.mInit (Demo.tsx 2 [Demo.dst 1] [1] 2), Demo.mInput (Demo.src 2 7) 10,
  Demo.mFinal, Demo.mInput (Demo.src 2 7) 10, Demo.mFinal]

/-- Hypotheses of `C02_nothing_to_resume_partial`: a session aborted by an out-of-order message, then probed. -/
example : ∃ (log : List (Event Int)) (d : Device Int Int) (pre post : List (Event Int)) (e : Event Int),
    Reach Demo.env log d ∧ log = pre ++ e :: post ∧ e.resp.isFailure = true ∧ pre.length = 2 ∧ post.length = 2 ∧
    pre.all (fun x => !x.resp.isFailure) = true := by
  refine ⟨_, _, (Demo.demoLog probed).take 2, (Demo.demoLog probed).drop 3,
    ((Demo.demoLog probed)[2]?).getD ⟨.final, Demo.rnd 0, .viniAck⟩, Demo.demo_reach probed,
    rfl, ?_, ?_, ?_, ?_⟩ <;> decide +kernel

/-- Demo primitives whose parser rejects malformed messages and whose serialiser rejects input acks. -/
def oddEnv : Env Int Int := { Demo.env with
  msgOk := fun m => match m with | .malformed => false | _ => true
  respOk := fun r => match r with | .inputAck .. => false | _ => true }

def oddHost : Demo.Host :=
  [Demo.mInit (Demo.tsx 1 [Demo.dst 1] [1] 2), fun _ => (.malformed, Demo.rnd 0),
   Demo.mInput (Demo.src 2 7) 10, Demo.mPerm [0]]

/-- C02, disagreement: a message that cannot be parsed is answered with a failure but the session lives on. -/
theorem C02_unparsable_message_keeps_session : ∃ (log : List (Event Int)) (d : Device Int Int),
    Reach { oddEnv with respOk := fun _ => true } log d ∧
    log.map (fun e => e.resp.isFailure) = [false, true, false, false] := by
  refine ⟨_, _, Demo.drive_reach oddHost .start, ?_⟩
  decide +kernel

/-- C02, disagreement: if the device cannot serialise an answer (token.py:124 raises after the state was
saved) the host sees a failure but the session continues from the new state. -/
theorem C02_unserialisable_answer : ∃ (log : List (Event Int)) (d : Device Int Int),
    Reach oddEnv log d ∧ log.map (fun e => e.resp.isFailure) = [false, true, true, false] := by
  refine ⟨_, _, Demo.drive_reach oddHost .start, ?_⟩
  decide +kernel

/-! ### C03 -/

/-- C03: every successful answer to a message other than init — in particular every signature — is preceded
by an init that the user confirmed, with no other init processed in between. -/
theorem C03_confirmed {env : Env S P} (hr : ∀ r, env.respOk r = true) {log : List (Event S)} {d : Device S P}
    (h : Reach env log d) {pre post : List (Event S)} {e : Event S} (hlog : log = pre ++ e :: post)
    (hm : e.msg.isInit = false) (hok : e.resp.isFailure = false) :
    ∃ before i mid tsx, pre = before ++ i :: mid ∧ i.msg = .init tsx ∧ i.rnd.confirm = true ∧
      i.resp.isFailure = false ∧ ∀ x ∈ mid, env.msgOk x.msg = true → x.msg.isInit = false ∧ x.resp.isFailure = false := by
  obtain ⟨d0, hr0, hresp, _⟩ := h.split hlog
  have hinv := reach_inv hr hr0
  have hnq : ¬ Quiet (session env pre) := by
    intro hq
    have := hinv.quiet_reject hq hm e.rnd
    rw [← hresp, hok] at this
    simp at this
  have hlive : ∃ (hd : Head S P) (b : Builder S P) (g : Ghost S), Inv env hd (session env pre) b g := by
    generalize session env pre = t at hinv hnq
    cases hinv with
    | idle _ => exact absurd (Or.inl rfl) hnq
    | live hI => exact ⟨_, _, _, hI⟩
    | done _ _ => exact absurd (Or.inr ⟨_, _, _, _, _, rfl⟩) hnq
  obtain ⟨hd, b, g, hI⟩ := hlive
  rcases session_decomp env pre with h0 | ⟨before, i, mid, h1, h2⟩
  · exact absurd (Or.inl h0) hnq
  · obtain ⟨off, rest, hh⟩ := hI.head
    rw [hh] at h2
    simp only [List.cons.injEq] at h2
    obtain ⟨rfl, h2⟩ := h2
    refine ⟨before, _, mid, hd.tsx, h1, rfl, hI.initOk.confirmed, rfl, ?_⟩
    intro x hx hxm
    have hxs : x ∈ session env pre := by
      rw [hh, h2]
      exact List.mem_cons_of_mem _ (List.mem_filter.2 ⟨hx, hxm⟩)
    have hacc := hI.accepted x hxs
    constructor
    · -- a second init would be a second `.init` kind
      by_contra hc
      have hki : x.kind? = some .init := by
        rcases x with ⟨m, r, p⟩
        cases m <;> simp [Msg.isInit] at hc
        cases p <;> simp [Event.kind?, Event.isProofUpload] at hacc ⊢
      have hcount : 2 ≤ (kinds (session env pre)).count .init := by
        rw [hh, h2]
        have hmem : x ∈ mid.filter (fun e => env.msgOk e.msg) := List.mem_filter.2 ⟨hx, hxm⟩
        have : Kind.init ∈ kinds (mid.filter (fun e => env.msgOk e.msg)) :=
          List.mem_filterMap.2 ⟨x, hmem, hki⟩
        have hc1 := List.count_pos_iff.2 this
        have : kinds (⟨.init hd.tsx, hd.rnd, .initAck hd.hmacs off⟩ :: mid.filter (fun e => env.msgOk e.msg)) =
          Kind.init :: kinds (mid.filter (fun e => env.msgOk e.msg)) := by simp [kinds, Event.kind?]
        rw [this, List.count_cons]
        simp only [beq_self_eq_true, if_true]
        omega
      obtain ⟨k, hp, _⟩ := hI.stage.prefix
      have := hp.sublist.count_le Kind.init
      have h1c : (protocol hd.tsx.numInputs k hd.tsx.outputs.length).count Kind.init = 1 := by
        simp [protocol, List.count_append, List.count_cons, List.count_replicate]
      omega
    · by_contra hc
      rcases x with ⟨m, r, p⟩
      cases p <;> simp [Resp.isFailure] at hc
      cases m <;> simp [Event.kind?, Event.isProofUpload] at hacc

/-- The hypotheses of `C03_confirmed` are met by a signature of the honest session. -/
example : ∃ (log : List (Event Int)) (d : Device Int Int) (pre post : List (Event Int)) (e : Event Int),
    Reach Demo.env log d ∧ log = pre ++ e :: post ∧ e.kind? = some .sign ∧ e.msg.isInit = false ∧
    e.resp.isFailure = false := by
  refine ⟨_, _, (Demo.demoLog (Demo.honest 2)).take 10, (Demo.demoLog (Demo.honest 2)).drop 11,
    ((Demo.demoLog (Demo.honest 2))[10]?).getD ⟨.final, Demo.rnd 0, .viniAck⟩,
    Demo.demo_reach (Demo.honest 2), rfl, ?_, ?_, ?_⟩ <;> decide +kernel

/-! ### C04 -/

/-- C04: once the closing-outputs message was accepted (and so whenever a signature was produced), exactly
the declared numbers of inputs, prefix inputs and outputs were processed; there are never more signatures than
declared inputs, and exactly as many when the session is complete. -/
theorem C04_counts {env : Env S P} (hr : ∀ r, env.respOk r = true) {log : List (Event S)} {d : Device S P}
    (h : Reach env log d) (hne : session env log ≠ []) : ∃ tsx rnd hmacs,
      initOf (session env log) = some (tsx, rnd, hmacs) ∧
      (signs (session env log)).length ≤ tsx.numInputs ∧
      (inputs (session env log)).length ≤ tsx.numInputs ∧
      (outputs (session env log)).length ≤ tsx.outputs.length ∧
      ((signs (session env log) ≠ [] ∨ .allOut ∈ kinds (session env log)) →
        (inputs (session env log)).length = tsx.numInputs ∧
        (vinis (session env log)).length = tsx.numInputs ∧
        (perms (session env log)).length = 1 ∧
        (outputs (session env log)).length = tsx.outputs.length) ∧
      (.final ∈ kinds (session env log) → (signs (session env log)).length = tsx.numInputs) := by
  have key : ∀ (s : List (Event S)) (n m k : Nat), kinds s <+: protocol n k m → (.output ∈ kinds s → k = n) →
      (.allOut ∈ kinds s → preSign n m <+: kinds s) → (.final ∈ kinds s → kinds s = protocol n n m) →
      (signs s).length ≤ n ∧ (inputs s).length ≤ n ∧ (outputs s).length ≤ m ∧
      ((signs s ≠ [] ∨ .allOut ∈ kinds s) → (inputs s).length = n ∧ (vinis s).length = n ∧
        (perms s).length = 1 ∧ (outputs s).length = m) ∧
      (.final ∈ kinds s → (signs s).length = n) := by
    intro s n m k hp hk hpre hfin
    rw [inputs_length, outputs_length, signs_length, vinis_length, perms_length]
    have cnt : ∀ K, (kinds s).count K ≤ (protocol n k m).count K := fun K => hp.sublist.count_le K
    have c1 := cnt .sign; have c2 := cnt .input; have c3 := cnt .output; have c5 := cnt .perm; have c4 := cnt .vini
    rw [show (protocol n k m).count .perm = 1 by
      simp [protocol, List.count_append, List.count_cons, List.count_replicate]] at c5
    simp [protocol, List.count_append, List.count_cons, List.count_replicate] at c1 c2 c3 c4
    refine ⟨c1, c2, c3, ?_, ?_⟩
    · intro hs
      have hao : Kind.allOut ∈ kinds s := by
        rcases hs with hs | hs
        · have h0 : 0 < (kinds s).count .sign := by
            rw [← signs_length]; exact List.length_pos_iff.2 hs
          by_contra hc
          -- a prefix of the protocol containing `sign` contains `allOut`
          obtain ⟨t, ht⟩ := hp
          have hpro : protocol n k m = ([.init] ++ List.replicate n .input ++ [.perm] ++ List.replicate k .vini ++
            [.allIn] ++ List.replicate m .output) ++ (Kind.allOut :: (List.replicate n .sign ++ [.final])) := by
            simp [protocol]
          rw [hpro] at ht
          rcases List.append_eq_append_iff.1 ht with ⟨c, h1, h2⟩ | ⟨c, h1, h2⟩
          · have : Kind.sign ∈ kinds s ++ c := by simp [List.count_pos_iff.1 h0]
            rw [← h1] at this
            simp [List.mem_replicate] at this
          · cases c with
            | nil =>
              have : Kind.sign ∈ kinds s := List.count_pos_iff.1 h0
              rw [h1] at this
              simp [List.mem_replicate] at this
            | cons c0 c =>
              simp only [List.cons_append, List.cons.injEq] at h2
              apply hc
              rw [h1, ← h2.1]
              simp
        · exact hs
      have hpre' := hpre hao
      have cnt2 : ∀ K, (preSign n m).count K ≤ (kinds s).count K := fun K => hpre'.sublist.count_le K
      have d1 := cnt2 .input; have d2 := cnt2 .vini; have d3 := cnt2 .output; have d4 := cnt2 .perm
      simp only [count_preSign] at d1 d2 d3 d4
      simp only [reduceCtorEq, if_true, if_false, Nat.zero_add, Nat.add_zero] at d1 d2 d3 d4
      rcases Nat.eq_zero_or_pos m with hm0 | hm0
      · -- no outputs: then `k` prefix inputs and the prefix forces `k = n`
        have e1 := hpre'.sublist.trans hp.sublist
        have hkn : k = n := by
          obtain ⟨t1, ht1⟩ := hpre'
          obtain ⟨t2, ht2⟩ := hp
          rw [← ht1, hm0] at ht2
          simp only [preSign, preOut, preIn, protocol, List.replicate_zero, List.append_nil, List.append_assoc,
            List.append_cancel_left_eq, List.cons_append, List.nil_append, List.cons.injEq, true_and] at ht2
          have := congrArg (fun l => (l.takeWhile (· == Kind.vini)).length) ht2
          simpa [List.takeWhile_append, List.takeWhile_replicate] using this.symm
        omega
      · have : Kind.output ∈ kinds s := List.count_pos_iff.1 (by omega)
        have := hk this
        omega
    · intro hf
      rw [hfin hf]
      simp [protocol, List.count_append, List.count_cons, List.count_replicate]
  rcases reach_session hr h with h0 | ⟨hd, s, b, g, hI, hs | ⟨hst, rnd, x, y, z, hs⟩⟩
  · exact absurd h0 hne
  · obtain ⟨k, h1, h2, h3, h4⟩ := hI.stage.prefix
    rw [hs]
    exact ⟨hd.tsx, hd.rnd, hd.hmacs, initOf_head hI.head, key s _ _ k h1 h3 h4
      (fun hf => absurd hf hI.stage.noFinal)⟩
  · rw [hs]
    have hk := hI.stage
    rw [hst] at hk
    simp only [Stage] at hk
    have hks : kinds (s ++ [⟨.final, rnd, .finalAck x y z⟩]) =
        protocol hd.tsx.numInputs hd.tsx.numInputs hd.tsx.outputs.length := by
      rw [kinds_snoc, hk.2.2.2.2]
      simp [protocol, preSign, preOut, preIn, Event.kind?]
    refine ⟨hd.tsx, hd.rnd, hd.hmacs, initOf_snoc (initOf_head hI.head), key _ _ _ hd.tsx.numInputs ?_
      (fun _ => rfl) ?_ (fun _ => hks)⟩
    · rw [hks]; exact List.prefix_rfl
    · intro _
      rw [hks]
      exact ⟨List.replicate hd.tsx.numInputs .sign ++ [.final], by simp [protocol, preSign, preOut, preIn]⟩

/-- The hypothesis of `C04_counts` and its premises are met. -/
example : session Demo.env (Demo.demoLog (Demo.honest 2)) ≠ [] ∧
    signs (session Demo.env (Demo.demoLog (Demo.honest 2))) ≠ [] ∧
    .final ∈ kinds (session Demo.env (Demo.demoLog (Demo.honest 2))) := by
  refine ⟨?_, ?_, ?_⟩
  · exact fun h => absurd (congrArg List.length h) (by decide +kernel)
  · exact fun h => absurd (congrArg List.length h) (by decide +kernel)
  · decide +kernel

end Verif.Signer

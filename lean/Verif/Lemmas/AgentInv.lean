import Verif.Lemmas.AgentSteps
import Verif.Lemmas.SignerDevice

/-! The device's invariant along the host's loops. -/

set_option linter.unusedSectionVars false

namespace Verif.Agent
open Verif Verif.Signer Verif.Batches
variable {S P : Type} [CommRing S] [AddCommGroup P] [Module S P] [DecidableEq S] [DecidableEq P]

/-- The device is in a session started by `hd`, with the accepted messages `s`. -/
def InSession (env : Env S P) (hd : Head S P) (s : List (Event S)) (c : Conn S P) : Prop :=
  ∃ b g, c.dev = ⟨some b⟩ ∧ Inv env hd s b g

theorem call_some {env : Env S P} {rnd : Nat → Rand S} {c c' : Conn S P} {m : Msg} {r : Resp} (h : call env rnd c m = some (r, c')) :
    ∃ b', sign env (wakeUp c.dev m) m (rnd c.n) = .ok (b', r) ∧ c' = ⟨⟨if b'.state.isTerminal then none else some b'⟩, c.n + 1⟩ := by
  unfold call tsxSign at h
  by_cases hm : env.msgOk m = true
  · rw [hm] at h
    simp only [Bool.not_true, Bool.false_eq_true, if_false] at h
    cases hs : sign env (wakeUp c.dev m) m (rnd c.n) with
    | error e => rw [hs] at h; cases e <;> simp at h
    | ok x =>
      obtain ⟨b', res⟩ := x
      rw [hs] at h
      dsimp only at h
      by_cases hr : env.respOk res = true
      · rw [if_pos hr] at h
        cases res <;> simp at h <;> exact ⟨b', by rw [h.1], h.2.symm⟩
      · rw [if_neg hr] at h
        simp at h
  · rw [Bool.not_eq_true] at hm
    rw [hm] at h
    simp at h

/-- The init message starts a session. -/
theorem call_init {env : Env S P} {rnd : Nat → Rand S} {c c' : Conn S P} {tsx : TsxData} {r : Resp} (h : call env rnd c (.init tsx) = some (r, c')) :
    (∃ e, r = .failure e) ∨ ∃ hd : Head S P, hd.tsx = tsx ∧ hd.rnd = rnd c.n ∧
      r = .initAck hd.hmacs (decide (tsx.rsigType > 0) && decide (tsx.outputs.length > 2)) ∧ c'.n = c.n + 1 ∧
      InSession env hd [⟨.init tsx, rnd c.n, r⟩] c' := by
  obtain ⟨b', h1, rfl⟩ := call_some h
  have hw : wakeUp c.dev (.init tsx) = freshBuilder := rfl
  rw [hw] at h1
  rcases init_eff h1 with ⟨_, rfl, rfl⟩ | ⟨rPub, pid, extra, ty, hmacs, hok, rfl, rfl⟩
  · exact .inl ⟨_, rfl⟩
  · exact .inr ⟨⟨tsx, rnd c.n, rPub, pid, extra, ty, hmacs⟩, rfl, rfl, rfl, rfl, _, _, rfl, Inv.init hok⟩

/-- Every further message keeps it. -/
theorem call_step {env : Env S P} {rnd : Nat → Rand S} {c c' : Conn S P} {hd : Head S P} {s : List (Event S)} {m : Msg} {r : Resp}
    (hm : m.isInit = false) (hf : m ≠ .final) (hs : InSession env hd s c) (h : call env rnd c m = some (r, c')) :
    InSession env hd (s ++ [⟨m, rnd c.n, r⟩]) c' ∧ c'.n = c.n + 1 := by
  obtain ⟨b', h1, rfl⟩ := call_some h
  obtain ⟨b, g, hd', hI⟩ := hs
  have hw : wakeUp c.dev m = b := by rw [hd']; simp [wakeUp, hm]
  rw [hw] at h1
  rcases hI.sign hm h1 with ⟨h2, g', hg⟩ | ⟨h2, _⟩
  · refine ⟨⟨b', g', ?_, hg⟩, rfl⟩
    rw [h2]; rfl
  · exact absurd h2 hf

theorem initStep_session {env : Env S P} {rnd : Nat → Rand S} {c c' : Conn S P} {tsx : TsxData} {x : List Bytes × Bool}
    (h : initStep env rnd tsx c = some (x, c')) : ∃ hd : Head S P, hd.tsx = tsx ∧ hd.rnd = rnd c.n ∧
      x = (hd.hmacs, decide (tsx.rsigType > 0) && decide (tsx.outputs.length > 2)) ∧ c'.n = c.n + 1 ∧
      InSession env hd [⟨.init tsx, rnd c.n, .initAck x.1 x.2⟩] c' := by
  unfold initStep at h
  obtain ⟨⟨r, c1⟩, h1, h2⟩ := Option.bind_eq_some_iff.1 h
  rcases call_init h1 with ⟨e, rfl⟩ | ⟨hd, e1, e2, rfl, e3, e4⟩
  · simp at h2
  · dsimp only at h2
    simp only [Option.some.injEq, Prod.mk.injEq] at h2
    obtain ⟨rfl, rfl⟩ := h2
    exact ⟨hd, e1, e2, rfl, e3, e4⟩

theorem inputLoop_session {env : Env S P} {cdc : Codec} {rnd : Nat → Rand S} {hd : Head S P} : ∀ (srcs : List Src) {s : List (Event S)} {c c' : Conn S P}
    {rs : List InRec}, InSession env hd s c → inputLoop env cdc rnd srcs c = some (rs, c') →
    ∃ t, InSession env hd (s ++ t) c' ∧ t.map (·.msg) = srcs.map .setInput ∧ rs.map (·.src) = srcs := by
  intro srcs
  induction srcs with
  | nil =>
    intro s c c' rs hs h
    simp only [inputLoop, Option.some.injEq, Prod.mk.injEq] at h
    obtain ⟨rfl, rfl⟩ := h
    exact ⟨[], by simpa using hs, rfl, rfl⟩
  | cons src srcs ih =>
    intro s c c' rs hs h
    rw [inputLoop] at h
    obtain ⟨⟨i, c1⟩, h1, h2⟩ := Option.bind_eq_some_iff.1 h
    obtain ⟨⟨is, c2⟩, h3, h4⟩ := Option.map_eq_some_iff.1 h2
    simp only [Prod.mk.injEq] at h4
    obtain ⟨rfl, rfl⟩ := h4
    unfold inputStep at h1
    obtain ⟨⟨r, c3⟩, h5, h6⟩ := Option.bind_eq_some_iff.1 h1
    have hc := (call_step rfl (by simp) hs h5).1
    have hi : c3 = c1 ∧ i.src = src := by
      dsimp only at h6
      split at h6
      · obtain ⟨v, _, hv⟩ := Option.map_eq_some_iff.1 h6
        simp only [Prod.mk.injEq] at hv
        obtain ⟨rfl, rfl⟩ := hv
        exact ⟨rfl, rfl⟩
      · cases h6
    obtain ⟨rfl, hi⟩ := hi
    obtain ⟨t, t1, t2, t3⟩ := ih hc h3
    refine ⟨⟨.setInput src, rnd c.n, r⟩ :: t, ?_, ?_, ?_⟩
    · simpa using t1
    · simp [t2]
    · simp [t3, hi]

theorem permStep_session {env : Env S P} {rnd : Nat → Rand S} {hd : Head S P} {s : List (Event S)} {c c' : Conn S P} {ins rs : List InRec}
    (hs : InSession env hd s c) (h : permStep env rnd ins c = some (rs, c')) :
    ∃ e : Event S, InSession env hd (s ++ [e]) c' ∧ e.msg = .permutation (Common.sortPermutation (ins.map (·.vin.ki))) ∧
      ∃ swaps, Common.applyPermutation ((Common.sortPermutation (ins.map (·.vin.ki))).length + 1) (Common.sortPermutation (ins.map (·.vin.ki))) = some swaps ∧
        rs = Common.doSwaps swaps ins := by
  unfold permStep at h
  obtain ⟨swaps, h1, h2⟩ := Option.bind_eq_some_iff.1 h
  obtain ⟨⟨r, c1⟩, h3, h4⟩ := Option.map_eq_some_iff.1 h2
  simp only [Prod.mk.injEq] at h4
  obtain ⟨rfl, rfl⟩ := h4
  exact ⟨_, (call_step rfl (by simp) hs h3).1, rfl, swaps, h1, rfl⟩

theorem viniLoop_session {env : Env S P} {rnd : Nat → Rand S} {hd : Head S P} : ∀ (rs : List InRec) {s : List (Event S)} {c c' : Conn S P},
    InSession env hd s c → viniLoop env rnd rs c = some c' →
    ∃ t, InSession env hd (s ++ t) c' ∧ t.map (·.msg) = rs.map fun i => .inputVini i.src (dumpVin env i.vin) i.hmac := by
  intro rs
  induction rs with
  | nil =>
    intro s c c' hs h
    simp only [viniLoop, Option.some.injEq] at h
    subst h
    exact ⟨[], by simpa using hs, rfl⟩
  | cons i rs ih =>
    intro s c c' hs h
    rw [viniLoop] at h
    obtain ⟨⟨r, c1⟩, h1, h2⟩ := Option.bind_eq_some_iff.1 h
    obtain ⟨t, t1, t2⟩ := ih (call_step rfl (by simp) hs h1).1 h2
    refine ⟨⟨.inputVini i.src (dumpVin env i.vin) i.hmac, rnd c.n, r⟩ :: t, ?_, ?_⟩
    · simpa using t1
    · simp [t2]

/-- What `static` says. -/
theorem InSession.static {env : Env S P} {hd : Head S P} {s : List (Event S)} {c : Conn S P} (h : InSession env hd s c) :
    ∃ b, c.dev = ⟨some b⟩ ∧ b.useBp = decide (hd.tsx.rsigType > 0) ∧ b.bpVersion = bpVersionOf hd.tsx ∧ b.clientVersion = hd.tsx.clientVersion ∧
      b.state.inMem = false := by
  obtain ⟨b, g, h1, hI⟩ := h
  have := hI.static
  simp only [Builder.static, Head.builder, initBuilder, Prod.mk.injEq] at this
  exact ⟨b, h1, this.2.2.2.2.2.1, this.2.2.2.2.2.2.2.2.2.2.2.2.1, this.2.2.2.2.2.2.2.2.2.2.2.1, this.2.2.2.2.2.2.2.2.2.2.2.2.2.2.2.2⟩

end Verif.Agent

import Verif.Lemmas.SignerStep4

set_option linter.unusedSectionVars false
set_option linter.unusedSimpArgs false

namespace Verif.Signer
open Verif
variable {S P : Type} [CommRing S] [AddCommGroup P] [Module S P] [DecidableEq S] [DecidableEq P]

/-- A builder that has not accepted an init message. -/
structure Idle (b : Builder S P) : Prop where
  state : b.state.s = .START ∨ b.state.s = .INIT
  inMem : b.state.inMem = false
  offload : b.rsigOffload = false
  procOff : b.procOff = false

theorem Idle.fresh : Idle (freshBuilder : Builder S P) := ⟨Or.inl rfl, rfl, rfl, rfl⟩

/-- An idle builder rejects everything but init. -/
theorem Idle.reject {env : Env S P} {b : Builder S P} (hb : Idle b) {m : Msg} (hm : m.isInit = false)
    {rnd : Rand S} {x : Builder S P × Resp} : sign env b m rnd ≠ .ok x := by
  obtain ⟨b', resp⟩ := x
  intro h
  obtain ⟨h1, h2, h3, h4⟩ := hb
  cases m <;> simp only [sign, Msg.isInit, Bool.true_eq_false] at h hm
  · obtain ⟨hst, _⟩ := setInput_eff h
    rcases h1 with h1 | h1 <;> simp [h1] at hst
  · obtain ⟨hst, _⟩ := setPermutation_eff h
    rcases h1 with h1 | h1 <;> simp [h1] at hst
  · obtain ⟨hst, _⟩ := inputVini_eff h
    rcases h1 with h1 | h1 <;> simp [h1] at hst
  · obtain ⟨hst, _⟩ := allInSet_eff h
    have := hst h2
    rcases h1 with h1 | h1 <;> simp [h1] at this
  · simp only [Signer.setOutput, bind_ok, ensure_ok, exists_unit] at h
    obtain ⟨_, b1, hv, h⟩ := h
    obtain ⟨_, hv⟩ := validate_eff hv
    rcases hv with ⟨_, ho, _⟩ | ⟨_, _, hp, _⟩ | ⟨_, _, hst, _⟩
    · simp [h3] at ho
    · simp [h4] at hp
    · rcases h1 with h1 | h1 <;> simp [h1] at hst
  · obtain ⟨hst, _⟩ := allOutSet_eff h
    rcases h1 with h1 | h1 <;> simp [h1] at hst
  · obtain ⟨hst, _⟩ := signInput_eff h
    rcases h1 with h1 | h1 <;> simp [h1] at hst
  · obtain ⟨hst, _⟩ := finalMsg_eff h
    rcases h1 with h1 | h1 <;> simp [h1] at hst
  · simp at h

/-- One accepted non-init message in a running session. -/
theorem Inv.sign {env : Env S P} {hd : Head S P} {s : List (Event S)} {b b' : Builder S P} {g : Ghost S}
    {m : Msg} (hm : m.isInit = false) {rnd : Rand S} {resp : Resp} (hI : Inv env hd s b g)
    (h : Signer.sign env b m rnd = .ok (b', resp)) :
    (b'.state.isTerminal = false ∧ ∃ g', Inv env hd (s ++ [⟨m, rnd, resp⟩]) b' g') ∨
    (m = .final ∧ b.state.s = .SIGNATURE_DONE ∧ b'.state.isTerminal = true ∧ ∃ x y z, resp = .finalAck x y z) := by
  have live : ∀ {s : List (Event S)} {b : Builder S P} {g : Ghost S}, Inv env hd s b g →
      b.state.isTerminal = false := by
    intro s b g hI
    have := hI.stage
    simp only [TState.isTerminal]
    rcases hst : b.state.s <;> simp_all [Stage]
  have fin : (∃ g', Inv env hd (s ++ [⟨m, rnd, resp⟩]) b' g') →
      b'.state.isTerminal = false ∧ ∃ g', Inv env hd (s ++ [⟨m, rnd, resp⟩]) b' g' := by
    rintro ⟨g', hg⟩
    exact ⟨live hg, g', hg⟩
  cases m <;> simp only [Signer.sign, Msg.isInit, Bool.true_eq_false] at h hm
  · exact Or.inl (fin ⟨g, hI.setInput h⟩)
  · exact Or.inl (fin ⟨g, hI.setPermutation h⟩)
  · exact Or.inl (fin ⟨g, hI.inputVini h⟩)
  · exact Or.inl (fin ⟨g, hI.allInSet h⟩)
  · exact Or.inl (fin (hI.setOutput h))
  · exact Or.inl (fin ⟨g, (hI.allOutSet h).1⟩)
  · exact Or.inl (fin (hI.signInput h))
  · obtain ⟨h1, ph, h2, rfl, rfl⟩ := finalMsg_eff h
    exact Or.inr ⟨rfl, h1, rfl, _, _, _, rfl⟩
  · simp at h

/-- The answer to an accepted non-init message is neither a failure nor an init ack. -/
theorem sign_resp {env : Env S P} {b b' : Builder S P} {m : Msg} (hm : m.isInit = false) {rnd : Rand S}
    {resp : Resp} (hp : b.procOff = true → b.isDetMask = true ∧ b.rsigOffload = true)
    (h : Signer.sign env b m rnd = .ok (b', resp)) :
    resp.isFailure = false ∧ ∀ x y, resp ≠ .initAck x y := by
  cases m <;> simp only [Signer.sign, Msg.isInit, Bool.true_eq_false] at h hm
  · obtain ⟨_, _, _, _, _, _, _, _, _, _, _, _, _, _, _, _, _, _, _, _, _, _, _, _, rfl⟩ := setInput_eff h
    simp [Resp.isFailure]
  · obtain ⟨_, _, rfl⟩ := setPermutation_eff h; simp [Resp.isFailure]
  · obtain ⟨_, _, _, _, _, _, _, _, _, rfl⟩ := inputVini_eff h; simp [Resp.isFailure]
  · obtain ⟨_, h⟩ := allInSet_eff h
    rcases h with ⟨_, rfl, _⟩ | ⟨_, _, _, rfl, _⟩ <;> simp [Resp.isFailure]
  · simp only [Signer.setOutput, bind_ok, ensure_ok, exists_unit] at h
    obtain ⟨_, b1, hv, h⟩ := h
    obtain ⟨_, hv⟩ := validate_eff hv
    rcases hv with ⟨_, ho, _, _, rfl⟩ | ⟨_, hf, hpp, _⟩ | ⟨_, _, hst, _, _, _, rfl⟩
    · rw [if_pos rfl] at h
      obtain ⟨rfl, _⟩ := setOutputOff_eff rfl h
      simp [Resp.isFailure]
    · have := hp hpp
      simp [this.1, this.2] at hf
    · rw [if_neg (by simp)] at h
      obtain ⟨_, _, _, _, _, _, _, _, _, _, _, _, _, _, _, _, _, _, _, _, _, _, _, _, _, _, _, _, _, rfl⟩ :=
        setOutputNormal_eff rfl h
      simp [Resp.isFailure]
  · obtain ⟨_, _, _, _, _, _, _, _, _, _, _, _, _, _, _, _, _, _, _, _, _, _, rfl⟩ := allOutSet_eff h
    simp [Resp.isFailure]
  · obtain ⟨_, _, _, _, _, _, _, _, _, _, _, _, _, _, _, _, _, _, _, _, _, _, _, _, _, _, _, _, _, _, rfl⟩ :=
      signInput_eff h
    simp [Resp.isFailure]
  · obtain ⟨_, _, _, _, rfl⟩ := finalMsg_eff h; simp [Resp.isFailure]
  · simp at h

/-- State of the device in terms of the current session `s`. -/
inductive DevInv (env : Env S P) : List (Event S) → Device S P → Prop
  | idle {d : Device S P} : (∀ b, d.saved = some b → Idle b) → DevInv env [] d
  | live {s : List (Event S)} {hd : Head S P} {b : Builder S P} {g : Ghost S} :
      Inv env hd s b g → DevInv env s ⟨some b⟩
  | done {s : List (Event S)} {hd : Head S P} {b : Builder S P} {g : Ghost S} {rnd : Rand S} {x y z : Bytes} :
      Inv env hd s b g → b.state.s = .SIGNATURE_DONE →
      DevInv env (s ++ [⟨.final, rnd, .finalAck x y z⟩]) ⟨none⟩

theorem session_snoc (env : Env S P) (log : List (Event S)) (e : Event S) :
    session env (log ++ [e]) = sessionStep env (session env log) e := by
  simp [session, List.foldl_append]

/-- What one message does, given the saved builder is idle or in a session. -/
theorem DevInv.step {env : Env S P} (hr : ∀ r, env.respOk r = true) {s : List (Event S)} {d : Device S P}
    (h : DevInv env s d) (m : Msg) (rnd : Rand S) :
    DevInv env (sessionStep env s ⟨m, rnd, (tsxSign env d m rnd).2⟩) (tsxSign env d m rnd).1 := by
  unfold tsxSign sessionStep
  by_cases hmsg : env.msgOk m = true
  swap
  · simp only [hmsg, Bool.not_false, if_true, Bool.not_eq_true] at *
    simpa [hmsg] using h
  simp only [hmsg, Bool.not_true, Bool.false_eq_true, if_false, hr, if_true]
  by_cases hm : m.isInit = true
  · -- a new session
    cases m <;> simp [Msg.isInit] at hm
    rename_i tsx
    have hw : wakeUp d (.init tsx) = freshBuilder := rfl
    rw [hw]
    cases hs : sign env freshBuilder (.init tsx) rnd with
    | error er => cases er <;> exact .idle (by simp)
    | ok x =>
      obtain ⟨b, resp⟩ := x
      rcases init_eff hs with ⟨_, rfl, rfl⟩ | ⟨rPub, pid, extra, ty, hmacs, hok, rfl, rfl⟩
      · simp only [TState.isTerminal]
        refine .idle ?_
        intro b hb
        simp at hb
        subst hb
        exact ⟨Or.inr rfl, rfl, rfl, rfl⟩
      · have : (initBuilder env tsx rnd rPub pid extra ty).state.isTerminal = false := rfl
        simp only [this]
        exact .live (Inv.init hok)
  · replace hm : m.isInit = false := by simpa using hm
    have idleCase : ∀ b, Idle b → wakeUp d m = b → DevInv env
        (match (match sign env (wakeUp d m) m rnd with
            | .error .fail => ((⟨none⟩ : Device S P), Resp.failure 0)
            | .error .prefixMismatch => (⟨none⟩, .failure 10)
            | .ok (b, res) => (⟨if b.state.isTerminal then none else some b⟩, res)).2 with
          | .failure _ => []
          | .initAck _ _ => [⟨m, rnd, (match sign env (wakeUp d m) m rnd with
            | .error .fail => ((⟨none⟩ : Device S P), Resp.failure 0)
            | .error .prefixMismatch => (⟨none⟩, .failure 10)
            | .ok (b, res) => (⟨if b.state.isTerminal then none else some b⟩, res)).2⟩]
          | _ => s ++ [⟨m, rnd, (match sign env (wakeUp d m) m rnd with
            | .error .fail => ((⟨none⟩ : Device S P), Resp.failure 0)
            | .error .prefixMismatch => (⟨none⟩, .failure 10)
            | .ok (b, res) => (⟨if b.state.isTerminal then none else some b⟩, res)).2⟩])
        (match sign env (wakeUp d m) m rnd with
            | .error .fail => ((⟨none⟩ : Device S P), Resp.failure 0)
            | .error .prefixMismatch => (⟨none⟩, .failure 10)
            | .ok (b, res) => (⟨if b.state.isTerminal then none else some b⟩, res)).1 := by
      intro b hb hw
      rw [hw]
      cases hs : sign env b m rnd with
      | error er => cases er <;> exact .idle (by simp)
      | ok x => exact absurd hs (hb.reject hm)
    cases h with
    | idle hidle =>
      have : Idle (wakeUp d m) := by
        unfold wakeUp
        rw [if_neg (by simp [hm])]
        cases hsv : d.saved with
        | none => exact Idle.fresh
        | some b => exact hidle b hsv
      exact idleCase _ this rfl
    | done _ _ =>
      have : Idle (wakeUp (⟨none⟩ : Device S P) m) := by
        unfold wakeUp
        rw [if_neg (by simp [hm])]
        exact Idle.fresh
      exact idleCase _ this rfl
    | @live _ hd b g hI =>
      have hw : wakeUp (⟨some b⟩ : Device S P) m = b := by simp [wakeUp, hm]
      rw [hw]
      clear idleCase
      cases hs : sign env b m rnd with
      | error er => cases er <;> exact .idle (by simp)
      | ok x =>
        obtain ⟨b', resp⟩ := x
        obtain ⟨r1, r2⟩ := sign_resp hm hI.procOff hs
        rcases hI.sign hm hs with ⟨ht, g', hI'⟩ | ⟨rfl, hst, ht, x, y, z, rfl⟩
        · simp only [ht]
          cases resp <;> simp [Resp.isFailure] at r1 r2 <;> exact .live hI'
        · simp only [ht]
          exact .done hI hst

/-- Every reachable device is idle, in a session, or finished. -/
theorem reach_inv {env : Env S P} (hr : ∀ r, env.respOk r = true) {log : List (Event S)} {d : Device S P}
    (h : Reach env log d) : DevInv env (session env log) d := by
  induction h with
  | start => exact .idle (by intro b hb; simp at hb)
  | step m rnd _ ih =>
    rw [session_snoc]
    exact ih.step hr m rnd

end Verif.Signer

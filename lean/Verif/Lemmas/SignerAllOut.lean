import Verif.Lemmas.SignerTags

/-! The exchange that closes the outputs. -/

set_option linter.unusedSectionVars false

namespace Verif.Signer
open Verif
variable {S P : Type} [CommRing S] [AddCommGroup P] [Module S P] [DecidableEq S] [DecidableEq P]

/-- A successful non-init exchange happened in a live session. -/
theorem live_step {env : Env S P} (hr : ∀ r, env.respOk r = true) {pre : List (Event S)} {e : Event S} {d0 : Device S P}
    (h : Reach env pre d0) (hresp : e.resp = (tsxSign env d0 e.msg e.rnd).2) (hm : e.msg.isInit = false)
    (hok : e.resp.isFailure = false) :
    ∃ hd b g b', Inv env hd (session env pre) b g ∧ Signer.sign env b e.msg e.rnd = .ok (b', e.resp) := by
  have hinv := reach_inv hr h
  have hnq : ¬ Quiet (session env pre) := by
    intro hq
    have := hinv.quiet_reject hq hm e.rnd
    rw [← hresp, hok] at this
    simp at this
  generalize session env pre = t at hinv hnq
  cases hinv with
  | idle _ => exact absurd (Or.inl rfl) hnq
  | done _ _ => exact absurd (Or.inr ⟨_, _, _, _, _, rfl⟩) hnq
  | @live _ hd b g hI =>
    unfold tsxSign at hresp
    split at hresp
    · rw [hresp] at hok; simp [Resp.isFailure] at hok
    · rw [show wakeUp ⟨some b⟩ e.msg = b by simp [wakeUp, hm]] at hresp
      cases hs : Signer.sign env b e.msg e.rnd with
      | error er => rw [hs] at hresp; cases er <;> (rw [hresp] at hok; simp [Resp.isFailure] at hok)
      | ok y =>
        obtain ⟨b', resp⟩ := y
        rw [hs] at hresp
        simp only [hr, if_true] at hresp
        exact ⟨hd, b, g, b', hI, by rw [hresp, hs]⟩

/-- The accepted closing-outputs exchange, in terms of the invariant before it. -/
theorem allOut_step {env : Env S P} (hr : ∀ r, env.respOk r = true) {log pre post : List (Event S)} {e : Event S}
    {d : Device S P} (h : Reach env log d) (hlog : log = pre ++ e :: post) (hk : e.kind? = some .allOut) :
    ∃ hd b g b', Inv env hd (session env pre) b g ∧ Signer.allOutSet env b e.rnd = .ok (b', e.resp) := by
  obtain ⟨d0, hr0, hresp, _⟩ := h.split hlog
  rcases e with ⟨m, r, p⟩
  cases m <;> cases p <;> simp [Event.kind?] at hk
  · rename_i data _
    cases data <;> simp at hk
  · obtain ⟨hd, b, g, b', hI, hs⟩ := live_step hr hr0 hresp rfl rfl
    exact ⟨hd, b, g, b', hI, hs⟩

theorem rsigBatchAux_spec (target : Nat) : ∀ (gs : List Nat) (c r k : Nat), c + (gs.take k).sum = target →
    ∃ j, j ≤ gs.length ∧ rsigBatchAux target gs c r = some ((r : Int) + j - 1) ∧ c + (gs.take j).sum = target ∧
      (c < target → 0 < j) := by
  intro gs
  induction gs with
  | nil =>
    intro c r k h
    simp at h
    exact ⟨0, by simp, by simp [rsigBatchAux, h], by simp [h], by omega⟩
  | cons x gs ih =>
    intro c r k h
    by_cases hc : c < target
    · cases k with
      | zero => simp at h; omega
      | succ k =>
        simp only [List.take_succ_cons, List.sum_cons] at h
        obtain ⟨j, h1, h2, h3, _⟩ := ih (c + x) (r + 1) k (by omega)
        refine ⟨j + 1, by simpa using h1, ?_, ?_, by omega⟩
        · rw [rsigBatchAux, if_pos (by exact_mod_cast hc)]
          have e1 : ((c : Int) + x) = ((c + x : Nat) : Int) := by push_cast; rfl
          have e2 : ((r : Int) + 1) = ((r + 1 : Nat) : Int) := by push_cast; rfl
          rw [e1, e2, h2]
          congr 1
          push_cast
          ring
        · simp only [List.take_succ_cons, List.sum_cons]; omega
    · refine ⟨0, by simp, ?_, ?_, by omega⟩
      · rw [rsigBatchAux, if_neg (by exact_mod_cast hc)]; simp
      · simp; omega

/-- The last output closes a batch if the number of outputs is a sum of leading batch sizes. -/
theorem lastInBatch_full {grp : List Nat} {m k : Nat} (hm : 0 < m) (h : (grp.take k).sum = m) :
    lastInBatch grp ((m : Int) - 1) = some true := by
  obtain ⟨j, h1, h2, h3, h4⟩ := rsigBatchAux_spec m grp 0 0 k (by omega)
  have hj := h4 hm
  obtain ⟨i, rfl⟩ : ∃ i, j = i + 1 := ⟨j - 1, by omega⟩
  have hi : i < grp.length := by omega
  unfold lastInBatch rsigBatch
  rw [show (m : Int) - 1 + 1 = m by ring]
  simp only [Nat.cast_zero, zero_add] at h2 h3
  rw [h2]
  simp only [Option.bind_some]
  unfold isLastInBatch
  rw [if_pos (by push_cast; omega)]
  have hidx : ((((i + 1 : Nat) : Int)) - 1).toNat = i := by omega
  rw [hidx, List.getElem?_eq_getElem hi]
  show some _ = some true
  congr 1
  rw [beq_iff_eq]
  rw [List.take_succ, List.getElem?_eq_getElem hi, List.sum_append] at h3
  simp only [Option.toList_some, List.sum_cons, List.sum_nil] at h3
  omega

theorem Inv.modes {env : Env S P} {hd : Head S P} {s : List (Event S)} {b : Builder S P} {g : Ghost S}
    (h : Inv env hd s b g) : b.rsigGrp = hd.tsx.grouping ∧
      b.rsigOffload = (decide (hd.tsx.rsigType > 0) && decide (hd.tsx.outputs.length > 2)) ∧
      b.isDetMask = (decide (hd.tsx.bpVersion ≥ 2) || decide (hd.tsx.clientVersion > 0)) := by
  have := h.static
  simp only [Builder.static, Head.builder, initBuilder, Prod.mk.injEq] at this
  obtain ⟨_, _, _, _, _, _, _, _, _, _, _, h1, h2, h3, h4, _⟩ := this
  refine ⟨h3, h4, ?_⟩
  unfold Builder.isDetMask
  rw [h1, h2]
  unfold bpVersionOf
  split
  · rename_i h0; rw [h0]; rfl
  · rfl

theorem Inv.closingState {env : Env S P} {hd : Head S P} {s : List (Event S)} {b b' : Builder S P} {g : Ghost S}
    {rnd : Rand S} {resp : Resp} (hI : Inv env hd s b g) (h : Signer.allOutSet env b rnd = .ok (b', resp)) :
    b.state.s = .OUTPUT ∧ b.outIdx = (hd.tsx.outputs.length : Int) - 1 := by
  obtain ⟨hst, hlast, _⟩ := allOutSet_eff h
  rw [hI.counts.2.1] at hlast
  exact ⟨hst, by omega⟩

theorem Inv.closingLens {env : Env S P} {hd : Head S P} {s : List (Event S)} {b b' : Builder S P} {g : Ghost S}
    {rnd : Rand S} {resp : Resp} (hI : Inv env hd s b g) (h : Signer.allOutSet env b rnd = .ok (b', resp)) :
    (vinis s).length = hd.tsx.numInputs ∧ (outputs s).length = hd.tsx.outputs.length ∧ outputs s ≠ [] := by
  obtain ⟨hst, hlast⟩ := hI.closingState h
  have hstage := hI.stage
  rw [hst] at hstage
  obtain ⟨hs1, hs2, k, hs3, hs4, hs5⟩ := hstage
  have holen := hI.outLen (by rw [hst]; rfl)
  refine ⟨?_, by omega, ?_⟩
  · rw [vinis_length, hs5, List.count_append, count_preOut]
    simp [List.count_replicate]
  · intro hc; rw [hc] at holen; simp at holen; omega

theorem signs_obs {env : Env S P} (hr : ∀ r, env.respOk r = true) {log : List (Event S)} {d : Device S P}
    (h : Reach env log d) {v : SignRec} (hv : v ∈ signs (session env log)) : ∃ hd s b g, Inv env hd s b g ∧
      signs (session env log) = signs s ∧ ∀ e ∈ s, e ∈ session env log := by
  rcases reach_session hr h with h0 | ⟨hd, s, b, g, hI, hs | ⟨hst, rnd, x, y, z, hs⟩⟩
  · rw [h0] at hv; simp [signs] at hv
  · exact ⟨hd, s, b, g, hI, by rw [hs], by rw [hs]; exact fun _ h => h⟩
  · refine ⟨hd, s, b, g, hI, ?_, ?_⟩
    · rw [hs, signs_snoc]; simp [Event.sign?]
    · rw [hs]; exact fun e h => List.mem_append_left _ h

/-- Signatures exist only after the outputs were closed. -/
theorem Inv.signStage {env : Env S P} {hd : Head S P} {s : List (Event S)} {b : Builder S P} {g : Ghost S}
    (hI : Inv env hd s b g) {v : SignRec} (hv : v ∈ signs s) : .allOut ∈ kinds s := by
  have hpos : 0 < (kinds s).count .sign := by
    rw [← signs_length]; exact List.length_pos_of_mem hv
  have hmem : .sign ∈ kinds s := List.count_pos_iff.1 hpos
  have hs := hI.stage
  clear hpos
  generalize kinds s = ks at hs hmem
  revert hmem
  generalize b.state.s = st at hs
  cases st <;> simp only [Stage] at hs
  · rw [hs.2.2]; simp
  · obtain ⟨k, _, _, _, rfl⟩ := hs; simp [List.mem_replicate]
  · obtain ⟨_, _, _, rfl⟩ := hs; simp [List.mem_replicate]
  · obtain ⟨_, _, _, rfl⟩ := hs; simp [preIn, List.mem_replicate]
  · obtain ⟨k, _, _, _, _, rfl⟩ := hs; simp [preIn, List.mem_replicate]
  · obtain ⟨k, _, _, _, _, rfl⟩ := hs; simp [preOut, preIn, List.mem_replicate]
  · obtain ⟨_, _, k, _, _, rfl⟩ := hs; simp [preOut, preIn, List.mem_replicate]
  · obtain ⟨_, _, _, _, rfl⟩ := hs; simp [preSign]
  · obtain ⟨k, _, _, _, _, rfl⟩ := hs; simp [preSign]
  · obtain ⟨_, _, _, _, rfl⟩ := hs; simp [preSign]

end Verif.Signer

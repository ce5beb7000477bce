import Mathlib.Data.List.Induction
import Verif.Lemmas.SignerDevice

set_option linter.unusedSectionVars false
set_option linter.unusedSimpArgs false

namespace Verif.Signer
open Verif
variable {S P : Type} [CommRing S] [AddCommGroup P] [Module S P] [DecidableEq S] [DecidableEq P]

/-- A non-empty session is described by the invariant, possibly followed by the final exchange. -/
theorem reach_session {env : Env S P} (hr : ∀ r, env.respOk r = true) {log : List (Event S)} {d : Device S P}
    (h : Reach env log d) : session env log = [] ∨ ∃ (hd : Head S P) (s : List (Event S)) (b : Builder S P) (g : Ghost S), Inv env hd s b g ∧
      (session env log = s ∨ (b.state.s = .SIGNATURE_DONE ∧ ∃ rnd x y z,
        session env log = s ++ [⟨.final, rnd, .finalAck x y z⟩])) := by
  have := reach_inv hr h
  generalize session env log = t at this
  cases this with
  | idle _ => exact Or.inl rfl
  | live hI => exact Or.inr ⟨_, _, _, _, hI, Or.inl rfl⟩
  | done hI hst => exact Or.inr ⟨_, _, _, _, hI, Or.inr ⟨hst, _, _, _, _, rfl⟩⟩

theorem replicate_prefix {α : Type} {a : α} {k n : Nat} (h : k ≤ n) (l : List α) :
    List.replicate k a <+: List.replicate n a ++ l := by
  obtain ⟨j, rfl⟩ := Nat.exists_eq_add_of_le h
  rw [← List.replicate_append_replicate, List.append_assoc]
  exact ⟨_, rfl⟩

theorem initOf_head {hd : Head S P} {s : List (Event S)}
    (h : ∃ off rest, s = ⟨.init hd.tsx, hd.rnd, .initAck hd.hmacs off⟩ :: rest) :
    initOf s = some (hd.tsx, hd.rnd, hd.hmacs) := by
  obtain ⟨off, rest, rfl⟩ := h
  rfl

theorem initOf_snoc {s : List (Event S)} {e : Event S} {x} (h : initOf s = some x) :
    initOf (s ++ [e]) = some x := by
  unfold initOf at h ⊢
  split at h
  · exact h
  · simp at h

/-- In any state of the session machine the accepted kinds are a prefix of the protocol. -/
theorem Stage.prefix {st : St} {n m : Nat} {i o : Int} {ks : List Kind} (h : Stage st n m i o ks) :
    ∃ k, ks <+: protocol n k m ∧ k ≤ n + 1 ∧ (.output ∈ ks → k = n) ∧
      (.allOut ∈ ks → preSign n m <+: ks) := by
  have snd : ∀ {a b : List Kind}, a <+: a ++ b := fun {a b} => ⟨b, rfl⟩
  cases st <;> simp only [Stage] at h
  · obtain ⟨_, _, rfl⟩ := h
    refine ⟨n, ?_, by omega, by simp, by simp⟩
    simp [protocol]
  · obtain ⟨k, _, hk, _, rfl⟩ := h
    refine ⟨n, ?_, by omega, by simp [List.mem_replicate], by simp [List.mem_replicate]⟩
    simp only [protocol, List.append_assoc]
    rw [List.prefix_append_right_inj]
    exact replicate_prefix (by omega) _
  · obtain ⟨_, _, _, rfl⟩ := h
    refine ⟨n, ?_, by omega, by simp [List.mem_replicate], by simp [List.mem_replicate]⟩
    simp only [protocol, List.append_assoc]
    rw [List.prefix_append_right_inj]
    exact snd
  · obtain ⟨_, _, _, rfl⟩ := h
    refine ⟨n, ?_, by omega, by simp [preIn, List.mem_replicate], by simp [preIn, List.mem_replicate]⟩
    simp only [protocol, preIn, List.append_assoc, List.prefix_append_right_inj]
    exact snd
  · obtain ⟨k, _, hk, _, _, rfl⟩ := h
    refine ⟨k + 1, ?_, by omega, by simp [preIn, List.mem_replicate], by simp [preIn, List.mem_replicate]⟩
    simp only [protocol, preIn, List.append_assoc, List.prefix_append_right_inj]
    exact snd
  · obtain ⟨k, _, hk, _, _, rfl⟩ := h
    refine ⟨k + 1, ?_, by omega, by simp [preOut, preIn, List.mem_replicate], by simp [preOut, preIn, List.mem_replicate]⟩
    simp only [protocol, preOut, preIn, List.append_assoc, List.prefix_append_right_inj]
    exact snd
  · obtain ⟨_, _, k, _, hk, rfl⟩ := h
    refine ⟨n, ?_, by omega, by simp, by simp [preOut, preIn, List.mem_replicate]⟩
    simp only [protocol, preOut, preIn, List.append_assoc, List.prefix_append_right_inj]
    exact replicate_prefix (by omega) _
  · obtain ⟨_, _, _, _, rfl⟩ := h
    refine ⟨n, ?_, by omega, by simp, fun _ => List.prefix_rfl⟩
    simp only [protocol, preSign, preOut, preIn, List.append_assoc, List.prefix_append_right_inj]
    exact snd
  · obtain ⟨k, _, hk, _, _, rfl⟩ := h
    refine ⟨n, ?_, by omega, by simp, fun _ => snd⟩
    have : protocol n n m = preSign n m ++ (List.replicate n Kind.sign ++ [.final]) := by
      simp [protocol, preSign, preOut, preIn]
    rw [this, List.prefix_append_right_inj]
    exact replicate_prefix (by omega) _
  · obtain ⟨_, _, _, _, rfl⟩ := h
    refine ⟨n, ?_, by omega, by simp, fun _ => snd⟩
    simp only [protocol, preSign, preOut, preIn, List.append_assoc, List.prefix_append_right_inj]
    exact snd

theorem Stage.noFinal {st : St} {n m : Nat} {i o : Int} {ks : List Kind} (h : Stage st n m i o ks) :
    .final ∉ ks := by
  cases st <;> simp only [Stage] at h
  · obtain ⟨_, _, rfl⟩ := h; simp
  · obtain ⟨k, _, hk, _, rfl⟩ := h; simp [List.mem_replicate]
  · obtain ⟨_, _, _, rfl⟩ := h; simp [List.mem_replicate]
  · obtain ⟨_, _, _, rfl⟩ := h; simp [preIn, List.mem_replicate]
  · obtain ⟨k, _, hk, _, _, rfl⟩ := h; simp [preIn, List.mem_replicate]
  · obtain ⟨k, _, hk, _, _, rfl⟩ := h; simp [preOut, preIn, List.mem_replicate]
  · obtain ⟨_, _, k, _, hk, rfl⟩ := h; simp [preOut, preIn, List.mem_replicate]
  · obtain ⟨_, _, _, _, rfl⟩ := h; simp [preSign, preOut, preIn, List.mem_replicate]
  · obtain ⟨k, _, hk, _, _, rfl⟩ := h; simp [preSign, preOut, preIn, List.mem_replicate]
  · obtain ⟨_, _, _, _, rfl⟩ := h; simp [preSign, preOut, preIn, List.mem_replicate]

/-- The log before an event. -/
theorem Reach.split {env : Env S P} {log : List (Event S)} {d : Device S P} (h : Reach env log d)
    {pre post : List (Event S)} {e : Event S} (hl : log = pre ++ e :: post) :
    ∃ d0, Reach env pre d0 ∧ e.resp = (tsxSign env d0 e.msg e.rnd).2 ∧
      Reach env (pre ++ [e]) (tsxSign env d0 e.msg e.rnd).1 := by
  induction h generalizing post with
  | start => simp at hl
  | @step log d m rnd hr ih =>
    rcases List.eq_nil_or_concat post with rfl | ⟨post', x, rfl⟩
    · obtain ⟨rfl, h2⟩ := List.append_inj' hl rfl
      simp only [List.cons.injEq, and_true] at h2
      subst h2
      exact ⟨d, hr, rfl, Reach.step m rnd hr⟩
    · have : log ++ [⟨m, rnd, (tsxSign env d m rnd).2⟩] = (pre ++ e :: post') ++ [x] := by
        rw [hl]; simp
      obtain ⟨h1, _⟩ := List.append_inj' this rfl
      exact ih h1

/-- Nothing to resume. -/
def Quiet (s : List (Event S)) : Prop :=
  s = [] ∨ ∃ s' rnd x y z, s = s' ++ [⟨.final, rnd, .finalAck x y z⟩]

theorem DevInv.quiet_reject {env : Env S P} {s : List (Event S)} {d : Device S P} (h : DevInv env s d)
    (hq : Quiet s) {m : Msg} (hm : m.isInit = false) (rnd : Rand S) : (tsxSign env d m rnd).2.isFailure = true := by
  have key : Idle (wakeUp d m) → (tsxSign env d m rnd).2.isFailure = true := by
    intro hi
    unfold tsxSign
    split
    · rfl
    · cases hs : Signer.sign env (wakeUp d m) m rnd with
      | error er => cases er <;> rfl
      | ok x => exact absurd hs (hi.reject hm)
  apply key
  cases h with
  | idle hi =>
    unfold wakeUp
    rw [if_neg (by simp [hm])]
    cases hsv : d.saved with
    | none => exact Idle.fresh
    | some b => exact hi b hsv
  | done _ _ =>
    unfold wakeUp
    rw [if_neg (by simp [hm])]
    exact Idle.fresh
  | live hI =>
    exfalso
    rcases hq with rfl | ⟨s', rnd, x, y, z, rfl⟩
    · obtain ⟨_, _, h⟩ := hI.head
      simp at h
    · have hk := hI.stage
      rw [kinds_snoc] at hk
      exact hk.noFinal (by simp [Event.kind?])

theorem session_decomp (env : Env S P) (log : List (Event S)) : session env log = [] ∨
    (∃ pre i mid, log = pre ++ i :: mid ∧ session env log = i :: mid.filter (fun e => env.msgOk e.msg)) := by
  induction log using List.reverseRecOn with
  | nil => exact Or.inl rfl
  | append_singleton log e ih =>
    rw [session_snoc]
    unfold sessionStep
    by_cases hm : env.msgOk e.msg = true
    · rw [if_neg (by simp [hm])]
      have app : (session env log ++ [e] = [] ∨ ∃ pre i mid, log ++ [e] = pre ++ i :: mid ∧
          session env log ++ [e] = i :: mid.filter (fun e => env.msgOk e.msg)) := by
        right
        rcases ih with h0 | ⟨pre, i, mid, h1, h2⟩
        · exact ⟨log, e, [], rfl, by simp [h0]⟩
        · exact ⟨pre, i, mid ++ [e], by rw [h1]; simp, by rw [h2]; simp [hm]⟩
      split
      · exact Or.inl rfl
      · exact Or.inr ⟨log, e, [], rfl, rfl⟩
      · exact app
    · rw [if_pos (by simpa using hm)]
      rcases ih with h0 | ⟨pre, i, mid, h1, h2⟩
      · exact Or.inl h0
      · exact Or.inr ⟨pre, i, mid ++ [e], by rw [h1]; simp, by rw [h2]; simp [hm]⟩

end Verif.Signer

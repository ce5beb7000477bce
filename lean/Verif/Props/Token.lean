import Verif.Spec.Token
import Verif.Props.SignerOrder
import Verif.Props.KiSync
import Verif.Lemmas.AgentSteps

/-! C107: signing and key image synchronisation on one device do not disturb each other. -/

namespace Verif.Token
open Verif

variable {S P : Type} [CommRing S] [AddCommGroup P] [Module S P] [DecidableEq S] [DecidableEq P]

/-- C107: whatever else is asked in between, signing is answered as if nothing else had been asked. -/
theorem C107_sign_undisturbed (env : Signer.Env S P) (kenv : KiSync.Env) (c : Creds) (t u : Whole S P) (ht : t.tsx = u.tsx) (qs : List (Req S)) :
    signLog qs (run env kenv c t qs).2 = signLog (qs.filter isSign) (run env kenv c u (qs.filter isSign)).2 ∧
    (run env kenv c t qs).1.tsx = (run env kenv c u (qs.filter isSign)).1.tsx := by
  induction qs generalizing t u with
  | nil => exact ⟨rfl, ht⟩
  | cons q qs ih =>
    cases q with
    | sign m rnd =>
      have := ih (serve env kenv c t (.sign m rnd)).1 (serve env kenv c u (.sign m rnd)).1 (by simp only [serve, ht])
      have h2 : (serve env kenv c t (.sign m rnd)).2 = (serve env kenv c u (.sign m rnd)).2 := by simp only [serve, ht]
      simp only [List.filter_cons, isSign, if_pos, run]
      refine ⟨?_, this.2⟩
      simp only [signLog, List.zip_cons_cons, List.filterMap_cons] at this ⊢
      rw [h2]
      simp only [serve]
      rw [show ((serve env kenv c t (.sign m rnd)).1) = _ from rfl] at this
      exact congrArg _ this.1
    | keyImages m rnd => exact ih _ u ht
    | viewKey n => exact ih _ u ht
    | call => exact ih _ u ht
    | ping => exact ih _ u ht

/-- C107: the same for key image synchronisation. -/
theorem C107_ki_undisturbed (env : Signer.Env S P) (kenv : KiSync.Env) (c : Creds) (t u : Whole S P) (ht : t.ki = u.ki) (qs : List (Req S)) :
    kiLog qs (run env kenv c t qs).2 = kiLog (qs.filter isKi) (run env kenv c u (qs.filter isKi)).2 ∧
    (run env kenv c t qs).1.ki = (run env kenv c u (qs.filter isKi)).1.ki := by
  induction qs generalizing t u with
  | nil => exact ⟨rfl, ht⟩
  | cons q qs ih =>
    cases q with
    | keyImages m rnd =>
      have := ih (serve env kenv c t (.keyImages m rnd)).1 (serve env kenv c u (.keyImages m rnd)).1 (by simp only [serve, ht])
      have h2 : (serve env kenv c t (.keyImages m rnd)).2 = (serve env kenv c u (.keyImages m rnd)).2 := by simp only [serve, ht]
      simp only [List.filter_cons, isKi, if_pos, run]
      refine ⟨?_, this.2⟩
      simp only [kiLog, List.zip_cons_cons, List.filterMap_cons] at this ⊢
      rw [h2]
      simp only [serve]
      exact congrArg _ this.1
    | sign m rnd => exact ih _ u ht
    | viewKey n => exact ih _ u ht
    | call => exact ih _ u ht
    | ping => exact ih _ u ht

theorem reach_sign (env : Signer.Env S P) (kenv : KiSync.Env) (c : Creds) (qs : List (Req S)) : ∀ (t : Whole S P) (log : List (Signer.Event S)),
    Signer.Reach env log t.tsx → Signer.Reach env (log ++ signLog qs (run env kenv c t qs).2) (run env kenv c t qs).1.tsx := by
  induction qs with
  | nil => intro t log h; simpa [signLog, run] using h
  | cons q qs ih =>
    intro t log h
    cases q with
    | sign m rnd =>
      have := ih (serve env kenv c t (.sign m rnd)).1 _ (h.step m rnd)
      rw [List.append_assoc] at this
      exact this
    | keyImages m rnd => exact ih _ log h
    | viewKey n => exact ih _ log h
    | call => exact ih _ log h
    | ping => exact ih _ log h

theorem reach_ki (env : Signer.Env S P) (kenv : KiSync.Env) (c : Creds) (qs : List (Req S)) : ∀ (t : Whole S P) (log : List KiSync.Event),
    KiSync.Reach kenv log t.ki → KiSync.Reach kenv (log ++ kiLog qs (run env kenv c t qs).2) (run env kenv c t qs).1.ki := by
  induction qs with
  | nil => intro t log h; simpa [kiLog, run] using h
  | cons q qs ih =>
    intro t log h
    cases q with
    | keyImages m rnd =>
      have := ih (serve env kenv c t (.keyImages m rnd)).1 _ (h.step m rnd)
      rw [List.append_assoc] at this
      exact this
    | sign m rnd => exact ih _ log h
    | viewKey n => exact ih _ log h
    | call => exact ih _ log h
    | ping => exact ih _ log h

/-- C107: so what holds of every signing device holds of the whole device: the messages of a session come in the order of the protocol (C01), after any
requests whatsoever. -/
theorem C107_sign_order {env : Signer.Env S P} (hr : ∀ r, env.respOk r = true) (kenv : KiSync.Env) (c : Creds) (qs : List (Req S)) :
    let log := signLog qs (run env kenv c {} qs).2
    Signer.session env log = [] ∨ ∃ tsx rnd hmacs k,
      Signer.initOf (Signer.session env log) = some (tsx, rnd, hmacs) ∧
      Signer.kinds (Signer.session env log) <+: Signer.protocol tsx.numInputs k tsx.outputs.length ∧ k ≤ tsx.numInputs + 1 := by
  have h := reach_sign env kenv c qs {} [] .start
  rw [List.nil_append] at h
  rcases Signer.C01_order_partial hr h with h | ⟨tsx, rnd, hmacs, k, h1, h2, h3, -⟩
  · exact Or.inl h
  · exact Or.inr ⟨tsx, rnd, hmacs, k, h1, h2, h3⟩

/-- C107: and the key to the key images is released only for the outputs the user confirmed (C15). -/
theorem C107_ki_released {kenv : KiSync.Env} (env : Signer.Env S P) (c : Creds) (qs : List (Req S)) (m : KiSync.Msg) (rnd : KiSync.Rand) (key : Bytes)
    (hk : (serve env kenv c (run env kenv c {} qs).1 (.keyImages m rnd)).2 = .keyImages (.finalAck key)) :
    m = .final ∧ ∃ (pre mid : List KiSync.Event) (num : Nat) (hash : Bytes) (subs : List (Nat × List Nat)) (rnd0 : KiSync.Rand),
      kiLog qs (run env kenv c {} qs).2 = pre ++ ⟨.init num hash subs, rnd0, .initAck⟩ :: mid ∧ rnd0.confirm = true ∧ (∀ e ∈ mid, e.isGoodStep) ∧
      (KiSync.stepTds mid).length = num ∧ kenv.keccak (((KiSync.stepTds mid).map (KiSync.computeHash kenv)).flatten) = hash ∧ key = rnd0.encKey := by
  have h := reach_ki env kenv c qs {} [] .start
  rw [List.nil_append] at h
  refine KiSync.C15_released_only_for_committed h m rnd key ?_
  simpa [serve] using hk

/-- C107: a host that starts signing gets what it would get from a new device, whatever was asked before: interrupted signings, failures, anything. -/
theorem C107_past_irrelevant (env : Signer.Env S P) (cfg : Agent.Config) (cdc : Agent.Codec) (rnd : Nat → Signer.Rand S) (hrnd : Nat → Bytes)
    (d : Agent.TxData) (kenv : KiSync.Env) (cr : Creds) (t : Whole S P) (qs : List (Req S)) (n : Nat) :
    Agent.signTransaction env cfg cdc rnd hrnd d ⟨(run env kenv cr t qs).1.tsx, n⟩ = Agent.signTransaction env cfg cdc rnd hrnd d ⟨{}, n⟩ := by
  generalize (run env kenv cr t qs).1.tsx = dev
  have h : ∀ tsx, Agent.initStep env rnd tsx ⟨dev, n⟩ = Agent.initStep env rnd tsx ⟨{}, n⟩ := by
    intro tsx
    rw [Agent.initStep, Agent.initStep]
    congr 1
    rw [Agent.call, Agent.call]
    dsimp only
    rw [Signer.tsxSign, Signer.tsxSign]
    cases env.msgOk (.init tsx)
    · rfl
    · rfl
  rw [Agent.signTransaction_eq, Agent.signTransaction_eq]
  simp only [h]

/-- C107: requests of the other kinds change nothing on the device. -/
theorem C107_others_change_nothing (env : Signer.Env S P) (kenv : KiSync.Env) (c : Creds) (t : Whole S P) (q : Req S) (h1 : isSign q = false)
    (h2 : isKi q = false) : (serve env kenv c t q).1 = t := by
  cases q with
  | sign m rnd => cases h1
  | keyImages m rnd => cases h2
  | viewKey n => rfl
  | call => rfl
  | ping => rfl

/-- C107: the view key is not given for another network. -/
theorem C107_wrong_network (env : Signer.Env S P) (kenv : KiSync.Env) (c : Creds) (t : Whole S P) (n : Nat) (h : n ≠ c.network) :
    (serve env kenv c t (.viewKey n)).2 = .wrongNetwork := by
  simp [serve, getViewKey, h]

/-- And for the right network it is not given either: the view key is a number, which is encoded as if it were a point. -/
theorem C107_false_view_key (env : Signer.Env S P) (kenv : KiSync.Env) (c : Creds) (t : Whole S P) (v : Int) (h : c.viewKey = .inr v) :
    (serve env kenv c t (.viewKey c.network)).2 = .raised := by
  simp [serve, getViewKey, h, encodePointOf]

/-- A toy environment for key images. -/
def demoEnv : KiSync.Env := ⟨fun _ => [7], fun _ _ => some [1], fun _ _ d => d, fun _ _ d => some d, true, fun _ => true⟩

/-- Non-vacuity: a synchronisation of one output, in between a message of signing and a request for the view key. -/
example (env : Signer.Env S P) (rnd : Signer.Rand S) (c : Creds) :
    (serve env demoEnv c (run env demoEnv c {} [.keyImages (.init 1 [7] []) ⟨true, [5], fun _ => []⟩, .sign .final rnd,
      .keyImages (.step [⟨[], [], [], 0⟩]) ⟨true, [], fun _ => []⟩, .viewKey 3]).1 (.keyImages .final ⟨true, [], fun _ => []⟩)).2 =
      .keyImages (.finalAck [5]) := rfl

end Verif.Token

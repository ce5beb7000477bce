import Verif.Model.SignerState
import Verif.Spec.SignerDemo

/-! C12: suspending the signer between messages. -/

namespace Verif.Signer
open Verif
variable {S P : Type}

/-- Attributes hold values of their type, and every constructor attribute exists. -/
structure WellTyped (b : Dict S P) : Prop where
  all : ∀ a, (b a).isSome
  state : ∃ x, b .state = some (.tstate x)
  prefixHasher : b .tx_prefix_hasher = some .none ∨ ∃ c, b .tx_prefix_hasher = some (.archive c)
  fullHasher : b .full_message_hasher = some .none ∨ ∃ c, b .full_message_hasher = some (.hasher c)

/-- C12, attribute level: saving and restoring gives back every attribute except the owner, which is the new
signer object. -/
theorem C12_attributes (fresh b : Dict S P) (hb : WellTyped b) (a : Attr) (ha : a ≠ .trezor) :
    stateLoad fresh (stateSave b) a = b a := by
  obtain ⟨hall, ⟨x, hs⟩, hp, hf⟩ := hb
  have h := hall a
  obtain ⟨v, hv⟩ := Option.isSome_iff_exists.1 h
  by_cases h1 : a = .state
  · subst h1; simp [stateLoad, stateSave, hs]
  by_cases h2 : a = .tx_prefix_hasher
  · subst h2
    rcases hp with hp | ⟨c, hp⟩ <;> simp [stateLoad, stateSave, hp]
  by_cases h3 : a = .full_message_hasher
  · subst h3
    rcases hf with hf | ⟨c, hf⟩ <;> simp [stateLoad, stateSave, hf, PreMlsag.ofState, PreMlsag.save]
  · cases a <;> cases v <;> first
      | exact absurd rfl ha | exact absurd rfl h1 | exact absurd rfl h2 | exact absurd rfl h3
      | simp [stateLoad, stateSave, hv]

theorem C12_owner_not_saved (b : Dict S P) (h : ∃ v, b .trezor = some v ∧ v ≠ .none) :
    stateSave b .trezor = none := by
  obtain ⟨v, hv, hn⟩ := h
  cases v <;> simp_all [stateSave, holderInit]

theorem toDict_wellTyped {rest : Dict S P} (hrest : ∀ a, (rest a).isSome) (b : Builder S P) :
    WellTyped (toDict rest b) where
  all a := by cases a <;> first | rfl | exact hrest _
  state := ⟨_, rfl⟩
  prefixHasher := by
    simp only [toDict]
    cases b.prefixHasher <;> simp [Val.ofOpt]
  fullHasher := by
    simp only [toDict]
    cases b.fullHasher <;> simp [Val.ofOpt]

theorem ofDict_toDict (rest : Dict S P) (b : Builder S P) : ofDict (toDict rest b) = some b := by
  have ho : ∀ {α : Type} (f : α → Val S P) (g : Val S P → Option α) (a : Attr) (o : Option α),
      (∀ x, f x ≠ .none) → (∀ x, g (f x) = some x) → toDict rest b a = some (Val.ofOpt f o) →
      readOpt (toDict rest b) a g = some o := by
    intro α f g a o h1 h2 h3
    unfold readOpt
    rw [h3]
    cases o with
    | none => rfl
    | some x =>
      simp only [Val.ofOpt, Option.bind_some]
      split
      · rename_i h; exact absurd h (h1 x)
      · simp [h2]
  unfold ofDict
  rw [ho .dst Val.dst? .output_change b.change (by simp) (by simp [Val.dst?]) rfl,
    ho .nats Val.nats? .output_amounts b.outputAmounts (by simp) (by simp [Val.nats?]) rfl,
    ho .scalars Val.scalars? .output_masks b.outputMasks (by simp) (by simp [Val.scalars?]) rfl,
    ho .scalar Val.scalar? .output_last_mask b.outputLastMask (by simp) (by simp [Val.scalar?]) rfl,
    ho .subs Val.subs? .subaddresses b.subs (by simp) (by simp [Val.subs?]) rfl,
    ho .tx Val.tx? .tx b.tx (by simp) (by simp [Val.tx?]) rfl,
    ho .archive Val.archive? .tx_prefix_hasher b.prefixHasher (by simp) (by simp [Val.archive?]) rfl,
    ho .bytes Val.bytes? .tx_prefix_hash b.prefixHash (by simp) (by simp [Val.bytes?]) rfl,
    ho .hasher Val.hasher? .full_message_hasher b.fullHasher (by simp) (by simp [Val.hasher?]) rfl,
    ho .bytes Val.bytes? .full_message b.fullMessage (by simp) (by simp [Val.bytes?]) rfl,
    ho .bytes Val.bytes? .exp_tx_prefix_hash b.expPrefix (by simp) (by simp [Val.bytes?]) rfl]
  rfl

/-- C12, builder level: a restored builder is the saved one. -/
theorem C12_restored [CommRing S] [AddCommGroup P] {rest : Dict S P} (hrest : ∀ a, (rest a).isSome)
    (b : Builder S P) :
    ofDict (stateLoad (toDict rest freshBuilder) (stateSave (toDict rest b))) = some b := by
  rw [← ofDict_toDict rest b]
  congr 1
  funext a
  by_cases ha : a = .trezor
  · subst ha; rfl
  · exact C12_attributes _ _ (toDict_wellTyped hrest b) a ha

/-- Drive a device with messages and collect the answers. -/
def answers {D : Type} (step : D → Msg → Rand S → D × Resp) : D → List (Msg × Rand S) → List Resp
  | _, [] => []
  | d, (m, r) :: ms => (step d m r).2 :: answers step (step d m r).1 ms

/-- C12: for every message history, a device that saves and restores the signer around every message gives the
same answers as one that keeps it in memory. -/
theorem C12_suspension [CommRing S] [AddCommGroup P] [Module S P] [DecidableEq S] [DecidableEq P] {rest : Dict S P}
    (hrest : ∀ a, (rest a).isSome) (env : Env S P) (ms : List (Msg × Rand S)) :
    answers (tsxSignSuspended rest env) {} ms = answers (tsxSign env) {} ms := by
  have key : ∀ (ms : List (Msg × Rand S)) (d : SuspendedDevice S P) (e : Device S P),
      d.saved = e.saved.map (fun b => stateSave (toDict rest b)) →
      answers (tsxSignSuspended rest env) d ms = answers (tsxSign env) e ms := by
    intro ms
    induction ms with
    | nil => intros; rfl
    | cons x ms ih =>
      obtain ⟨m, r⟩ := x
      intro d e hde
      have hw : wakeUpSuspended rest d m = some (wakeUp e m) := by
        unfold wakeUpSuspended wakeUp
        rw [hde]
        cases m.isInit <;> cases e.saved <;> simp [C12_restored hrest]
      have hstep : (tsxSignSuspended rest env d m r).2 = (tsxSign env e m r).2 ∧
          (tsxSignSuspended rest env d m r).1.saved =
            (tsxSign env e m r).1.saved.map fun b => stateSave (toDict rest b) := by
        unfold tsxSignSuspended tsxSign
        rw [hw]
        cases env.msgOk m
        · simp [hde]
        · simp only [Bool.not_true, Bool.false_eq_true, if_false]
          rcases Signer.sign env (wakeUp e m) m r with er | ⟨b, res⟩
          · cases er <;> simp
          · simp only
            cases env.respOk res <;> simp only [Bool.false_eq_true, if_false, if_true, true_and] <;>
              split <;> simp
      simp only [answers]
      rw [hstep.1, ih _ _ hstep.2]
  exact key ms {} {} rfl

/-- Attributes of a session that is not read by the model. -/
def demoRest : Dict Int Int := fun _ => some (.nat 0)

/-- A whole session through save and restore. -/
example : (∀ a, (demoRest a).isSome) ∧
    (answers (tsxSignSuspended demoRest Demo.env) {}
      ((Demo.demoLog (Demo.honest 2)).map fun e => (e.msg, e.rnd))).all (!·.isFailure) = true ∧
    (Demo.demoLog (Demo.honest 2)).length = 13 := by
  refine ⟨fun _ => rfl, ?_, ?_⟩ <;> decide +kernel

end Verif.Signer

import Verif.Model.Connect
import Mathlib.Data.List.Infix

/-!
C124: the agent speaks to the device that was named, for the network that was set, whatever the history of connections and failures.
-/

namespace Verif.Connect
open Verif

/-- The network set last. -/
def lastNet : List Event → Option ℕ → Option ℕ
  | [], n => n
  | .net m :: es, _ => lastNet es m
  | _ :: es, n => lastNet es n

/-- The agent, if there is one, speaks to the proxy of the application and has its network. -/
def Agrees (st : St) : Prop := ∀ p n, st.agent = some (p, n) → st.proxy = some p ∧ n = st.net

theorem finish_agrees {st : St} (h : Agrees st) (p : Proxy) : Agrees (finish st p) ∧ (finish st p).net = st.net := by
  refine ⟨?_, rfl⟩
  intro q n hq
  unfold finish at hq ⊢
  obtain ⟨rfl, rfl⟩ := Prod.mk.inj (Option.some.inj hq)
  refine ⟨rfl, ?_⟩
  cases ha : st.agent with
  | none => rfl
  | some a => exact (h a.1 a.2 ha).2

theorem openAt_agrees {w : World} {st : St} (h : Agrees st) (t : Text) : Agrees (openAt w st t).1 ∧ (openAt w st t).1.net = st.net := by
  unfold openAt
  split
  · exact finish_agrees h _
  · exact ⟨h, rfl⟩

theorem connect_agrees {args : Args} {w : World} {path : Option Text} {st : St} (h : Agrees st) :
    Agrees (connect args w path st).1 ∧ (connect args w path st).1.net = st.net := by
  unfold connect
  split
  · split
    · exact openAt_agrees h _
    · split
      · exact ⟨h, rfl⟩
      · exact openAt_agrees (st := { st with path := some _ }) h _
  · exact finish_agrees h _

theorem step_agrees {ws : Char → Bool} {args : Args} {st : St} (h : Agrees st) (e : Event) :
    Agrees (step ws args st e).1 ∧ (step ws args st e).1.net = lastNet [e] st.net := by
  cases e with
  | start w => exact connect_agrees h
  | switch w line =>
    unfold step doSwitch
    dsimp only
    split
    · exact ⟨h, rfl⟩
    · rename_i p _
      have h' : Agrees { st with debug := if "bridge".toList <:+: p then false else st.debug, path := some p } := h
      exact connect_agrees h'
  | reconnect w => exact connect_agrees h
  | net n =>
    unfold step setNet
    dsimp only
    split
    · rename_i ha
      refine ⟨?_, rfl⟩
      intro p m hp
      rw [show ({ st with net := n } : St).agent = st.agent from rfl, ha] at hp
      cases hp
    · rename_i a ha
      refine ⟨?_, rfl⟩
      intro p m hp
      obtain ⟨rfl, rfl⟩ := Prod.mk.inj (Option.some.inj hp)
      exact ⟨(h a.1 a.2 ha).1, rfl⟩
  | tdeb b => exact ⟨h, rfl⟩

theorem run_agrees {ws : Char → Bool} {args : Args} : ∀ (es : List Event) (st : St), Agrees st →
    Agrees (run ws args st es) ∧ (run ws args st es).net = lastNet es st.net
  | [], _, h => ⟨h, rfl⟩
  | e :: es, st, h => by
    obtain ⟨h1, h2⟩ := step_agrees (ws := ws) (args := args) h e
    obtain ⟨h3, h4⟩ := run_agrees es _ h1
    refine ⟨h3, ?_⟩
    rw [show run ws args st (e :: es) = run ws args (step ws args st e).1 es from rfl, h4, h2]
    cases e <;> rfl

/-- C124: after every history of starts, switches, reconnections and networks, with any failures among them, the agent has the network that was set last, and
speaks to the proxy of the application. -/
theorem C124_network (ws : Char → Bool) (args : Args) (es : List Event) (p : Proxy) (n : Option ℕ)
    (h : (run ws args fresh es).agent = some (p, n)) : n = lastNet es none ∧ (run ws args fresh es).proxy = some p := by
  obtain ⟨h1, h2⟩ := run_agrees (ws := ws) (args := args) es fresh (fun _ _ h => by cases h)
  obtain ⟨h3, h4⟩ := h1 p n h
  exact ⟨h4.trans h2, h3⟩

/-- What a line names: `udp` the emulator of the firmware, a text with a colon itself, nothing the only device or the one selected. -/
inductive Names (w : World) : Text → Text → Prop
  | udp : Names w "udp".toList "udp:127.0.0.1:21324".toList
  | path {t : Text} (h : ':' ∈ t) : Names w t t
  | only {d : Text} (h : w.devices = [d]) : Names w [] d
  | selected {d : Text} (h : 2 ≤ w.devices.length) (hd : w.devices[w.pick]? = some d) : Names w [] d

theorem choose_names {w : World} {d : Text} (h : choose w = some d) : Names w [] d := by
  unfold choose at h
  split at h
  · cases h
  · rename_i e
    cases h
    exact .only e
  · rename_i h1 h2
    refine .selected ?_ h
    rcases hd : w.devices with _ | ⟨a, _ | ⟨b, l⟩⟩
    · exact absurd hd h1
    · exact absurd hd (h2 a)
    · simp

theorem connect_some {args : Args} {w : World} {st : St} {p : Text} (hp : p ≠ []) : connect args w (some p) st = openAt w st p := by
  obtain ⟨c, t, rfl⟩ := List.exists_cons_of_ne_nil hp
  unfold connect
  simp [truthy]

/-- C124, part: a switch that goes well, with a line that is empty, `udp` or has a colon, opens the device that the line names, keeps the network, and uses
the debug connection only if it was set and the device is not reached through the bridge. Missing: other lines, which all open `bridge:web01`. -/
theorem C124_switch_partial (ws : Char → Bool) (args : Args) (w : World) (hw : [] ∉ w.devices) (line : Text) (st : St)
    (hline : strip ws line = [] ∨ strip ws line = "udp".toList ∨ ':' ∈ strip ws line) (hok : (doSwitch ws args w line st).2 = true) :
    ∃ p b, Names w (strip ws line) p ∧ w.opens p = true ∧ (b = true → st.debug = true ∧ ¬"bridge".toList <:+: p) ∧
      (doSwitch ws args w line st).1.proxy = some (.device p b) ∧ (doSwitch ws args w line st).1.path = some p ∧
      ∃ n, (doSwitch ws args w line st).1.agent = some (.device p b, n) := by
  unfold doSwitch at hok ⊢
  cases hs : switchPath ws w line with
  | none => rw [hs] at hok; cases hok
  | some p =>
    rw [hs] at hok
    dsimp only at hok ⊢
    have hn : Names w (strip ws line) p := by
      unfold switchPath at hs
      split at hs
      · rename_i e
        cases hs
        rw [e]
        exact .udp
      · split at hs
        · cases hs
          exact .path (by assumption)
        · split at hs
          · rename_i e
            rw [List.length_eq_zero_iff.mp e]
            exact choose_names hs
          · rename_i a b c
            rcases hline with h | h | h
            · exact absurd (by rw [h]; rfl) c
            · exact absurd h a
            · exact absurd h b
    have hp : p ≠ [] := by
      rintro rfl
      generalize strip ws line = l at hn
      cases hn with
      | path h => cases h
      | only h => exact hw (by rw [h]; simp)
      | selected h hd => exact hw (List.mem_of_getElem? hd)
    rw [connect_some hp] at hok ⊢
    unfold openAt at hok ⊢
    by_cases ho : w.opens p = true
    · rw [if_pos ho]
      refine ⟨p, _, hn, ho, ?_, rfl, rfl, _, rfl⟩
      intro hb
      by_cases hbr : "bridge".toList <:+: p
      · rw [if_pos hbr] at hb; cases hb
      · rw [if_neg hbr] at hb; exact ⟨hb, hbr⟩
    · rw [if_neg ho] at hok
      cases hok

/-- C124: a switch or a reconnection that fails leaves the connection and the agent as they were. -/
theorem C124_failed (ws : Char → Bool) (args : Args) (e : Event) (st : St) (h : (step ws args st e).2 = false) (he : ∀ n, e ≠ .net n) :
    (step ws args st e).1.proxy = st.proxy ∧ (step ws args st e).1.agent = st.agent := by
  have hopen : ∀ w st t, (openAt w st t).2 = false → (openAt w st t).1 = st := by
    intro w st t h
    unfold openAt at h ⊢
    split
    · rw [if_pos (by assumption)] at h; cases h
    · rfl
  have hc : ∀ w path st, (connect args w path st).2 = false → (connect args w path st).1.proxy = st.proxy ∧ (connect args w path st).1.agent = st.agent := by
    intro w path st h
    unfold connect at h ⊢
    split
    · rename_i hc
      rw [if_pos hc] at h
      split at h
      · rw [hopen _ _ _ h]
        exact ⟨rfl, rfl⟩
      · split
        · exact ⟨rfl, rfl⟩
        · rename_i d hd
          rw [hd] at h
          rw [hopen _ _ _ h]
          exact ⟨rfl, rfl⟩
    · rename_i hc
      rw [if_neg hc] at h
      cases h
  cases e with
  | start w => exact hc _ _ _ h
  | switch w line =>
    unfold step doSwitch at h ⊢
    dsimp only at h ⊢
    split
    · exact ⟨rfl, rfl⟩
    · rename_i p hp
      rw [hp] at h
      have := hc _ _ _ h
      exact this
  | reconnect w => exact hc _ _ _ h
  | net n => exact absurd rfl (he n)
  | tdeb b => cases h

/-- Events other than a switch and a start. -/
def Event.stays : Event → Prop
  | .reconnect _ | .net _ | .tdeb _ => True
  | _ => False

/-- C124: once the agent is connected to the device at the path it remembers, it stays with this device through all reconnections, networks and debug flags,
whatever other devices come and go and whichever of them fail. -/
theorem C124_reconnect (ws : Char → Bool) (args : Args) (p : Text) (hp : p ≠ []) (es : List Event) (hes : ∀ e ∈ es, e.stays) : ∀ st : St,
    st.path = some p → (∃ b, st.proxy = some (.device p b)) →
    (run ws args st es).path = some p ∧ ∃ b, (run ws args st es).proxy = some (.device p b) := by
  induction es with
  | nil => exact fun _ h1 h2 => ⟨h1, h2⟩
  | cons e es ih =>
    intro st h1 h2
    have hs : (step ws args st e).1.path = some p ∧ ∃ b, (step ws args st e).1.proxy = some (.device p b) := by
      cases e with
      | start w => exact (hes _ (List.mem_cons_self ..)).elim
      | switch w line => exact (hes _ (List.mem_cons_self ..)).elim
      | reconnect w =>
        unfold step doReconnect
        dsimp only
        rw [h1, connect_some hp]
        unfold openAt
        split
        · exact ⟨h1, _, rfl⟩
        · exact ⟨h1, h2⟩
      | net n =>
        unfold step setNet
        dsimp only
        split
        · exact ⟨h1, h2⟩
        · exact ⟨h1, h2⟩
      | tdeb b => exact ⟨h1, h2⟩
    exact ih (fun e he => hes e (by simp [he])) _ hs.1 hs.2

/-- C124 is false of other lines: every text that is not empty, not `udp` and without a colon opens the device `bridge:web01`. -/
theorem C124_false_other (ws : Char → Bool) (args : Args) (w : World) (line : Text) (st : St) (h1 : strip ws line ≠ []) (h2 : strip ws line ≠ "udp".toList)
    (h3 : ':' ∉ strip ws line) (hok : w.opens "bridge:web01".toList = true) :
    (doSwitch ws args w line st).2 = true ∧ (doSwitch ws args w line st).1.proxy = some (.device "bridge:web01".toList false) := by
  have hs : switchPath ws w line = some "bridge:web01".toList := by
    unfold switchPath
    rw [if_neg h2, if_neg h3, if_neg (fun h => h1 (List.length_eq_zero_iff.mp h))]
  unfold doSwitch
  rw [hs]
  dsimp only
  rw [connect_some (by decide)]
  unfold openAt
  rw [if_pos hok, if_pos (by decide)]
  exact ⟨rfl, rfl⟩

def demoWorld : World := ⟨["bridge:web01".toList, "hid:1".toList], 1, fun _ => true⟩

example : run (· == ' ') ⟨false, none⟩ fresh [.start demoWorld, .net (some 1), .tdeb true, .switch demoWorld " udp ".toList, .reconnect demoWorld] =
    ⟨some 1, some "udp:127.0.0.1:21324".toList, true, some (.device "udp:127.0.0.1:21324".toList true),
      some (.device "udp:127.0.0.1:21324".toList true, some 1)⟩ := by decide +kernel

example : (doSwitch (· == ' ') ⟨false, none⟩ demoWorld "hid1".toList fresh).1.proxy = some (.device "bridge:web01".toList false) ∧
    (doSwitch (· == ' ') ⟨false, none⟩ demoWorld " ".toList fresh).1.proxy = some (.device "hid:1".toList false) := by decide +kernel

end Verif.Connect

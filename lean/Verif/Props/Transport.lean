import Verif.Lemmas.Transport

/-!
C101: messages between the agent and the emulated device arrive unchanged, except the device's refusals, which do not arrive.
-/

namespace Verif.Msgs
open Verif Pb

/-- C101. The message classes: field numbers of a class are distinct, the numbers of the classes are distinct, and the number of a class leads back to it. -/
theorem C101_table : SchemaOk schema ∧ (classes.filterMap (·.wire)).Nodup ∧ ∀ c t, typeOf c = some t → classOf t = some c :=
  ⟨schema_ok, wires_nodup, fun _ _ => classOf_typeOf⟩

/-- C101. The descriptions of every class of the Monero protocol (their names begin with Monero), nested ones included, are usable. -/
theorem C101_monero : ∀ i c, classes[i]? = some c → c.name.toUTF8.data.toList.take 6 = [77, 111, 110, 101, 114, 111] → usable i = true := by
  have h : (classes.zipIdx.all fun x => !(x.1.name.toUTF8.data.toList.take 6 == [77, 111, 110, 101, 114, 111]) || usable x.2) = true := by
    decide +kernel
  intro i c hi hc
  have hm : (c, i) ∈ classes.zipIdx := by
    rw [List.mem_zipIdx_iff_getElem?]; exact hi
  have := List.all_eq_true.1 h _ hm
  rw [hc] at this
  simpa using this

/-- C101. The classes with a number that cannot be sent, by name: `Failure` is one of them. -/
theorem C101_unsendable : ((classes.zipIdx.filter fun x => x.1.wire.isSome && !usable x.2).map (·.1.name)) =
    ["BinanceOrderMsg", "ButtonRequest", "DebugLinkDecision", "DebugLinkShowText", "Failure", "Features", "GetAddress", "GetPublicKey",
     "LiskSignTx", "NEMSignTx", "PinMatrixRequest", "RecoveryDevice", "ResetDevice", "SdProtect", "SignMessage", "TezosSignTx",
     "TxAck", "TxRequest", "WordRequest"] := by decide +kernel

/-- C101. A message that can be sent reaches the handler of its path unchanged, the handler runs once on the device's state, and an answer that can be sent
reaches the host unchanged. -/
theorem C101_arrives {σ : Type} (utf8 : Bytes → Bool) (d : Device σ) (w : Method) {f : Msg → σ → σ × Option Msg} (hf : d.of w = some f)
    {m : Msg} (hm : Sendable utf8 m) {s s' : σ} (hr : d.ready s = true) {a : Msg} (ha : f m s = (s', some a)) (hs : Sendable utf8 a) :
    exchange utf8 d w m s = (s', .ok a) := by
  obtain ⟨p, h1, h2⟩ := pack_unpack hm
  obtain ⟨q, h3, h4⟩ := pack_unpack hs
  have hh : handle utf8 d.ready f p s = (s', .json q) := by
    unfold handle; rw [h2]; simp only [hr, if_true, ha, h3]
  unfold exchange
  rw [h1]
  have hv : serve utf8 d w p s = (s', .json q) := by
    cases w <;> simp only [Device.of, Option.some.injEq, reduceCtorEq] at hf <;> subst hf <;> exact hh
  simp only [hv, h4]

/-- C101. Whatever the device answers, the message it handles is the one that was sent: its state afterwards is that of a direct call. -/
theorem C101_state {σ : Type} (utf8 : Bytes → Bool) (d : Device σ) (w : Method) {f : Msg → σ → σ × Option Msg} (hf : d.of w = some f)
    {m : Msg} (hm : Sendable utf8 m) {s : σ} (hr : d.ready s = true) : (exchange utf8 d w m s).1 = (f m s).1 := by
  obtain ⟨p, h1, h2⟩ := pack_unpack hm
  have hh : (handle utf8 d.ready f p s).1 = (f m s).1 := by
    unfold handle; rw [h2]; simp only [hr, if_true]
    rcases hx : f m s with ⟨s', _ | a⟩
    · rfl
    · dsimp only; cases pack a <;> rfl
  have hv : (serve utf8 d w p s).1 = (f m s).1 := by
    cases w <;> simp only [Device.of, Option.some.injEq, reduceCtorEq] at hf <;> subst hf <;> exact hh
  unfold exchange
  rw [h1]
  dsimp only
  rcases hy : serve utf8 d w p s with ⟨s', q | c⟩
  · rw [hy] at hv; dsimp only at hv ⊢
    cases unpack utf8 q <;> exact hv
  · rw [hy] at hv; exact hv

/-- C101. A whole session: as long as the device answers with messages that can be sent, going through the transport gives the states and the answers of
calling the device directly. -/
theorem C101_session {σ : Type} (utf8 : Bytes → Bool) (d : Device σ) (w : Method) {f : Msg → σ → σ × Option Msg} (hf : d.of w = some f)
    (hr : ∀ s, d.ready s = true) (ms : List Msg) (s : σ) (hm : ∀ m ∈ ms, Sendable utf8 m)
    (ha : ∀ r ∈ (direct f ms s).2, ∃ a, r = some a ∧ Sendable utf8 a) :
    (remote utf8 d w ms s).1 = (direct f ms s).1 ∧
    (remote utf8 d w ms s).2.map (fun r => r.toOption) = (direct f ms s).2 := by
  induction ms generalizing s with
  | nil => exact ⟨rfl, rfl⟩
  | cons m ms ih =>
    obtain ⟨a, e1, e2⟩ := ha _ (List.mem_cons_self ..)
    have he : exchange utf8 d w m s = ((f m s).1, .ok a) :=
      C101_arrives utf8 d w hf (hm m (List.mem_cons_self ..)) (hr s) (Prod.ext rfl e1) e2
    have hi := ih (f m s).1 (fun m h => hm m (List.mem_cons_of_mem _ h)) (fun r h => ha r (List.mem_cons_of_mem _ h))
    unfold remote direct
    rw [he]
    refine ⟨hi.1, ?_⟩
    rw [List.map_cons, hi.2, e1]; rfl

/-- C101. A payload that is not the encoding of a message never reaches the device: its state does not change and the host gets an error status. -/
theorem C101_garbage {σ : Type} (utf8 : Bytes → Bool) (d : Device σ) (w : Method) (hw : w = .txSign ∨ w = .kiSync) (p : Payload)
    (hp : unpack utf8 p = none) (s : σ) : serve utf8 d w p s = (s, .status 500) := by
  rcases hw with rfl | rfl <;> (unfold serve handle; simp only [hp])

/-- C101, disagreement: a `Failure` the device answers with never reaches the host, whatever it says. The device has changed its state; the host sees status 500,
the same as when the device is not initialised, when its handler raises, or when the request is unreadable. -/
theorem C101_false_failure {σ : Type} (utf8 : Bytes → Bool) (d : Device σ) (w : Method) {f : Msg → σ → σ × Option Msg} (hf : d.of w = some f)
    {m : Msg} (hm : Sendable utf8 m) {s s' : σ} :
    (∀ slots, d.ready s = true → f m s = (s', some ⟨failure, slots⟩) → exchange utf8 d w m s = (s', .error (.status 500))) ∧
    (d.ready s = true → f m s = (s', none) → exchange utf8 d w m s = (s', .error (.status 500))) ∧
    (d.ready s = false → exchange utf8 d w m s = (s, .error (.status 500))) := by
  obtain ⟨p, h1, h2⟩ := pack_unpack hm
  have hb : usable failure = false := by decide +kernel
  have key : ∀ t, handle utf8 d.ready f p s = (t, .status 500) → exchange utf8 d w m s = (t, .error (.status 500)) := by
    intro t ht
    have hv : serve utf8 d w p s = (t, .status 500) := by
      cases w <;> simp only [Device.of, Option.some.injEq, reduceCtorEq] at hf <;> subst hf <;> exact ht
    unfold exchange; rw [h1]; simp only [hv]
  refine ⟨fun slots hr e => key _ ?_, fun hr e => key _ ?_, fun hr => key _ ?_⟩
  · have hp : pack ⟨failure, slots⟩ = none := by
      unfold pack; dsimp only; rw [if_neg (by rw [hb]; decide)]
    unfold handle; rw [h2]; simp only [hr, if_true, e, hp]
  · unfold handle; rw [h2]; simp only [hr, if_true, e]
  · unfold handle; rw [h2]; simp only [hr, Bool.false_eq_true, if_false]

/-- C101, disagreement: the host's general `call` has no counterpart on the device. -/
theorem C101_false_call {σ : Type} (utf8 : Bytes → Bool) (d : Device σ) {m : Msg} (hm : Sendable utf8 m) (s : σ) :
    exchange utf8 d .call m s = (s, .error (.status 404)) := by
  obtain ⟨p, h1, h2⟩ := pack_unpack hm
  unfold exchange serve; rw [h1]

/-- C101. The view key: the device's answer arrives if it can be sent, a refusal arrives as its status, and neither depends on the request. -/
theorem C101_watch {σ : Type} (utf8 : Bytes → Bool) (d : Device σ) {m : Msg} (hm : Sendable utf8 m) (s s' : σ) :
    (∀ a, d.watch s = (s', .ok a) → Sendable utf8 a → exchange utf8 d .watchOnly m s = (s', .ok a)) ∧
    (∀ c, d.watch s = (s', .error c) → exchange utf8 d .watchOnly m s = (s', .error (.status c))) := by
  obtain ⟨p, h1, h2⟩ := pack_unpack hm
  refine ⟨fun a e ha => ?_, fun c e => ?_⟩
  · obtain ⟨q, h3, h4⟩ := pack_unpack ha
    unfold exchange serve; rw [h1]; simp only [e, h3, h4]
  · unfold exchange serve; rw [h1]; simp only [e]

/-! ### The hypotheses are met -/

/-- `MoneroTransactionInputsPermutationRequest` (505) with the permutation 1, 0, and its acknowledgement (506). -/
def permRequest : Msg := ⟨167, [[.uint 1, .uint 0]]⟩
def permAck : Msg := ⟨166, []⟩
/-- `MoneroTransactionSetInputAck` (504) with some of its values. -/
def inputAck : Msg := ⟨169, [[.bytes [2, 3]], [.bytes [7]], [], [], [.bytes []], [.bytes [9, 9, 9]]]⟩

theorem permRequest_ok : Sendable (fun _ => true) permRequest := by
  refine ⟨by decide +kernel, ⟨505, by decide +kernel⟩, ?_⟩
  have h : schema 167 = [⟨1, .uvarint, true⟩] := by decide +kernel
  simp [WTMessage, permRequest, h, WTSlots, WTVals, WTValue]

theorem permAck_ok : Sendable (fun _ => true) permAck := by
  refine ⟨by decide +kernel, ⟨506, by decide +kernel⟩, ?_⟩
  have h : schema 166 = [] := by decide +kernel
  simp [WTMessage, permAck, h, WTSlots]

theorem inputAck_ok : Sendable (fun _ => true) inputAck := by
  refine ⟨by decide +kernel, ⟨504, by decide +kernel⟩, ?_⟩
  have h : schema 169 = [⟨1, .bytes, false⟩, ⟨2, .bytes, false⟩, ⟨3, .bytes, false⟩, ⟨4, .bytes, false⟩, ⟨5, .bytes, false⟩, ⟨6, .bytes, false⟩] := by
    decide +kernel
  simp [WTMessage, inputAck, h, WTSlots, WTVals, WTValue]

/-- A device that counts messages, acknowledges the first, answers the second with an entry and refuses the third. -/
def counter : Device Nat where
  ready _ := true
  sign _ n := (n + 1, some (if n = 0 then permAck else if n = 1 then inputAck else ⟨failure, [[.uint 1], [.str []]]⟩))
  sync _ n := (n + 1, none)
  watch n := (n, .error 403)

example : exchange (fun _ => true) counter .txSign permRequest 0 = (1, .ok permAck) :=
  C101_arrives _ counter .txSign rfl permRequest_ok rfl rfl permAck_ok

example : (remote (fun _ => true) counter .txSign [permRequest, permRequest] 0).2.map (fun r => r.toOption) = [some permAck, some inputAck] :=
  (C101_session _ counter .txSign rfl (fun _ => rfl) [permRequest, permRequest] 0
    (fun m hm => by have : m = permRequest := by simpa using hm
                    subst this; exact permRequest_ok)
    (fun r hr => by
      have : r = some permAck ∨ r = some inputAck := by simpa [direct, counter] using hr
      rcases this with rfl | rfl
      · exact ⟨_, rfl, permAck_ok⟩
      · exact ⟨_, rfl, inputAck_ok⟩)).2

/-- The refusal of the third message is lost, the device has moved on. -/
example : exchange (fun _ => true) counter .txSign permRequest 2 = (3, .error (.status 500)) :=
  (C101_false_failure (s' := 3) _ counter .txSign rfl permRequest_ok).1 _ rfl rfl

example : exchange (fun _ => true) counter .watchOnly permRequest 2 = (2, .error (.status 403)) :=
  (C101_watch _ counter permRequest_ok 2 2).2 403 rfl

example : ∃ (i : Nat) (c : Class), classes[i]? = some c ∧ c.name = "MoneroTransactionInputsPermutationRequest" ∧ c.wire = some 505 ∧
    c.name.toUTF8.data.toList.take 6 = [77, 111, 110, 101, 114, 111] := ⟨167, _, rfl, rfl, rfl, by decide +kernel⟩

end Verif.Msgs

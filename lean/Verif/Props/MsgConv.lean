import Verif.Lemmas.MsgConv

/-! C104: messages on their way to a real device and back. -/

namespace Verif.MsgConv
open Verif

/-- C104: towards the device every class, at every depth, is replaced by the library's class with the same content; byte arrays become byte strings. -/
theorem C104_to_device (sch : Schema) (n : Nat) (v : PyVal) (h : Wf sch .ours n v) : toTrezor sch n v = some (inLib .trezor v) :=
  toTrezor_spec sch n v h

/-- C104: an answer keeps its content and its outermost class is ours. -/
theorem C104_from_device (sch : Schema) (n : Nat) (c : String) (a : List (String × PyVal)) (h : Wf sch .trezor (n + 1) (.msg .trezor c a)) :
    ∃ o, toOurs sch (n + 1) (.msg .trezor c a) = some o ∧ content o = content (.msg .trezor c a) ∧ ∃ b, o = .msg .ours c b := by
  refine ⟨_, toOurs_spec sch n c a h, ?_, _, rfl⟩
  simp only [content, inLib, relabel, relabelAttrs_relabelAttrs, id]

/-- C104: an answer without messages inside is converted completely. -/
theorem C104_from_device_flat (sch : Schema) (n : Nat) (c : String) (a : List (String × PyVal)) (h : Wf sch .trezor (n + 1) (.msg .trezor c a))
    (hf : Flat (.msg .trezor c a)) : toOurs sch (n + 1) (.msg .trezor c a) = some (inLib .ours (.msg .trezor c a)) := by
  rw [toOurs_spec sch n c a h]
  simp only [inLib, relabel, relabelAttrs_map]
  congr 2
  exact List.map_congr_left fun x hx => Prod.ext rfl (leaf_relabel (hf x hx) _ _)

/-- C104: an answer sent back to the device is what the device sent. -/
theorem C104_back (sch : Schema) (n : Nat) (c : String) (a : List (String × PyVal)) (h : Wf sch .trezor (n + 1) (.msg .trezor c a)) :
    (toOurs sch (n + 1) (.msg .trezor c a)).bind (toTrezor sch (n + 1)) = some (inLib .trezor (.msg .trezor c a)) := by
  rw [toOurs_spec sch n c a h, Option.bind_some, round sch n c a h, ← wf_inLib sch .trezor (n + 1) _ h]
  simp only [relabel, id]

/-- C104: a call sends the device one message, the caller's in the library's classes, and hands back the content of its answer; the connection is closed. -/
theorem C104_call (sch : Schema) (n k : Nat) (client : PyVal → Option PyVal) (m : PyVal) (c : String) (a : List (String × PyVal)) (hk : n = k + 1)
    (hm : Wf sch .ours n m) (hr : client (inLib .trezor m) = some (.msg .trezor c a)) (ha : Wf sch .trezor n (.msg .trezor c a)) :
    (call sch n client m).2 = [.opened, .sent (inLib .trezor m), .closed] ∧
    ∃ o, (call sch n client m).1 = some o ∧ content o = content (.msg .trezor c a) := by
  subst hk
  obtain ⟨o, h1, h2, -⟩ := C104_from_device sch k c a ha
  unfold call
  rw [C104_to_device sch _ m hm]
  dsimp only
  rw [hr]
  exact ⟨rfl, o, h1, h2⟩

/-- C104: whatever happens, the connection is closed at the end and at most one message was sent; without an answer the caller gets an exception. -/
theorem C104_closed (sch : Schema) (n : Nat) (client : PyVal → Option PyVal) (m : PyVal) :
    ((call sch n client m).2 = [.opened, .closed] ∧ (call sch n client m).1 = .none) ∨
    ∃ t, (call sch n client m).2 = [.opened, .sent t, .closed] ∧ ((call sch n client m).1 ≠ .none → ∃ r, client t = some r) := by
  unfold call
  cases h : toTrezor sch n m with
  | none => exact Or.inl ⟨rfl, rfl⟩
  | some t =>
    right
    refine ⟨t, ?_⟩
    dsimp only
    cases hc : client t with
    | none => exact ⟨rfl, fun h => absurd rfl h⟩
    | some r => exact ⟨rfl, fun _ => ⟨r, rfl⟩⟩

/-- C104: a message whose class the library does not have is not sent. -/
theorem C104_unknown (sch : Schema) (n : Nat) (client : PyVal → Option PyVal) (c : String) (a : List (String × PyVal)) (h : sch .trezor c = .none) :
    call sch n client (.msg .ours c a) = (.none, [.opened, .closed]) := by
  have : toTrezor sch n (.msg .ours c a) = .none := by
    cases n with
    | zero => rfl
    | succ n =>
      rw [toTrezor]
      cases hb : bytesFix sch .ours (n + 1) (.msg .ours c a) with
      | none => rfl
      | some w =>
        simp only [bytesFix, if_true] at hb
        obtain ⟨b, -, rfl⟩ := Option.map_eq_some_iff.mp hb
        show transform sch .ours .trezor (toTrezor sch n) (.msg .ours c b) = .none
        simp only [transform, if_true, h]
  unfold call
  rw [this]

/-- A package with an acknowledgement that has range proof data inside. -/
def demo : Schema := fun _ c =>
  if c = "MoneroTransactionSetOutputAck" then some [("tx_out", .bytes), ("rsig_data", .other)]
  else if c = "MoneroTransactionRsigData" then some [("mask", .bytes), ("rsig_parts", .bytesList)]
  else .none

def demoRsig (lib : Lib) : PyVal := .msg lib "MoneroTransactionRsigData" [("mask", .bytearray [1, 2]), ("rsig_parts", .list [.bytearray [3], .bytes [4]])]

def demoAck (lib : Lib) : PyVal := .msg lib "MoneroTransactionSetOutputAck" [("tx_out", .bytes [9]), ("rsig_data", demoRsig lib)]

theorem demo_wf (lib : Lib) : Wf demo lib 3 (demoAck lib) := by
  refine ⟨rfl, [("tx_out", .bytes), ("rsig_data", .other)], fun _ => rfl, by decide, rfl, ?_⟩
  intro x hx
  simp only [List.zip_cons_cons, List.zip_nil_right, List.mem_cons, List.not_mem_nil, or_false] at hx
  rcases hx with rfl | rfl
  · exact ⟨trivial, trivial⟩
  · refine ⟨trivial, rfl, [("mask", .bytes), ("rsig_parts", .bytesList)], fun _ => rfl, by decide, rfl, ?_⟩
    intro x hx
    simp only [List.zip_cons_cons, List.zip_nil_right, List.mem_cons, List.not_mem_nil, or_false] at hx
    rcases hx with rfl | rfl
    · exact ⟨trivial, trivial⟩
    · constructor
      · intro x hx
        simp only [List.mem_cons, List.not_mem_nil, or_false] at hx
        rcases hx with rfl | rfl <;> trivial
      · intro x hx
        simp only [List.mem_cons, List.not_mem_nil, or_false] at hx
        rcases hx with rfl | rfl <;> trivial

/-- Not all of an answer is converted: messages inside keep the classes of the device's library, since `to_phlib` calls `to_trezorlib` for the parts. -/
theorem C104_false_nested : Wf demo .trezor 3 (demoAck .trezor) ∧
    toOurs demo 3 (demoAck .trezor) = some (.msg .ours "MoneroTransactionSetOutputAck" [("tx_out", .bytes [9]),
      ("rsig_data", .msg .trezor "MoneroTransactionRsigData" [("mask", .bytes [1, 2]), ("rsig_parts", .list [.bytes [3], .bytes [4]])])]) ∧
    toOurs demo 3 (demoAck .trezor) ≠ some (inLib .ours (demoAck .trezor)) := by
  have h := toOurs_spec demo 2 _ _ (demo_wf .trezor)
  refine ⟨demo_wf _, h, ?_⟩
  intro h'
  have := h.symm.trans h'
  simp [inLib, relabel, relabelAttrs, demoAck, demoRsig] at this

/-- A number in a field described as bytes is not refused: it becomes that many zero bytes. -/
theorem C104_false_number (sch : Schema) (k : Nat) (c name : String) (h : ∀ L, sch L c = some [(name, .bytes)]) :
    toTrezor sch 1 (.msg .ours c [(name, .int k)]) = some (.msg .trezor c [(name, .bytes (List.replicate k 0))]) := by
  have h0 : (0 : Int) ≤ k := Int.natCast_nonneg k
  simp [toTrezor, bytesFix, transform, h, getAttr, setAttr, bytesField, pyBytes, defaults, h0, List.foldlM]

/-- Non-vacuity: an acknowledgement with data inside satisfies the hypotheses in both directions. -/
example : Wf demo .ours 3 (demoAck .ours) ∧ Wf demo .trezor 3 (demoAck .trezor) ∧ Wf demo .trezor 2 (demoRsig .trezor) := by
  refine ⟨demo_wf _, demo_wf _, ?_⟩
  obtain ⟨-, fs, h1, -, -, h4⟩ := demo_wf .trezor
  have e : fs = [("tx_out", .bytes), ("rsig_data", .other)] := Option.some.inj ((h1 .ours).symm.trans rfl)
  subst e
  exact (h4 (("rsig_data", .other), ("rsig_data", demoRsig .trezor)) (by simp)).2

/-- Non-vacuity: a message without messages inside. -/
example : Flat (demoRsig .trezor) := by
  intro x hx
  simp only [List.mem_cons, List.not_mem_nil, or_false] at hx
  rcases hx with rfl | rfl
  · trivial
  · intro y hy
    simp only [List.mem_cons, List.not_mem_nil, or_false] at hy
    rcases hy with rfl | rfl <;> trivial

end Verif.MsgConv

import Verif.Model.Lite
import Verif.Lemmas.Amounts
import Verif.Props.CurveCodec

/-! Running commands of the lite protocol. -/

namespace Verif.Lite
open Verif Ed Key Sig

theorem run_bind {α β : Type} (x : LM α) (f : α → LM β) (s : St) :
    (x >>= f).run s = match x.run s with
      | (some a, s') => (f a).run s'
      | (none, s') => (none, s') := rfl

theorem run_bind_some {α β : Type} {x : LM α} {s s' : St} {a : α} (h : x.run s = (some a, s')) (f : α → LM β) : (x >>= f).run s = (f a).run s' := by
  rw [run_bind, h]

theorem run_bind_none {α β : Type} {x : LM α} {s s' : St} (h : x.run s = (none, s')) (f : α → LM β) : (x >>= f).run s = (none, s') := by
  rw [run_bind, h]

theorem run_bind_eq_some {α β : Type} {x : LM α} {f : α → LM β} {s t : St} {b : β} :
    (x >>= f).run s = (some b, t) ↔ ∃ a s', x.run s = (some a, s') ∧ (f a).run s' = (some b, t) := by
  rw [run_bind]
  cases h : x.run s with
  | mk o s' =>
    cases o with
    | none => simp
    | some a => simp

theorem run_pure {α : Type} (a : α) (s : St) : (pure a : LM α).run s = (some a, s) := rfl
theorem run_get (s : St) : get.run s = (some s, s) := rfl
theorem run_modify (f : St → St) (s : St) : (modify f).run s = (some (), f s) := rfl
theorem run_lift {α : Type} (o : Option α) (s : St) : (lift o).run s = (o, s) := rfl
theorem run_fail {α : Type} (s : St) : (fail : LM α).run s = (none, s) := rfl
theorem run_insert (b : Bytes) (s : St) : (insert b).run s = (some (), s.put b) := rfl

/-! What the small steps leave alone. -/

@[simp] theorem adv_a (s : St) (n : ℕ) : (s.adv n).a = s.a := rfl
@[simp] theorem adv_b (s : St) (n : ℕ) : (s.adv n).b = s.b := rfl
@[simp] theorem adv_A (s : St) (n : ℕ) : (s.adv n).A = s.A := rfl
@[simp] theorem adv_B (s : St) (n : ℕ) : (s.adv n).B = s.B := rfl
@[simp] theorem adv_options (s : St) (n : ℕ) : (s.adv n).options = s.options := rfl
@[simp] theorem adv_sigMode (s : St) (n : ℕ) : (s.adv n).sigMode = s.sigMode := rfl
@[simp] theorem adv_account (s : St) (n : ℕ) : (s.adv n).account = s.account := rfl
@[simp] theorem adv_ctxH (s : St) (n : ℕ) : (s.adv n).ctxH = s.ctxH := rfl
@[simp] theorem adv_H (s : St) (n : ℕ) : (s.adv n).H = s.H := rfl
@[simp] theorem adv_c (s : St) (n : ℕ) : (s.adv n).c = s.c := rfl
@[simp] theorem adv_ctxAmount (s : St) (n : ℕ) : (s.adv n).ctxAmount = s.ctxAmount := rfl
@[simp] theorem adv_KV (s : St) (n : ℕ) : (s.adv n).KV = s.KV := rfl
@[simp] theorem adv_ctxCommitment (s : St) (n : ℕ) : (s.adv n).ctxCommitment = s.ctxCommitment := rfl
@[simp] theorem adv_C (s : St) (n : ℕ) : (s.adv n).C = s.C := rfl
@[simp] theorem adv_msg (s : St) (n : ℕ) : (s.adv n).msg = s.msg := rfl
@[simp] theorem adv_p1 (s : St) (n : ℕ) : (s.adv n).p1 = s.p1 := rfl
@[simp] theorem adv_p2 (s : St) (n : ℕ) : (s.adv n).p2 = s.p2 := rfl
@[simp] theorem adv_resp (s : St) (n : ℕ) : (s.adv n).resp = s.resp := rfl
@[simp] theorem adv_rnd (s : St) (n : ℕ) : (s.adv n).rnd = s.rnd := rfl
@[simp] theorem adv_asked (s : St) (n : ℕ) : (s.adv n).asked = s.asked := rfl
@[simp] theorem adv_off (s : St) (n : ℕ) : (s.adv n).off = s.off + n := rfl
@[simp] theorem put_a (s : St) (x : Bytes) : (s.put x).a = s.a := rfl
@[simp] theorem put_b (s : St) (x : Bytes) : (s.put x).b = s.b := rfl
@[simp] theorem put_A (s : St) (x : Bytes) : (s.put x).A = s.A := rfl
@[simp] theorem put_B (s : St) (x : Bytes) : (s.put x).B = s.B := rfl
@[simp] theorem put_options (s : St) (x : Bytes) : (s.put x).options = s.options := rfl
@[simp] theorem put_sigMode (s : St) (x : Bytes) : (s.put x).sigMode = s.sigMode := rfl
@[simp] theorem put_account (s : St) (x : Bytes) : (s.put x).account = s.account := rfl
@[simp] theorem put_ctxH (s : St) (x : Bytes) : (s.put x).ctxH = s.ctxH := rfl
@[simp] theorem put_H (s : St) (x : Bytes) : (s.put x).H = s.H := rfl
@[simp] theorem put_c (s : St) (x : Bytes) : (s.put x).c = s.c := rfl
@[simp] theorem put_ctxAmount (s : St) (x : Bytes) : (s.put x).ctxAmount = s.ctxAmount := rfl
@[simp] theorem put_KV (s : St) (x : Bytes) : (s.put x).KV = s.KV := rfl
@[simp] theorem put_ctxCommitment (s : St) (x : Bytes) : (s.put x).ctxCommitment = s.ctxCommitment := rfl
@[simp] theorem put_C (s : St) (x : Bytes) : (s.put x).C = s.C := rfl
@[simp] theorem put_msg (s : St) (x : Bytes) : (s.put x).msg = s.msg := rfl
@[simp] theorem put_off (s : St) (x : Bytes) : (s.put x).off = s.off := rfl
@[simp] theorem put_p1 (s : St) (x : Bytes) : (s.put x).p1 = s.p1 := rfl
@[simp] theorem put_p2 (s : St) (x : Bytes) : (s.put x).p2 = s.p2 := rfl
@[simp] theorem put_rnd (s : St) (x : Bytes) : (s.put x).rnd = s.rnd := rfl
@[simp] theorem put_asked (s : St) (x : Bytes) : (s.put x).asked = s.asked := rfl
@[simp] theorem put_resp (s : St) (x : Bytes) : (s.put x).resp = s.resp ++ x := rfl
@[simp] theorem addH_a (s : St) (x : Bytes) : (s.addH x).a = s.a := rfl
@[simp] theorem addH_b (s : St) (x : Bytes) : (s.addH x).b = s.b := rfl
@[simp] theorem addH_A (s : St) (x : Bytes) : (s.addH x).A = s.A := rfl
@[simp] theorem addH_B (s : St) (x : Bytes) : (s.addH x).B = s.B := rfl
@[simp] theorem addH_options (s : St) (x : Bytes) : (s.addH x).options = s.options := rfl
@[simp] theorem addH_sigMode (s : St) (x : Bytes) : (s.addH x).sigMode = s.sigMode := rfl
@[simp] theorem addH_account (s : St) (x : Bytes) : (s.addH x).account = s.account := rfl
@[simp] theorem addH_H (s : St) (x : Bytes) : (s.addH x).H = s.H := rfl
@[simp] theorem addH_c (s : St) (x : Bytes) : (s.addH x).c = s.c := rfl
@[simp] theorem addH_ctxAmount (s : St) (x : Bytes) : (s.addH x).ctxAmount = s.ctxAmount := rfl
@[simp] theorem addH_KV (s : St) (x : Bytes) : (s.addH x).KV = s.KV := rfl
@[simp] theorem addH_ctxCommitment (s : St) (x : Bytes) : (s.addH x).ctxCommitment = s.ctxCommitment := rfl
@[simp] theorem addH_C (s : St) (x : Bytes) : (s.addH x).C = s.C := rfl
@[simp] theorem addH_msg (s : St) (x : Bytes) : (s.addH x).msg = s.msg := rfl
@[simp] theorem addH_off (s : St) (x : Bytes) : (s.addH x).off = s.off := rfl
@[simp] theorem addH_p1 (s : St) (x : Bytes) : (s.addH x).p1 = s.p1 := rfl
@[simp] theorem addH_p2 (s : St) (x : Bytes) : (s.addH x).p2 = s.p2 := rfl
@[simp] theorem addH_resp (s : St) (x : Bytes) : (s.addH x).resp = s.resp := rfl
@[simp] theorem addH_rnd (s : St) (x : Bytes) : (s.addH x).rnd = s.rnd := rfl
@[simp] theorem addH_asked (s : St) (x : Bytes) : (s.addH x).asked = s.asked := rfl
@[simp] theorem addH_ctxH (s : St) (x : Bytes) : (s.addH x).ctxH = s.ctxH ++ x := rfl
@[simp] theorem addAmount_a (s : St) (x : Bytes) : (s.addAmount x).a = s.a := rfl
@[simp] theorem addAmount_b (s : St) (x : Bytes) : (s.addAmount x).b = s.b := rfl
@[simp] theorem addAmount_A (s : St) (x : Bytes) : (s.addAmount x).A = s.A := rfl
@[simp] theorem addAmount_B (s : St) (x : Bytes) : (s.addAmount x).B = s.B := rfl
@[simp] theorem addAmount_options (s : St) (x : Bytes) : (s.addAmount x).options = s.options := rfl
@[simp] theorem addAmount_sigMode (s : St) (x : Bytes) : (s.addAmount x).sigMode = s.sigMode := rfl
@[simp] theorem addAmount_account (s : St) (x : Bytes) : (s.addAmount x).account = s.account := rfl
@[simp] theorem addAmount_ctxH (s : St) (x : Bytes) : (s.addAmount x).ctxH = s.ctxH := rfl
@[simp] theorem addAmount_H (s : St) (x : Bytes) : (s.addAmount x).H = s.H := rfl
@[simp] theorem addAmount_c (s : St) (x : Bytes) : (s.addAmount x).c = s.c := rfl
@[simp] theorem addAmount_KV (s : St) (x : Bytes) : (s.addAmount x).KV = s.KV := rfl
@[simp] theorem addAmount_ctxCommitment (s : St) (x : Bytes) : (s.addAmount x).ctxCommitment = s.ctxCommitment := rfl
@[simp] theorem addAmount_C (s : St) (x : Bytes) : (s.addAmount x).C = s.C := rfl
@[simp] theorem addAmount_msg (s : St) (x : Bytes) : (s.addAmount x).msg = s.msg := rfl
@[simp] theorem addAmount_off (s : St) (x : Bytes) : (s.addAmount x).off = s.off := rfl
@[simp] theorem addAmount_p1 (s : St) (x : Bytes) : (s.addAmount x).p1 = s.p1 := rfl
@[simp] theorem addAmount_p2 (s : St) (x : Bytes) : (s.addAmount x).p2 = s.p2 := rfl
@[simp] theorem addAmount_resp (s : St) (x : Bytes) : (s.addAmount x).resp = s.resp := rfl
@[simp] theorem addAmount_rnd (s : St) (x : Bytes) : (s.addAmount x).rnd = s.rnd := rfl
@[simp] theorem addAmount_asked (s : St) (x : Bytes) : (s.addAmount x).asked = s.asked := rfl
@[simp] theorem addAmount_ctxAmount (s : St) (x : Bytes) : (s.addAmount x).ctxAmount = s.ctxAmount ++ x := rfl
@[simp] theorem addCommitment_a (s : St) (x : Bytes) : (s.addCommitment x).a = s.a := rfl
@[simp] theorem addCommitment_b (s : St) (x : Bytes) : (s.addCommitment x).b = s.b := rfl
@[simp] theorem addCommitment_A (s : St) (x : Bytes) : (s.addCommitment x).A = s.A := rfl
@[simp] theorem addCommitment_B (s : St) (x : Bytes) : (s.addCommitment x).B = s.B := rfl
@[simp] theorem addCommitment_options (s : St) (x : Bytes) : (s.addCommitment x).options = s.options := rfl
@[simp] theorem addCommitment_sigMode (s : St) (x : Bytes) : (s.addCommitment x).sigMode = s.sigMode := rfl
@[simp] theorem addCommitment_account (s : St) (x : Bytes) : (s.addCommitment x).account = s.account := rfl
@[simp] theorem addCommitment_ctxH (s : St) (x : Bytes) : (s.addCommitment x).ctxH = s.ctxH := rfl
@[simp] theorem addCommitment_H (s : St) (x : Bytes) : (s.addCommitment x).H = s.H := rfl
@[simp] theorem addCommitment_c (s : St) (x : Bytes) : (s.addCommitment x).c = s.c := rfl
@[simp] theorem addCommitment_ctxAmount (s : St) (x : Bytes) : (s.addCommitment x).ctxAmount = s.ctxAmount := rfl
@[simp] theorem addCommitment_KV (s : St) (x : Bytes) : (s.addCommitment x).KV = s.KV := rfl
@[simp] theorem addCommitment_C (s : St) (x : Bytes) : (s.addCommitment x).C = s.C := rfl
@[simp] theorem addCommitment_msg (s : St) (x : Bytes) : (s.addCommitment x).msg = s.msg := rfl
@[simp] theorem addCommitment_off (s : St) (x : Bytes) : (s.addCommitment x).off = s.off := rfl
@[simp] theorem addCommitment_p1 (s : St) (x : Bytes) : (s.addCommitment x).p1 = s.p1 := rfl
@[simp] theorem addCommitment_p2 (s : St) (x : Bytes) : (s.addCommitment x).p2 = s.p2 := rfl
@[simp] theorem addCommitment_resp (s : St) (x : Bytes) : (s.addCommitment x).resp = s.resp := rfl
@[simp] theorem addCommitment_rnd (s : St) (x : Bytes) : (s.addCommitment x).rnd = s.rnd := rfl
@[simp] theorem addCommitment_asked (s : St) (x : Bytes) : (s.addCommitment x).asked = s.asked := rfl
@[simp] theorem addCommitment_ctxCommitment (s : St) (x : Bytes) : (s.addCommitment x).ctxCommitment = s.ctxCommitment ++ x := rfl

/-- The rest of the message of a state. -/
def rest (s : St) : Bytes := s.msg.drop s.off

theorem run_fetch {s : St} {x y : Bytes} {n : ℕ} (h : rest s = x ++ y) (hn : x.length = n) : (fetch n).run s = (some x, s.adv n) := by
  unfold fetch
  simp only
  rw [show s.msg.drop s.off = x ++ y from h, List.take_left' hn]
  simp [hn]

theorem rest_adv {s : St} {x y : Bytes} {n : ℕ} (h : rest s = x ++ y) (hn : x.length = n) : rest (s.adv n) = y := by
  show s.msg.drop (s.off + n) = y
  rw [← List.drop_drop, show s.msg.drop s.off = x ++ y from h, List.drop_left' hn]

theorem fetch_short {s : St} {n : ℕ} (h : (rest s).length < n) : (fetch n).run s = (none, s) := by
  unfold fetch
  simp only
  rw [if_pos]
  rw [List.length_take]
  have : (s.msg.drop s.off).length < n := h
  omega

theorem fetch_some {s t : St} {x : Bytes} {n : ℕ} (h : (fetch n).run s = (some x, t)) :
    ∃ y, rest s = x ++ y ∧ x.length = n ∧ t = s.adv n := by
  unfold fetch at h
  simp only at h
  split at h
  · cases h
  · rename_i hl
    simp only [Prod.mk.injEq, Option.some.injEq] at h
    obtain ⟨rfl, rfl⟩ := h
    exact ⟨_, (List.take_append_drop n _).symm, by simpa using hl, rfl⟩

theorem run_u8 {s : St} {o : UInt8} {y : Bytes} (h : rest s = o :: y) : fetchU8.run s = (some o.toNat, s.adv 1) := by
  unfold fetchU8
  rw [run_bind_some (run_fetch (n := 1) (x := [o]) (y := y) h rfl)]
  rfl

theorem rest_u8 {s : St} {o : UInt8} {y : Bytes} (h : rest s = o :: y) : rest (s.adv 1) = y :=
  rest_adv (n := 1) (x := [o]) (y := y) h rfl

/-- The state in which a command starts to read its arguments. -/
def St.begin (s : St) (p1 p2 : ℕ) (o : UInt8) (input : Bytes) : St :=
  { s with p1 := p1, p2 := p2, msg := o :: input, off := 1, resp := [], options := o.toNat }

theorem rest_begin (s : St) (p1 p2 : ℕ) (o : UInt8) (input : Bytes) : rest (s.begin p1 p2 o input) = input := rfl

/-- What the host sees of a run. -/
def seen (r : Option ℕ × St) : Option (ℕ × Bytes) × St :=
  match r with
  | (some sw, s') => (some (sw, s'.resp), s')
  | (none, s') => (none, s')

/-- Start of every command. -/
theorem dispatch_cons (e : Env) (s : St) (ins p1 p2 : ℕ) (o : UInt8) (input : Bytes) :
    dispatch e s ⟨ins, p1, p2, o :: input⟩ = seen ((subDispatch e ins p1).run (s.begin p1 p2 o input)) := by
  unfold dispatch body
  rw [run_bind_some (run_u8 (o := o) (y := input) rfl), run_bind_some (run_modify _ _), run_bind_some (run_get _)]
  rfl

/-- A command without a single byte is refused. -/
theorem dispatch_nil (e : Env) (s : St) (ins p1 p2 : ℕ) : (dispatch e s ⟨ins, p1, p2, []⟩).1 = none := by
  unfold dispatch body fetchU8
  rw [run_bind_none (run_bind_none (fetch_short (s := s.start ⟨ins, p1, p2, []⟩) (by show (0 : ℕ) < 1; decide)) _)]

end Verif.Lite

import Verif.Lemmas.AgentRun
import Verif.Props.Permutation

/-! The host's run up to the outputs: inputs, permutation, closing of the inputs. -/

set_option linter.unusedSectionVars false
set_option linter.unusedSimpArgs false

namespace Verif.Agent
open Verif Verif.Signer Verif.Batches
variable {S P : Type} [CommRing S] [AddCommGroup P] [Module S P] [DecidableEq S] [DecidableEq P]

/-- The message checks of the device always pass. -/
structure Passes (env : Env S P) : Prop where
  msg : ∀ m, m ≠ .malformed → env.msgOk m = true
  resp : ∀ r, env.respOk r = true

/-- The session goes on with builder `b`; `k` messages were sent. -/
def live (b : Builder S P) (k : Nat) : Conn S P := ⟨⟨some b⟩, k⟩

theorem call_live {env : Env S P} (hp : Passes env) {rnd : Nat → Rand S} {b b' : Builder S P} {k : Nat} {m : Msg} {resp : Resp}
    (hi : m.isInit = false) (h : sign env b m (rnd k) = .ok (b', resp)) (hf : ∀ x, resp ≠ .failure x) (ht : b'.state.isTerminal = false) :
    call env rnd (live b k) m = some (resp, live b' (k + 1)) := by
  have hw : wakeUp (live b k).dev m = b := by simp [wakeUp, hi, live]
  have := call_ok hp.msg hp.resp (rnd := rnd) (c := live b k) (m := m) (b' := b') (resp := resp) (by rw [hw]; exact h) hf
  rw [this, ht]
  rfl

/-- The builder after the inputs `ins`, of `b0.inputCount`. -/
def bIn (b0 : Builder S P) (ins : List (In S P)) : Builder S P :=
  { b0 with
    state := { b0.state with s := if ins = [] then .INP_CNT else if ins.length = b0.inputCount then .INPUT_DONE else .INPUT }
    inpIdx := (ins.length : Int) - 1
    sumIn := (ins.map (·.src.amount)).sum
    sumpouts := (ins.map (·.rnd.alpha)).sum
    inputLastAmount := if ins.length = b0.inputCount then (ins.map (·.src.amount)).getLast?.getD 0 else b0.inputLastAmount
    subs := if ins.length = b0.inputCount then none else b0.subs }

/-- What is used of the builder after the init message. -/
structure Start (b0 : Builder S P) (subs : SubTable) : Prop where
  s : b0.state = ⟨.INP_CNT, false⟩
  inpIdx : b0.inpIdx = -1
  outIdx : b0.outIdx = -1
  sumIn : b0.sumIn = 0
  sumpouts : b0.sumpouts = 0
  sumOut : b0.sumOut = 0
  subs : b0.subs = some subs
  some : 0 < b0.inputCount
  small : b0.inputCount ≤ 2 ^ 42
  hmac : b0.keyHmac.length = 32
  enc : b0.keyEnc.length = 32
  useBp : b0.useBp = true
  det : b0.isDetMask = true

theorem bIn_nil {b0 : Builder S P} {subs : SubTable} (h : Start b0 subs) : bIn b0 [] = b0 := by
  have hn : ¬ (0 = b0.inputCount) := by have := h.some; omega
  cases b0
  simp_all [bIn, h.s, h.inpIdx, h.sumIn, h.sumpouts]
  have := h.s; have := h.inpIdx; have := h.sumIn; have := h.sumpouts
  simp_all

theorem inputStep_run {env : Env S P} (hp : Passes env) {cdc : Codec} (hv : ∀ i, cdc.parseVin (dumpVin env (vinOf env i)) = some (vinOf env i)) {rnd : Nat → Rand S}
    {b0 : Builder S P} {subs : SubTable} (hs : Start b0 subs) {pre : List (In S P)} {i : In S P} {k : Nat} (hi : i.rnd = rnd k)
    (hu : (rnd k).uiOk = true) (ho : Owned env subs i) (hn : pre.length < b0.inputCount) :
    inputStep env cdc rnd i.src (live (bIn b0 pre) k) = some (inRec env b0 pre.length i, live (bIn b0 (pre ++ [i])) (k + 1)) := by
  have hne : ¬ pre.length = b0.inputCount := by omega
  have h := setInput_run (env := env) (b := bIn b0 pre) (subs := subs) (i := i) (j := pre.length)
    (by show (if pre = [] then _ else _) = _ ∨ _ = _
        by_cases hp : pre = []
        · left; rw [if_pos hp]
        · right; show (if pre = [] then _ else _) = _; rw [if_neg hp, if_neg hne])
    (by show (pre.length : Int) - 1 + 1 = _; omega) hn (by have := hs.small; omega) hs.hmac hs.enc (by rw [hi]; exact hu)
    (by show (if _ then _ else _) = _; rw [if_neg hne]; exact hs.subs) ho
  have hb : ({ bIn b0 pre with
        state := { (bIn b0 pre).state with s := if pre.length + 1 = (bIn b0 pre).inputCount then .INPUT_DONE else .INPUT },
        inpIdx := pre.length, sumIn := (bIn b0 pre).sumIn + i.src.amount, sumpouts := (bIn b0 pre).sumpouts + i.rnd.alpha,
        inputLastAmount := if pre.length + 1 = (bIn b0 pre).inputCount then i.src.amount else (bIn b0 pre).inputLastAmount,
        subs := if pre.length + 1 = (bIn b0 pre).inputCount then none else (bIn b0 pre).subs } : Builder S P) = bIn b0 (pre ++ [i]) := by
    simp [bIn, hne]
  rw [hb] at h
  unfold inputStep
  rw [call_live hp (m := .setInput i.src) (b := bIn b0 pre) (b' := bIn b0 (pre ++ [i])) rfl (by show setInput env _ _ _ = _; rw [← hi]; exact h)
    (by intro x; simp) (by simp only [bIn, TState.isTerminal]; split <;> [simp; split] <;> simp)]
  show (cdc.parseVin _).map _ = _
  rw [hv]
  rfl

/-- The inputs, in the order of the sources. -/
theorem inputLoop_run {env : Env S P} (hp : Passes env) {cdc : Codec} (hv : ∀ i, cdc.parseVin (dumpVin env (vinOf env i)) = some (vinOf env i)) {rnd : Nat → Rand S}
    {b0 : Builder S P} {subs : SubTable} (hs : Start b0 subs) (hu : ∀ k, (rnd k).uiOk = true) : ∀ (new pre : List (In S P)) (k : Nat),
    (∀ j i, new[j]? = some i → i.rnd = rnd (k + j)) → (∀ i ∈ new, Owned env subs i) → pre.length + new.length ≤ b0.inputCount →
    inputLoop env cdc rnd (new.map (·.src)) (live (bIn b0 pre) k) =
      some (new.mapIdx fun j i => inRec env b0 (pre.length + j) i, live (bIn b0 (pre ++ new)) (k + new.length)) := by
  intro new
  induction new with
  | nil => intro pre k _ _ _; simp [inputLoop]
  | cons i new ih =>
    intro pre k hr ho hl
    rw [List.length_cons] at hl
    rw [List.map_cons, inputLoop, inputStep_run hp hv hs (pre := pre) (k := k) (hr 0 i rfl) (hu k) (ho i (by simp)) (by omega), Option.bind_some,
      ih (pre ++ [i]) (k + 1) (fun j i' h => by rw [hr (j + 1) i' (by simpa using h)]; congr 1; omega)
        (fun i' h => ho i' (by simp [h])) (by simp; omega)]
    simp only [Option.map_some, List.mapIdx_cons, List.length_append, List.length_singleton, List.append_assoc, List.singleton_append,
      List.length_cons, List.length_nil, Nat.zero_add, Nat.add_zero, Nat.add_assoc, Nat.add_comm 1]

/-! ### Permutation -/

/-- The builder after the permutation and the first `k` inputs in the new order, whose bytes are `fed`. -/
def bPerm (b1 : Builder S P) (p : List Nat) (k : Nat) (fed : Bytes) : Builder S P :=
  { b1 with
    state := ⟨if k = 0 then .INPUT_PERM else .INPUT_VINS, false⟩
    perm := p
    inpIdx := (k : Int) - 1
    prefixHasher := b1.prefixHasher.map (· ++ fed) }

theorem permutation_call {env : Env S P} (hp : Passes env) {rnd : Nat → Rand S} {b1 : Builder S P} {k : Nat} (hu : (rnd k).uiOk = true)
    (hs : b1.state = ⟨.INPUT_DONE, false⟩) (p : List Nat) :
    call env rnd (live b1 k) (.permutation p) = some (.permutationAck, live (bPerm b1 p 0 []) (k + 1)) := by
  refine call_live hp rfl ?_ (by intro x; simp) (by simp [bPerm, TState.isTerminal])
  show setPermutation _ _ _ = _
  simp only [setPermutation, bind_ok, pure_ok, ensure_ok, TState.inputPermutation, exists_unit]
  refine ⟨hu, _, ⟨by rw [hs]; rfl, rfl⟩, ?_⟩
  cases h : b1.prefixHasher <;> simp [bPerm, hs, h]
  all_goals (rw [← h])

/-- One input of the permuted list. -/
theorem vini_call {env : Env S P} (hp : Passes env) {rnd : Nat → Rand S} {b1 : Builder S P} {n : Nat} (hu : (rnd n).uiOk = true)
    (hk : b1.keyHmac.length = 32) (hb : b1.useBp = true) {p : List Nat} {k pos : Nat} {fed ph : Bytes} (hph : b1.prefixHasher = some ph)
    (hc : k < b1.inputCount) (hpos : p[k]? = some pos) (h42 : pos < 2 ^ 42) (src : Src) (vini : Bytes) :
    call env rnd (live (bPerm b1 p k fed) n) (.inputVini src vini (viniTag env b1.keyHmac src vini pos)) =
      some (.viniAck, live (bPerm b1 p (k + 1) (fed ++ vini)) (n + 1)) := by
  refine call_live hp rfl ?_ (by intro x; simp) (by simp [bPerm, TState.isTerminal])
  show inputVini _ _ _ _ _ _ = _
  simp only [inputVini, bind_ok, pure_ok, ensure_ok, orFail_ok, TState.inputVins, exists_unit]
  refine ⟨hu, by simp [bPerm]; omega, _, ⟨?_, rfl⟩, pos, ?_, _, hmacVini_ok env hk _ _ h42, by simp, ph ++ fed, ?_, hb, ?_⟩
  · by_cases h0 : k = 0 <;> simp [bPerm, h0]
  · simp [bPerm, hpos]
  · simp [bPerm, hph]
  · simp [bPerm, hph]

/-- The permuted inputs; `rs[j]` was input number `q j`. -/
theorem viniLoop_run {env : Env S P} (hp : Passes env) {rnd : Nat → Rand S} (hu : ∀ k, (rnd k).uiOk = true) {b1 : Builder S P}
    (hk : b1.keyHmac.length = 32) (hb : b1.useBp = true) {p : List Nat} {ph : Bytes} (hph : b1.prefixHasher = some ph)
    (h42 : ∀ x ∈ p, x < 2 ^ 42) : ∀ (rs : List InRec) (k n : Nat) (fed : Bytes), k + rs.length ≤ b1.inputCount →
    (∀ j r, rs[j]? = some r → ∃ pos, p[k + j]? = some pos ∧ r.hmac = viniTag env b1.keyHmac r.src (dumpVin env r.vin) pos) →
    viniLoop env rnd rs (live (bPerm b1 p k fed) n) =
      some (live (bPerm b1 p (k + rs.length) (fed ++ (rs.map fun r => dumpVin env r.vin).flatten)) (n + rs.length)) := by
  intro rs
  induction rs with
  | nil => intro k n fed _ _; simp [viniLoop]
  | cons r rs ih =>
    intro k n fed hl h
    rw [List.length_cons] at hl
    obtain ⟨pos, h1, h2⟩ := h 0 r rfl
    rw [Nat.add_zero] at h1
    rw [viniLoop, h2, vini_call hp (hu n) hk hb hph (by omega) h1 (h42 pos (List.mem_of_getElem? h1)), Option.bind_some,
      ih (k + 1) (n + 1) _ (by omega) (fun j r' hj => by
        obtain ⟨pos, a, b⟩ := h (j + 1) r' (by simpa using hj)
        exact ⟨pos, by rw [← a]; congr 1; omega, b⟩)]
    simp only [List.length_cons, List.map_cons, List.flatten_cons, List.append_assoc, Nat.add_assoc, Nat.add_comm 1]

/-- The builder when the outputs begin. -/
def bOut0 (b1 : Builder S P) (p : List Nat) (n : Nat) (fed : Bytes) : Builder S P :=
  { bPerm b1 p n fed with state := ⟨.INPUT_ALL_DONE, false⟩, sumout := 0 }

theorem allIn_call {env : Env S P} (hp : Passes env) {rnd : Nat → Rand S} {b1 : Builder S P} {p : List Nat} {n k : Nat} {fed : Bytes}
    (hu : (rnd k).uiOk = true) (hn : 0 < n) (hd : b1.isDetMask = true) :
    call env rnd (live (bPerm b1 p n fed) k) .allInputsSet = some (.allInputsAck [], live (bOut0 b1 p n fed) (k + 1)) := by
  refine call_live hp rfl ?_ (by intro x; simp) (by simp [bOut0, TState.isTerminal])
  show allInSet _ _ _ = _
  simp only [allInSet, bind_ok, pure_ok, ensure_ok, TState.inputAllDone, exists_unit]
  refine ⟨_, ⟨by simp [bPerm]; omega, rfl⟩, hu, ?_⟩
  change (if b1.isDetMask = true then _ else _) = _
  rw [if_pos hd]
  rfl

end Verif.Agent

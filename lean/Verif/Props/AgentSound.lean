import Verif.Lemmas.AgentTotal

/-! C74: whatever is asked, what the host gets is a correctly signed transaction for the request. -/

namespace Verif.Agent
open Verif Verif.Signer
variable {S P : Type} [CommRing S] [AddCommGroup P] [Module S P] [DecidableEq S] [DecidableEq P]

omit [CommRing S] [AddCommGroup P] [Module S P] [DecidableEq S] [DecidableEq P] in
theorem changeOk_of_check {env : Env S P} {d : TxData} (h : checkChange d.dsts (some d.change) (env.primaryAddr d.account) = .ok ()) : ChangeOk env d := by
  unfold checkChange at h
  dsimp only at h
  split at h
  · rename_i hc
    simp only [Bool.and_eq_true, beq_iff_eq] at hc
    exact .inl ⟨hc.1.2, hc.2⟩
  · simp only [bind_ok, ensure_ok, exists_unit] at h
    obtain ⟨x, hx, he⟩ := List.any_eq_true.1 h.1
    exact .inr ⟨⟨x, hx, (addrEq_iff _ _).1 he⟩, (addrEq_iff _ _).1 h.2⟩

/-- C74. If the host obtains a transaction for a request, honest or not, then the user confirmed it, the change goes to the wallet's own address (or
there is none), the device has forgotten the session, and the transaction is correctly signed for the request. -/
theorem C74_result_is_right_partial {env : Env S P} {cdc : Codec} {cfg : Config} {d : TxData} (hl : Lawful env cdc) (hfit : Fits cfg d)
    {rnd : Nat → Rand S} {hrnd : Nat → Bytes} {c c' : Conn S P} {tx : Tx} (hrun : signTransaction env cfg cdc rnd hrnd d c = some (tx, c')) :
    (rnd c.n).confirm = true ∧ ChangeOk env d ∧ c'.dev.saved = none ∧
    ∃ ins outs groups nonce txKey addKeys, TxOk env cfg d tx ins outs groups nonce txKey addKeys := by
  have hrun' := run_total (tx.mgs.flatten ++ [0]) hrun
  have hl' := hl.total (tx.mgs.flatten ++ [0])
  obtain ⟨hready, hconf⟩ := ready_of_run hl' hfit.version hfit.hf hfit.fewSources hfit.fewDsts hfit.amounts (fun _ _ _ _ _ _ _ _ => rfl) hrun'
  obtain ⟨tx', k, ins, os, groups, s0, grp, R, pid, ex, b0, _, h1, _, h2, _⟩ :=
    run_all (rnd := fun k => patient (rnd k)) hl' hrnd hready ⟨hconf, fun _ => rfl⟩
  rw [h1] at hrun'
  simp only [Option.some.injEq, Prod.mk.injEq] at hrun'
  obtain ⟨rfl, rfl⟩ := hrun'
  exact ⟨hconf, changeOk_of_check hready.change, rfl, ins, _, groups, ex, R, _, h2.real long_not_mem⟩

/-- C74. And the owners of its destinations find their outputs. -/
theorem C74_recipients_find_outputs_partial {env : Env S P} {cdc : Codec} {cfg : Config} {d : TxData} (hl : Lawful env cdc) (hfit : Fits cfg d)
    (hsub : ∀ x ∈ d.dsts, ∀ y ∈ d.dsts, x.addr = y.addr → x.isSub = y.isSub) {rnd : Nat → Rand S} {hrnd : Nat → Bytes} {c c' : Conn S P} {tx : Tx}
    (hrun : signTransaction env cfg cdc rnd hrnd d c = some (tx, c')) :
    ∃ ins outs groups nonce txKey addKeys, TxOk env cfg d tx ins outs groups nonce txKey addKeys ∧
      ∀ j o, outs[j]? = some o → ∀ D v, Owner env o.dst D v → (o.dst.addr = d.change.addr → v = env.viewPriv) →
        ∃ R, (R = txKey ∨ addKeys[j]? = some R) ∧ Finds env cfg D v R j o := by
  have hrun' := run_total (tx.mgs.flatten ++ [0]) hrun
  have hl' := hl.total (tx.mgs.flatten ++ [0])
  obtain ⟨hready, hconf⟩ := ready_of_run hl' hfit.version hfit.hf hfit.fewSources hfit.fewDsts hfit.amounts (fun _ _ _ _ _ _ _ _ => rfl) hrun'
  obtain ⟨ins, outs, groups, nonce, txKey, addKeys, h1, h2⟩ :=
    run_finds (rnd := fun k => patient (rnd k)) hl' hsub hready ⟨hconf, fun _ => rfl⟩ hrun'
  refine ⟨ins, outs, groups, nonce, txKey, addKeys, h1.real long_not_mem, ?_⟩
  intro j o ho D v hown hch
  obtain ⟨R, hR, hf⟩ := h2 j o ho D v ⟨hown.spend, hown.view⟩ hch
  exact ⟨R, hR, hf.key, hf.mask, hf.amount⟩

/-- C74. No transaction comes out if one of the sources is not the wallet's: no secret opens its one-time key and commitment with its key image. -/
theorem C74_foreign_source_refused {env : Env S P} {cdc : Codec} {cfg : Config} {d : TxData} (hl : Lawful env cdc) (hfit : Fits cfg d)
    {src : Src} (hs : src ∈ d.sources) (hno : ∀ x ki, ¬ Owns env (tableOf env d) src x ki) (rnd : Nat → Rand S) (hrnd : Nat → Bytes) (c : Conn S P) :
    signTransaction env cfg cdc rnd hrnd d c = none := by
  rw [Option.eq_none_iff_forall_not_mem]
  rintro ⟨tx, c'⟩ hrun
  obtain ⟨_, _, _, ins, outs, groups, nonce, txKey, addKeys, h⟩ := C74_result_is_right_partial hl hfit hrun
  have := (h.sources.mem_iff (a := src)).2 hs
  obtain ⟨i, hi, rfl⟩ := List.mem_map.1 this
  exact hno _ _ (h.mine i hi)

/-- C74. No transaction comes out if the change goes to a foreign address. -/
theorem C74_foreign_change_refused {env : Env S P} {cdc : Codec} {cfg : Config} {d : TxData} (hl : Lawful env cdc) (hfit : Fits cfg d)
    (hch : env.primaryAddr d.account ≠ d.change.addr) (hz : d.change.amount ≠ 0 ∨ d.dsts.length ≠ 2) (rnd : Nat → Rand S) (hrnd : Nat → Bytes)
    (c : Conn S P) : signTransaction env cfg cdc rnd hrnd d c = none := by
  rw [Option.eq_none_iff_forall_not_mem]
  rintro ⟨tx, c'⟩ hrun
  rcases (C74_result_is_right_partial hl hfit hrun).2.1 with ⟨h1, h2⟩ | ⟨_, h⟩
  · rcases hz with h | h
    · exact h h1
    · exact h h2
  · exact hch h

/-- The request of C72's example fits, is signed, and so is right. -/
example (c : Conn Demo.F Demo.F) (hrnd : Nat → Bytes) : Fits ⟨10, 1⟩ Demo.request ∧ ∃ tx c',
    signTransaction Demo.parts ⟨10, 1⟩ Demo.codec (fun _ => Demo.draws) hrnd Demo.request c = some (tx, c') := by
  have hh := Demo.honest 10 (by omega)
  obtain ⟨tx, k, _, _, _, _, _, _, _, _, _, _, h, _⟩ := run_all Demo.lawful hrnd (rnd := fun _ => Demo.draws) (c := c) (hh.ready _) ⟨rfl, fun _ => rfl⟩
  exact ⟨⟨hh.version, hh.hf, hh.fewSources, hh.fewDsts, hh.amounts⟩, tx, _, h⟩

namespace Demo

/-- One source, a payee and change; a fee of 3. -/
def small : TxData := { request with sources := [source 10 4], dsts := [payee 3, own 4], change := own 4 }

/-- What the source of `small` looks like in a transaction. -/
def smallVin : Vin := ⟨0, enc 4, Offsets.toRelative [8, 5]⟩

/-- Parsers that know only that input. -/
def codec' : Codec := ⟨fun _ => some smallVin, fun b => some ⟨0, b.drop 2⟩⟩

theorem inputLoop_codec (c : Conn F F) : inputLoop parts codec (fun _ => draws) small.sources c = inputLoop parts codec' (fun _ => draws) small.sources c := by
  have h : inputStep parts codec (fun _ => draws) (source 10 4) c = inputStep parts codec' (fun _ => draws) (source 10 4) c := by
    unfold inputStep
    refine Option.bind_congr ?_
    rintro ⟨r, c1⟩ hr
    dsimp only
    split
    · rename_i vini _ _ _ _ _
      obtain ⟨b', h1, _⟩ := call_some hr
      obtain ⟨_, _, real, outKey, _, _, _, xi, ki, _, _, _, _, g1, g2, _, _, _, g6, _, _, _, _, _, g12⟩ := setInput_eff h1
      cases g1
      have hk : outKey = 4 := by
        have : dec (enc 4) = some outKey := g2
        rw [dec_enc] at this
        exact (Option.some.inj this).symm
      subst hk
      have hki : (some ((4 : F), (4 : F))) = some (xi, ki) := g6
      simp only [Option.some.injEq, Prod.mk.injEq] at hki
      obtain ⟨_, rfl⟩ := hki
      simp only [Resp.inputAck.injEq] at g12
      rw [show vini = dumpVin parts smallVin from g12.1, lawful.vin smallVin rfl (Offsets.C32_nonneg _ (by decide)).1]
      rfl
    · rfl
  show (inputLoop _ _ _ [source 10 4] _) = inputLoop _ _ _ [source 10 4] _
  rw [inputLoop, inputLoop, h]
  rfl

/-- Signing with another way to permute the inputs. -/
def signWith (cfg : Config) (cdc : Codec) (d : TxData) (perm : List InRec → Conn F F → Option (List InRec × Conn F F)) (c : Conn F F) :
    Option (Tx × Conn F F) :=
  (tsxData cfg d).bind fun tsx =>
  (initStep parts (fun _ => draws) tsx c).bind fun r0 =>
  (inputLoop parts cdc (fun _ => draws) d.sources r0.2).bind fun r1 =>
  (perm r1.1 r1.2).bind fun r2 =>
  (viniLoop parts (fun _ => draws) r2.1 r2.2).bind fun c3 =>
  (allInStep parts cfg (fun _ => draws) r0.1.2 d.dsts.length c3).bind fun r4 =>
  (outputLoop parts cfg cdc d (fun _ => draws) (fun _ => []) tsx.grouping r0.1.2 r0.1.1 0 d.dsts { gamma := r4.1 } r4.2).bind fun r5 =>
  (allOutStep parts d (fun _ => draws) r2.1 r5.1 r5.2).bind fun r6 =>
  (signLoop parts cfg (fun _ => draws) r2.1 r6.2).bind fun r7 =>
  (call parts (fun _ => draws) r7.2 .final).map fun r8 =>
    ({ r6.1 with pseudoOuts := r7.1.map (·.1), mgs := r7.1.map (·.2) }, r8.2)

/-- A single input stays where it is. -/
def stay (ins : List InRec) (c : Conn F F) : Option (List InRec × Conn F F) :=
  (call parts (fun _ => draws) c (.permutation [0])).map fun r => (ins, r.2)

theorem permStep_one (i : InRec) (c : Conn F F) : permStep parts (fun _ => draws) [i] c = stay [i] c := by
  have : Common.sortPermutation [i.vin.ki] = [0] := by simp [Common.sortPermutation]
  unfold permStep stay
  simp only [List.map_cons, List.map_nil, this]
  rfl

theorem signWith_stay (cfg : Config) (c : Conn F F) :
    signTransaction parts cfg codec (fun _ => draws) (fun _ => []) small c = signWith cfg codec' small stay c := by
  rw [signTransaction_eq]
  unfold signWith
  refine Option.bind_congr fun tsx _ => Option.bind_congr fun r0 _ => ?_
  rw [inputLoop_codec]
  refine Option.bind_congr fun r1 h1 => ?_
  have : ∃ i, r1.1 = [i] := by
    have h1 : inputLoop parts codec' (fun _ => draws) [source 10 4] r0.2 = some r1 := h1
    simp only [inputLoop, Option.bind_eq_some_iff, Option.map_eq_some_iff] at h1
    obtain ⟨x, _, y, hy, rfl⟩ := h1
    cases hy
    exact ⟨_, rfl⟩
  obtain ⟨i, hi⟩ := this
  rw [hi, permStep_one]
  rfl

theorem version_zero_run : ((signWith ⟨10, 0⟩ codec' small stay ⟨{}, 0⟩).map fun x => (x.1.pseudoOuts, x.1.rv.outPk, x.1.rv.txnFee)) =
    some ([enc 5], [enc 3, enc 6], 3) := by decide +kernel

end Demo

/-- C74 is false for a client of version 0 on hard fork 10: the host ignores the corrected pseudo output that comes with the signature, and the
transaction it builds creates money or burns it. Everything else about the request and the device is as it should be. -/
theorem C74_false_version_zero : ∃ tx c', Lawful Demo.parts Demo.codec ∧ Honest Demo.parts ⟨10, 1⟩ Demo.small ∧ Agrees (fun _ => Demo.draws) 0 ∧
    signTransaction Demo.parts ⟨10, 0⟩ Demo.codec (fun _ => Demo.draws) (fun _ => []) Demo.small ⟨{}, 0⟩ = some (tx, c') ∧
    (∃ p q₁ q₂ : Demo.F, tx.pseudoOuts = [Demo.enc p] ∧ tx.rv.outPk = [Demo.enc q₁, Demo.enc q₂] ∧
      p ≠ q₁ + q₂ + (tx.rv.txnFee : Demo.F) • Demo.parts.H) ∧
    ∀ ins outs groups nonce txKey addKeys, ¬ TxOk Demo.parts ⟨10, 0⟩ Demo.small tx ins outs groups nonce txKey addKeys := by
  obtain ⟨⟨tx, c'⟩, h1, h2⟩ := Option.map_eq_some_iff.1 Demo.version_zero_run
  simp only [Prod.mk.injEq] at h2
  obtain ⟨e1, e2, e3⟩ := h2
  refine ⟨tx, c', Demo.lawful, ?_, ⟨rfl, fun _ => rfl⟩, ?_, ⟨5, 3, 6, e1, e2, by rw [e3]; decide +kernel⟩, ?_⟩
  · have hh := Demo.honest 10 (by omega)
    exact
      { version := Nat.le_refl 1
        hf := by decide
        useBp := rfl
        sources := by decide
        dsts := by decide
        fewSources := by decide
        fewDsts := by decide
        enough := by decide
        amounts := by decide
        mine := by
          intro src hs
          have : src = Demo.source 10 4 := by simpa [Demo.small] using hs
          subst this
          exact ⟨_, _, Demo.source_mine 10 4 _⟩
        addrs := by
          intro dst hd
          have : dst = Demo.payee 3 ∨ dst = Demo.own 4 := by simpa [Demo.small] using hd
          rcases this with rfl | rfl
          · exact ⟨⟨_, (Demo.owner_payee 3).spend⟩, ⟨_, (Demo.owner_payee 3).view⟩, by decide⟩
          · exact ⟨⟨_, (Demo.owner_own 4).spend⟩, ⟨_, (Demo.owner_own 4).view⟩, by decide⟩
        change := .inr ⟨⟨Demo.own 4, by simp [Demo.small], rfl⟩, rfl⟩
        paymentId := .inr (.inl ⟨rfl, Demo.payee 3, by simp [Demo.small], by decide, by decide⟩) }
  · rw [Demo.signWith_stay]
    exact h1
  · intro ins outs groups nonce txKey addKeys h
    have hp := h.pseudo
    have hc := h.commitments
    have hb := h.balance
    rw [e1] at hp
    rw [e2] at hc
    rw [e3] at hb
    have inj : ∀ x y : Demo.F, Demo.enc x = Demo.enc y → x = y := by decide +kernel
    clear h e1 e2 e3 h1
    cases ins with
    | nil => cases hp
    | cons i ins =>
    cases ins with
    | cons _ _ => simp at hp
    | nil =>
    cases outs with
    | nil => cases hc
    | cons o₁ outs =>
    cases outs with
    | nil => simp at hc
    | cons o₂ outs =>
    cases outs with
    | cons _ _ => simp at hc
    | nil =>
      simp only [List.map_cons, List.map_nil, List.cons.injEq, and_true] at hp hc
      simp only [List.map_cons, List.map_nil, List.sum_cons, List.sum_nil, add_zero] at hb
      rw [← inj _ _ hp, ← inj _ _ hc.1, ← inj _ _ hc.2] at hb
      revert hb
      decide +kernel

end Verif.Agent

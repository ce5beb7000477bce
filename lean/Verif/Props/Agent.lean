import Verif.Lemmas.AgentFind
import Verif.Lemmas.AgentDemo

/-! C72, C73: signing an honest request succeeds, and its recipients find what they were sent. -/

namespace Verif.Agent
open Verif Verif.Signer
variable {S P : Type} [CommRing S] [AddCommGroup P] [Module S P] [DecidableEq S] [DecidableEq P]

/-- C72. If the request is honest, the external parts work and the user agrees, the host obtains a transaction, whatever the device draws and
whatever state it was in; the transaction is correctly signed for the request; the device has forgotten the session. -/
theorem C72_honest_signing_completes {env : Env S P} {cdc : Codec} {cfg : Config} {d : TxData} (hl : Lawful env cdc) (hh : Honest env cfg d)
    (rnd : Nat → Rand S) (hrnd : Nat → Bytes) (c : Conn S P) (ha : Agrees rnd c.n) :
    ∃ tx c' ins outs groups nonce txKey addKeys, signTransaction env cfg cdc rnd hrnd d c = some (tx, c') ∧ c'.dev.saved = none ∧
      TxOk env cfg d tx ins outs groups nonce txKey addKeys := by
  obtain ⟨tx, k, ins, os, groups, s0, grp, R, pid, ex, b0, _, h1, _, h2, _⟩ := run_all hl hrnd (hh.ready _) ha
  exact ⟨tx, _, ins, _, groups, ex, R, _, h1, rfl, h2⟩

/-- Two sources, a standard payee, a subaddress payee and change, on both hard forks: such a request is signed. -/
example (hf : Nat) (h : 9 ≤ hf) (c : Conn Demo.F Demo.F) (hrnd : Nat → Bytes) : ∃ tx c',
    signTransaction Demo.parts ⟨hf, 1⟩ Demo.codec (fun _ => Demo.draws) hrnd Demo.request c = some (tx, c') := by
  obtain ⟨tx, c', _, _, _, _, _, _, h, _⟩ := C72_honest_signing_completes Demo.lawful (Demo.honest hf h) (fun _ => Demo.draws) hrnd c ⟨rfl, fun _ => rfl⟩
  exact ⟨tx, c', h⟩

/-- C73. The owner of every destination finds their output with the transaction key, or with the additional key at the place of the output. The owner of
the change address is the wallet itself. -/
theorem C73_recipients_find_outputs {env : Env S P} {cdc : Codec} {cfg : Config} {d : TxData} (hl : Lawful env cdc) (hh : Honest env cfg d)
    (hsub : ∀ x ∈ d.dsts, ∀ y ∈ d.dsts, x.addr = y.addr → x.isSub = y.isSub) {rnd : Nat → Rand S} {hrnd : Nat → Bytes} {c c' : Conn S P} {tx : Tx}
    (ha : Agrees rnd c.n) (hrun : signTransaction env cfg cdc rnd hrnd d c = some (tx, c')) :
    ∃ ins outs groups nonce txKey addKeys, TxOk env cfg d tx ins outs groups nonce txKey addKeys ∧
      ∀ j o, outs[j]? = some o → ∀ D v, Owner env o.dst D v → (o.dst.addr = d.change.addr → v = env.viewPriv) →
        ∃ R, (R = txKey ∨ addKeys[j]? = some R) ∧ Finds env cfg D v R j o :=
  run_finds hl hsub (hh.ready _) ha hrun

/-- The three owners of the outputs of that request. -/
example : (∀ x ∈ Demo.request.dsts, ∀ y ∈ Demo.request.dsts, x.addr = y.addr → x.isSub = y.isSub) ∧ Owner Demo.parts (Demo.payee 7) 4 2 ∧
    Owner Demo.parts (Demo.subPayee 9) 3 6 ∧ Owner Demo.parts (Demo.own 10) 5 5 := by
  exact ⟨by decide, Demo.owner_payee 7, Demo.owner_sub 9, Demo.owner_own 10⟩

/-- C73 needs the declared change address to be the wallet's own. The device does not check the address of a change of amount zero when there are two
outputs; if it is the address of a payee, the payee does not find the output. -/
theorem C73_false_if_change_is_not_own : ∃ (d : TxData) (rnd : Nat → Rand Demo.F) (dst : Dst) (D v : Demo.F), Lawful Demo.parts Demo.codec ∧
    Honest Demo.parts ⟨10, 1⟩ d ∧ Agrees rnd 0 ∧ Pays ⟨d.sources, d.dsts, Demo.own 0, d.paymentId, d.unlockTime, d.account, d.indices, d.useBp⟩ dst ∧
    Owner Demo.parts dst D v ∧ ∃ tx c' ins outs groups nonce txKey addKeys,
      signTransaction Demo.parts ⟨10, 1⟩ Demo.codec rnd (fun _ => []) d ⟨{}, 0⟩ = some (tx, c') ∧
      TxOk Demo.parts ⟨10, 1⟩ d tx ins outs groups nonce txKey addKeys ∧ addKeys = [] ∧
      ∃ o, outs[0]? = some o ∧ o.dst = dst ∧ ¬ Finds Demo.parts ⟨10, 1⟩ D v txKey 0 o := by
  refine ⟨Demo.misdirected, fun _ => Demo.draws, Demo.payee 7, 4, 2, Demo.lawful, Demo.honest_misdirected, Demo.agrees,
    ⟨by simp [Demo.misdirected], by decide, by decide⟩, Demo.owner_payee 7, ?_⟩
  obtain ⟨tx, k, ins, os, groups, s0, grp, R, pid, ex, b0, hb0, h1, hR, h2, hv2, _, hok⟩ :=
    run_all Demo.lawful (fun _ => []) (c := ⟨{}, 0⟩) (Demo.honest_misdirected.ready _) Demo.agrees
  have hna : b0.needAdd = false := by rw [← hb0]; rfl
  have hRe : R = 2 := by
    have : txPubKey Demo.parts (classify Demo.misdirected.dsts (some Demo.misdirected.change.addr)) Demo.draws.r = some (2 : Demo.F) := by
      decide +kernel
    exact Option.some.inj (hR.symm.trans this)
  refine ⟨tx, _, ins, _, groups, ex, R, _, h1, h2, by rw [hna]; rfl, ?_⟩
  have hd : (os.map OutV.made).map (·.dst) = [Demo.payee 7, Demo.own 20] := h2.dests
  cases os with
  | nil => simp at hd
  | cons o os =>
    simp only [List.map_cons, List.cons.injEq] at hd
    refine ⟨o.made, rfl, hd.1, ?_⟩
    obtain ⟨n, hok⟩ := hok 0 o rfl
    obtain ⟨sp, q, k1, k2, k3, k4, k5⟩ := hok.keys
    have hdst : o.dst = Demo.payee 7 := hd.1
    have hq : q = (3 : Demo.F) := by
      rw [s6Derivation, show b0.changeAddr = some (Demo.payee 0).addr by rw [← hb0]; rfl, show b0.rPub = R by rw [← hb0]; rfl, hRe, hdst] at k2
      have e : (some (derivation (2 : Demo.F) Demo.parts.viewPriv) : Option Demo.F) = some q := k2
      rw [← Option.some.inj e]
      decide +kernel
    have hsp : sp = (4 : Demo.F) := by
      rw [hdst] at k1
      exact (Option.some.inj ((Demo.owner_payee 7).spend.symm.trans k1)).symm
    intro hf
    have hk := hf.key
    rw [show o.made.key = o.key from rfl, k4, k3, hq, hsp, hRe] at hk
    revert hk
    decide +kernel

/-- If every address paid is the same subaddress, the destinations are classified as that one subaddress. -/
theorem classify_single (ch A : Addr) : ∀ (ds : List Dst) (seen : List Addr) (std sub : Nat) (single : Option Addr),
    (∀ x ∈ ds, x.addr ≠ ch → x.addr = A ∧ x.isSub = true) →
      (classifyAux (some ch) ds seen std sub single).1 = std ∧
      (classifyAux (some ch) ds seen std sub single).2.1 ≤ sub + (if A ∈ seen then 0 else 1) := by
  intro ds
  induction ds with
  | nil => intro seen std sub single _; simp [classifyAux]
  | cons d ds ih =>
    intro seen std sub single h
    have h' : ∀ x ∈ ds, x.addr ≠ ch → x.addr = A ∧ x.isSub = true := fun x hx => h x (by simp [hx])
    unfold classifyAux
    dsimp only
    split
    · exact ih seen std sub single h'
    · rename_i hc
      obtain ⟨e1, e2⟩ := h d (by simp) (fun e => hc ((addrEq_iff _ _).2 e.symm))
      split
      · exact ih seen std sub single h'
      · rename_i hs
        obtain ⟨i1, i2⟩ := ih (d.addr :: seen) std (sub + 1) (some d.addr) h'
        refine ⟨i1, ?_⟩
        have hs' : A ∉ seen := by rw [← e1]; simpa using hs
        rw [if_pos (by rw [e1]; simp)] at i2
        rw [if_neg hs']
        exact i2

theorem xor_twice : ∀ (a b : Bytes), a.length ≤ b.length → List.zipWith (· ^^^ ·) (List.zipWith (· ^^^ ·) a b) b = a := by
  intro a
  induction a with
  | nil => intro b _; simp
  | cons x a ih =>
    intro b h
    cases b with
    | nil => simp at h
    | cons y b => simp only [List.zipWith_cons_cons, ih b (by simpa using h), UInt8.xor_assoc, UInt8.xor_self, UInt8.xor_zero]

/-- C73. A short payment id reaches the one address that is paid: its owner decrypts it with the transaction key. -/
theorem C73_short_payment_id {env : Env S P} {cdc : Codec} {cfg : Config} {d : TxData} (hl : Lawful env cdc) (hh : Honest env cfg d)
    (hid : d.paymentId.length = 8) {dst : Dst} (hd : Pays d dst)
    (hsub : ∀ x ∈ d.dsts, ∀ y ∈ d.dsts, x.addr = y.addr → x.isSub = y.isSub) (honly : ∀ x ∈ d.dsts, x.addr ≠ d.change.addr → x.addr = dst.addr)
    {D : P} {v : S} (how : Owner env dst D v)
    {rnd : Nat → Rand S} {hrnd : Nat → Bytes} {c c' : Conn S P} {tx : Tx} (ha : Agrees rnd c.n)
    (hrun : signTransaction env cfg cdc rnd hrnd d c = some (tx, c')) :
    ∃ ins outs groups hidden txKey addKeys, TxOk env cfg d tx ins outs groups ([2, 9, 1] ++ hidden) txKey addKeys ∧
      List.zipWith (· ^^^ ·) hidden (env.keccak (env.ptEnc ((8 : S) • v • txKey) ++ [0x8D])) = d.paymentId := by
  obtain ⟨tx', k, ins, os, groups, s0, grp, R, pid, ex, b0, hb0, h1, hR, h2, hv2, hpid, hok⟩ := run_all hl hrnd (hh.ready _) ha
  obtain ⟨rfl, -⟩ : tx' = tx ∧ _ := by rw [h1] at hrun; simpa using hrun
  rw [paymentId_short hh (tsxOf cfg d s0 grp) rfl rfl (rnd c.n).r [] hid hd how.view] at hpid
  simp only [Option.some.injEq, Prod.mk.injEq] at hpid
  obtain ⟨-, rfl⟩ := hpid
  refine ⟨ins, _, groups, _, R, _, h2, ?_⟩
  have hne : d.change.addr ≠ dst.addr := fun e => hd.2.2 e.symm
  have hq : derivation (if dst.isSub then v • D else v • env.G) (rnd c.n).r = (8 : S) • v • R := by
    obtain ⟨m1, m2⟩ := classify_member d.change.addr d.dsts [] 0 0 none hsub dst hd.1 hne
    simp only [List.not_mem_nil, false_or, Nat.zero_add] at m1 m2
    cases hsb : dst.isSub with
    | false =>
      have hstd : 0 < (classify d.dsts (some d.change.addr)).1 := m1 hsb
      have hRG : R = (rnd c.n).r • env.G := by
        rw [txPubKey, if_neg (by omega)] at hR
        simpa using hR.symm
      rw [hRG, smul_comm v]
      rfl
    | true =>
      obtain ⟨s1, s2⟩ := m2 hsb
      obtain ⟨t1, t2⟩ := classify_single d.change.addr dst.addr d.dsts [] 0 0 none
        (fun x hx hxc => ⟨honly x hx hxc, by rw [hsub x hx dst hd.1 (honly x hx hxc), hsb]⟩)
      simp only [List.not_mem_nil, if_false, Nat.zero_add] at t2
      have hs0 : (classify d.dsts (some d.change.addr)).1 = 0 ∧ (classify d.dsts (some d.change.addr)).2.1 = 1 :=
        ⟨t1, Nat.le_antisymm t2 s1⟩
      have hRD : R = (rnd c.n).r • D := by
        have e3 : (classify d.dsts (some d.change.addr)).2.2 = some dst.addr := s2 hs0.2
        rw [txPubKey, if_pos hs0, e3, Option.bind_some, how.spend, Option.map_some] at hR
        simpa using hR.symm
      rw [hRD, smul_comm v]
      rfl
  rw [encryptPaymentId, hq]
  exact xor_twice _ _ (by rw [hl.hashLen, hid]; omega)

/-- A request with a short payment id that pays one subaddress. -/
example (pid : Bytes) (h : pid.length = 8) : Honest Demo.parts ⟨10, 1⟩ (Demo.withId pid) ∧ Pays (Demo.withId pid) (Demo.subPayee 9) ∧
    (∀ x ∈ (Demo.withId pid).dsts, ∀ y ∈ (Demo.withId pid).dsts, x.addr = y.addr → x.isSub = y.isSub) ∧
    (∀ x ∈ (Demo.withId pid).dsts, x.addr ≠ (Demo.withId pid).change.addr → x.addr = (Demo.subPayee 9).addr) ∧
    Owner Demo.parts (Demo.subPayee 9) 3 6 :=
  ⟨Demo.honest_withId pid (.inl h), ⟨by simp [Demo.withId], by decide, by simp [Demo.withId]; decide⟩, by simp [Demo.withId]; decide,
    by simp [Demo.withId], Demo.owner_sub 9⟩

/-- C73. A long payment id is sent as it is. -/
theorem C73_long_payment_id {env : Env S P} {cdc : Codec} {cfg : Config} {d : TxData} (hl : Lawful env cdc) (hh : Honest env cfg d)
    (hid : d.paymentId.length = 32) {rnd : Nat → Rand S} {hrnd : Nat → Bytes} {c c' : Conn S P} {tx : Tx} (ha : Agrees rnd c.n)
    (hrun : signTransaction env cfg cdc rnd hrnd d c = some (tx, c')) :
    ∃ ins outs groups txKey addKeys, TxOk env cfg d tx ins outs groups ([2, 33, 0] ++ d.paymentId) txKey addKeys := by
  obtain ⟨tx', k, ins, os, groups, s0, grp, R, pid, ex, b0, hb0, h1, hR, h2, hv2, hpid, hok⟩ := run_all hl hrnd (hh.ready _) ha
  obtain ⟨rfl, -⟩ : tx' = tx ∧ _ := by rw [h1] at hrun; simpa using hrun
  rw [paymentId_long (tsxOf cfg d s0 grp) rfl (rnd c.n).r [] hid] at hpid
  simp only [Option.some.injEq, Prod.mk.injEq] at hpid
  obtain ⟨-, rfl⟩ := hpid
  exact ⟨ins, _, groups, R, _, h2⟩

example (pid : Bytes) (h : pid.length = 32) : Honest Demo.parts ⟨10, 1⟩ (Demo.withId pid) := Demo.honest_withId pid (.inr h)

end Verif.Agent

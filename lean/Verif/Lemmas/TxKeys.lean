import Verif.Lemmas.AgentTotal
import Verif.Spec.TxKeys

namespace Verif.TxKeys
open Verif Verif.Signer Verif.Agent

variable {S P : Type} [CommRing S] [AddCommGroup P] [Module S P] [DecidableEq S] [DecidableEq P]

theorem flat_len (ms : List Bytes) (h : ∀ m ∈ ms, m.length = 32) : ms.flatten.length = ms.length * 32 := by
  induction ms with
  | nil => rfl
  | cons m ms ih =>
    rw [List.flatten_cons, List.length_append, ih fun x hx => h x (List.mem_cons_of_mem _ hx), h m List.mem_cons_self, List.length_cons]
    omega

theorem piece_eq (ms : List Bytes) (h : ∀ m ∈ ms, m.length = 32) : ∀ i (hi : i < ms.length), (ms.flatten.drop (i * 32)).take 32 = ms[i] := by
  induction ms with
  | nil => intro i hi; simp at hi
  | cons m ms ih =>
    intro i hi
    have hm := h m List.mem_cons_self
    cases i with
    | zero => rw [List.flatten_cons, Nat.zero_mul, List.drop_zero, ← hm, List.take_left]; rfl
    | succ i =>
      rw [List.flatten_cons, show (i + 1) * 32 = m.length + i * 32 by omega, ← List.drop_drop, List.drop_left]
      exact ih (fun x hx => h x (List.mem_cons_of_mem _ hx)) i (Nat.lt_of_succ_lt_succ hi)

theorem pieces_flatten (ms : List Bytes) (h : ∀ m ∈ ms, m.length = 32) : pieces ms.flatten = ms := by
  unfold pieces
  rw [flat_len ms h, Nat.mul_div_cancel _ (by decide)]
  apply List.ext_getElem
  · simp
  · intro i h1 h2
    simp only [List.getElem_map, List.getElem_range]
    exact piece_eq ms h i h2

omit [DecidableEq S] [DecidableEq P] in
theorem getIntern_of {env : Env S P} {ph : Bytes} {reason : Nat} {ack : Ack} {ms : List Bytes} {view : S} (hm : ∀ m ∈ ms, m.length = 32)
    (h : env.decPack (env.mac ack.salt (env.keccak2 (env.scEnc view ++ ph))) (if reason = 0 then ack.txKeys else ack.derivations) = some ms.flatten) :
    getIntern env view ph reason ack = some ms.flatten := by
  unfold getIntern hostKey
  rw [h]
  dsimp only
  rw [if_neg]
  rw [flat_len ms hm, Nat.mul_mod_left]
  simp

omit [CommRing S] [DecidableEq S] in
theorem which (sub need : Bool) (adds : List S) (a r : S) (j : Nat) (h0 : need = false → adds = []) (h1 : need = true → adds[j]? = some a) :
    if sub = true ∧ adds ≠ [] then adds[j]? = some (if sub && need then a else r) else (if sub && need then a else r) = r := by
  cases need with
  | false => rw [h0 rfl]; cases sub <;> simp
  | true =>
    have h := h1 rfl
    have hne : adds ≠ [] := by rintro rfl; simp at h
    cases sub <;> simp [h, hne]

/-- What the host has at the end. -/
theorem keys_of_run {env : Env S P} {cdc : Codec} {cfg : Config} {d : TxData} (hl : Lawful env cdc) {rnd : Nat → Rand S} {hrnd : Nat → Bytes}
    {c c' : Conn S P} {tx : Tx} {ack : Resp} (hh : Ready env cfg d (rnd c.n).r) (ha : Agrees rnd c.n)
    (hrun : signAll env cfg cdc rnd hrnd d c = some (tx, ack, c')) :
    ∃ n keys r adds ins outs groups nonce txKey addKeys, ack = .finalAck (rnd n).salt (env.scEnc (rnd n).randMult) keys ∧
      opened env (rnd n).salt (env.scEnc (rnd n).randMult) keys tx.rv.message = some ((r :: adds).map env.scEnc).flatten ∧
      TxOk env cfg d tx ins outs groups nonce txKey addKeys ∧ Belong env d outs r adds txKey addKeys ∧
      (∀ j o, outs[j]? = some o → o.dst.addr = d.change.addr → txKey = r • env.G →
        ∀ D, env.ptDec o.dst.addr.spend = some D → Proves env cfg r D (env.viewPriv • env.G) j o) ∧
      ∀ j o, outs[j]? = some o → o.dst.addr ≠ d.change.addr → ∃ k, (if o.dst.isSub ∧ adds ≠ [] then adds[j]? = some k else k = r) ∧
        ∀ D V, env.ptDec o.dst.addr.spend = some D → env.ptDec o.dst.addr.view = some V → Proves env cfg k D V j o := by
  obtain ⟨tx', k, ins, os, groups, s0, grp, R, pid, ex, b0, hb0, ⟨n, h1⟩, hR, h2, hv2, _, hok⟩ := run_keys hl hrnd hh ha
  rw [h1] at hrun
  simp only [Option.some.injEq, Prod.mk.injEq] at hrun
  obtain ⟨rfl, rfl, rfl⟩ := hrun
  have hr : b0.r = (rnd c.n).r := by rw [← hb0]; rfl
  have hcha : b0.changeAddr = some d.change.addr := by rw [← hb0]; rfl
  refine ⟨n, _, (rnd c.n).r, if b0.needAdd then os.map (·.addKey) else [], ins, _, groups, ex, R, _, rfl, ?_, h2, ⟨?_, ?_, ?_⟩, ?_, ?_⟩
  · unfold opened
    rw [hl.scRound, hl.openSeal]
    rfl
  · unfold txPubKey at hR
    split at hR
    · rename_i hs
      obtain ⟨-, -, -, e⟩ := classify_mono d.change.addr d.dsts [] 0 0 none
      obtain ⟨x, hx, ex⟩ := e (by rw [show (classifyAux (some d.change.addr) d.dsts [] 0 0 none) = classify d.dsts (some d.change.addr) from rfl]; omega)
      rw [show (classify d.dsts (some d.change.addr)).2.2 = some x.addr from ex, Option.bind_some] at hR
      obtain ⟨D, h3, h4⟩ := Option.map_eq_some_iff.1 hR
      exact .inr ⟨x, hx, D, h3, h4.symm⟩
    · exact .inl (Option.some.inj hR).symm
  · split <;> simp
  · intro j a o' ha' ho'
    rw [List.getElem?_map] at ho'
    obtain ⟨o, ho, rfl⟩ := Option.map_eq_some_iff.1 ho'
    obtain ⟨m, hok⟩ := hok j o ho
    obtain ⟨sp, q, k1, k2, k3, k4, k5⟩ := hok.keys
    cases hna : b0.needAdd with
    | false => rw [hna] at ha'; simp at ha'
    | true =>
      rw [hna, if_pos rfl, List.getElem?_map, ho, Option.map_some, Option.some_inj] at ha'
      refine ⟨sp, k1, ?_⟩
      rw [if_pos rfl, List.getElem?_map, ho, Option.map_some, k5, ← ha', hok.add]
      rfl
  · intro j o' ho' hch hRG D hD
    rw [List.getElem?_map] at ho'
    obtain ⟨o, ho, rfl⟩ := Option.map_eq_some_iff.1 ho'
    obtain ⟨m, hok⟩ := hok j o ho
    obtain ⟨sp, q, k1, k2, k3, k4, k5⟩ := hok.keys
    obtain rfl : sp = D := by rw [show (OutV.made o).dst = o.dst from rfl, k1] at hD; simpa using hD
    have he : addrEq o.dst.addr d.change.addr = true := (addrEq_iff _ _).2 hch
    have hrp : b0.rPub = R := by rw [← hb0]; rfl
    rw [s6Derivation, hcha] at k2
    dsimp only at k2
    rw [if_pos he, hrp, hRG, Option.some_inj] at k2
    have hak : o.ak = env.hashToScalar (env.ptEnc ((8 : S) • (rnd c.n).r • env.viewPriv • env.G) ++ Varint.dumpNat j) := by
      rw [k3, derivToScalar, ← k2, derivation, smul_comm env.viewPriv]
    refine ⟨?_, ?_, ?_⟩
    · show o.key = _
      rw [k4, hak]
    · show o.mask = _
      rw [hok.mask, hak]
    · show env.ecdh o.mask o.dst.amount _ _ = _
      rw [← hak, ← hv2]; exact hok.ecdh
  · intro j o' ho' hch
    rw [List.getElem?_map] at ho'
    obtain ⟨o, ho, rfl⟩ := Option.map_eq_some_iff.1 ho'
    obtain ⟨m, hok⟩ := hok j o ho
    obtain ⟨sp, q, k1, k2, k3, k4, k5⟩ := hok.keys
    have hne : ¬ addrEq o.dst.addr d.change.addr = true := fun e => hch ((addrEq_iff _ _).1 e)
    rw [s6Derivation, hcha] at k2
    dsimp only at k2
    rw [if_neg hne] at k2
    obtain ⟨V, hV, hq⟩ := Option.map_eq_some_iff.1 k2
    refine ⟨if o.dst.isSub && b0.needAdd then (rnd m).addKey else b0.r, ?_, ?_⟩
    · rw [hr]
      refine which _ _ _ _ _ _ (fun e => by rw [e]; rfl) fun e => ?_
      rw [e, if_pos rfl, List.getElem?_map, ho, Option.map_some, hok.add]
    · intro D' V' hD hV'
      obtain rfl : sp = D' := by rw [show (OutV.made o).dst = o.dst from rfl, k1] at hD; simpa using hD
      obtain rfl : V = V' := by rw [show (OutV.made o).dst = o.dst from rfl, hV] at hV'; simpa using hV'
      have hak : o.ak = env.hashToScalar (env.ptEnc ((8 : S) • (if o.dst.isSub && b0.needAdd then (rnd m).addKey else b0.r) • V) ++ Varint.dumpNat j) := by
        rw [k3, derivToScalar, ← hq]; rfl
      refine ⟨?_, ?_, ?_⟩
      · show o.key = _
        rw [k4, hak]
      · show o.mask = _
        rw [hok.mask, hak]
      · show env.ecdh o.mask o.dst.amount _ _ = _
        rw [← hak, ← hv2]; exact hok.ecdh

end Verif.TxKeys

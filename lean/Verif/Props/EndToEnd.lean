import Verif.Lemmas.RealReceive
import Verif.Lemmas.RealDemo
import Verif.Props.Agent
import Verif.Props.AgentSound

/-! C75, C76: the host, the device and the modelled cryptography together. -/

namespace Verif.Real
open Verif Ed Edwards Signer Agent Key

/-- C75. An honest request is signed, and the network accepts the transaction with the rings of the request's sources. -/
theorem C75_honest_is_accepted {o : Outside} (ho : o.Ok) {cfg : Config} {d : TxData} (h : Request o cfg d) (rnd : Nat → Rand Fl) (hrnd : Nat → Bytes)
    (c : Conn Fl Sub) (ha : Agrees rnd c.n) :
    ∃ tx c' rings, signTransaction (env o) cfg Wire.codec rnd hrnd d c = some (tx, c') ∧ rings.Perm (d.sources.map (·.outputs)) ∧
      Accepted o.hash tx rings := by
  obtain ⟨tx, c', ins, outs, groups, nonce, txKey, addKeys, h1, -, h2⟩ := C72_honest_signing_completes (lawful ho) (honest ho h) rnd hrnd c ha
  refine ⟨tx, c', ins.map (·.src.outputs), h1, ?_, accepted ho h2 h.distinct⟩
  have := h2.sources.map (·.outputs)
  rwa [List.map_map] at this

/-- A wallet and a request that meet the hypotheses. -/
example : Demo.parts.Ok ∧ Request Demo.parts ⟨10, 1⟩ (Demo.request 1) ∧ Agrees Demo.draws 0 ∧
    ∃ tx c', signTransaction (env Demo.parts) ⟨10, 1⟩ Wire.codec Demo.draws (fun _ => []) (Demo.request 1) ⟨{}, 0⟩ = some (tx, c') := by
  obtain ⟨tx, c', _, h, -⟩ := C75_honest_is_accepted Demo.ok Demo.is_request Demo.draws (fun _ => []) ⟨{}, 0⟩ Demo.agrees
  exact ⟨Demo.ok, Demo.is_request, Demo.agrees, tx, c', h⟩

/-- C75. Whatever the host obtains for a request with different sources, the network accepts; the fee is what is left over. -/
theorem C75_obtained_is_accepted_partial {o : Outside} (ho : o.Ok) {cfg : Config} {d : TxData} (hfit : Fits cfg d) (hd : Distinct o d)
    {rnd : Nat → Rand Fl} {hrnd : Nat → Bytes} {c c' : Conn Fl Sub} {tx : Tx}
    (hrun : signTransaction (env o) cfg Wire.codec rnd hrnd d c = some (tx, c')) :
    (rnd c.n).confirm = true ∧ tx.rv.txnFee + (d.dsts.map (·.amount)).sum = (d.sources.map (·.amount)).sum ∧
    ∃ rings, rings.Perm (d.sources.map (·.outputs)) ∧ Accepted o.hash tx rings := by
  obtain ⟨h1, -, -, ins, outs, groups, nonce, txKey, addKeys, h2⟩ := C74_result_is_right_partial (lawful ho) hfit hrun
  refine ⟨h1, h2.fee, ins.map (·.src.outputs), ?_, accepted ho h2 hd⟩
  have := h2.sources.map (·.outputs)
  rwa [List.map_map] at this

/-- C75 needs different sources: neither the host nor the device notices a source that is given twice. The transaction comes out, and no network
accepts it. -/
theorem C75_false_if_a_source_is_repeated : ∃ (o : Outside) (d : TxData) (rnd : Nat → Rand Fl), o.Ok ∧ Agrees rnd 0 ∧
    (∀ src ∈ d.sources, Spendable o (tableOf (env o) d) src) ∧ ¬ Distinct o d ∧
    ∃ tx c', signTransaction (env o) ⟨10, 1⟩ Wire.codec rnd (fun _ => []) d ⟨{}, 0⟩ = some (tx, c') ∧ ∀ rings, ¬ Accepted o.hash tx rings := by
  obtain ⟨tx, c', ins, outs, groups, nonce, txKey, addKeys, h1, -, h2⟩ :=
    C72_honest_signing_completes (lawful Demo.ok) Demo.honest_twice Demo.draws (fun _ => []) ⟨{}, 0⟩ Demo.agrees
  have hno : ¬ Distinct Demo.parts (Demo.request 2) := by
    intro hd
    obtain ⟨x, ki, how⟩ := Demo.owns 2
    have hp : [Demo.source, Demo.source].Pairwise _ := hd
    rw [List.pairwise_pair] at hp
    exact hp x ki x ki how how rfl
  refine ⟨Demo.parts, Demo.request 2, Demo.draws, Demo.ok, Demo.agrees, ?_, hno, tx, c', h1, fun rings hacc => ?_⟩
  · intro src hs
    obtain ⟨-, rfl⟩ := List.mem_replicate.1 hs
    exact Demo.spendable 2
  · have hsrc : ins.map (·.src) = [Demo.source, Demo.source] := by
      have := h2.sources
      rwa [show (Demo.request 2).sources = List.replicate 2 Demo.source from rfl, List.perm_replicate] at this
    obtain ⟨i, j, rfl⟩ : ∃ i j, ins = [i, j] := by
      rcases ins with _ | ⟨i, _ | ⟨j, _ | ⟨k, l'⟩⟩⟩ <;> simp_all
    simp only [List.map_cons, List.map_nil, List.cons.injEq, and_true] at hsrc
    have hi := h2.mine i (by simp)
    have hj := h2.mine j (by simp)
    rw [hsrc.1] at hi
    rw [hsrc.2] at hj
    have he := owns_unique hi hj
    have hlt := hacc.images.2
    rw [h2.vin] at hlt
    simp only [List.map_cons, List.map_nil, List.pairwise_pair, he] at hlt
    exact Std.lt_irrefl hlt

/-- C76. What a wallet receives, it can read and spend: if output `n` goes to an address of a wallet, the wallet computes a scalar from the keys in
the extra field with which it reads the amount and a mask; and every source made of the output and these values is its own, in every later request
whose indices contain the address. The sender may be the same wallet. -/
theorem C76_received_is_spendable {o o' : Outside} (ho : o.Ok) (hh : o'.hash = o.hash) (hv : o'.view ≠ 0) (hs : o'.spend ≠ 0) {cfg : Config}
    {d : TxData} (hfit : Fits cfg d) (hsub : ∀ x ∈ d.dsts, ∀ y ∈ d.dsts, x.addr = y.addr → x.isSub = y.isSub) {rnd : Nat → Rand Fl}
    {hrnd : Nat → Bytes} {c c' : Conn Fl Sub} {tx : Tx} (hrun : signTransaction (env o) cfg Wire.codec rnd hrnd d c = some (tx, c'))
    {n i j : Nat} {dst : Signer.Dst} (hn : d.dsts[n]? = some dst) (haddr : address o' i j = some dst.addr)
    (hidx : dst.isSub = true ↔ ¬ (i = 0 ∧ j = 0)) (hown : dst.addr = d.change.addr → o'.view = o.view) :
    ∃ key adds k mask, Published tx key adds ∧ SharedScalar o' key adds n k ∧ Reads o.hash cfg tx n k dst.amount mask ∧
      ∀ d' src, d'.account = i → i < 2 ^ 32 → j ∈ d'.indices → (∀ m ∈ d'.indices, m < 2 ^ 32) → MadeOf tx key adds n dst.amount mask src →
        ∃ x ki, Owns (env o') (tableOf (env o') d') src x ki := by
  obtain ⟨ins, outs, groups, nonce, txKey, addKeys, h1, h2⟩ := C74_recipients_find_outputs_partial (lawful ho) hfit hsub hrun
  have hout : ∃ out, outs[n]? = some out ∧ out.dst = dst := by
    have := hn
    rw [← h1.dests, List.getElem?_map, Option.map_eq_some_iff] at this
    exact this
  obtain ⟨out, ho1, rfl⟩ := hout
  obtain ⟨D, hD, P, hP, rP⟩ := address_owner (o := o) haddr hidx
  obtain ⟨R, hR, hF⟩ := h2 n out ho1 D o'.view hD (fun h => hown h)
  have hlt : out.dst.amount < 2 ^ 64 := hfit.amounts _ (List.mem_of_getElem? hn)
  obtain ⟨Q, dv, r1, r2, r3, e, r4, r5⟩ := finds_reads ho hh hv hfit.hf hlt hF
  have hvout : tx.vout[n]? = some ⟨0, Bp.enc out.key⟩ := by
    rw [h1.vout, List.getElem?_map, ho1]; rfl
  have hpk : tx.rv.outPk[n]? = some (Bp.enc (Signer.genC (env o) out.mask out.dst.amount)) := by
    rw [h1.commitments, List.getElem?_map, ho1]; rfl
  refine ⟨Bp.enc txKey, addKeys.map Bp.enc, _, Bp.num out.mask, ⟨?_, nonce, ?_⟩, ⟨Bp.enc R, Q, dv, ?_, r1, r2, r3⟩,
    ⟨out.ecdh, _, e, by rw [h1.encrypted, List.getElem?_map, ho1]; rfl, hpk, r4, r5⟩, ?_⟩
  · rw [h1.vout, List.length_map, List.length_map, List.map_eq_nil_iff]
    exact h1.additional
  · rw [List.length_map]
    simp only [List.map_eq_nil_iff]
    exact h1.extra
  · rcases hR with rfl | hR
    · exact .inl rfl
    · exact .inr (by rw [List.getElem?_map, hR]; rfl)
  · intro d' src ha hi32 hj hall hm
    obtain ⟨ht, hg⟩ := table_ok (o := o') (d := d') (by omega) hall
    obtain ⟨P', hP', hget⟩ := hg j hj
    rw [ha, hP, Option.some.injEq] at hP'
    subst hP'
    rw [Bp.encode_rep rP] at hget
    obtain ⟨m, v, m1, m2, m3, m4⟩ := hm.real
    rw [hvout, Option.some.injEq] at m2
    subst m2
    rw [hpk, Option.some.injEq] at m4
    refine owns_received hv hs ht hget (txKey := txKey) (addKeys := addKeys) (n := n) ?_ hR m1 ?_ ?_ hm.index hm.txKey hm.addKeys
    · rcases h1.additional with h | h
      · exact .inl h
      · right
        rw [h]
        exact (List.getElem?_eq_some_iff.1 ho1).1
    · rw [m3]
      show Bp.enc out.key = _
      rw [hF.key, shared_eq, shared_eq, hh]
      rfl
    · rw [← m4]
      have e1 : (env o').scDec src.mask = out.mask := by
        rw [hm.mask]
        exact scRound_ok o' out.mask
      have e2 : src.amount = out.dst.amount := by exact_mod_cast hm.amount
      rw [e1, e2]
      rfl

/-- The wallet of the example sends change to itself, which it can spend again. -/
example : ∃ tx c', signTransaction (env Demo.parts) ⟨10, 1⟩ Wire.codec Demo.draws (fun _ => []) (Demo.request 1) ⟨{}, 0⟩ = some (tx, c') ∧
    ∃ key adds k mask, Published tx key adds ∧ SharedScalar Demo.parts key adds 1 k ∧ Reads Demo.parts.hash ⟨10, 1⟩ tx 1 k 6 mask := by
  obtain ⟨tx, c', _, h, -⟩ := C75_honest_is_accepted Demo.ok Demo.is_request Demo.draws (fun _ => []) ⟨{}, 0⟩ Demo.agrees
  have hr := Demo.is_request
  obtain ⟨key, adds, k, mask, h1, h2, h3, -⟩ := C76_received_is_spendable Demo.ok (o' := Demo.parts) rfl Demo.ok.view Demo.ok.spend
    ⟨hr.version, hr.hf, hr.fewSources, hr.fewDsts, hr.amounts⟩ (by simp [Demo.request]) h (n := 1) (i := 0) (j := 0) (dst := ⟨6, Demo.own, false⟩)
    rfl Demo.address_own (by simp) (fun _ => rfl)
  exact ⟨tx, c', h, key, adds, k, mask, h1, h2, h3⟩

end Verif.Real

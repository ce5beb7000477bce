import Verif.Lemmas.TxKeys
import Verif.Props.EndToEnd

/-! C87: the transaction keys that the wallet keeps. -/

namespace Verif.TxKeys
open Verif Verif.Signer Verif.Agent

variable {S P : Type} [CommRing S] [AddCommGroup P] [Module S P] [DecidableEq S] [DecidableEq P]

/-- C87. Whatever transaction the host obtains: the last answer of the device has a salt, a multiplier and encrypted keys. With the spend key and the
prefix hash of the transaction, `compute_tx_key` gives the key that opens them. Inside are the secret keys of the transaction: they belong to the
public keys in its extra field, and with the right one of them every payment, and a change next to a payment to a standard address, can be proved. -/
theorem C87_keys_kept_partial {env : Env S P} {cdc : Codec} {cfg : Config} {d : TxData} (hl : Lawful env cdc) (hfit : Fits cfg d)
    {rnd : Nat → Rand S} (hsalt : ∀ n, (rnd n).salt ≠ []) {hrnd : Nat → Bytes} {c c' : Conn S P} {tx : Tx} {ack : Resp}
    (hrun : signAll env cfg cdc rnd hrnd d c = some (tx, ack, c')) :
    ∃ salt mult keys r adds ins outs groups nonce txKey addKeys, ack = .finalAck salt mult keys ∧
      (∀ draws, env.decPack (computeTxKey env env.spendPriv tx.rv.message salt mult draws).1 keys = opened env salt mult keys tx.rv.message) ∧
      opened env salt mult keys tx.rv.message = some ((r :: adds).map env.scEnc).flatten ∧
      TxOk env cfg d tx ins outs groups nonce txKey addKeys ∧ Belong env d outs r adds txKey addKeys ∧
      (∀ j o, outs[j]? = some o → o.dst.addr = d.change.addr → txKey = r • env.G →
        ∀ D, env.ptDec o.dst.addr.spend = some D → Proves env cfg r D (env.viewPriv • env.G) j o) ∧
      ∀ j o, outs[j]? = some o → o.dst.addr ≠ d.change.addr → ∃ k, (if o.dst.isSub ∧ adds ≠ [] then adds[j]? = some k else k = r) ∧
        ∀ D V, env.ptDec o.dst.addr.spend = some D → env.ptDec o.dst.addr.view = some V → Proves env cfg k D V j o := by
  have hrun' := run_total_all (tx.mgs.flatten ++ [0]) hrun
  have hl' := hl.total (tx.mgs.flatten ++ [0])
  obtain ⟨hready, hconf⟩ := ready_of_run hl' hfit.version hfit.hf hfit.fewSources hfit.fewDsts hfit.amounts (fun _ _ _ _ _ _ _ _ => rfl)
    (signTransaction_some.2 ⟨_, hrun'⟩)
  obtain ⟨n, keys, r, adds, ins, outs, groups, nonce, txKey, addKeys, h1, h2, h3, h4, h5, h6⟩ :=
    keys_of_run (rnd := fun k => patient (rnd k)) hl' hready ⟨hconf, fun _ => rfl⟩ hrun'
  refine ⟨(rnd n).salt, env.scEnc (rnd n).randMult, keys, r, adds, ins, outs, groups, nonce, txKey, addKeys, h1, ?_, h2, h3.real long_not_mem,
    ⟨h4.main, h4.count, h4.more⟩, ?_, ?_⟩
  · intro draws
    unfold computeTxKey
    dsimp only
    rw [if_neg (hsalt n), if_neg (hl.scLen _)]
    rfl
  · intro j o ho ha hk D hD
    obtain ⟨a1, a2, a3⟩ := h5 j o ho ha hk D hD
    exact ⟨a1, a2, a3⟩
  · intro j o ho ha
    obtain ⟨k, hk, h⟩ := h6 j o ho ha
    exact ⟨k, hk, fun D V hD hV => ⟨(h D V hD hV).key, (h D V hD hV).mask, (h D V hD hV).amount⟩⟩

/-- C87. And a device that opens what is stored hands out exactly these keys: the host reads them, in order, with the view key; and, for a given
public key, the derivations. -/
theorem C87_keys_handed_out {env : Env S P} {cdc : Codec} (hl : Lawful env cdc) (hlen : ∀ s, (env.scEnc s).length = 32) {salt mult keys ph : Bytes}
    {ks : List S} (h : opened env salt mult keys ph = some (ks.map env.scEnc).flatten) (pub : P) (salt' nonce : Bytes) :
    ∃ ack, deviceAnswer env salt mult keys ph pub salt' nonce = some ack ∧ getTxKey env env.viewPriv ph ack = some ks ∧
      getTxDeriv env env.viewPriv ph ack = some (ks.map (· • pub)) := by
  have hk : ∀ m ∈ ks.map env.scEnc, m.length = 32 := by
    intro m hm
    obtain ⟨s, -, rfl⟩ := List.mem_map.1 hm
    exact hlen s
  refine ⟨_, by rw [deviceAnswer, h, Option.map_some], ?_, ?_⟩
  · rw [getTxKey, getIntern_of hk (by dsimp only; rw [if_pos rfl, hl.openSeal]), Option.map_some, pieces_flatten _ hk, List.map_map]
    congr 1
    conv_rhs => rw [← List.map_id ks]
    exact List.map_congr_left fun s _ => hl.scRound s
  · have hp : ((List.range ((ks.map env.scEnc).flatten.length / 32)).map fun i =>
        env.ptEnc (env.scDec (((ks.map env.scEnc).flatten.drop (32 * i)).take 32) • pub)) = ks.map fun k => env.ptEnc (k • pub) := by
      rw [flat_len _ hk, Nat.mul_div_cancel _ (by decide), List.length_map]
      apply List.ext_getElem
      · simp
      · intro i h1 h2
        simp only [List.getElem_map, List.getElem_range]
        rw [Nat.mul_comm 32 i, piece_eq _ hk i (by simpa using h2), List.getElem_map, hl.scRound]
    have hk' : ∀ m ∈ ks.map fun k => env.ptEnc (k • pub), m.length = 32 := by
      intro m hm
      obtain ⟨s, -, rfl⟩ := List.mem_map.1 hm
      exact hl.ptLen _
    rw [getTxDeriv, getIntern_of hk' (by dsimp only; rw [if_neg (by decide), hl.openSeal, hp]), Option.bind_some, pieces_flatten _ hk']
    clear h hk hp hk'
    induction ks with
    | nil => rfl
    | cons k ks ih => simp [List.mapM_cons, hl.ptRound, ih]

/-- The two together, in the wallet of the example: the host obtains a transaction and later its keys. -/
example : ∃ rnd : Nat → Rand Ed.Fl, (∀ n, (rnd n).salt ≠ []) ∧ Fits ⟨10, 1⟩ (Real.Demo.request 1) ∧
    (∀ s, ((Real.env Real.Demo.parts).scEnc s).length = 32) ∧
    ∃ tx salt mult keys c', signAll (Real.env Real.Demo.parts) ⟨10, 1⟩ Wire.codec rnd (fun _ => []) (Real.Demo.request 1) ⟨{}, 0⟩ =
      some (tx, .finalAck salt mult keys, c') ∧
      ∃ ks ack, ks ≠ [] ∧ deviceAnswer (Real.env Real.Demo.parts) salt mult keys tx.rv.message (Real.env Real.Demo.parts).G [1] [] = some ack ∧
        getTxKey (Real.env Real.Demo.parts) (Real.env Real.Demo.parts).viewPriv tx.rv.message ack = some ks := by
  have hr := Real.Demo.is_request
  have hf : Fits ⟨10, 1⟩ (Real.Demo.request 1) := ⟨hr.version, hr.hf, hr.fewSources, hr.fewDsts, hr.amounts⟩
  have hs : ∀ n : Nat, ({ Real.Demo.draws n with salt := [7] } : Rand Ed.Fl).salt ≠ [] := fun _ => by simp
  have hlen : ∀ s, ((Real.env Real.Demo.parts).scEnc s).length = 32 := fun s => Key.encodeInt_length _
  obtain ⟨tx, c', _, h, -⟩ := Real.C75_honest_is_accepted Real.Demo.ok hr (fun n => { Real.Demo.draws n with salt := [7] }) (fun _ => []) ⟨{}, 0⟩
    ⟨rfl, fun _ => rfl⟩
  obtain ⟨ack, h⟩ := signTransaction_some.1 h
  obtain ⟨salt, mult, keys, r, adds, _, _, _, _, _, _, rfl, -, h2, -⟩ := C87_keys_kept_partial (Real.lawful Real.Demo.ok) hf hs h
  refine ⟨_, hs, hf, hlen, tx, salt, mult, keys, c', h, ?_⟩
  obtain ⟨ack, h3, h4, -⟩ := C87_keys_handed_out (Real.lawful Real.Demo.ok) hlen h2 (Real.env Real.Demo.parts).G [1] []
  exact ⟨r :: adds, ack, by simp, h3, h4⟩

end Verif.TxKeys

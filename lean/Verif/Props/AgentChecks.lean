import Verif.Props.AgentSound

/-! C74: the two hashes the host checks itself, for any request, any configuration and any external parts. -/

namespace Verif.Agent
open Verif Verif.Signer
variable {S P : Type} [CommRing S] [AddCommGroup P] [Module S P] [DecidableEq S] [DecidableEq P]

/-- C74. Whatever the external parts do, a transaction the host obtains carries the hash of its own prefix, and at some point of the run the device
answered with exactly the extra field, fee and type the transaction has, and with the hash of its signature data. -/
theorem C74_hashes_checked {env : Env S P} {cdc : Codec} {cfg : Config} {d : TxData} {rnd : Nat → Rand S} {hrnd : Nat → Bytes} {c c' : Conn S P}
    {tx : Tx} (hrun : signTransaction env cfg cdc rnd hrnd d c = some (tx, c')) :
    tx.rv.message = env.keccak (TxPrefix.bytes ⟨2, d.unlockTime, tx.vin.map fun v => [2] ++ env.serTxin v.amount v.ki v.offsets,
      tx.vout.map fun o => Varint.dumpNat o.amount ++ [2] ++ o.key, tx.extra⟩) ∧
    ∃ c₁ c₂, call env rnd c₁ .allOutSet =
      some (.allOutAck tx.extra tx.rv.message tx.rv.txnFee tx.rv.type (getPreMlsagHash env.keccak tx.rv), c₂) := by
  simp only [signTransaction_eq, Option.bind_eq_some_iff, Option.map_eq_some_iff] at hrun
  obtain ⟨tsx, -, r0, -, r1, -, r2, -, c3, -, r4, -, r5, -, r6, h, r7, -, r8, -, e⟩ := hrun
  simp only [Prod.mk.injEq] at e
  obtain ⟨rfl, -⟩ := e
  unfold allOutStep at h
  obtain ⟨r, hr, h⟩ := Option.bind_eq_some_iff.1 h
  obtain ⟨r, c2⟩ := r
  dsimp only at h
  split at h
  · rename_i extra ph fee ty full
    split at h
    · rename_i h1
      split at h
      · rename_i h2
        simp only [Option.some.injEq] at h
        subst h
        refine ⟨h1.symm, r5.2, c2, ?_⟩
        rw [hr, ← h2]
      · cases h
    · cases h
  · cases h

/-- C74. The masks of a client of version 0 arrive as one string of 32 byte pieces, and are cut apart correctly. -/
theorem C74_masks_cut (ms : List Bytes) (h : ∀ m ∈ ms, m.length = 32) : splitMasks ms.flatten = ms := by
  have hlen : ∀ ms : List Bytes, (∀ m ∈ ms, m.length = 32) → ms.flatten.length = ms.length * 32 := by
    intro ms
    induction ms with
    | nil => intro _; rfl
    | cons m ms ih =>
      intro h
      rw [List.flatten_cons, List.length_append, ih fun x hx => h x (List.mem_cons_of_mem _ hx), h m List.mem_cons_self, List.length_cons]
      omega
  have hget : ∀ (ms : List Bytes), (∀ m ∈ ms, m.length = 32) → ∀ i (hi : i < ms.length), (ms.flatten.drop (i * 32)).take 32 = ms[i] := by
    intro ms
    induction ms with
    | nil => intro _ i hi; simp at hi
    | cons m ms ih =>
      intro h i hi
      have hm := h m List.mem_cons_self
      cases i with
      | zero => rw [List.flatten_cons, Nat.zero_mul, List.drop_zero, ← hm, List.take_left]; rfl
      | succ i =>
        rw [List.flatten_cons, show (i + 1) * 32 = m.length + i * 32 by omega, ← List.drop_drop, List.drop_left]
        exact ih (fun x hx => h x (List.mem_cons_of_mem _ hx)) i (Nat.lt_of_succ_lt_succ hi)
  unfold splitMasks
  rw [hlen ms h, Nat.mul_div_cancel _ (by decide)]
  refine List.ext_getElem (by simp) fun i h1 h2 => ?_
  rw [List.getElem_map, List.getElem_range]
  exact hget ms h i h2

/-- The run of C74's example is one of those. -/
example (c : Conn Demo.F Demo.F) (hrnd : Nat → Bytes) : ∃ tx c',
    signTransaction Demo.parts ⟨10, 1⟩ Demo.codec (fun _ => Demo.draws) hrnd Demo.request c = some (tx, c') := by
  obtain ⟨tx, k, _, _, _, _, _, _, _, _, _, _, h, _⟩ := run_all Demo.lawful hrnd (rnd := fun _ => Demo.draws) (c := c)
    ((Demo.honest 10 (by omega)).ready _) ⟨rfl, fun _ => rfl⟩
  exact ⟨tx, _, h⟩

example : splitMasks (List.replicate 32 7 ++ List.replicate 32 9) = [List.replicate 32 7, List.replicate 32 9] := by decide

end Verif.Agent

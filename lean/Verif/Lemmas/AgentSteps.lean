import Verif.Model.Agent

/-! The steps of the host. -/

namespace Verif.Agent
open Verif Verif.Signer Verif.Batches

variable {S P : Type} [CommRing S] [AddCommGroup P] [Module S P] [DecidableEq S] [DecidableEq P]

theorem signTransaction_eq (env : Env S P) (cfg : Config) (cdc : Codec) (rnd : Nat → Rand S) (hrnd : Nat → Bytes) (d : TxData) (c : Conn S P) :
    signTransaction env cfg cdc rnd hrnd d c =
      (tsxData cfg d).bind fun tsx =>
      (initStep env rnd tsx c).bind fun r0 =>
      (inputLoop env cdc rnd d.sources r0.2).bind fun r1 =>
      (permStep env rnd r1.1 r1.2).bind fun r2 =>
      (viniLoop env rnd r2.1 r2.2).bind fun c3 =>
      (allInStep env cfg rnd r0.1.2 d.dsts.length c3).bind fun r4 =>
      (outputLoop env cfg cdc d rnd hrnd tsx.grouping r0.1.2 r0.1.1 0 d.dsts { gamma := r4.1 } r4.2).bind fun r5 =>
      (allOutStep env d rnd r2.1 r5.1 r5.2).bind fun r6 =>
      (signLoop env cfg rnd r2.1 r6.2).bind fun r7 =>
      (call env rnd r7.2 .final).map fun r8 =>
        ({ r6.1 with pseudoOuts := r7.1.map (·.1), mgs := r7.1.map (·.2) }, r8.2) := by
  unfold signTransaction signAll
  simp only [Option.map_bind, Option.map_map, Function.comp_def]

theorem signTransaction_some {env : Env S P} {cfg : Config} {cdc : Codec} {rnd : Nat → Rand S} {hrnd : Nat → Bytes} {d : TxData} {c c' : Conn S P} {tx : Tx} :
    signTransaction env cfg cdc rnd hrnd d c = some (tx, c') ↔ ∃ ack, signAll env cfg cdc rnd hrnd d c = some (tx, ack, c') := by
  simp only [signTransaction, Option.map_eq_some_iff, Prod.mk.injEq]
  constructor
  · rintro ⟨⟨a, b, e⟩, h, rfl, rfl⟩
    exact ⟨b, h⟩
  · rintro ⟨b, h⟩
    exact ⟨_, h, rfl, rfl⟩

end Verif.Agent

import Verif.Lemmas.AgentInv
import Verif.Lemmas.AgentInit
import Verif.Props.Batches
import Verif.Lemmas.AgentDemo

/-! Requests that can never be signed, whatever the wallet, the external parts and the user do. They show that the conditions of C72 are needed. -/

namespace Verif.Agent
open Verif Verif.Signer Verif.Batches
variable {S P : Type} [CommRing S] [AddCommGroup P] [Module S P] [DecidableEq S] [DecidableEq P]

theorem tsxData_some {cfg : Config} {d : TxData} {tsx : TsxData} (h : tsxData cfg d = some tsx) :
    d.sources ≠ [] ∧ tsx.outputs = d.dsts ∧ tsx.numInputs = d.sources.length ∧ tsx.change = some d.change ∧ tsx.paymentId = d.paymentId ∧
      tsx.rsigType = rsigType d.useBp d.dsts.length ∧ tsx.clientVersion = cfg.clientVersion ∧ tsx.bpVersion = (if 10 ≤ cfg.hf then 2 else 0) ∧
      tsx.unlockTime = d.unlockTime ∧ tsx.fee + (d.dsts.map (·.amount)).sum = (d.sources.map (·.amount)).sum := by
  unfold tsxData at h
  obtain ⟨s0, h0, h⟩ := Option.bind_eq_some_iff.1 h
  obtain ⟨bs, _, h⟩ := Option.bind_eq_some_iff.1 h
  split at h
  · rename_i hle
    simp only [Option.some.injEq] at h
    subst h
    refine ⟨by rintro e; rw [e] at h0; simp at h0, rfl, rfl, rfl, rfl, rfl, rfl, rfl, rfl, ?_⟩
    dsimp only
    omega
  · cases h

/-- C72. A transaction without bulletproofs is never signed: the device stops at the first input of the permuted list. -/
theorem C72_only_bulletproofs (env : Env S P) (cfg : Config) (cdc : Codec) (rnd : Nat → Rand S) (hrnd : Nat → Bytes) (d : TxData) (c : Conn S P)
    (h : d.useBp = false) : signTransaction env cfg cdc rnd hrnd d c = none := by
  rw [Option.eq_none_iff_forall_not_mem]
  rintro ⟨tx, c'⟩ hrun
  simp only [Option.mem_def, signTransaction_eq, Option.bind_eq_some_iff, Option.map_eq_some_iff] at hrun
  obtain ⟨tsx, e0, ⟨x, c0⟩, e1, ⟨rs, c1⟩, e2, ⟨rs', c2⟩, e3, c3, e4, -⟩ := hrun
  obtain ⟨hne, _, _, _, _, hty, _⟩ := tsxData_some e0
  obtain ⟨hd, h1, _, _, _, hs0⟩ := initStep_session e1
  obtain ⟨t, hs1, _, hsrc⟩ := inputLoop_session _ hs0 e2
  obtain ⟨e, hs2, _, swaps, _, hsw⟩ := permStep_session hs1 e3
  have hlen : rs'.length = d.sources.length := by
    rw [hsw, ← hsrc, List.length_map, Common.length_doSwaps]
  cases rs' with
  | nil => exact hne (List.length_eq_zero_iff.1 (by rw [← hlen]; rfl))
  | cons i is =>
    rw [viniLoop] at e4
    obtain ⟨⟨r, c4⟩, e5, _⟩ := Option.bind_eq_some_iff.1 e4
    obtain ⟨b, hb, hu, _⟩ := hs2.static
    obtain ⟨b', h5, _⟩ := call_some e5
    rw [hb] at h5
    have : b.useBp = true := (inputVini_eff (b := b) h5).2.2.1
    rw [hu, h1, hty, h] at this
    simp [rsigType] at this

/-- C72. A client of version 0 never gets a transaction with more than two outputs signed on hard fork 10 or later: it waits for masks that the
device does not send. -/
theorem C72_version_zero_two_outputs (env : Env S P) (cfg : Config) (cdc : Codec) (rnd : Nat → Rand S) (hrnd : Nat → Bytes) (d : TxData) (c : Conn S P)
    (hv : cfg.clientVersion = 0) (hf : 10 ≤ cfg.hf) (hn : 2 < d.dsts.length) : signTransaction env cfg cdc rnd hrnd d c = none := by
  rcases hb : d.useBp with _ | _
  · exact C72_only_bulletproofs env cfg cdc rnd hrnd d c hb
  rw [Option.eq_none_iff_forall_not_mem]
  rintro ⟨tx, c'⟩ hrun
  simp only [Option.mem_def, signTransaction_eq, Option.bind_eq_some_iff, Option.map_eq_some_iff] at hrun
  obtain ⟨tsx, e0, ⟨x, c0⟩, e1, ⟨rs, c1⟩, e2, ⟨rs', c2⟩, e3, c3, e4, ⟨ms, c4⟩, e5, -⟩ := hrun
  obtain ⟨hne, houts, _, _, _, hty, hcv, hbp, _⟩ := tsxData_some e0
  obtain ⟨hd, h1, _, hx, _, hs0⟩ := initStep_session e1
  obtain ⟨t, hs1, _, hsrc⟩ := inputLoop_session _ hs0 e2
  obtain ⟨e, hs2, _⟩ := permStep_session hs1 e3
  obtain ⟨t2, hs3, _⟩ := viniLoop_session _ hs2 e4
  obtain ⟨b, hb3, _, hbv, _, him⟩ := hs3.static
  have hoff : x.2 = true := by
    rw [hx, hty, houts, hb]
    simp [rsigType, hn]
    split <;> omega
  unfold allInStep at e5
  obtain ⟨⟨r, c5⟩, e6, e7⟩ := Option.bind_eq_some_iff.1 e5
  obtain ⟨b', h5, _⟩ := call_some e6
  rw [hb3] at h5
  have hdet : b.isDetMask = true := by
    rw [Builder.isDetMask, hbv, h1]
    simp [bpVersionOf, hbp, hf]
  have hr : r = .allInputsAck [] := by
    obtain ⟨_, h6⟩ := allInSet_eff (b := b) h5
    rcases h6 with ⟨_, hr, _⟩ | ⟨hd, _⟩
    · exact hr
    · rw [hdet] at hd; cases hd
  subst hr
  dsimp only at e7
  rw [if_neg (by rw [hoff, hv]; simp), if_neg (by simp only [List.length_nil]; omega)] at e7
  cases e7

/-- C72. A transfer that pays nobody but the wallet's own change address needs a payment id of 32 bytes: otherwise the device refuses it, because the
dummy payment id cannot be encrypted for anyone. -/
theorem C72_self_transfer (env : Env S P) (cfg : Config) (cdc : Codec) (rnd : Nat → Rand S) (hrnd : Nat → Bytes) (d : TxData) (c : Conn S P)
    (h : ∀ dst, ¬ Pays d dst) (hid : d.paymentId.length ≠ 32) : signTransaction env cfg cdc rnd hrnd d c = none := by
  rw [Option.eq_none_iff_forall_not_mem]
  rintro ⟨tx, c'⟩ hrun
  simp only [Option.mem_def, signTransaction_eq, Option.bind_eq_some_iff, Option.map_eq_some_iff] at hrun
  obtain ⟨tsx, e0, ⟨x, c0⟩, e1, -⟩ := hrun
  obtain ⟨hne, houts, _, hch, hpid, _⟩ := tsxData_some e0
  obtain ⟨hd, h1, _, hx, _, b, g, _, hI⟩ := initStep_session e1
  have hp := hI.initOk.pidOk
  rw [h1, hch] at hp
  have haux : ∀ (has : Bool) (ds : List Dst), (∀ x ∈ ds, x ∈ d.dsts) →
      destViewAux (some d.change.addr) has ds ⟨nullKey, nullKey⟩ 0 = some (⟨nullKey, nullKey⟩, 0) := by
    intro has ds
    induction ds with
    | nil => intro _; rfl
    | cons y ds ih =>
      intro hs
      unfold destViewAux
      dsimp only
      have := ih fun z hz => hs z (by simp [hz])
      by_cases h0 : y.amount = 0
      · simp [h0, this]
      · have hy : addrEq y.addr d.change.addr = true := by
          rw [addrEq_iff]
          by_contra hne
          exact h y ⟨hs y (by simp), h0, hne⟩
        simp [h0, hy, this]
  simp only [processPaymentId, houts, hpid, Option.map_some, destView, haux _ d.dsts fun x hx => hx] at hp
  revert hp
  rcases hq : d.paymentId with _ | ⟨y, ys⟩
  · simp
  · rw [hq] at hid
    by_cases h8 : (y :: ys).length = 8
    · simp only [List.length_cons] at h8
      simp [h8]
    · simp only [List.length_cons] at h8 hid
      rw [show ((y :: ys).isEmpty || ((y :: ys).length == 8)) = false by simpa using h8]
      simp [h8, hid]
      intro _ h31
      omega

/-- The demo request, which is signed, with one of the conditions changed. -/
example : ({ Demo.request with useBp := false }).useBp = false ∧ 2 < Demo.request.dsts.length ∧
    ∀ dst, ¬ Pays { Demo.request with dsts := [Demo.own 20, Demo.own 6] } dst := by
  refine ⟨rfl, by decide, ?_⟩
  rintro dst ⟨h1, _, h3⟩
  simp only [List.mem_cons, List.not_mem_nil, or_false] at h1
  rcases h1 with rfl | rfl <;> exact h3 rfl

end Verif.Agent

import Verif.Lemmas.AgentAll

set_option linter.unusedSectionVars false

namespace Verif.Agent
open Verif Verif.Signer
variable {S P : Type} [CommRing S] [AddCommGroup P] [Module S P] [DecidableEq S] [DecidableEq P]

/-- Owners of the destinations find the outputs of a run that was ready. -/
theorem run_finds {env : Env S P} {cdc : Codec} {cfg : Config} {d : TxData} (hl : Lawful env cdc)
    (hsub : ∀ x ∈ d.dsts, ∀ y ∈ d.dsts, x.addr = y.addr → x.isSub = y.isSub) {rnd : Nat → Rand S} {hrnd : Nat → Bytes} {c c' : Conn S P} {tx : Tx}
    (hh : Ready env cfg d (rnd c.n).r) (ha : Agrees rnd c.n) (hrun : signTransaction env cfg cdc rnd hrnd d c = some (tx, c')) :
    ∃ ins outs groups nonce txKey addKeys, TxOk env cfg d tx ins outs groups nonce txKey addKeys ∧
      ∀ j o, outs[j]? = some o → ∀ D v, Owner env o.dst D v → (o.dst.addr = d.change.addr → v = env.viewPriv) →
        ∃ R, (R = txKey ∨ addKeys[j]? = some R) ∧ Finds env cfg D v R j o := by
  obtain ⟨tx', k, ins, os, groups, s0, grp, R, pid, ex, b0, hb0, h1, hR, h2, hv2, _, hok⟩ := run_all hl hrnd hh ha
  obtain ⟨rfl, -⟩ : tx' = tx ∧ _ := by rw [h1] at hrun; simpa using hrun
  refine ⟨ins, _, groups, ex, R, _, h2, ?_⟩
  intro j o' hj D v how hch
  rw [List.getElem?_map] at hj
  obtain ⟨o, ho, rfl⟩ := Option.map_eq_some_iff.1 hj
  obtain ⟨n, hok⟩ := hok j o ho
  obtain ⟨sp, q, k1, k2, k3, k4, k5⟩ := hok.keys
  have hmem : o.dst ∈ d.dsts := by
    have : o.dst ∈ (os.map OutV.made).map (·.dst) := List.mem_map_of_mem (List.mem_map_of_mem (List.mem_of_getElem? ho))
    rwa [h2.dests] at this
  obtain rfl : sp = D := by have := how.spend; rw [show (OutV.made o).dst = o.dst from rfl, k1] at this; simpa using this
  have hview := how.view
  rw [show (OutV.made o).dst = o.dst from rfl] at hview hch
  -- it is enough to find the key with the right shared point
  suffices hs : ∃ Q, (Q = R ∨ (if b0.needAdd then os.map (·.addPub) else [])[j]? = some Q) ∧ q = (8 : S) • v • Q by
    obtain ⟨Q, hQ, hq⟩ := hs
    have hak : o.ak = shared env v Q j := by rw [k3, derivToScalar, shared, hq]
    refine ⟨Q, hQ, ?_, ?_, ?_⟩
    · show o.key = _
      rw [k4, hak]
    · show o.mask = _
      rw [hok.mask, hak]
    · show env.ecdh o.mask o.dst.amount _ _ = _
      rw [← hak, ← hv2]; exact hok.ecdh
  have hrpub : b0.rPub = R := by rw [← hb0]; rfl
  have hr : b0.r = (rnd c.n).r := by rw [← hb0]; rfl
  have hcha : b0.changeAddr = some d.change.addr := by rw [← hb0]; rfl
  have hneed : b0.needAdd = (decide ((classify d.dsts (some d.change.addr)).2.1 > 0) && (decide ((classify d.dsts (some d.change.addr)).1 > 0) ||
      decide ((classify d.dsts (some d.change.addr)).2.1 > 1))) := by rw [← hb0]; rfl
  rw [s6Derivation, hcha] at k2
  dsimp only at k2
  split at k2
  · rename_i hc
    have hv := hch ((addrEq_iff _ _).1 hc)
    refine ⟨R, .inl rfl, ?_⟩
    rw [hv, ← hrpub]
    simpa [derivation] using k2.symm
  · rename_i hc
    have hne : d.change.addr ≠ o.dst.addr := fun e => hc ((addrEq_iff _ _).2 e.symm)
    obtain ⟨m1, m2⟩ := classify_member d.change.addr d.dsts [] 0 0 none hsub o.dst hmem hne
    simp only [List.not_mem_nil, false_or, Nat.zero_add] at m1 m2
    rw [hview, Option.map_some, Option.some_inj] at k2
    cases hsb : o.dst.isSub with
    | false =>
      have hstd : 0 < (classify d.dsts (some d.change.addr)).1 := m1 hsb
      have hRG : R = (rnd c.n).r • env.G := by
        rw [txPubKey, if_neg (by omega)] at hR
        simpa using hR.symm
      refine ⟨R, .inl rfl, ?_⟩
      rw [← k2, hsb, hRG, hr]
      simp only [Bool.false_and, Bool.false_eq_true, if_false, derivation]
      rw [smul_comm v]
    | true =>
      obtain ⟨s1, s2⟩ := m2 hsb
      rw [hsb] at k2 k5
      cases hna : b0.needAdd with
      | true =>
        refine ⟨o.addPub, .inr ?_, ?_⟩
        · rw [if_pos rfl, List.getElem?_map, ho]; rfl
        · rw [← k2, k5, hna]
          simp only [Bool.and_true, if_true, derivation]
          rw [smul_comm v]
      | false =>
        rw [hna] at hneed
        have hs0 : (classify d.dsts (some d.change.addr)).1 = 0 ∧ (classify d.dsts (some d.change.addr)).2.1 = 1 := by
          have h0 : 0 < (classify d.dsts (some d.change.addr)).2.1 := s1
          have := hneed.symm
          rw [Bool.and_eq_false_iff, Bool.or_eq_false_iff] at this
          simp only [decide_eq_false_iff_not] at this
          omega
        have hRD : R = (rnd c.n).r • sp := by
          have e3 : (classify d.dsts (some d.change.addr)).2.2 = some o.dst.addr := s2 hs0.2
          rw [txPubKey, if_pos hs0, e3, Option.bind_some, k1, Option.map_some] at hR
          simpa using hR.symm
        refine ⟨R, .inl rfl, ?_⟩
        rw [← k2, hna, hRD, hr]
        simp only [Bool.and_false, Bool.false_eq_true, if_false, if_true, derivation]
        rw [smul_comm v]

end Verif.Agent

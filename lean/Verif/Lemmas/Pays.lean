import Verif.Lemmas.SignerPb
import Verif.Lemmas.SignerAllOut
import Verif.Lemmas.AgentInit
import Verif.Spec.Pays

set_option linter.unusedSectionVars false

namespace Verif.Signer
open Verif Agent
variable {S P : Type} [CommRing S] [AddCommGroup P] [Module S P] [DecidableEq S] [DecidableEq P]

/-- With digests of 32 bytes and no collision, the message determines the transaction. -/
theorem blobs_unique {H : Bytes → Bytes} (hlen : ∀ b, (H b).length = 32) {t t' : Blobs} (hc : NoCollision H t t')
    (h : t.message H = t'.message H) : t = t' := by
  have h1 := hc.top h
  unfold Blobs.digests at h1
  rw [List.append_assoc, List.append_assoc] at h1
  obtain ⟨e1, h2⟩ := List.append_inj h1 (by rw [hlen, hlen])
  obtain ⟨e2, e3⟩ := List.append_inj h2 (by rw [hlen, hlen])
  cases t; cases t'
  have a := hc.pfx e1; have b := hc.base e2; have c := hc.proofs e3
  dsimp only at a b c
  rw [a, b, c]

/-- Without change destinations are classified as with a change address that is nobody's. -/
theorem classifyAux_fresh (ch : Addr) : ∀ (ds : List Dst) (seen : List Addr) (std sub : Nat) (single : Option Addr), (∀ x ∈ ds, ch ≠ x.addr) →
    classifyAux none ds seen std sub single = classifyAux (some ch) ds seen std sub single
  | [], _, _, _, _, _ => rfl
  | d :: ds, seen, std, sub, single, h => by
    have hd : addrEq ch d.addr = false := by
      rw [Bool.eq_false_iff]; exact fun e => h d (by simp) ((addrEq_iff _ _).1 e)
    have ih := fun seen std sub single => classifyAux_fresh ch ds seen std sub single fun x hx => h x (by simp [hx])
    rw [classifyAux, classifyAux]
    simp only [hd, Bool.false_eq_true, if_false, ih]

theorem exists_fresh (ds : List Dst) : ∃ ch : Addr, ∀ x ∈ ds, ch ≠ x.addr := by
  refine ⟨⟨0 :: (ds.map (·.addr.spend)).flatten, []⟩, fun x hx e => ?_⟩
  have h1 : x.addr.spend.length ≤ (ds.map (·.addr.spend)).flatten.length :=
    (List.sublist_flatten_of_mem (List.mem_map_of_mem (f := fun y : Dst => y.addr.spend) hx)).length_le
  rw [← e] at h1
  simp at h1

theorem classify_paid (ch : Option Addr) (ds : List Dst) (hc : ∀ x ∈ ds, ∀ y ∈ ds, x.addr = y.addr → x.isSub = y.isSub) (x : Dst) (hx : x ∈ ds)
    (hne : ch ≠ some x.addr) :
    (x.isSub = false → 0 < (classify ds ch).1) ∧
    (x.isSub = true → 0 < (classify ds ch).2.1 ∧ ((classify ds ch).2.1 = 1 → (classify ds ch).2.2 = some x.addr)) := by
  obtain ⟨c, hcl, hcx⟩ : ∃ c : Addr, classify ds ch = classify ds (some c) ∧ c ≠ x.addr := by
    cases ch with
    | none =>
      obtain ⟨c, h⟩ := exists_fresh ds
      exact ⟨c, classifyAux_fresh c ds [] 0 0 none h, h x hx⟩
    | some c => exact ⟨c, rfl, fun e => hne (by rw [e])⟩
  rw [hcl]
  have := classify_member c ds [] 0 0 none hc x hx hcx
  simpa only [List.not_mem_nil, false_or, Nat.zero_add, classify] using this

theorem s6_paid {env : Env S P} {b : Builder S P} {dst : Dst} {rnd : Rand S} (h : b.changeAddr ≠ some dst.addr) : s6Derivation env b dst rnd =
    (env.ptDec dst.addr.view).map fun v => derivation v (if dst.isSub && b.needAdd then rnd.addKey else b.r) := by
  rw [s6Derivation, if_neg]
  cases hc : b.changeAddr with
  | none => simp
  | some c =>
    dsimp only
    exact fun e => h (by rw [hc, (addrEq_iff _ _).1 e])

theorem s6_change {env : Env S P} {b : Builder S P} {dst : Dst} {rnd : Rand S} (h : b.changeAddr = some dst.addr) : s6Derivation env b dst rnd =
    some (derivation b.rPub env.viewPriv) := by
  rw [s6Derivation, h, if_pos ((addrEq_iff _ _).2 rfl)]

/-- The public key with which the owner finds an output. -/
theorem Inv.found {env : Env S P} {hd : Head S P} {s : List (Event S)} {b : Builder S P} {g : Ghost S} (hI : Inv env hd s b g)
    (hsub : ∀ x ∈ hd.tsx.outputs, ∀ y ∈ hd.tsx.outputs, x.addr = y.addr → x.isSub = y.isSub) {dst : Dst} (hmem : dst ∈ hd.tsx.outputs) {rnd : Rand S}
    {q sp : P} (k2 : s6Derivation env b dst rnd = some q) (k1 : env.ptDec dst.addr.spend = some sp) {v : S} (how : Owner env dst sp v)
    (hch : hd.tsx.change.map (·.addr) = some dst.addr → v = env.viewPriv) :
    ∃ Q, (Q = hd.rPub ∨ ((hd.builder env).needAdd = true ∧ Q = rnd.addKey • (if dst.isSub then sp else env.G))) ∧ q = (8 : S) • v • Q := by
  have hst := hI.static
  simp only [Builder.static, Prod.mk.injEq] at hst
  obtain ⟨_, _, hr, hrp, hna, _, _, _, hchg, _⟩ := hst
  have hview := how.view
  have hR := hI.initOk.rPubOk
  have hca : b.changeAddr = hd.tsx.change.map (·.addr) := by rw [Builder.changeAddr, hchg]; rfl
  have hrp' : b.rPub = hd.rPub := hrp
  have hr' : b.r = hd.rnd.r := hr
  have hneed : (hd.builder env).needAdd = (decide ((classify hd.tsx.outputs (hd.tsx.change.map (·.addr))).2.1 > 0) &&
      (decide ((classify hd.tsx.outputs (hd.tsx.change.map (·.addr))).1 > 0) || decide ((classify hd.tsx.outputs (hd.tsx.change.map (·.addr))).2.1 > 1))) := rfl
  generalize hd.tsx.change.map (·.addr) = ch at *
  by_cases hc : ch = some dst.addr
  · rw [s6_change (by rw [hca, hc]), Option.some_inj] at k2
    refine ⟨hd.rPub, .inl rfl, ?_⟩
    rw [hch hc, ← k2, hrp', derivation]
  · rw [s6_paid (by rw [hca]; exact hc)] at k2
    obtain ⟨m1, m2⟩ := classify_paid ch hd.tsx.outputs hsub dst hmem hc
    rw [hview, Option.map_some, Option.some_inj] at k2
    cases hsb : dst.isSub with
    | false =>
      have hstd := m1 hsb
      have hRG : hd.rPub = hd.rnd.r • env.G := by
        rw [txPubKey, if_neg (by omega)] at hR
        simpa using hR.symm
      refine ⟨hd.rPub, .inl rfl, ?_⟩
      rw [← k2, hsb, hRG, hr']
      simp only [Bool.false_and, Bool.false_eq_true, if_false, derivation]
      rw [smul_comm v]
    | true =>
      obtain ⟨s1, s2⟩ := m2 hsb
      rw [hsb] at k2
      cases hn : (hd.builder env).needAdd with
      | true =>
        refine ⟨_, .inr ⟨rfl, rfl⟩, ?_⟩
        rw [← k2, hna, hn]
        simp only [Bool.and_true, if_true, derivation]
        rw [smul_comm v]
      | false =>
        rw [hn] at hneed
        have hs0 : (classify hd.tsx.outputs ch).1 = 0 ∧ (classify hd.tsx.outputs ch).2.1 = 1 := by
          have := hneed.symm
          rw [Bool.and_eq_false_iff, Bool.or_eq_false_iff] at this
          simp only [decide_eq_false_iff_not] at this
          omega
        have hRD : hd.rPub = hd.rnd.r • sp := by
          rw [txPubKey, if_pos hs0, s2 hs0.2, Option.bind_some, k1, Option.map_some] at hR
          simpa using hR.symm
        refine ⟨hd.rPub, .inl rfl, ?_⟩
        rw [← k2, hna, hn, hRD, hr']
        simp only [Bool.and_false, Bool.false_eq_true, if_false, if_true, derivation]
        rw [smul_comm v]

end Verif.Signer

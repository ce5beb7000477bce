import Verif.Spec.SignedSet
import Verif.Props.AgentSound

/-! Lemmas for `Props/SignedSet.lean`. -/

namespace Verif.SignedSet
open Verif Verif.Signer Verif.Agent
variable {S P : Type} [CommRing S] [AddCommGroup P] [Module S P] [DecidableEq S] [DecidableEq P]

/-- The host's record of a source holds the source's key image. -/
theorem inputLoop_image {env : Env S P} {cdc : Codec} (hl : Lawful env cdc) {rnd : Nat → Rand S} {ke : Bytes} {t : SubTable} :
    ∀ (srcs : List Src) {j : Nat} {c c' : Conn S P} {rs : List InRec}, Taking ke t j c → inputLoop env cdc rnd srcs c = some (rs, c') →
    ∀ r ∈ rs, ∀ x ki, Owns env t r.src x ki → r.vin.ki = env.ptEnc ki := by
  intro srcs
  induction srcs with
  | nil =>
    intro j c c' rs hs h r hi
    simp only [inputLoop, Option.some.injEq, Prod.mk.injEq] at h
    obtain ⟨rfl, rfl⟩ := h
    cases hi
  | cons src srcs ih =>
    intro j c c' rs hs h
    rw [inputLoop] at h
    obtain ⟨⟨r0, c1⟩, h1, h2⟩ := Option.bind_eq_some_iff.1 h
    obtain ⟨⟨is, c2⟩, h3, h4⟩ := Option.map_eq_some_iff.1 h2
    simp only [Prod.mk.injEq] at h4
    obtain ⟨rfl, rfl⟩ := h4
    unfold inputStep at h1
    obtain ⟨⟨r, c3⟩, h5, h6⟩ := Option.bind_eq_some_iff.1 h1
    obtain ⟨b', h7, rfl⟩ := call_some h5
    obtain ⟨b, hb, hke, hj, hsub⟩ := hs.dev
    rw [hb] at h7
    obtain ⟨_, _, real, outKey, txKey, addKeys, subs, xi, ki, hmac, pHmac, kA, kS, g1, g2, g3, g4, g5, g6, g7, g8, g9, g10, hb', rfl⟩ := setInput_eff (b := b) h7
    have hsubs : subs = t := by
      rcases hsub with e | e <;> rw [e] at g5 <;> simp at g5
      exact g5.symm
    subst hsubs
    dsimp only at h6
    obtain ⟨v, hv0, hv⟩ := Option.map_eq_some_iff.1 h6
    simp only [Prod.mk.injEq] at hv
    obtain ⟨rfl, rfl⟩ := hv
    have hv1 := hl.vin ⟨if src.rct then 0 else src.amount, env.ptEnc ki, Offsets.toRelative (src.outputs.map fun x => (x.idx : Int))⟩ (hl.ptLen _)
      (Offsets.C32_nonneg _ (by intro o ho; obtain ⟨m, _, rfl⟩ := List.mem_map.1 ho; exact Int.natCast_nonneg _)).1
    have hv2 := hv1.symm.trans hv0
    cases hv2
    intro r hr
    rcases List.mem_cons.1 hr with rfl | hr
    · intro x ki' ho
      obtain ⟨real', txKey', addKeys', o1, o2, _, o3, o4, o5⟩ := ho.real
      dsimp only at o1 o3 o4 o5 ⊢
      cases g1.symm.trans o1
      cases g2.symm.trans o2
      cases g3.symm.trans o3
      cases g4.symm.trans o4
      have := g6.symm.trans o5
      simp only [Option.some.injEq, Prod.mk.injEq] at this
      rw [this.2]
    · have ht : b'.state.isTerminal = false := by
        rw [hb']
        unfold TState.isTerminal
        dsimp only
        split <;> rfl
      exact ih (j := j + 1) ⟨⟨b', by rw [ht]; rfl, by rw [hb']; exact hke, by rw [hb']; dsimp only; rw [hj]; rfl, by
        rw [hb']
        dsimp only
        split
        · exact .inr rfl
        · exact hsub⟩⟩ h3 r hr

/-- Signing sorts the sources by a permutation, and input `i` spends source `p[i]`. -/
theorem sign_permutation {env : Env S P} {cdc : Codec} {cfg : Config} {d : TxData} (hl : Lawful env cdc) (hfit : Fits cfg d)
    {rnd : Nat → Rand S} {hrnd : Nat → Bytes} {c c' : Conn S P} {tx : Tx} (hrun : signTransaction env cfg cdc rnd hrnd d c = some (tx, c')) :
    ∃ p : List Nat, sourcePermutation env cfg cdc rnd d c = some p ∧ p.length = d.sources.length ∧ p.Perm (List.range p.length) ∧
      tx.vin.length = d.sources.length ∧
      ∀ i j : Nat, p[i]? = some j → ∀ src : Src, d.sources[j]? = some src →
        (∃ x ki, Owns env (tableOf env d) src x ki) ∧
        ∀ x ki, Owns env (tableOf env d) src x ki → (tx.vin[i]?).map (·.ki) = some (env.ptEnc ki) := by
  obtain ⟨_, _, _, ins, outs, groups, nonce, txKey, addKeys, hok⟩ := C74_result_is_right_partial hl hfit hrun
  simp only [signTransaction_eq, Option.bind_eq_some_iff, Option.map_eq_some_iff] at hrun
  obtain ⟨tsx, e0, ⟨hx, c0⟩, e1, ⟨rs, c1⟩, e2, ⟨rs', c2⟩, e3, c3, e4, ⟨ms, c4⟩, e5, ⟨st, c5⟩, e6, ⟨tx0, c6⟩, e7, ⟨sg, c7⟩, e8, q, e9, e10⟩ := hrun
  simp only [Prod.mk.injEq] at e10
  obtain ⟨e10, -⟩ := e10
  have htab : (if tsx.minorIndices.isEmpty then [] else env.subaddresses tsx.account tsx.minorIndices) = tableOf env d := by
    unfold tsxData at e0
    obtain ⟨s0, _, e0⟩ := Option.bind_eq_some_iff.1 e0
    obtain ⟨bs, _, e0⟩ := Option.bind_eq_some_iff.1 e0
    split at e0
    · cases e0; rfl
    · cases e0
  obtain ⟨ke, htk, _⟩ := initStep_taking e1
  rw [htab] at htk
  have himg := inputLoop_image hl _ htk e2
  obtain ⟨hd, _, _, _, _, hs0⟩ := initStep_session e1
  obtain ⟨t1, hs1, _, hsrc⟩ := inputLoop_session _ hs0 e2
  obtain ⟨ep, hs2, hep, swaps, hsw1, hsw2⟩ := permStep_session hs1 e3
  have hvin : tx.vin = rs'.map (·.vin) := by
    rw [← e10]
    unfold allOutStep at e7
    obtain ⟨⟨r, c8⟩, _, e7⟩ := Option.bind_eq_some_iff.1 e7
    dsimp only at e7
    split at e7
    · split at e7
      · split at e7
        · cases e7; rfl
        · cases e7
      · cases e7
    · cases e7
  refine ⟨Common.sortPermutation (rs.map (·.vin.ki)), ?_, ?_, (Common.C33_sorted _).1, ?_, ?_⟩
  · unfold sourcePermutation
    rw [e0, Option.bind_some, e1, Option.bind_some]
    dsimp only at e2 ⊢
    rw [e2]
    rfl
  · rw [← hsrc]; simp [Common.sortPermutation]
  · rw [hvin, hsw2, ← hsrc, List.length_map, List.length_map]
    have hplen : (Common.sortPermutation (rs.map (·.vin.ki))).length = rs.length := by simp [Common.sortPermutation]
    obtain ⟨calls, hcalls, happ⟩ := Common.C33_apply (Common.C33_sorted (rs.map (·.vin.ki))).1
    rw [hcalls _ (Nat.lt_succ_self _)] at hsw1
    cases hsw1
    exact (happ _ rs hplen.symm).1
  · intro i j hij src hj
    constructor
    · have hm : src ∈ ins.map (·.src) := hok.sources.mem_iff.2 (List.mem_of_getElem? hj)
      obtain ⟨s, hs, rfl⟩ := List.mem_map.1 hm
      exact ⟨_, _, hok.mine s hs⟩
    · intro x ki ho
      rw [← hsrc, List.getElem?_map] at hj
      obtain ⟨r, hr, rfl⟩ := Option.map_eq_some_iff.1 hj
      have hplen : (Common.sortPermutation (rs.map (·.vin.ki))).length = rs.length := by simp [Common.sortPermutation]
      obtain ⟨calls, hcalls, happ⟩ := Common.C33_apply (Common.C33_sorted (rs.map (·.vin.ki))).1
      rw [hcalls _ (Nat.lt_succ_self _)] at hsw1
      cases hsw1
      have hget := (happ _ rs hplen.symm).2.1 i (List.getElem?_eq_some_iff.1 hij).1
      rw [hvin, hsw2, List.getElem?_map, hget, hij, Option.bind_some, hr]
      show some r.vin.ki = _
      rw [himg r (List.mem_of_getElem? hr) x ki ho]

/-- What the update loop does, when it ends. -/
theorem update_eff (sel perm : List Nat) (kis : List Bytes) : ∀ (is : List Nat) (images images' : List Bytes),
    update sel perm kis is images = some images' →
    images'.length = images.length ∧
    (∀ t, (∀ i ∈ is, ∀ m, perm[i]? = some m → sel[m]? ≠ some t) → images'[t]? = images[t]?) ∧
    (∀ i ∈ is, ∃ m t ki, perm[i]? = some m ∧ sel[m]? = some t ∧ kis[i]? = some ki ∧ t < images.length ∧
      ((∀ i' ∈ is, ∀ m', perm[i']? = some m' → sel[m']? = some t → kis[i']? = kis[i]?) → images'[t]? = some ki)) := by
  intro is
  induction is with
  | nil => intro images images' h; cases h; exact ⟨rfl, fun _ _ => rfl, by simp⟩
  | cons i is ih =>
    intro images images' h
    rw [update] at h
    obtain ⟨im, h1, h2⟩ := Option.bind_eq_some_iff.1 h
    unfold assign at h1
    obtain ⟨m, hm, h1⟩ := Option.bind_eq_some_iff.1 h1
    obtain ⟨t, ht, h1⟩ := Option.bind_eq_some_iff.1 h1
    obtain ⟨ki, hki, h1⟩ := Option.bind_eq_some_iff.1 h1
    split at h1
    · rename_i hlt
      cases h1
      obtain ⟨g1, g2, g3⟩ := ih _ _ h2
      rw [List.length_set] at g1 g3
      refine ⟨g1, ?_, ?_⟩
      · intro s hs
        rw [g2 s (fun i' hi' => hs i' (List.mem_cons_of_mem _ hi'))]
        rw [List.getElem?_set_ne]
        rintro rfl
        exact hs i List.mem_cons_self m hm ht
      · intro i' hi'
        by_cases hin : ∃ j ∈ is, ∃ m', perm[j]? = some m' ∧ ∃ m0, perm[i']? = some m0 ∧ ∃ t0, sel[m']? = some t0 ∧ sel[m0]? = some t0
        · obtain ⟨j, hj, m', hm', m0, hm0, t0, ht0, ht1⟩ := hin
          obtain ⟨n', t', k', q1, q2, q3, q4, q5⟩ := g3 j hj
          cases hm'.symm.trans q1
          cases ht0.symm.trans q2
          have hk' : ∃ k0, kis[i']? = some k0 := by
            rcases List.mem_cons.1 hi' with rfl | hi'
            · exact ⟨_, hki⟩
            · obtain ⟨_, _, k0, _, _, q, _⟩ := g3 i' hi'
              exact ⟨k0, q⟩
          obtain ⟨k0, hk0⟩ := hk'
          refine ⟨m0, t0, k0, hm0, ht1, hk0, q4, ?_⟩
          intro hall
          have e1 : kis[j]? = kis[i']? := hall j (List.mem_cons_of_mem _ hj) m' hm' ht0
          rw [q5 (fun a ha b hb hc => (hall a (List.mem_cons_of_mem _ ha) b hb hc).trans e1.symm), ← q3, e1, hk0]
        · rcases List.mem_cons.1 hi' with rfl | hi'
          · refine ⟨m, t, ki, hm, ht, hki, hlt, fun _ => ?_⟩
            rw [g2 t, List.getElem?_set_self hlt]
            intro j hj m' hm' ht'
            exact hin ⟨j, hj, m', hm', m, hm, t, ht', ht⟩
          · obtain ⟨m', t', k', q1, q2, q3, q4, q5⟩ := g3 i' hi'
            exact absurd ⟨i', hi', m', q1, m', q1, t', q2, q2⟩ hin
    · cases h1

/-- The loop ends if every index is in range. -/
theorem update_ends (sel perm : List Nat) (kis : List Bytes) : ∀ (is : List Nat) (images : List Bytes),
    (∀ i ∈ is, ∃ m t, perm[i]? = some m ∧ sel[m]? = some t ∧ i < kis.length ∧ t < images.length) →
    ∃ images', update sel perm kis is images = some images' := by
  intro is
  induction is with
  | nil => intro images _; exact ⟨_, rfl⟩
  | cons i is ih =>
    intro images h
    obtain ⟨m, t, hm, ht, hk, hl⟩ := h i List.mem_cons_self
    obtain ⟨im, him⟩ := ih (images.set t kis[i]) (by
      intro j hj
      rw [List.length_set]
      exact h j (List.mem_cons_of_mem _ hj))
    refine ⟨im, ?_⟩
    rw [update, assign, hm, Option.bind_some, ht, Option.bind_some, List.getElem?_eq_getElem hk, Option.bind_some, if_pos hl]
    exact him

theorem foldl_max_le (l : List Nat) : ∀ m, m ≤ l.foldl max m ∧ ∀ t ∈ l, t ≤ l.foldl max m := by
  induction l with
  | nil => intro m; simp
  | cons a l ih =>
    intro m
    rw [List.foldl_cons]
    obtain ⟨h1, h2⟩ := ih (max m a)
    refine ⟨le_trans (Nat.le_max_left _ _) h1, ?_⟩
    intro t ht
    rcases List.mem_cons.1 ht with rfl | ht
    · exact le_trans (Nat.le_max_right _ _) h1
    · exact h2 t ht

theorem foldl_sel_le (us : List Unsigned) : ∀ m, m ≤ us.foldl (fun m tx => tx.selected.foldl max m) m ∧
    ∀ u ∈ us, ∀ t ∈ u.selected, t ≤ us.foldl (fun m tx => tx.selected.foldl max m) m := by
  induction us with
  | nil => intro m; simp
  | cons u us ih =>
    intro m
    rw [List.foldl_cons]
    obtain ⟨h1, h2⟩ := ih (u.selected.foldl max m)
    refine ⟨le_trans (foldl_max_le _ _).1 h1, ?_⟩
    intro v hv t ht
    rcases List.mem_cons.1 hv with rfl | hv
    · exact le_trans ((foldl_max_le _ _).2 t ht) h1
    · exact h2 v hv t ht

omit [CommRing S] [AddCommGroup P] [Module S P] [DecidableEq S] [DecidableEq P] in
theorem nodup_at {l : List Nat} (h : l.Nodup) {i j t : Nat} (hi : l[i]? = some t) (hj : l[j]? = some t) : i = j := by
  obtain ⟨h1, e1⟩ := List.getElem?_eq_some_iff.1 hi
  obtain ⟨h2, e2⟩ := List.getElem?_eq_some_iff.1 hj
  exact (h.getElem_inj_iff (hi := h1) (hj := h2)).1 (e1.trans e2.symm)

theorem signOne_eff {env : Env S P} {cdc : Codec} {cfg : Config} (hl : Lawful env cdc) {u : Unsigned} (hfit : Fits cfg u.data)
    (hlen : u.selected.length = u.data.sources.length) (hnd : u.selected.Nodup) {rnd : Nat → Rand S} {hrnd : Nat → Bytes} {images images' : List Bytes}
    {c c' : Conn S P} {p : Pending} (hrun : signOne env cfg cdc rnd hrnd u images c = some (p, images', c')) :
    images'.length = images.length ∧ (∀ t src, Spends u t src → ∃ k, images'[t]? = some k ∧ IsImage env u.data src k) ∧
    (∀ t, t ∉ u.selected → images'[t]? = images[t]?) ∧ p.selected = u.selected ∧ signTransaction env cfg cdc rnd hrnd u.data c = some (p.tx, c') ∧
    p.sources.Perm u.data.sources ∧ ∃ perm : List Nat, perm.Perm (List.range u.data.sources.length) ∧
      ∀ i j : Nat, perm[i]? = some j → ∀ src, u.data.sources[j]? = some src →
        p.sources[i]? = some src ∧ ∃ v k, p.tx.vin[i]? = some v ∧ v.ki = k ∧ IsImage env u.data src k := by
  unfold signOne at hrun
  obtain ⟨⟨tx, c1⟩, h1, hrun⟩ := Option.bind_eq_some_iff.1 hrun
  obtain ⟨perm, h2, hrun⟩ := Option.bind_eq_some_iff.1 hrun
  obtain ⟨swaps, h3, hrun⟩ := Option.bind_eq_some_iff.1 hrun
  obtain ⟨im, h4, hrun⟩ := Option.map_eq_some_iff.1 hrun
  simp only [Prod.mk.injEq] at hrun
  obtain ⟨rfl, rfl, rfl⟩ := hrun
  obtain ⟨p', g1, g2, g3, g4, g5⟩ := sign_permutation hl hfit h1
  cases g1.symm.trans h2
  obtain ⟨u1, u2, u3⟩ := update_eff _ _ _ _ _ _ h4
  have hpn : perm.Nodup := g3.nodup_iff.2 List.nodup_range
  obtain ⟨calls, hcalls, happ⟩ := Common.C33_apply g3
  rw [hcalls _ (Nat.lt_succ_self _)] at h3
  cases h3
  refine ⟨u1, ?_, ?_, rfl, h1, (happ _ u.data.sources g2.symm).2.2, perm, by rw [← g2]; exact g3, ?_⟩
  · rintro t src ⟨j, hj, hs⟩
    have hjm : j ∈ perm := g3.mem_iff.2 (List.mem_range.2 (by rw [g2]; exact (List.getElem?_eq_some_iff.1 hs).1))
    obtain ⟨i, hi⟩ := List.mem_iff_getElem?.1 hjm
    obtain ⟨⟨x, ki, ho⟩, hki⟩ := g5 i j hi src hs
    have hil : i < u.selected.length := by rw [hlen, ← g2]; exact (List.getElem?_eq_some_iff.1 hi).1
    obtain ⟨m, t', k, q1, q2, q3, q4, q5⟩ := u3 i (List.mem_range.2 hil)
    cases hi.symm.trans q1
    cases hj.symm.trans q2
    refine ⟨k, q5 ?_, x, ki, ho, ?_⟩
    · intro i' _ m' hm' ht'
      cases nodup_at hnd hj ht'
      rw [nodup_at hpn hi hm']
    · have := hki x ki ho
      rw [← List.getElem?_map] at this
      exact Option.some.inj (q3.symm.trans this)
  · intro t ht
    exact u2 t fun i _ m _ hm' => ht (List.mem_of_getElem? hm')
  · intro i j hi src hs
    obtain ⟨⟨x, ki, ho⟩, hki⟩ := g5 i j hi src hs
    constructor
    · show (Common.doSwaps swaps u.data.sources)[i]? = _
      rw [(happ _ u.data.sources g2.symm).2.1 i (List.getElem?_eq_some_iff.1 hi).1, hi]
      exact hs
    · obtain ⟨v, hv, e⟩ := Option.map_eq_some_iff.1 (hki x ki ho)
      exact ⟨v, v.ki, hv, rfl, x, ki, ho, e⟩

theorem signLoop_eff {env : Env S P} {cdc : Codec} {cfg : Config} (hl : Lawful env cdc) {rnd : Nat → Rand S} {hrnd : Nat → Nat → Bytes} :
    ∀ (txes : List Unsigned) {k : Nat} {images images' : List Bytes} {c c' : Conn S P} {ps : List Pending}, SetOk cfg txes →
    signLoop env cfg cdc rnd hrnd k txes images c = some (ps, images', c') →
    images'.length = images.length ∧ (∀ u ∈ txes, ∀ t src, Spends u t src → ∃ k, images'[t]? = some k ∧ IsImage env u.data src k) ∧
    (∀ t, (∀ u ∈ txes, t ∉ u.selected) → images'[t]? = images[t]?) ∧ List.Forall₂ (RecordOk env cfg rnd) txes ps := by
  intro txes
  induction txes with
  | nil =>
    intro k images images' c c' ps _ h
    simp only [signLoop, Option.some.injEq, Prod.mk.injEq] at h
    obtain ⟨rfl, rfl, rfl⟩ := h
    exact ⟨rfl, by simp, fun _ _ => rfl, .nil⟩
  | cons u us ih =>
    intro k images images' c c' ps hok h
    rw [signLoop] at h
    obtain ⟨⟨p, im, c1⟩, h1, h⟩ := Option.bind_eq_some_iff.1 h
    obtain ⟨⟨qs, im2, c2⟩, h2, h3⟩ := Option.map_eq_some_iff.1 h
    simp only [Prod.mk.injEq] at h3
    obtain ⟨rfl, rfl, rfl⟩ := h3
    have honce := hok.once
    rw [List.flatMap_cons, List.nodup_append'] at honce
    obtain ⟨n1, n2, n3⟩ := honce
    obtain ⟨a1, a2, a3, a4, a5, _⟩ := signOne_eff hl (hok.fits u List.mem_cons_self) (hok.numbered u List.mem_cons_self) n1 h1
    obtain ⟨b1, b2, b3, b4⟩ := ih ⟨fun v hv => hok.fits v (List.mem_cons_of_mem _ hv), fun v hv => hok.numbered v (List.mem_cons_of_mem _ hv), n2⟩ h2
    refine ⟨b1.trans a1, ?_, ?_, .cons ?_ b4⟩
    · intro v hv t src hs
      rcases List.mem_cons.1 hv with rfl | hv
      · obtain ⟨k, hk, hi⟩ := a2 t src hs
        obtain ⟨j, hj, _⟩ := hs
        refine ⟨k, ?_, hi⟩
        rw [b3 t, hk]
        intro w hw hm
        exact n3 (List.mem_of_getElem? hj) (List.mem_flatMap.2 ⟨w, hw, hm⟩)
      · exact b2 v hv t src hs
    · intro t ht
      rw [b3 t (fun v hv => ht v (List.mem_cons_of_mem _ hv)), a3 t (ht u List.mem_cons_self)]
    · obtain ⟨hc, _, _, hx⟩ := C74_result_is_right_partial hl (hok.fits u List.mem_cons_self) a5
      exact ⟨a4, ⟨_, hc⟩, hx⟩

end Verif.SignedSet

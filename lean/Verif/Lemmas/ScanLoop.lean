import Verif.Lemmas.Scan

namespace Verif.Scan
open Verif Verif.Ed Verif.Key

theorem mine_of {H : Bytes → Bytes} {c : Creds} {t : Table} (ht : t.Valid H c.view (scalarmultB c.spend)) {tx : Tx} {txPub deriv P dv ki : Ext}
    {Rs ds : List Ext} (hd : keyDerivation txPub c.view = some deriv) (hds : derivations c.view Rs = some ds) {o : Out} {k : Bytes} {i : ℕ}
    (ho : tx.vout[i]? = some o) (hk : o.key = some k) (hP : decodePoint k = some P) {idx : ℕ × ℕ} {x amount : ℤ} {mask : Option ℤ}
    (hi : isOutToAcc H t P deriv ds i = some (some (idx, dv))) (hx : kiHelperPrecomp H c.view c.spend P dv i idx = some (x, ki))
    (hm : (o.amount = 0 ∧ ∃ m, mask = some m ∧ ecdhDecodeRv H tx.rct dv i = some (amount, m)) ∨ (o.amount ≠ 0 ∧ mask = none ∧ amount = o.amount)) :
    Mine H c tx txPub Rs ⟨i, idx, x, ki, mask, amount⟩ := by
  obtain ⟨po, hpo⟩ := decodePoint_rep hP
  refine ⟨o, k, ho, hk, ?_, ?_, ?_⟩
  · obtain ⟨hr, hxo, rfl, -⟩ := precomp_sound hpo hx
    obtain ⟨p', hp', -⟩ := rep_hp H (encPt po)
    refine ⟨hr, P, hP, times_base x hr.1 hpo hxo, rep_on (rep_smul hp' hr.1), ?_⟩
    rw [encodePoint_rep hpo, affine_rep (rep_smul hp' hr.1), affine_rep hp', ← toAff_times, ← natCast_zsmul, Int.toNat_of_nonneg hr.1]
  · obtain ⟨R, K, hR, hRd, hK, hg⟩ := found_with hd hds hi
    obtain ⟨A, hA, hAe⟩ := ht _ _ hg
    obtain ⟨a, ha⟩ := subSpend_rep (rep_B c.spend) hA
    obtain ⟨-, -, pR, -, hδ⟩ := keyDerivation_inv hRd
    obtain ⟨K', hK', hKr⟩ := deriveSub_rep H hδ i hpo
    rw [hK, Option.some.injEq] at hK'
    subst hK'
    rw [encodePoint_rep ha, encodePoint_rep hKr] at hAe
    have he : po = a + sh H ((8 : ℤ) • c.view • pR) i • base := by
      rw [encPt_injective hAe]; abel
    have hs := hs_range H (encPt ((8 : ℤ) • c.view • pR) ++ Varint.dumpNat i)
    refine ⟨R, dv, P, A, _, hR, hRd, toScalar_rep H hδ i, hs.1, hP, hA, ?_⟩
    have hs' : 0 ≤ sh H ((8 : ℤ) • c.view • pR) i := hs.1
    rw [affine_rep hpo, affine_rep ha, affine_rep rep_base, ← toAff_times, ← toAff_add, ← natCast_zsmul, Int.toNat_of_nonneg hs', ← he]
  · rcases hm with ⟨h0, m, rfl, he⟩ | ⟨h0, -, rfl⟩
    · obtain ⟨cm, hc, hop⟩ := ecdhRv_opens he
      exact .inl ⟨h0, cm, m, hc, rfl, hop⟩
    · exact .inr ⟨h0, rfl⟩

/-- The invariant of the loop over the outputs. -/
structure Inv (H : Bytes → Bytes) (c : Creds) (t : Table) (tx : Tx) (txPub : Ext) (Rs : List Ext) (i : ℕ) (w : Wallet) : Prop where
  mine : ∀ g ∈ w.got, Mine H c tx txPub Rs g
  money : ∀ idx, w.money idx = credited w idx
  outs : w.outs = w.got.map (·.index)
  order : w.outs.Pairwise (· < ·)
  below : ∀ j ∈ w.outs, j < i
  foreign : ∀ j o, j < i → tx.vout[j]? = some o → j ∉ w.outs → Foreign H c t txPub Rs o j

theorem credited_append (m : ℕ × ℕ → ℤ) (os : List ℕ) (gs : List Got) (g : Got) (idx : ℕ × ℕ) :
    credited ⟨m, os, gs ++ [g]⟩ idx = credited ⟨m, os, gs⟩ idx + if idx = g.idx then g.amount else 0 := by
  unfold credited
  dsimp only
  rw [List.filter_append, List.map_append, List.sum_append]
  congr 1
  by_cases h : g.idx = idx
  · simp [h]
  · simp [h, Ne.symm h]

theorem loop_inv {H : Bytes → Bytes} {c : Creds} {t : Table} (ht : t.Valid H c.view (scalarmultB c.spend)) {tx : Tx} {txPub deriv : Ext}
    {Rs ds : List Ext} (hd : keyDerivation txPub c.view = some deriv) (hds : derivations c.view Rs = some ds) :
    ∀ (os : List Out) (i : ℕ) (w w' : Wallet), tx.vout.drop i = os → Inv H c t tx txPub Rs i w → scanLoop H c t tx deriv ds os i w = some w' →
      Inv H c t tx txPub Rs (i + os.length) w' := by
  intro os
  induction os with
  | nil =>
    intro i w w' _ hw h
    simp only [scanLoop, Option.some.injEq] at h
    subst h
    exact hw
  | cons o os ih =>
    intro i w w' hdrop hw h
    have ho : tx.vout[i]? = some o := by
      have := congrArg (·[0]?) hdrop
      simpa [List.getElem?_drop] using this
    have hdrop' : tx.vout.drop (i + 1) = os := by
      have := congrArg List.tail hdrop
      simpa [List.tail_drop] using this
    rw [scanLoop] at h
    cases hr : receive H c t tx deriv ds o i w with
    | none => simp [hr] at h
    | some w₁ =>
      rw [hr] at h
      have e : i + (o :: os).length = i + 1 + os.length := by rw [List.length_cons]; omega
      rw [e]
      refine ih (i + 1) w₁ w' hdrop' ?_ h
      obtain ⟨k, P, hk, hP, hcase⟩ := receive_cases ho hr
      rcases hcase with ⟨rfl, hn⟩ | ⟨idx, dv, x, ki, mask, amount, hi, hx, rfl, hm⟩
      · refine ⟨hw.mine, hw.money, hw.outs, hw.order, fun j hj => Nat.lt_succ_of_lt (hw.below j hj), ?_⟩
        intro j o' hj ho' hnot
        rcases Nat.lt_succ_iff_lt_or_eq.mp hj with hj | rfl
        · exact hw.foreign j o' hj ho' hnot
        · rw [ho, Option.some.injEq] at ho'
          subst ho'
          exact ⟨k, P, hk, hP, fun R D K hR hD hK => not_found hd hds hn R D K hR hD hK⟩
      · refine ⟨?_, ?_, ?_, ?_, ?_, ?_⟩
        · intro g hg
          rcases List.mem_append.mp hg with hg | hg
          · exact hw.mine g hg
          · rw [List.mem_singleton.mp hg]
            exact mine_of ht hd hds ho hk hP hi hx hm
        · intro j
          rw [credited_append]
          have hc : credited ⟨fun j => if j = idx then w.money j + amount else w.money j, w.outs ++ [i], w.got⟩ j = credited w j := rfl
          rw [hc, ← hw.money j]
          dsimp only
          split <;> simp
        · dsimp only
          rw [List.map_append, ← hw.outs]
          rfl
        · dsimp only
          rw [List.pairwise_append]
          refine ⟨hw.order, List.pairwise_singleton _ _, ?_⟩
          intro a ha b hb
          rw [List.mem_singleton.mp hb]
          exact hw.below a ha
        · intro j hj
          rcases List.mem_append.mp hj with hj | hj
          · exact Nat.lt_succ_of_lt (hw.below j hj)
          · rw [List.mem_singleton.mp hj]; exact Nat.lt_succ_self i
        · intro j o' hj ho' hnot
          rcases Nat.lt_succ_iff_lt_or_eq.mp hj with hj | rfl
          · exact hw.foreign j o' hj ho' fun h => hnot (List.mem_append_left _ h)
          · exact absurd (List.mem_append_right _ (List.mem_singleton_self _)) hnot

/-! ## Transactions of the agent -/

theorem derivations_all {a : ℤ} {Rs ds : List Ext} (h : derivations a Rs = some ds) :
    ∀ m : ℕ, Rs[m]? = none ∨ ∃ R D, Rs[m]? = some R ∧ ds[m]? = some D ∧ keyDerivation R a = some D := by
  induction Rs generalizing ds with
  | nil => exact fun m => .inl rfl
  | cons R Rs ih =>
    simp only [derivations] at h
    split at h
    · rename_i x xs hx hxs
      simp only [Option.some.injEq] at h
      subst h
      intro m
      cases m with
      | zero => exact .inr ⟨R, x, rfl, rfl, hx⟩
      | succ m => exact ih hxs m
    · simp at h

theorem derivations_at {a : ℤ} {Rs ds : List Ext} (h : derivations a Rs = some ds) (m : ℕ) (hm : Rs[m]? ≠ none) :
    ∃ R D, Rs[m]? = some R ∧ ds[m]? = some D ∧ keyDerivation R a = some D :=
  (derivations_all h m).resolve_left hm

theorem found {H : Bytes → Bytes} {t : Table} {P deriv dv : Ext} {ds : List Ext} {n : ℕ} {po δ δ0 : Point} (hpo : Rep P po) (h0 : Rep deriv δ0)
    (hδ : Rep dv δ) {idx : ℕ × ℕ} (hg : t.get (encPt (po - sh H δ n • base)) = some idx)
    (hw : dv = deriv ∨ (ds[n]? = some dv ∧ t.get (encPt (po - sh H δ0 n • base)) = none)) :
    isOutToAcc H t P deriv ds n = some (some (idx, dv)) := by
  obtain ⟨K, hK, hKr⟩ := deriveSub_rep H h0 n hpo
  rw [isOutToAcc, hK]
  dsimp only
  rw [encodePoint_rep hKr]
  rcases hw with rfl | ⟨hd, hn⟩
  · rw [rep_unique hδ h0] at hg
    rw [hg]
  · have hlt := (List.getElem?_eq_some_iff.mp hd).1
    obtain ⟨K', hK', hKr'⟩ := deriveSub_rep H hδ n hpo
    rw [hn]
    dsimp only
    rw [if_pos (by omega), hd]
    dsimp only
    rw [hK']
    dsimp only
    rw [encodePoint_rep hKr', hg]
    rfl

theorem receive_found {H : Bytes → Bytes} {c : Creds} (hb0 : 0 < c.spend) (hb1 : c.spend < l) {t : Table}
    (ht : t.Valid H c.view (scalarmultB c.spend)) {tx : Tx} {o : Out} {k : Bytes} {P deriv dv : Ext} {ds : List Ext} {n : ℕ} {po δ : Point}
    (ho : tx.vout[n]? = some o) (hk : o.key = some k) (hz : o.amount = 0) (hP : decodePoint k = some P) (hpo : Rep P po) (hδ : Rep dv δ) {idx : ℕ × ℕ}
    (hg : t.get (encPt (po - sh H δ n • base)) = some idx) (hi : isOutToAcc H t P deriv ds n = some (some (idx, dv))) {amount m : ℤ}
    (he : ecdhDecodeRv H tx.rct dv n = some (amount, m)) (w : Wallet) :
    ∃ w', receive H c t tx deriv ds o n w = some w' ∧ ∃ x ki, w'.got = w.got ++ [⟨n, idx, x, ki, some m, amount⟩] := by
  obtain ⟨D, hD, hDe⟩ := ht _ _ hg
  obtain ⟨d, hd⟩ := subSpend_rep (rep_B c.spend) hD
  have hpe : po = d + sh H δ n • base := by
    rw [encodePoint_rep hd] at hDe
    rw [encPt_injective hDe]; abel
  obtain ⟨x, ki, hx⟩ := precomp_complete hb0 hb1 hpo hδ hD hd hpe
  refine ⟨⟨fun j => if j = idx then w.money j + amount else w.money j, w.outs ++ [n], w.got ++ [⟨n, idx, x, ki, some m, amount⟩]⟩, ?_, x, ki, rfl⟩
  unfold receive checkAccOut
  rw [hk]
  dsimp only
  rw [hP]
  dsimp only
  rw [hi]
  simp only [Bool.false_eq_true, if_false]
  unfold scanOutput
  rw [ho]
  simp only [Option.bind_some, hk, hP, hx, hz, Nat.cast_zero, if_true, he]

theorem receive_foreign {H : Bytes → Bytes} {c : Creds} {t : Table} {tx : Tx} {o : Out} {txPub deriv : Ext} {Rs ds : List Ext} {n : ℕ}
    (hd : keyDerivation txPub c.view = some deriv) (hds : ∀ m : ℕ, Rs[m]? = none ∨ ∃ R D, Rs[m]? = some R ∧ ds[m]? = some D ∧ keyDerivation R c.view = some D)
    (hlen : ds = [] ∨ n < ds.length) (hl : ds.length = Rs.length) (h : Foreign H c t txPub Rs o n) (w : Wallet) :
    receive H c t tx deriv ds o n w = some w := by
  obtain ⟨k, P, hk, hP, hF⟩ := h
  obtain ⟨po, hpo⟩ := decodePoint_rep hP
  have hi : isOutToAcc H t P deriv ds n = some none := by
    obtain ⟨-, -, pR, -, hδ⟩ := keyDerivation_inv hd
    obtain ⟨K, hK, hKr⟩ := deriveSub_rep H hδ n hpo
    rw [isOutToAcc, hK]
    dsimp only
    rw [hF txPub deriv K (.inl rfl) hd hK]
    dsimp only
    rcases hlen with rfl | hlt
    · rfl
    · rw [if_pos (by omega)]
      rcases hds n with hn | ⟨R, D, hR, hD, hRD⟩
      · rw [List.getElem?_eq_none_iff] at hn
        omega
      · rw [hD]
        dsimp only
        obtain ⟨-, -, pR', -, hδ'⟩ := keyDerivation_inv hRD
        obtain ⟨K', hK', hKr'⟩ := deriveSub_rep H hδ' n hpo
        rw [hK']
        dsimp only
        rw [hF R D K' (.inr hR) hRD hK']
        rfl
  unfold receive checkAccOut
  rw [hk]
  dsimp only
  rw [hP]
  dsimp only
  rw [hi]
  rfl

theorem loop_complete {H : Bytes → Bytes} {c : Creds} {t : Table} {tx : Tx} {deriv : Ext} {ds : List Ext} (Q : ℕ → Got → Prop) (A : ℕ → Prop)
    (hstep : ∀ (n : ℕ) (o : Out), tx.vout[n]? = some o → ∀ w, ∃ w', receive H c t tx deriv ds o n w = some w' ∧ (∀ g ∈ w.got, g ∈ w'.got) ∧
      (A n → ∃ g ∈ w'.got, Q n g)) :
    ∀ (os : List Out) (i : ℕ) (w : Wallet), tx.vout.drop i = os → ∃ w', scanLoop H c t tx deriv ds os i w = some w' ∧ (∀ g ∈ w.got, g ∈ w'.got) ∧
      ∀ n, i ≤ n → n < i + os.length → A n → ∃ g ∈ w'.got, Q n g := by
  intro os
  induction os with
  | nil => exact fun i w _ => ⟨w, rfl, fun _ h => h, fun n h1 h2 => by simp at h2; omega⟩
  | cons o os ih =>
    intro i w hdrop
    have ho : tx.vout[i]? = some o := by
      have := congrArg (·[0]?) hdrop
      simpa [List.getElem?_drop] using this
    have hdrop' : tx.vout.drop (i + 1) = os := by
      have := congrArg List.tail hdrop
      simpa [List.tail_drop] using this
    obtain ⟨w₁, h1, h2, h3⟩ := hstep i o ho w
    obtain ⟨w', h4, h5, h6⟩ := ih (i + 1) w₁ hdrop'
    refine ⟨w', by rw [scanLoop, h1]; exact h4, fun g hg => h5 g (h2 g hg), fun n hn hn' hA => ?_⟩
    rcases Nat.eq_or_lt_of_le hn with rfl | hlt
    · obtain ⟨g, hg, hQ⟩ := h3 hA
      exact ⟨g, h5 g hg, hQ⟩
    · rw [List.length_cons] at hn'
      exact h6 n hlt (by omega) hA

end Verif.Scan

import Verif.Spec.Scan
import Verif.Props.Keys
import Verif.Props.Amounts
import Verif.Props.LiteSign

namespace Verif.Scan
open Verif Verif.Ed Verif.Key

/-- One output: either nothing changes and no address fits, or it is credited. -/
theorem receive_cases {H : Bytes → Bytes} {c : Creds} {t : Table} {tx : Tx} {deriv : Ext} {adds : List Ext} {o : Out} {i : ℕ} {w w' : Wallet}
    (ho : tx.vout[i]? = some o) (h : receive H c t tx deriv adds o i w = some w') :
    ∃ k P, o.key = some k ∧ decodePoint k = some P ∧
      ((w' = w ∧ isOutToAcc H t P deriv adds i = some none) ∨
       ∃ idx dv x ki mask amount, isOutToAcc H t P deriv adds i = some (some (idx, dv)) ∧ kiHelperPrecomp H c.view c.spend P dv i idx = some (x, ki) ∧
         w' = ⟨fun j => if j = idx then w.money j + amount else w.money j, w.outs ++ [i], w.got ++ [⟨i, idx, x, ki, mask, amount⟩]⟩ ∧
         ((o.amount = 0 ∧ ∃ m, mask = some m ∧ ecdhDecodeRv H tx.rct dv i = some (amount, m)) ∨ (o.amount ≠ 0 ∧ mask = none ∧ amount = o.amount))) := by
  unfold receive checkAccOut at h
  cases hk : o.key with
  | none => simp [hk] at h
  | some k =>
    rw [hk] at h
    dsimp only at h
    cases hP : decodePoint k with
    | none => simp [hP] at h
    | some P =>
      rw [hP] at h
      dsimp only at h
      refine ⟨k, P, rfl, hP, ?_⟩
      cases hi : isOutToAcc H t P deriv adds i with
      | none => simp [hi] at h
      | some r =>
        rw [hi] at h
        cases r with
        | none =>
          simp only [Bool.false_eq_true, if_false, Option.some.injEq] at h
          exact .inl ⟨h.symm, rfl⟩
        | some r =>
          obtain ⟨idx, dv⟩ := r
          right
          simp only [Bool.false_eq_true, if_false] at h
          unfold scanOutput at h
          rw [ho] at h
          simp only [Option.bind_some, hk, hP] at h
          cases hx : kiHelperPrecomp H c.view c.spend P dv i idx with
          | none => simp [hx] at h
          | some xk =>
            obtain ⟨x, ki⟩ := xk
            rw [hx] at h
            dsimp only at h
            by_cases hm : o.amount = 0
            · rw [if_pos (by exact_mod_cast hm)] at h
              cases he : ecdhDecodeRv H tx.rct dv i with
              | none => simp [he] at h
              | some am =>
                obtain ⟨amount, m⟩ := am
                rw [he] at h
                exact ⟨idx, dv, x, ki, some m, amount, rfl, hx, (Option.some.inj h).symm, .inl ⟨hm, m, rfl, he⟩⟩
            · rw [if_neg (by exact_mod_cast hm)] at h
              exact ⟨idx, dv, x, ki, none, _, rfl, hx, (Option.some.inj h).symm, .inr ⟨hm, rfl, rfl⟩⟩

/-- The derivation used is that of a published key. -/
theorem found_with {H : Bytes → Bytes} {a : ℤ} {t : Table} {txPub deriv out dv : Ext} {Rs ds : List Ext} {i : ℕ} {idx : ℕ × ℕ}
    (hd : keyDerivation txPub a = some deriv) (hds : derivations a Rs = some ds)
    (h : isOutToAcc H t out deriv ds i = some (some (idx, dv))) :
    ∃ R K, (R = txPub ∨ Rs[i]? = some R) ∧ keyDerivation R a = some dv ∧ deriveSubPublic H out dv i = some K ∧ t.get (encodePoint K) = some idx := by
  have hget : ∀ (Rs ds : List Ext), derivations a Rs = some ds → ∀ (i : ℕ) (D : Ext), ds[i]? = some D →
      ∃ R, Rs[i]? = some R ∧ keyDerivation R a = some D := by
    intro Rs
    induction Rs with
    | nil =>
      intro ds h i D hD
      simp only [derivations, Option.some.injEq] at h
      subst h; simp at hD
    | cons R Rs ih =>
      intro ds h i D hD
      simp only [derivations] at h
      split at h
      · rename_i x xs hx hxs
        simp only [Option.some.injEq] at h
        subst h
        cases i with
        | zero =>
          simp only [List.getElem?_cons_zero, Option.some.injEq] at hD
          subst hD
          exact ⟨R, rfl, hx⟩
        | succ i => exact ih xs hxs i D (by simpa using hD)
      · simp at h
  unfold isOutToAcc at h
  cases h1 : deriveSubPublic H out deriv i with
  | none => simp [h1] at h
  | some K =>
    rw [h1] at h
    dsimp only at h
    cases h2 : t.get (encodePoint K) with
    | some idx' =>
      rw [h2] at h
      simp only [Option.some.injEq, Prod.mk.injEq] at h
      obtain ⟨rfl, rfl⟩ := h
      exact ⟨txPub, K, .inl rfl, hd, h1, h2⟩
    | none =>
      rw [h2] at h
      dsimp only at h
      split at h
      · cases h3 : ds[i]? with
        | none => simp [h3] at h
        | some d' =>
          rw [h3] at h
          dsimp only at h
          cases h4 : deriveSubPublic H out d' i with
          | none => simp [h4] at h
          | some K' =>
            rw [h4] at h
            simp only [Option.some.injEq, Option.map_eq_some_iff, Prod.mk.injEq] at h
            obtain ⟨idx', h5, rfl, rfl⟩ := h
            obtain ⟨R, hR, hRd⟩ := hget Rs ds hds i _ h3
            exact ⟨R, K', .inr hR, hRd, h4, h5⟩
      · simp at h

/-- Nothing is found: no published key fits. -/
theorem not_found {H : Bytes → Bytes} {a : ℤ} {t : Table} {txPub deriv out : Ext} {Rs ds : List Ext} {i : ℕ}
    (hd : keyDerivation txPub a = some deriv) (hds : derivations a Rs = some ds)
    (h : isOutToAcc H t out deriv ds i = some none) (R D K : Ext) (hR : R = txPub ∨ Rs[i]? = some R) (hD : keyDerivation R a = some D)
    (hK : deriveSubPublic H out D i = some K) : t.get (encodePoint K) = none := by
  have hget : ∀ (Rs ds : List Ext), derivations a Rs = some ds → ∀ (i : ℕ) (R : Ext), Rs[i]? = some R →
      ∃ D, ds[i]? = some D ∧ keyDerivation R a = some D := by
    intro Rs
    induction Rs with
    | nil => intro ds h i R hR; simp at hR
    | cons R₀ Rs ih =>
      intro ds h i R hR
      simp only [derivations] at h
      split at h
      · rename_i x xs hx hxs
        simp only [Option.some.injEq] at h
        subst h
        cases i with
        | zero =>
          simp only [List.getElem?_cons_zero, Option.some.injEq] at hR
          subst hR
          exact ⟨x, rfl, hx⟩
        | succ i =>
          obtain ⟨D, h1, h2⟩ := ih xs hxs i R (by simpa using hR)
          exact ⟨D, by simpa using h1, h2⟩
      · simp at h
  unfold isOutToAcc at h
  cases h1 : deriveSubPublic H out deriv i with
  | none => simp [h1] at h
  | some K₀ =>
    rw [h1] at h
    dsimp only at h
    cases h2 : t.get (encodePoint K₀) with
    | some idx' => rw [h2] at h; simp at h
    | none =>
      rw [h2] at h
      dsimp only at h
      rcases hR with rfl | hR
      · rw [hd, Option.some.injEq] at hD
        subst hD
        rw [h1, Option.some.injEq] at hK
        subst hK
        exact h2
      · obtain ⟨D', h3, h4⟩ := hget Rs ds hds i R hR
        rw [h4, Option.some.injEq] at hD
        subst hD
        rw [if_pos (by have := (List.getElem?_eq_some_iff.mp h3).1; omega), h3] at h
        dsimp only at h
        rw [hK] at h
        simpa using h

theorem ecdhRv_opens {H : Bytes → Bytes} {rv : Rct} {dv : Ext} {i : ℕ} {amount m : ℤ} (h : ecdhDecodeRv H rv dv i = some (amount, m)) :
    ∃ cm, rv.outPk[i]? = some cm ∧ Opens cm amount m := by
  have key : ∀ sk v2, ecdhAt H rv sk i v2 = some (amount, m) → ∃ cm, rv.outPk[i]? = some cm ∧ Opens cm amount m := by
    intro sk v2 h
    unfold ecdhAt at h
    split at h
    · simp at h
    split at h
    · simp at h
    split at h
    · rename_i e cm he hc
      refine ⟨cm, hc, ?_⟩
      obtain ⟨C, hC, ha, hm, heq⟩ := C37_decoded_opens H e cm sk amount m v2 h
      obtain ⟨p, hp⟩ := decodePoint_rep hC
      have hg := Sig.rep_genC m amount
      have := (pointEqual_iff hg hp).mp heq
      refine ⟨C, hC, ha, hm, ?_⟩
      rw [affine_rep hp, ← this, affine_rep rep_base, affine_rep Sig.rep_hBase, ← toAff_times, ← toAff_times, ← toAff_add,
        ← natCast_zsmul, ← natCast_zsmul, Int.toNat_of_nonneg hm.1, Int.toNat_of_nonneg ha.1]
    · simp at h
  unfold ecdhDecodeRv at h
  split at h
  · simp at h
  split at h
  · exact key _ _ h
  split at h
  · exact key _ _ h
  · simp at h

end Verif.Scan

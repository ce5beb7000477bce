import Verif.Lemmas.Stealth
import Verif.Spec.KeysDemo
import Verif.Props.Curve

/-! C38, C39: one-time keys and key images. -/

namespace Verif.Key
open Verif Ed Edwards

theorem times_base (x : ℤ) (h : 0 ≤ x) {P : Ext} {p : Point} (hP : Rep P p) (he : x • base = p) :
    Spec.times (affine B) x.toNat = affine P := by
  rw [affine_rep rep_base, affine_rep hP, ← toAff_times, ← he, ← natCast_zsmul, Int.toNat_of_nonneg h]

theorem scalar_unique {x y : ℤ} (hx : 0 ≤ x ∧ x < l) (hy : 0 ≤ y ∧ y < l) (h : x • base = y • base) : x = y := by
  have h2 : x.toNat • base = y.toNat • base := by
    rw [← natCast_zsmul, ← natCast_zsmul, Int.toNat_of_nonneg hx.1, Int.toNat_of_nonneg hy.1, h]
  have h3 : x.toNat ≡ y.toNat [MOD lN] := by
    have := (nsmul_eq_nsmul_iff_modEq (G := Point)).mp h2
    rwa [order_base] at this
  have hl : l = (lN : ℤ) := l_eq
  have h4 : x.toNat = y.toNat := Nat.ModEq.eq_of_lt_of_lt h3 (by omega) (by omega)
  omega

/-- C39. When the helper returns a spend secret and a key image for an output (decoded from the wire), then the secret opens the output key,
`x·G = P`, and the image is `x·Hp(P)`. -/
theorem C39_secret_and_image (H : Bytes → Bytes) (a b : ℤ) (t : Table) (enc : Bytes) (out txPub recv : Ext) (Rs : List Ext) (n : ℕ) (x : ℤ)
    (I : Ext) (hout : decodePoint enc = some out) (h : kiHelper H a b t out txPub Rs n = some (x, I, recv)) :
    (0 ≤ x ∧ x < l) ∧ Spec.times (affine B) x.toNat = affine out ∧
      isOnCurve I = true ∧ affine I = Spec.times (affine (hp H (encodePoint out))) x.toNat := by
  obtain ⟨p, hp0⟩ := decodePoint_rep hout
  unfold kiHelper at h
  split at h
  · simp at h
  split at h
  · simp at h
  split at h
  · simp at h
  · simp at h
  rename_i idx dv hi
  obtain ⟨⟨x', I'⟩, hx0, he⟩ := Option.map_eq_some_iff.mp h
  simp only [Prod.mk.injEq] at he
  obtain ⟨rfl, rfl, rfl⟩ := he
  obtain ⟨hr, hx, rfl, -⟩ := precomp_sound hp0 hx0
  obtain ⟨p', hp', -⟩ := rep_hp H (encPt p)
  refine ⟨hr, times_base x' hr.1 hp0 hx, rep_on (rep_smul hp' hr.1), ?_⟩
  rw [encodePoint_rep hp0, affine_rep (rep_smul hp' hr.1), affine_rep hp', ← toAff_times, ← natCast_zsmul, Int.toNat_of_nonneg hr.1]

/-- C39. The key image does not depend on how the output was found: two successful computations for the same output key, with any
credentials, tables and transaction keys, return the same secret and the same image. -/
theorem C39_image_unique (H : Bytes → Bytes) (a b a' b' : ℤ) (t t' : Table) (enc : Bytes) (out txPub txPub' recv recv' : Ext)
    (Rs Rs' : List Ext) (n n' : ℕ) (x x' : ℤ) (I I' : Ext) (hout : decodePoint enc = some out)
    (h : kiHelper H a b t out txPub Rs n = some (x, I, recv)) (h' : kiHelper H a' b' t' out txPub' Rs' n' = some (x', I', recv')) :
    x = x' ∧ affine I = affine I' := by
  obtain ⟨hr, hx, -, hI⟩ := C39_secret_and_image H a b t enc out txPub recv Rs n x I hout h
  obtain ⟨hr', hx', -, hI'⟩ := C39_secret_and_image H a' b' t' enc out txPub' recv' Rs' n' x' I' hout h'
  have he : x = x' := by
    rw [← hx', affine_rep rep_base, ← toAff_times, ← toAff_times] at hx
    have h2 := toAff_injective hx
    have h3 : x.toNat ≡ x'.toNat [MOD lN] := by
      have := (nsmul_eq_nsmul_iff_modEq (G := Point)).mp h2
      rwa [order_base] at this
    have hl : l = (lN : ℤ) := l_eq
    have h4 : x.toNat = x'.toNat := Nat.ModEq.eq_of_lt_of_lt h3 (by omega) (by omega)
    omega
  subst he
  exact ⟨rfl, by rw [hI, hI']⟩

/-- C39. Outputs that do not belong to the wallet are rejected: without an entry for the key that is left after removing the shared secret,
neither with the main nor with the additional key, there is no result. -/
theorem C39_foreign_rejected (H : Bytes → Bytes) (a b : ℤ) (t : Table) (out txPub : Ext) (Rs : List Ext) (n : ℕ)
    (hforeign : ∀ (R D K : Ext), R = txPub ∨ Rs[n]? = some R → keyDerivation R a = some D → deriveSubPublic H out D n = some K →
      t.get (encodePoint K) = none) : kiHelper H a b t out txPub Rs n = none := by
  rcases h : kiHelper H a b t out txPub Rs n with _ | r
  · rfl
  exfalso
  unfold kiHelper at h
  split at h
  · simp at h
  rename_i recv hrecv
  split at h
  · simp at h
  rename_i adds hadds
  have hget : ∀ (n : ℕ) (D : Ext), adds[n]? = some D → ∃ R, Rs[n]? = some R ∧ keyDerivation R a = some D := by
    clear h hforeign
    induction Rs generalizing adds with
    | nil => cases hadds; simp
    | cons R Rs ih =>
      unfold derivations at hadds
      split at hadds
      · rename_i y ys hy hys
        cases hadds
        intro n D hD
        cases n with
        | zero => exact ⟨R, rfl, by rw [hy]; simpa using hD⟩
        | succ n => simpa using ih ys hys n D (by simpa using hD)
      · simp at hadds
  split at h
  · simp at h
  · simp at h
  rename_i idx dv hi
  unfold isOutToAcc at hi
  split at hi
  · simp at hi
  rename_i K hK
  rw [hforeign txPub recv K (Or.inl rfl) hrecv hK] at hi
  dsimp only at hi
  split at hi
  · split at hi
    · simp at hi
    rename_i dd hdd
    obtain ⟨R, hR, hRd⟩ := hget n dd hdd
    split at hi
    · simp at hi
    rename_i K' hK'
    rw [hforeign R dd K' (Or.inr hR) hRd hK'] at hi
    simp at hi
  · simp at hi

/-- The table built by the wallet is right. -/
theorem C38_table_valid (H : Bytes → Bytes) (a : ℤ) (S : Ext) (account : ℕ) (indices : List ℕ) (t t' : Table) (ht : t.Valid H a S)
    (h : computeSubaddresses H a S account indices t = some t') :
    t'.Valid H a S ∧ (∀ k, t.get k ≠ none → t'.get k ≠ none) ∧
      ∀ idx ∈ indices, ∃ D, subSpendPub H a S account idx = some D ∧ t'.get (encodePoint D) ≠ none := by
  have get_cons : ∀ (e : Bytes × (ℕ × ℕ)) (t : Table) (k : Bytes), Table.get (e :: t) k = if e.1 = k then some e.2 else t.get k := by
    intro e t k
    simp only [Table.get, List.find?_cons]
    by_cases hk : e.1 = k
    · simp [hk]
    · simp [hk, beq_eq_false_iff_ne.mpr hk]
  have step : ∀ (t : Table) (D : Ext) (idx : ℕ × ℕ), t.Valid H a S → subSpendPub H a S idx.1 idx.2 = some D →
      Table.Valid H a S ((encodePoint D, idx) :: t) := by
    intro t D idx ht hD k i hk
    rw [get_cons] at hk
    split at hk
    · rename_i he
      cases hk
      exact ⟨D, hD, he⟩
    · exact ht k i hk
  have keep : ∀ (t : Table) (e : Bytes × (ℕ × ℕ)) (k : Bytes), t.get k ≠ none → Table.get (e :: t) k ≠ none := by
    intro t e k h
    rw [get_cons]
    split
    · simp
    · exact h
  induction indices generalizing t with
  | nil =>
    cases h
    exact ⟨ht, fun k h => h, by simp⟩
  | cons idx rest ih =>
    unfold computeSubaddresses at h
    suffices hs : ∃ D, subSpendPub H a S account idx = some D ∧
        computeSubaddresses H a S account rest ((encodePoint D, (account, idx)) :: t) = some t' by
      obtain ⟨D, hD, hrest⟩ := hs
      obtain ⟨h1, h2, h3⟩ := ih _ (step t D (account, idx) ht hD) hrest
      refine ⟨h1, fun k hk => h2 k (keep _ _ _ hk), fun j hj => ?_⟩
      rcases List.mem_cons.mp hj with rfl | hj
      · exact ⟨D, hD, h2 _ (by rw [get_cons, if_pos rfl]; simp)⟩
      · exact h3 j hj
    split at h
    · rename_i h0
      refine ⟨S, by rw [subSpendPub, if_pos h0], ?_⟩
      obtain ⟨rfl, rfl⟩ := h0
      exact h
    · split at h
      · simp at h
      · rename_i D hD
        exact ⟨D, hD, h⟩

/-- C38. Whenever the signer completes the outputs of a transaction, every output sent to an address of a wallet can be spent by that wallet.
The wallet has private keys `a`, `b` and a table of right entries that contains the address; the address is its main address or any
sub-address `(i, j)`. The sender knows only the encoded address. All four ways of building the output are covered: standard
address, single sub-address, sub-address with additional keys, change. Flags: the destination is marked as a sub-address exactly if it is
one, and destinations with the same address carry the same flag. Change: an output to the change address is sent to the sender's own wallet.
The recipient reads only published encodings: transaction key, additional keys, output key. -/
theorem C38_recipient_can_spend (H : Bytes → Bytes)
    (a b : ℤ) (ha : 0 < a ∧ a < l) (hb : 0 < b ∧ b < l) (t : Table) (ht : t.Valid H a (scalarmultB b)) (i j : ℕ) (D C : Ext)
    (haddr : subAddressKeys H a (scalarmultB b) i j = some (D, C)) (hin : t.get (encodePoint D) ≠ none)
    (r : ℤ) (hr : 0 ≤ r ∧ r < l) (view : ℤ) (change : Option (Bytes × Bytes)) (dsts : List Dst) (ss : List ℤ)
    (hss : ∀ s ∈ ss, 0 ≤ s ∧ s < l) (k : TxKeys) (hk : txKeys r dsts change = some k) (os : List OutKeys)
    (hos : allOutKeys H k view change 0 ss dsts = some os)
    (n : ℕ) (d : Dst) (hd : dsts[n]? = some d) (hda : d.spend = encodePoint D ∧ d.view = encodePoint C)
    (hflag : d.isSub = true ↔ ¬(i = 0 ∧ j = 0)) (hsame : ∀ e ∈ dsts, e.addr = d.addr → e.isSub = d.isSub)
    (hchange : change = some d.addr → view = a) :
    ∃ (o : OutKeys) (R P : Ext) (As : List Ext) (x : ℤ) (I recv : Ext), os[n]? = some o ∧
      decodePoint (encodePoint k.rPub) = some R ∧ decodePoint (encodePoint o.outKey) = some P ∧ decodeAll (publishedKeys os) = some As ∧
      kiHelper H a b t P R As n = some (x, I, recv) ∧ Opens x o.outKey ∧
      -- recognised as a payment to this sub-address, the recipient has the sender's amount key
      ∃ (ds : List Ext) (idx : ℕ × ℕ) (dv : Ext), derivations a As = some ds ∧ isOutToAcc H t P recv ds n = some (some (idx, dv)) ∧
        (idx = (i, j) → derivationToScalar H dv n = some o.amountKey) := by
  -- the address
  obtain ⟨hDs, pd, hDr, hCr⟩ := subKeys_eq (le_of_lt ha.1) (rep_B b) haddr
  rw [encodePoint_rep hDr] at hin hda
  obtain ⟨hdspend, hdview⟩ := hda
  -- the sender
  obtain ⟨hkr, hkn, ⟨pr, hpr⟩, hkone, hkoth⟩ := txKeys_inv hr.1 hk
  obtain ⟨hlen, hall⟩ := all_get hos
  have hdm : d ∈ dsts := List.mem_of_getElem? hd
  obtain ⟨s, o, hs, ho, hok⟩ := hall n d hd
  rw [Nat.zero_add] at hok
  obtain ⟨dv, δ, D', p', hdv, hδ, hD', hp', hak, hP, had⟩ := outKeys_inv hok
  obtain rfl : pd = p' := by
    rw [hdspend, decode_encPt] at hD'
    cases hD'
    exact rep_unique (rep_canon pd) hp'
  have hs0 : 0 ≤ s ∧ s < l := hss s (List.mem_of_getElem? hs)
  -- what is published
  have hinv : ∀ o ∈ os, ∃ s d, 0 ≤ s ∧ additionalKey k s d = some o.additional := by
    intro o' ho'
    obtain ⟨m, hm⟩ := List.mem_iff_getElem?.mp ho'
    have hlt : m < dsts.length := by
      rw [← hlen]
      by_contra hc
      rw [List.getElem?_eq_none (by omega)] at hm
      simp at hm
    obtain ⟨s', o'', hs', ho'', hok'⟩ := hall m dsts[m] (List.getElem?_eq_getElem hlt)
    rw [hm] at ho''
    cases ho''
    obtain ⟨_, _, _, _, _, _, _, _, _, _, had'⟩ := outKeys_inv hok'
    exact ⟨s', dsts[m], (hss s' (List.mem_of_getElem? hs')).1, had'⟩
  obtain ⟨As, hAs, hAsr, hAsall, hAsnone⟩ := published os (by
    intro o' ho' A hA
    obtain ⟨s', d', hs', had'⟩ := hinv o' ho'
    rw [hA] at had'
    exact additional_rep hs' had')
  have hneed : k.needAdditional = true → ∀ o ∈ os, o.additional ≠ none := by
    intro h o' ho'
    obtain ⟨s', d', -, had'⟩ := hinv o' ho'
    exact (additional_need had').mp h
  have hnoneed : k.needAdditional = false → ∀ o ∈ os, o.additional = none := by
    intro h o' ho'
    obtain ⟨s', d', -, had'⟩ := hinv o' ho'
    by_contra hc
    rw [(additional_need had').mpr hc] at h
    simp at h
  have hlt : n < os.length := by
    by_contra hc
    rw [List.getElem?_eq_none (by omega)] at ho
    simp at ho
  have hAslen : As.length > 0 → n < As.length := by
    intro h
    cases hna : k.needAdditional with
    | true => rw [(hAsall (hneed hna)).1]; exact hlt
    | false => rw [hAsnone (hnoneed hna)] at h; simp at h
  -- the derivation used by the sender is found by the recipient
  have hkey : t.get (encPt (pd + sh H δ n • base - sh H ((8 : ℤ) • a • pr) n • base)) ≠ none ∨
      ∃ (R : Ext) (p : Point), As[n]? = some R ∧ Rep R p ∧
        t.get (encPt (pd + sh H δ n • base - sh H ((8 : ℤ) • a • p) n • base)) ≠ none := by
    unfold outDerivation at hdv
    split at hdv
    · rename_i hc
      obtain rfl := hchange hc
      obtain ⟨-, -, p2, hp2, hδ2⟩ := keyDerivation_inv hdv
      rw [rep_unique hδ hδ2, rep_unique hp2 hpr]
      left
      simpa using hin
    rename_i hc
    split at hdv
    · simp at hdv
    rename_i V hV
    obtain ⟨he0, he1, pv, hpv, hδ2⟩ := keyDerivation_inv hdv
    have hkeys : ∀ e ∈ dsts, change ≠ some e.addr → e.key = d.key → e.isSub = d.isSub ∧ e.addr = d.addr := by
      intro e he hce hek
      obtain ⟨m, hm⟩ := List.mem_iff_getElem?.mp he
      obtain ⟨s', o', hs', ho', hok'⟩ := hall m e hm
      obtain ⟨dv', _, De, _, hdv', _, hDe, _, _, _, _⟩ := outKeys_inv hok'
      have h1 := decode_len hDe
      have h2 : 32 ≤ e.view.length := by
        unfold outDerivation at hdv'
        rw [if_neg hce] at hdv'
        split at hdv'
        · simp at hdv'
        · rename_i V' hV'
          exact decode_len hV'
      have h3 : d.spend.length = 32 := by rw [hdspend, encPt_length]
      have h4 : d.view.length = 32 := by rw [hdview, encodePoint, packBits_length]
      have h5 := congrArg List.length hek
      simp only [Dst.key, List.length_append] at h5
      obtain ⟨h6, h7⟩ := List.append_inj hek (by omega)
      have : e.addr = d.addr := by rw [Dst.addr, Dst.addr, h6, h7]
      exact ⟨hsame e he this, this⟩
    obtain ⟨hstd, hsub⟩ := classify_counts change d hc dsts hdm hkeys [] (by simp) (0, 0, none)
    change d.isSub = false → 0 + 1 ≤ (classify dsts change).1 at hstd
    change d.isSub = true → 0 + 1 ≤ (classify dsts change).2.1 ∧
      ((classify dsts change).2.1 = 0 + 1 → (classify dsts change).2.2 = some d.addr) at hsub
    cases hds : d.isSub with
    | false =>
      have h00 : i = 0 ∧ j = 0 := by
        by_contra hc
        have := hflag.mpr hc
        rw [hds] at this
        simp at this
      rw [if_pos h00] at hCr
      have hrp := hkoth fun h => by have := hstd hds; omega
      have hprr : pr = r • base := by rw [hrp] at hpr; exact rep_unique hpr (rep_B r)
      have hpvv : pv = a • base := by
        rw [hdview, encodePoint_rep hCr, decode_encPt] at hV
        cases hV
        exact rep_unique hpv (rep_canon _)
      left
      rw [hds, Bool.false_and, if_neg (by simp), hkr] at hδ2
      rw [rep_unique hδ hδ2, hpvv, hprr, smul_comm r a base]
      simpa using hin
    | true =>
      have h00 : ¬(i = 0 ∧ j = 0) := hflag.mp hds
      rw [if_neg h00] at hCr
      have hpvv : pv = a • pd := by
        rw [hdview, encodePoint_rep hCr, decode_encPt] at hV
        cases hV
        exact rep_unique hpv (rep_canon _)
      cases hna : k.needAdditional with
      | true =>
        right
        have hA : ∃ A, o.additional = some A ∧ Rep A (s • pd) := by
          unfold additionalKey at had
          rw [hna, if_neg (by simp), if_pos hds, hdspend, decode_encPt] at had
          have : some (smul (canon pd) s) = o.additional := by simpa using had
          exact ⟨_, this.symm, rep_smul (rep_canon pd) hs0.1⟩
        obtain ⟨A, hA, hAr⟩ := hA
        obtain ⟨R, hR, hRr⟩ := (hAsall (hneed hna)).2 n o A _ ho hA hAr
        refine ⟨R, _, hR, hRr, ?_⟩
        rw [hds, hna, Bool.true_and, if_pos rfl] at hδ2
        rw [rep_unique hδ hδ2, hpvv, smul_comm s a pd]
        simpa using hin
      | false =>
        left
        obtain ⟨hn1, hn2⟩ := hsub hds
        have hcl : (classify dsts change).1 = 0 ∧ (classify dsts change).2.1 = 1 := by
          have h3 : ¬((classify dsts change).2.1 > 0 ∧ ((classify dsts change).1 > 0 ∨ (classify dsts change).2.1 > 1)) := by
            rw [← hkn, hna]; simp
          omega
        obtain ⟨ad, D2, had2, hD2, hrp⟩ := hkone hcl
        rw [hn2 hcl.2] at had2
        cases had2
        rw [show d.addr.1 = d.spend from rfl, hdspend, decode_encPt] at hD2
        cases hD2
        have hprr : pr = r • pd := by rw [hrp] at hpr; exact rep_unique hpr (rep_smul (rep_canon pd) hr.1)
        rw [hds, hna, if_neg (by simp), hkr] at hδ2
        rw [rep_unique hδ hδ2, hpvv, hprr, smul_comm r a pd]
        simpa using hin
  obtain ⟨recv, ds, idx, dv', δ', d', D2, x, I, h1, h2, h3, h4, h5, h6, h7, h8⟩ :=
    kiHelper_complete ha.1 ha.2 hb.1 hb.2 ht (rep_canon (pd + sh H δ n • base)) (rep_canon pr) hAsr hAslen hkey
  refine ⟨o, _, _, As, x, I, recv, ho, by rw [encodePoint_rep hpr, decode_encPt], by rw [encodePoint_rep hP, decode_encPt], hAs, h8, ?_,
    ds, idx, dv', h2, h3, ?_⟩
  · have hpre := h8
    unfold kiHelper at hpre
    rw [h1] at hpre
    dsimp only at hpre
    rw [h2] at hpre
    dsimp only at hpre
    rw [h3] at hpre
    dsimp only at hpre
    obtain ⟨⟨x', I'⟩, hx0, he⟩ := Option.map_eq_some_iff.mp hpre
    simp only [Prod.mk.injEq] at he
    obtain ⟨rfl, rfl, -⟩ := he
    obtain ⟨hxr, hx, -, -⟩ := precomp_sound (rep_canon _) hx0
    exact ⟨hxr.1, hxr.2, (pointEqual_iff (rep_B x') hP).mpr hx⟩
  · rintro rfl
    obtain rfl : D = D2 := Option.some.inj (hDs.symm.trans h5)
    rw [rep_unique h6 hDr] at h7
    have h9 : sh H δ n • base = sh H δ' n • base := add_left_cancel h7
    have r1 := hs_range H (encPt δ ++ Varint.dumpNat n)
    have r2 := hs_range H (encPt δ' ++ Varint.dumpNat n)
    have h10 : sh H δ' n = sh H δ n := scalar_unique r2 r1 h9.symm
    exact (toScalar_rep H h4 n).trans (congrArg some (h10.trans hak.symm))

/-! The hypotheses are met: standard address and sub-address together (additional keys), sub-address alone, standard address alone, change. -/
example : demoSpend [demoDst 0 0 4, demoDst 1 1 3] none 0 = true ∧ demoSpend [demoDst 0 0 4, demoDst 1 1 3] none 1 = true := by
  decide +kernel
example : demoSpend [demoDst 1 1 3] none 0 = true ∧ demoSpend [demoDst 0 0 3] none 0 = true := by decide +kernel
example : demoSpend [demoDst 1 1 3, demoDst 0 0 9] (some (demoDst 0 0 9).addr) 1 = true := by decide +kernel
/-- A sub-address that is not in the table is not found. -/
example : demoSpend [demoDst 7 7 3] none 0 = false := by decide +kernel
example : demoTable.length = 4 ∧ demoTable.get (demoDst 1 1 3).spend = some (1, 1) := by decide +kernel

/-- Why the flags matter: with the sub-address marked as standard in one of two destinations with the same address, the recipient does not
find the output. -/
theorem C38_flags_needed : ∃ d : Dst, demoSpend [d] none 0 = true ∧ demoSpend [{ d with isSub := false }, d] none 1 = false :=
  ⟨demoDst 1 1 3, by decide +kernel, by decide +kernel⟩

end Verif.Key

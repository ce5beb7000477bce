import Verif.Lemmas.ScanLoop
import Verif.Props.EndToEnd

/-! C96: what a wallet finds in a transaction. -/

namespace Verif.Scan
open Verif Verif.Ed Verif.Key

/-- C96, for every transaction, honest or not. If a scan ends, then every output credited is one whose secret key and key image the wallet has computed,
made for the address it is credited to, with an amount that opens its commitment, unless the transaction gives its amount in the clear; the balance of each
address is the sum of these amounts, each output counting once; and no address in the table fits an output that is left out. -/
theorem C96_sound {H : Bytes → Bytes} {c : Creds} {t : Table} (ht : t.Valid H c.view (scalarmultB c.spend)) {tx : Tx} {txPub : Ext} {adds : List Ext}
    {w : Wallet} (h : scanTx H c t tx txPub adds empty = some w) :
    (∀ g ∈ w.got, Mine H c tx txPub adds g) ∧ (∀ idx, w.money idx = credited w idx) ∧ w.outs = w.got.map (·.index) ∧ w.outs.Pairwise (· < ·) ∧
      ∀ (i : ℕ) (o : Out), tx.vout[i]? = some o → i ∉ w.outs → Foreign H c t txPub adds o i := by
  unfold scanTx at h
  split at h
  · rename_i d ds hd hds
    have hi : Inv H c t tx txPub adds 0 empty :=
      ⟨by simp [empty], by simp [empty, credited], rfl, List.Pairwise.nil, by simp [empty], fun j o hj => absurd hj (by omega)⟩
    have := loop_inv ht hd hds tx.vout 0 empty w rfl hi h
    rw [Nat.zero_add] at this
    refine ⟨this.mine, this.money, this.outs, this.order, fun i o ho hn => ?_⟩
    exact this.foreign i o (List.getElem?_eq_some_iff.mp ho).1 ho hn
  · simp at h

/-- C96. Outputs with the same key, in the same or in different transactions, found by the same or by different wallets, have the same secret and the same
key image: only one of them can be spent. -/
theorem C96_same_key {H : Bytes → Bytes} {k : Bytes} {x x' : ℤ} {ki ki' : Ext} (h : Spends H k x ki) (h' : Spends H k x' ki') :
    x = x' ∧ affine ki = affine ki' := by
  obtain ⟨P, hP, hx, -, hI⟩ := h.secret
  obtain ⟨P', hP', hx', -, hI'⟩ := h'.secret
  rw [hP, Option.some.injEq] at hP'
  subst hP'
  have he : x = x' := by
    obtain ⟨p, hp⟩ := decodePoint_rep hP
    refine scalar_unique h.range h'.range ?_
    rw [← hx', affine_rep rep_base, ← toAff_times, ← toAff_times] at hx
    have := toAff_injective hx
    rwa [← natCast_zsmul, ← natCast_zsmul, Int.toNat_of_nonneg h.range.1, Int.toNat_of_nonneg h'.range.1] at this
  subst he
  exact ⟨rfl, by rw [hI, hI']⟩

/-- C96, false for outputs with an amount in the clear: whatever the commitment, the wallet believes the amount written. -/
theorem C96_false_clear {H : Bytes → Bytes} {c : Creds} {t : Table} {tx : Tx} {deriv : Ext} {adds : List Ext} {o : Out} {i : ℕ} {w w' : Wallet} {g : Got}
    (ho : tx.vout[i]? = some o) (h : receive H c t tx deriv adds o i w = some w') (hg : w'.got = w.got ++ [g]) (amount : ℕ) (ha : amount ≠ 0)
    (rct : Rct) : ∃ w'', receive H c t ⟨tx.vout.set i { o with amount := amount }, rct⟩ deriv adds { o with amount := amount } i w = some w'' ∧
      w''.got = w.got ++ [{ g with mask := none, amount := amount }] := by
  obtain ⟨k, P, hk, hP, ⟨rfl, -⟩ | ⟨idx, dv, x, ki, mask, am, hi, hx, rfl, -⟩⟩ := receive_cases ho h
  · simp at hg
  · have hlt := (List.getElem?_eq_some_iff.mp ho).1
    simp only [List.append_cancel_left_eq, List.cons.injEq, and_true] at hg
    subst hg
    refine ⟨⟨fun j => if j = idx then w.money j + (amount : ℤ) else w.money j, w.outs ++ [i], w.got ++ [⟨i, idx, x, ki, none, amount⟩]⟩, ?_, rfl⟩
    unfold receive checkAccOut
    simp only [hk, hP, hi, Bool.false_eq_true, if_false]
    unfold scanOutput
    have e : ((tx.vout.set i { o with amount := amount })[i]?).bind (·.key) = some k := by
      rw [List.getElem?_set_self hlt]; exact hk
    simp only [hk] at e
    simp only [e, hP, hx]
    rw [if_neg (by exact_mod_cast ha)]

/-- C96, false for outputs with the same key: the wallet keeps no key images, and an output seen again is credited again, with the same key image, although
only one of the two can be spent (`C96_same_key`). -/
theorem C96_false_twice {H : Bytes → Bytes} {c : Creds} {t : Table} {tx : Tx} {deriv : Ext} {adds : List Ext} {o : Out} {i : ℕ} {w w' : Wallet} {g : Got}
    (ho : tx.vout[i]? = some o) (h : receive H c t tx deriv adds o i w = some w') (hg : w'.got = w.got ++ [g]) :
    ∃ w'', receive H c t tx deriv adds o i w' = some w'' ∧ w''.got = w.got ++ [g, g] ∧
      ∀ idx, w''.money idx = w.money idx + if idx = g.idx then 2 * g.amount else 0 := by
  obtain ⟨k, P, hk, hP, ⟨rfl, -⟩ | ⟨idx, dv, x, ki, mask, am, hi, hx, rfl, hm⟩⟩ := receive_cases ho h
  · simp at hg
  · simp only [List.append_cancel_left_eq, List.cons.injEq, and_true] at hg
    subst hg
    obtain ⟨w', ew⟩ : ∃ w' : Wallet, w' = ⟨fun j => if j = idx then w.money j + am else w.money j, w.outs ++ [i], w.got ++ [⟨i, idx, x, ki, mask, am⟩]⟩ :=
      ⟨_, rfl⟩
    rw [← ew]
    refine ⟨⟨fun j => if j = idx then w'.money j + am else w'.money j, w'.outs ++ [i], w'.got ++ [⟨i, idx, x, ki, mask, am⟩]⟩, ?_, ?_, ?_⟩
    · unfold receive checkAccOut
      simp only [hk, hP, hi, Bool.false_eq_true, if_false]
      unfold scanOutput
      simp only [ho, Option.bind_some, hk, hP, hx]
      rcases hm with ⟨h0, m, rfl, he⟩ | ⟨h0, rfl, rfl⟩
      · rw [if_pos (by exact_mod_cast h0)]
        simp only [he]
      · rw [if_neg (by exact_mod_cast h0)]
    · rw [ew]; simp
    · intro j
      rw [ew]
      dsimp only
      split
      · ring
      · simp

open Real Agent in
/-- C96. A wallet finds what the agent sends it: if a transaction is signed, and every destination is an address of the wallet in its table or fits no
address in the table, then the scan with the keys in the extra field ends, and each destination of the wallet is credited with its amount, at an index with
this address. -/
theorem C96_complete {o o' : Outside} (ho : o.Ok) (hh : o'.hash = o.hash) (hv : o'.view ≠ 0) (hs : o'.spend ≠ 0) {cfg : Config} {d : TxData}
    (hfit : Fits cfg d) (hsub : ∀ x ∈ d.dsts, ∀ y ∈ d.dsts, x.addr = y.addr → x.isSub = y.isSub) {rnd : Nat → Signer.Rand Fl} {hrnd : Nat → Bytes}
    {c c' : Conn Fl Sub} {tx : Agent.Tx} (hrun : signTransaction (env o) cfg Wire.codec rnd hrnd d c = some (tx, c')) {t : Table}
    (ht : t.Valid o'.hash (Bp.num o'.view) (scalarmultB (Bp.num o'.spend))) {stx : Tx} (hst : Shows cfg tx stx) :
    ∃ key adds txPub As, Published tx key adds ∧ decodePoint key = some txPub ∧ Decoded adds As ∧
      ((∀ (n : Nat) (dst : Signer.Dst), d.dsts[n]? = some dst → (∃ i j, Ours o' o.view d.change.addr t stx txPub As n dst i j) ∨
          ∃ out, stx.vout[n]? = some out ∧ Foreign o'.hash ⟨Bp.num o'.view, Bp.num o'.spend⟩ t txPub As out n) →
        ∃ w, scanTx o'.hash ⟨Bp.num o'.view, Bp.num o'.spend⟩ t stx txPub As empty = some w ∧
          ∀ (n : Nat) (dst : Signer.Dst) (i j : Nat), d.dsts[n]? = some dst → Ours o' o.view d.change.addr t stx txPub As n dst i j →
            ∃ g ∈ w.got, g.index = n ∧ g.amount = dst.amount ∧
              ∃ D, subSpendPub o'.hash (Bp.num o'.view) (scalarmultB (Bp.num o'.spend)) i j = some D ∧ t.get (encodePoint D) = some g.idx) := by
  obtain ⟨ins, outs, groups, nonce, txKey, addKeys, h1, h2⟩ := C74_recipients_find_outputs_partial (lawful ho) hfit hsub hrun
  refine ⟨Bp.enc txKey, addKeys.map Bp.enc, canon (txKey : Point), addKeys.map fun p : Sub => canon (p : Point), ⟨?_, nonce, ?_⟩, Bp.decode_enc txKey, ?_, ?_⟩
  · rw [h1.vout, List.length_map, List.length_map, List.map_eq_nil_iff]
    exact h1.additional
  · rw [List.length_map]
    simp only [List.map_eq_nil_iff]
    exact h1.extra
  · unfold Decoded
    rw [List.forall₂_map_left_iff, List.forall₂_map_right_iff, List.forall₂_same]
    exact fun p _ => Bp.decode_enc p
  intro hall
  obtain ⟨deriv, hd, hdr⟩ := keyDerivation_rep (Bp.rep_sub_canon txKey) (num_pos hv) (Bp.num_range _).2
  obtain ⟨ds, hds, hdl, hdn⟩ := derivations_rep (num_pos hv) (Bp.num_range o'.view).2 (addKeys.map fun p : Sub => canon (p : Point)) (by
    intro R hR
    obtain ⟨p, -, rfl⟩ := List.mem_map.mp hR
    exact ⟨_, Bp.rep_sub_canon p⟩)
  have hvlen : stx.vout.length = outs.length := by rw [hst.vout, List.length_map, h1.vout, List.length_map]
  have hdlen : outs.length = d.dsts.length := by rw [← h1.dests, List.length_map]
  -- one output of the wallet
  have hone : ∀ (n : Nat) (dst : Signer.Dst) (i j : Nat), d.dsts[n]? = some dst →
      Ours o' o.view d.change.addr t stx (canon (txKey : Point)) (addKeys.map fun p : Sub => canon (p : Point)) n dst i j →
      ∃ out D idx, stx.vout[n]? = some out ∧ subSpendPub o'.hash (Bp.num o'.view) (scalarmultB (Bp.num o'.spend)) i j = some D ∧
        t.get (encodePoint D) = some idx ∧ ∀ w, ∃ w', receive o'.hash ⟨Bp.num o'.view, Bp.num o'.spend⟩ t stx deriv ds out n w = some w' ∧
          ∃ x ki m, w'.got = w.got ++ [⟨n, idx, x, ki, some m, dst.amount⟩] := by
    intro n dst i j hn hours
    have hout : ∃ out, outs[n]? = some out ∧ out.dst = dst := by
      have := hn
      rw [← h1.dests, List.getElem?_map, Option.map_eq_some_iff] at this
      exact this
    obtain ⟨out, ho1, rfl⟩ := hout
    obtain ⟨D, hD, P, hP, rP⟩ := address_owner (o := o) hours.addr hours.sub
    obtain ⟨R, hR, hF⟩ := h2 n out ho1 D o'.view hD hours.own
    have hlt : out.dst.amount < 2 ^ 64 := hfit.amounts _ (List.mem_of_getElem? hn)
    obtain ⟨Q, dv, r1, r2, r3, e, r4, r5⟩ := finds_reads ho hh hv hfit.hf hlt hF
    obtain ⟨idx, hidx⟩ := Option.ne_none_iff_exists'.mp (hours.known P hP)
    rw [Bp.decode_enc R, Option.some.injEq] at r1
    subst r1
    obtain ⟨dv', e1, e2⟩ := keyDerivation_rep (Bp.rep_sub_canon R) (num_pos hv) (Bp.num_range o'.view).2
    rw [r2, Option.some.injEq] at e1
    subst e1
    have hvout : stx.vout[n]? = some ⟨0, some (Bp.enc out.key)⟩ := by
      rw [hst.vout, List.getElem?_map, h1.vout, List.getElem?_map, ho1]; rfl
    have hpk : stx.rct.outPk[n]? = some (Bp.enc (Signer.genC (env o) out.mask out.dst.amount)) := by
      rw [hst.outPk, h1.commitments, List.getElem?_map, ho1]; rfl
    have hkey : (out.key : Point) = sh o'.hash ((8 : ℤ) • Bp.num o'.view • (R : Point)) n • base + (D : Point) := by
      rw [hF.key, AddSubgroup.coe_add, shared_eq, Bp.coe_smul, hh]
      rfl
    have hget : t.get (encPt ((out.key : Point) - sh o'.hash ((8 : ℤ) • Bp.num o'.view • (R : Point)) n • base)) = some idx := by
      rw [hkey, add_sub_cancel_left, ← encodePoint_rep rP]
      exact hidx
    refine ⟨_, P, idx, hvout, hP, hidx, fun w => ?_⟩
    have hecdh : ∀ dv, derivationToScalar o'.hash dv n = some (sh o.hash ((8 : ℤ) • Bp.num o'.view • (R : Point)) n) → ecdhDecodeRv o'.hash stx.rct dv n = some ((out.dst.amount : ℤ), Bp.num out.mask) := by
      intro dv r3
      have hlen := hst.ecdh.length_eq
      rw [h1.encrypted, List.length_map] at hlen
      have hnlt := (List.getElem?_eq_some_iff.mp ho1).1
      have hei : stx.rct.ecdhInfo[n]? = some e := by
        have h3 : n < stx.rct.ecdhInfo.length := by omega
        have h4 : n < tx.rv.ecdhInfo.length := by rw [h1.encrypted, List.length_map]; exact hnlt
        have := List.forall₂_iff_get.mp hst.ecdh |>.2 n h4 h3
        have h5 : tx.rv.ecdhInfo.get ⟨n, h4⟩ = out.ecdh := by
          have : tx.rv.ecdhInfo[n]? = some out.ecdh := by rw [h1.encrypted, List.getElem?_map, ho1]; rfl
          rw [List.getElem?_eq_getElem h4, Option.some.injEq] at this
          exact this
        rw [h5, r4, Option.some.injEq] at this
        rw [List.getElem?_eq_getElem h3, this]
        rfl
      have hpl : stx.rct.outPk.length = stx.rct.ecdhInfo.length := by
        rw [hst.outPk, h1.commitments, List.length_map, hlen]
      have hat : ∀ v2, v2 = decide (10 ≤ cfg.hf) → ecdhAt o'.hash stx.rct (sh o.hash ((8 : ℤ) • Bp.num o'.view • (R : Point)) n) n v2 =
          some ((out.dst.amount : ℤ), Bp.num out.mask) := by
        rintro _ rfl
        unfold ecdhAt
        rw [if_neg (by omega), if_neg (by omega), hei, hpk, hh]
        exact r5
      unfold ecdhDecodeRv
      rw [r3]
      dsimp only
      by_cases h10 : 10 ≤ cfg.hf
      · rw [hst.type, if_pos h10, if_neg (by decide), if_pos rfl]
        exact hat true (by simp [h10])
      · rw [hst.type, if_neg h10, if_pos (by decide)]
        exact hat false (by simp [h10])
    obtain ⟨dw, δ, f1, f2, f3⟩ : ∃ dw δ, Rep dw δ ∧ sh o'.hash δ n = sh o'.hash ((8 : ℤ) • Bp.num o'.view • (R : Point)) n ∧
        (dw = deriv ∨ (ds[n]? = some dw ∧
          t.get (encPt ((out.key : Point) - sh o'.hash ((8 : ℤ) • Bp.num o'.view • (txKey : Point)) n • base)) = none)) := by
      rcases hR with rfl | hR
      · exact ⟨dv, _, e2, rfl, .inl (Option.some.inj (r2.symm.trans hd))⟩
      · have hR' : (addKeys.map fun p : Sub => canon (p : Point))[n]? = some (canon (R : Point)) := by rw [List.getElem?_map, hR]; rfl
        have hD2' : ds[n]? = some dv := by
          obtain ⟨R2, D3, q1, q2, q3⟩ := derivations_at hds n (by rw [hR']; simp)
          rw [hR', Option.some.injEq] at q1
          subst q1
          rw [r2, Option.some.injEq] at q3
          rw [q2, q3]
        by_cases hc : t.get (encPt ((out.key : Point) - sh o'.hash ((8 : ℤ) • Bp.num o'.view • (txKey : Point)) n • base)) = none
        · exact ⟨dv, _, e2, rfl, .inr ⟨hD2', hc⟩⟩
        · refine ⟨deriv, _, hdr, ?_, .inl rfl⟩
          obtain ⟨K, hK, hKr⟩ := deriveSub_rep o'.hash hdr n (Bp.rep_sub_canon out.key)
          obtain ⟨K2, hK2, hKr2⟩ := deriveSub_rep o'.hash e2 n (Bp.rep_sub_canon out.key)
          have := hours.once (Bp.enc out.key) _ _ _ _ (by rw [hvout]; rfl) (Bp.decode_enc out.key) hR' hd r2
            ⟨K, hK, by rw [encodePoint_rep hKr]; exact hc⟩ ⟨K2, hK2, by rw [encodePoint_rep hKr2, hget]; simp⟩
          rw [toScalar_rep _ hdr, toScalar_rep _ e2, Option.some.injEq] at this
          exact this
    have hget' : t.get (encPt ((out.key : Point) - sh o'.hash δ n • base)) = some idx := by rw [f2]; exact hget
    have hacc := found (Bp.rep_sub_canon out.key) hdr f1 hget' f3
    have hsc : derivationToScalar o'.hash dw n = some (sh o.hash ((8 : ℤ) • Bp.num o'.view • (R : Point)) n) := by
      rw [toScalar_rep _ f1, f2, hh]
    obtain ⟨w', hw', x, ki, hgot⟩ := receive_found (c := ⟨Bp.num o'.view, Bp.num o'.spend⟩) (num_pos hs) (Bp.num_range _).2 ht hvout rfl rfl
      (Bp.decode_enc out.key) (Bp.rep_sub_canon out.key) f1 hget' hacc (hecdh dw hsc) w
    exact ⟨w', hw', x, ki, _, hgot⟩
  have hlen : ∀ n, n < outs.length → ds = [] ∨ n < ds.length := by
    intro n hn
    rw [List.length_map] at hdl
    rcases h1.additional with h | h
    · left
      rw [h] at hdl
      exact List.eq_nil_of_length_eq_zero hdl
    · right
      omega
  obtain ⟨w, hw, -, hq⟩ := loop_complete (H := o'.hash) (c := ⟨Bp.num o'.view, Bp.num o'.spend⟩) (t := t) (tx := stx) (deriv := deriv) (ds := ds)
    (fun n g => ∀ (dst : Signer.Dst) (i j : Nat), d.dsts[n]? = some dst →
      Ours o' o.view d.change.addr t stx (canon (txKey : Point)) (addKeys.map fun p : Sub => canon (p : Point)) n dst i j →
      g.index = n ∧ g.amount = dst.amount ∧
        ∃ D, subSpendPub o'.hash (Bp.num o'.view) (scalarmultB (Bp.num o'.spend)) i j = some D ∧ t.get (encodePoint D) = some g.idx)
    (fun n => ∃ dst i j, d.dsts[n]? = some dst ∧
      Ours o' o.view d.change.addr t stx (canon (txKey : Point)) (addKeys.map fun p : Sub => canon (p : Point)) n dst i j)
    (by
      intro n out hn w
      have hnlt : n < d.dsts.length := by
        have := (List.getElem?_eq_some_iff.mp hn).1
        omega
      by_cases hA : ∃ dst i j, d.dsts[n]? = some dst ∧
        Ours o' o.view d.change.addr t stx (canon (txKey : Point)) (addKeys.map fun p : Sub => canon (p : Point)) n dst i j
      · obtain ⟨dst, i, j, hdst, hours⟩ := hA
        obtain ⟨out', D, idx, a1, a2, a3, a4⟩ := hone n dst i j hdst hours
        rw [hn, Option.some.injEq] at a1
        subst a1
        obtain ⟨w', hw', x, ki, m, hgot⟩ := a4 w
        refine ⟨w', hw', fun g hg => by rw [hgot]; exact List.mem_append_left _ hg, fun _ => ⟨_, by rw [hgot]; exact List.mem_append_right _ (List.mem_singleton_self _), ?_⟩⟩
        intro dst' i' j' hdst' hours'
        obtain ⟨out'', D', idx', b1, b2, b3, b4⟩ := hone n dst' i' j' hdst' hours'
        rw [hn, Option.some.injEq] at b1
        subst b1
        obtain ⟨w'', hw'', x', ki', m', hgot'⟩ := b4 w
        rw [hw', Option.some.injEq] at hw''
        subst hw''
        rw [hgot, List.append_cancel_left_eq, List.cons.injEq, Got.mk.injEq] at hgot'
        obtain ⟨⟨-, rfl, -⟩, -⟩ := hgot'
        rw [hdst, Option.some.injEq] at hdst'
        subst hdst'
        exact ⟨rfl, rfl, D', b2, b3⟩
      · obtain ⟨dst, hdst⟩ : ∃ dst, d.dsts[n]? = some dst := ⟨_, List.getElem?_eq_getElem hnlt⟩
        rcases hall n dst hdst with ⟨i, j, h⟩ | ⟨out', ho', hF⟩
        · exact absurd ⟨dst, i, j, hdst, h⟩ hA
        · rw [hn, Option.some.injEq] at ho'
          subst ho'
          exact ⟨w, receive_foreign hd (derivations_all hds) (hlen n (by omega)) hdl hF w, fun _ h => h, fun h => absurd h hA⟩)
    stx.vout 0 empty rfl
  refine ⟨w, ?_, ?_⟩
  · unfold scanTx
    rw [hd, hds]
    exact hw
  · intro n dst i j hdst hours
    have hnlt := (List.getElem?_eq_some_iff.mp hdst).1
    obtain ⟨g, hg, hQ⟩ := hq n (Nat.zero_le _) (by omega) ⟨dst, i, j, hdst, hours⟩
    exact ⟨g, hg, hQ dst i j hdst hours⟩

theorem sh_one (δ : Point) (n : ℕ) : sh Real.Demo.parts.hash δ n = hs Bp.oneH [] := by
  rw [sh, hs, hs]
  rfl

open Real Agent in
/-- The wallet of the example, scanning the transaction it has made for its address: the payment to somebody else is not its own, the change is credited. -/
example : ∃ tx c' stx txPub As w, signTransaction (env Real.Demo.parts) ⟨10, 1⟩ Wire.codec Real.Demo.draws (fun _ => []) (Real.Demo.request 1) ⟨{}, 0⟩ = some (tx, c') ∧
    Shows ⟨10, 1⟩ tx stx ∧
    scanTx Bp.oneH ⟨Bp.num 1, Bp.num 2⟩ [(encodePoint (scalarmultB (Bp.num 2)), (0, 0))] stx txPub As empty = some w ∧
    ∃ g ∈ w.got, g.index = 1 ∧ g.amount = 6 ∧ g.idx = (0, 0) := by
  obtain ⟨tx, c', _, h, -⟩ := C75_honest_is_accepted Real.Demo.ok Real.Demo.is_request Real.Demo.draws (fun _ => []) ⟨{}, 0⟩ Real.Demo.agrees
  have hr := Real.Demo.is_request
  have hfit : Fits ⟨10, 1⟩ (Real.Demo.request 1) := ⟨hr.version, hr.hf, hr.fewSources, hr.fewDsts, hr.amounts⟩
  have hsub : ∀ x ∈ (Real.Demo.request 1).dsts, ∀ y ∈ (Real.Demo.request 1).dsts, x.addr = y.addr → x.isSub = y.isSub := by
    intro x hx y hy _
    simp only [Real.Demo.request, List.mem_cons, List.not_mem_nil, or_false] at hx hy
    rcases hx with rfl | rfl <;> rcases hy with rfl | rfl <;> rfl
  obtain ⟨t, et⟩ : ∃ t : Table, t = [(encodePoint (scalarmultB (Bp.num 2)), (0, 0))] := ⟨_, rfl⟩
  have hget : ∀ k idx, t.get k = some idx → k = encodePoint (scalarmultB (Bp.num 2)) ∧ idx = (0, 0) := by
    intro k idx hk
    rw [et, Table.get, List.find?_cons] at hk
    split at hk
    · rename_i hb
      exact ⟨(beq_iff_eq.mp hb).symm, (Option.some.inj hk).symm⟩
    · simp at hk
  have hzero : ∀ S : Ext, subSpendPub Real.Demo.parts.hash (Bp.num Real.Demo.parts.view) S 0 0 = some S := fun S => if_pos ⟨rfl, rfl⟩
  have hin : t.get (encodePoint (scalarmultB (Bp.num Real.Demo.parts.spend))) ≠ none := by
    rw [et, Table.get, List.find?_cons, show Real.Demo.parts.spend = 2 from rfl, beq_self_eq_true]
    simp
  have ht : t.Valid Real.Demo.parts.hash (Bp.num Real.Demo.parts.view) (scalarmultB (Bp.num Real.Demo.parts.spend)) := by
    intro k idx hk
    obtain ⟨rfl, rfl⟩ := hget k idx hk
    exact ⟨_, hzero _, rfl⟩
  obtain ⟨stx, hst⟩ : ∃ stx : Tx, stx = ⟨tx.vout.map fun o => ⟨0, some o.2⟩,
      ⟨.bulletproof2, tx.rv.ecdhInfo.map fun b => (List.replicate 32 0, b ++ (List.replicate 32 0).drop 8), tx.rv.outPk⟩⟩ := ⟨_, rfl⟩
  have hshows : Shows ⟨10, 1⟩ tx stx := by
    refine ⟨by rw [hst], by rw [hst], ?_, by rw [hst]; rfl⟩
    rw [hst, List.forall₂_map_right_iff, List.forall₂_same]
    exact fun _ _ => rfl
  obtain ⟨key, adds, txPub, As, -, -, -, hw⟩ := C96_complete Real.Demo.ok (o' := Real.Demo.parts) rfl Real.Demo.ok.view Real.Demo.ok.spend hfit hsub h ht hshows
  have hours : Ours Real.Demo.parts Real.Demo.parts.view (Real.Demo.request 1).change.addr t stx txPub As 1 ⟨6, Real.Demo.own, false⟩ 0 0 := by
    refine ⟨Real.Demo.address_own, by simp, fun _ => rfl, ?_, ?_⟩
    · intro D hD
      rw [hzero, Option.some.injEq] at hD
      rw [← hD]
      exact hin
    · intro k P A D D' _ _ _ hD hD' _ _
      obtain ⟨-, -, p, -, hp⟩ := keyDerivation_inv hD
      obtain ⟨-, -, p', -, hp'⟩ := keyDerivation_inv hD'
      rw [toScalar_rep _ hp, toScalar_rep _ hp', sh_one, sh_one]
  obtain ⟨ins, outs, groups, nonce, txKey, addKeys, h1, h2⟩ := C74_recipients_find_outputs_partial (lawful Real.Demo.ok) hfit hsub h
  have hforeign : ∃ out, stx.vout[0]? = some out ∧
      Foreign Real.Demo.parts.hash ⟨Bp.num Real.Demo.parts.view, Bp.num Real.Demo.parts.spend⟩ t txPub As out 0 := by
    obtain ⟨out, ho1, hdst⟩ : ∃ out, outs[0]? = some out ∧ out.dst = ⟨3, Real.Demo.other, false⟩ := by
      have : (outs.map (·.dst))[0]? = some ⟨3, Real.Demo.other, false⟩ := by rw [h1.dests]; rfl
      rw [List.getElem?_map, Option.map_eq_some_iff] at this
      exact this
    have hs1 : Real.Demo.other.spend = Bp.enc baseS := by rw [Real.Demo.other]
    have hs2 : Real.Demo.other.view = Bp.enc baseS := by rw [Real.Demo.other]
    have hG : (env Real.Demo.parts).G = baseS := by rw [env]
    have hch : (Real.Demo.request 1).change.addr = Real.Demo.own := by rw [Real.Demo.request]
    have howner : Owner (env Real.Demo.parts) out.dst baseS 1 := by
      refine ⟨?_, ?_⟩
      · rw [hdst, env_ptDec]
        dsimp only
        rw [hs1, ptDec_enc]
      · rw [hdst, env_ptDec]
        dsimp only
        rw [hs2, ptDec_enc, if_neg (by simp), one_smul, hG]
    obtain ⟨R, -, hF⟩ := h2 0 out ho1 baseS 1 howner (by
      rw [hdst, hch]
      exact fun hc => absurd hc Real.Demo.own_ne_other)
    refine ⟨⟨0, some (Bp.enc out.key)⟩, by rw [hst, List.getElem?_map, h1.vout, List.getElem?_map, ho1]; rfl, Bp.enc out.key, _, rfl, Bp.decode_enc _, ?_⟩
    intro R' D K _ hD hK
    obtain ⟨-, -, p, -, hp⟩ := keyDerivation_inv hD
    obtain ⟨K', hK', hKr⟩ := deriveSub_rep Real.Demo.parts.hash hp 0 (Bp.rep_sub_canon out.key)
    rw [hK, Option.some.injEq] at hK'
    subst hK'
    rw [encodePoint_rep hKr]
    cases hg : t.get (encPt ((out.key : Point) - sh Real.Demo.parts.hash ((8 : ℤ) • Bp.num Real.Demo.parts.view • p) 0 • base)) with
    | none => rfl
    | some idx =>
      exfalso
      obtain ⟨e1, -⟩ := hget _ _ hg
      rw [hF.key, AddSubgroup.coe_add, shared_eq, Bp.coe_smul] at e1
      have e2 : ((sh Real.Demo.parts.hash ((8 : ℤ) • Bp.num (1 : Fl) • (R : Point)) 0) • ((env Real.Demo.parts).G : Point)) + (baseS : Point) -
          sh Real.Demo.parts.hash ((8 : ℤ) • Bp.num Real.Demo.parts.view • p) 0 • base = base := by
        have : sh Real.Demo.parts.hash ((8 : ℤ) • Bp.num (1 : Fl) • (R : Point)) 0 = sh Real.Demo.parts.hash ((8 : ℤ) • Bp.num Real.Demo.parts.view • p) 0 := by
          rw [sh_one, sh_one]
        rw [this]
        exact add_sub_cancel_left _ _
      rw [e2] at e1
      refine Real.Demo.own_ne_other ?_
      have e3 : Bp.enc baseS = Bp.enc ((2 : Fl) • baseS) := by
        rw [show encodePoint (scalarmultB (Bp.num (2 : Fl))) = Bp.enc ((2 : Fl) • baseS) by
          rw [encodePoint_rep (rep_B _), Bp.enc, coe_smul']; rfl] at e1
        exact e1
      rw [Real.Demo.other, Real.Demo.own, e3, one_smul, ← e3]
  obtain ⟨w, hw1, hw2⟩ := hw (by
    intro n dst hn
    match n with
    | 0 => exact .inr hforeign
    | 1 =>
      left
      obtain rfl : dst = ⟨6, Real.Demo.own, false⟩ := (Option.some.inj hn).symm
      exact ⟨0, 0, hours⟩
    | n + 2 => simp [Real.Demo.request] at hn)
  obtain ⟨g, hg, g1, g2, D, gD, g3⟩ := hw2 1 ⟨6, Real.Demo.own, false⟩ 0 0 rfl hours
  refine ⟨tx, c', stx, txPub, As, w, h, hshows, ?_, g, hg, g1, g2, (hget _ _ g3).2⟩
  rw [← et]
  exact hw1

end Verif.Scan

import Verif.Lemmas.RealAccept
import Verif.Props.Keys
import Verif.Props.Amounts

/-! Outputs that a wallet received can be read and spent by it. -/

namespace Verif.Real
open Verif Ed Edwards Signer Agent Key

theorem num_pos {x : Fl} (h : x ≠ 0) : 0 < Bp.num x := by
  rcases (Bp.num_range x).1.lt_or_eq with h1 | h1
  · exact h1
  · exact absurd (by rw [← Bp.cast_num x, ← h1, Int.cast_zero]) h

theorem shared_eq (o : Outside) (v : Fl) (R : Sub) (n : ℕ) : shared (env o) v R n = ((sh o.hash ((8 : ℤ) • Bp.num v • (R : Point)) n : ℤ) : Fl) := by
  show ((hs o.hash (Bp.enc ((8 : Fl) • v • R) ++ Varint.dumpNat n) : ℤ) : Fl) = _
  rw [sh, Bp.enc]
  have h8 : (((8 : Fl) • v • R : Sub) : Point) = (8 : ℤ) • Bp.num v • (R : Point) := by
    have := Bp.coe_smul 8 (v • R)
    rw [coe_smul' v R] at this
    rw [← this]
    norm_cast
  rw [h8]

theorem mapM_enc : ∀ ps : List Sub, (ps.map Bp.enc).mapM ptDec = some ps
  | [] => rfl
  | p :: ps => by simp [ptDec_enc, mapM_enc ps]

theorem owns_unique {o : Outside} {t : SubTable} {src : Src} {x x' : Fl} {ki ki' : Sub} (h : Owns (env o) t src x ki)
    (h' : Owns (env o) t src x' ki') : ki = ki' := by
  obtain ⟨r, k, ks, a1, a2, -, a3, a4, a5⟩ := h.real
  obtain ⟨r', k', ks', b1, b2, -, b3, b4, b5⟩ := h'.real
  rw [a1, Option.some.injEq] at b1
  subst b1
  rw [a3, Option.some.injEq] at b3
  rw [a4, Option.some.injEq] at b4
  rw [a2, Option.some.injEq] at b2
  subst b3 b4
  rw [← b2, a5, Option.some.injEq, Prod.mk.injEq] at b5
  exact b5.2

/-- An output to an address in the table is owned. -/
theorem owns_received {o : Outside} (hv : o.view ≠ 0) (hs0 : o.spend ≠ 0) {t : Table}
    (ht : t.Valid o.hash (Bp.num o.view) (scalarmultB (Bp.num o.spend))) {D : Sub} (hD : t.get (Bp.enc D) ≠ none) {txKey : Sub} {addKeys : List Sub}
    {n : ℕ} (hlen : addKeys = [] ∨ n < addKeys.length) {R : Sub} (hR : R = txKey ∨ addKeys[n]? = some R) {src : Src} {m : RingMember}
    (hm : src.outputs[src.realOutput]? = some m) (hdest : m.dest = Bp.enc (shared (env o) o.view R n • baseS + D))
    (hcomm : m.commitment = Bp.enc (Signer.genC (env o) ((env o).scDec src.mask) src.amount)) (hn : src.inTxIndex = n)
    (hkey : src.txKey = Bp.enc txKey) (hadds : src.addKeys = addKeys.map Bp.enc) : ∃ x ki, Owns (env o) t src x ki := by
  set out : Sub := shared (env o) o.view R n • baseS + D with hout
  have hpo : (out : Point) = sh o.hash ((8 : ℤ) • Bp.num o.view • (R : Point)) n • base + (D : Point) := by
    rw [hout, AddSubgroup.coe_add, shared_eq, Bp.coe_smul]
    rfl
  have hg : t.get (encPt ((out : Point) - sh o.hash ((8 : ℤ) • Bp.num o.view • (R : Point)) n • base)) ≠ none := by
    rw [hpo, add_sub_cancel_left]
    exact hD
  obtain ⟨recv, ds, idx, dv, δ, d, D', x, I, -, -, -, -, -, -, -, hki⟩ := kiHelper_complete (num_pos hv) (Bp.num_range _).2 (num_pos hs0)
    (Bp.num_range _).2 ht (Bp.rep_sub_canon out) (Bp.rep_sub_canon txKey) (Rs := addKeys.map fun p : Sub => canon (p : Point))
    (by intro P hP; obtain ⟨p, -, rfl⟩ := List.mem_map.1 hP; exact ⟨_, Bp.rep_sub_canon p⟩) (n := n)
    (by intro h; rcases hlen with h' | h' <;> simp_all) (by
      rcases hR with rfl | hR
      · exact .inl hg
      · exact .inr ⟨canon (R : Point), R, by rw [List.getElem?_map, hR]; rfl, Bp.rep_sub_canon R, hg⟩)
  obtain ⟨hx, hI, hxo⟩ := ki_sound (Bp.rep_sub_canon out) hki
  obtain ⟨q, hq, hq0⟩ := rep_hp o.hash (encPt (out : Point))
  have hIr : Rep I ((x • (⟨q, hq0⟩ : Sub) : Sub) : Point) := by
    rw [show I = _ from hI]
    exact Key.rep_smul hq hx.1
  have hxo' : (x : Fl) • baseS = out := Subtype.ext (by rw [Bp.coe_smul]; exact hxo)
  refine ⟨(x : Fl), x • ⟨q, hq0⟩, ⟨m, txKey, addKeys, hm, ?_, ?_, ?_, ?_, ?_⟩⟩
  · rw [env_ptDec, hdest, ptDec_enc, ← hxo']
    rfl
  · rw [env_ptDec, hcomm, ptDec_enc]
  · rw [env_ptDec, hkey, ptDec_enc]
  · rw [env_ptDec, hadds, mapM_enc]
  · show Real.keyImage o t ((x : Fl) • baseS) txKey addKeys src.inTxIndex = _
    rw [Real.keyImage, hn, hxo', hki, Option.bind_some, toSub_rep hIr]
    rfl

theorem subSpend_some {H : Bytes → Bytes} {a : ℤ} {S : Ext} {i j : ℕ} (hi : i < 2 ^ 32) (hj : j < 2 ^ 32) : ∃ D, subSpendPub H a S i j = some D := by
  unfold subSpendPub subSecret subSecretCore
  split
  · exact ⟨_, rfl⟩
  · rw [if_pos ⟨hi, hj⟩]; exact ⟨_, rfl⟩

theorem compute_some {H : Bytes → Bytes} {a : ℤ} {S : Ext} {i : ℕ} (hi : i < 2 ^ 32) : ∀ (is : List ℕ) (t : Table), (∀ j ∈ is, j < 2 ^ 32) →
    ∃ t', computeSubaddresses H a S i is t = some t'
  | [], t, _ => ⟨t, rfl⟩
  | j :: is, t, h => by
    unfold computeSubaddresses
    split
    · exact compute_some hi is _ fun k hk => h k (List.mem_cons_of_mem _ hk)
    · obtain ⟨D, hD⟩ := subSpend_some (H := H) (a := a) (S := S) hi (h j List.mem_cons_self)
      rw [hD]
      exact compute_some hi is _ fun k hk => h k (List.mem_cons_of_mem _ hk)

/-- The wallet's table holds its addresses. -/
theorem table_ok {o : Outside} {d : TxData} (hi : d.account < 2 ^ 32) (hj : ∀ j ∈ d.indices, j < 2 ^ 32) :
    Table.Valid o.hash (Bp.num o.view) (scalarmultB (Bp.num o.spend)) (tableOf (env o) d) ∧
      ∀ j ∈ d.indices, ∃ D, subSpendPub o.hash (Bp.num o.view) (scalarmultB (Bp.num o.spend)) d.account j = some D ∧
        Table.get (tableOf (env o) d) (encodePoint D) ≠ none := by
  unfold tableOf
  split
  · rename_i he
    refine ⟨?_, by simp_all⟩
    intro k idx h
    simp [Table.get] at h
  · obtain ⟨t', ht'⟩ := compute_some (H := o.hash) (a := Bp.num o.view) (S := scalarmultB (Bp.num o.spend)) hi d.indices [] hj
    have h := C38_table_valid _ _ _ _ _ [] t' (by intro k idx h; simp [Table.get] at h) ht'
    have e : (env o).subaddresses d.account d.indices = t' := by
      show (computeSubaddresses _ _ _ _ _ _).getD [] = _
      rw [ht']; rfl
    rw [e]
    exact ⟨h.1, h.2.2⟩

/-- An address of the wallet as the sender sees it. -/
theorem address_owner {o o' : Outside} {i j : ℕ} {dst : Signer.Dst} (h : address o' i j = some dst.addr) (hsub : dst.isSub = true ↔ ¬ (i = 0 ∧ j = 0)) :
    ∃ D : Sub, Owner (env o) dst D o'.view ∧
      ∃ P, subSpendPub o'.hash (Bp.num o'.view) (scalarmultB (Bp.num o'.spend)) i j = some P ∧ Rep P (D : Point) := by
  unfold address at h
  rw [Option.map_eq_some_iff] at h
  obtain ⟨⟨P, Q⟩, h1, h2⟩ := h
  unfold subAddressKeys at h1
  unfold subSpendPub
  have rb : Rep (scalarmultB (Bp.num o'.spend)) ((o'.spend • baseS : Sub) : Point) := by rw [coe_smul']; exact rep_B _
  split at h1
  · rename_i hz
    rw [if_pos hz]
    simp only [Option.some.injEq, Prod.mk.injEq] at h1
    obtain ⟨rfl, rfl⟩ := h1
    have hs : dst.isSub = false := by
      rw [← Bool.not_eq_true, hsub]; simpa using hz
    have rv : Rep (scalarmultB (Bp.num o'.view)) ((o'.view • baseS : Sub) : Point) := by rw [coe_smul']; exact rep_B _
    refine ⟨o'.spend • baseS, ⟨?_, ?_⟩, _, rfl, rb⟩
    · rw [env_ptDec, ← h2]
      dsimp only
      rw [Bp.encode_rep rb, ptDec_enc]
    · rw [env_ptDec, ← h2, hs]
      dsimp only
      rw [Bp.encode_rep rv, ptDec_enc]
      rfl
  · rename_i hz
    rw [if_neg hz]
    rw [Option.map_eq_some_iff] at h1
    obtain ⟨m, hm, h1⟩ := h1
    simp only [Prod.mk.injEq] at h1
    obtain ⟨rfl, rfl⟩ := h1
    have hs : dst.isSub = true := hsub.2 hz
    have rm : Rep (scalarmultB m) (((m : Fl) • baseS : Sub) : Point) := by rw [Bp.coe_smul]; exact rep_B _
    have rd : Rep (add (scalarmultB (Bp.num o'.spend)) (scalarmultB m)) ((o'.spend • baseS + (m : Fl) • baseS : Sub) : Point) := by
      rw [AddSubgroup.coe_add]; exact rep_add rb rm
    have rv : Rep (smul (add (scalarmultB (Bp.num o'.spend)) (scalarmultB m)) (Bp.num o'.view))
        ((o'.view • (o'.spend • baseS + (m : Fl) • baseS) : Sub) : Point) := by
      rw [coe_smul']; exact Key.rep_smul rd (Bp.num_range _).1
    refine ⟨o'.spend • baseS + (m : Fl) • baseS, ⟨?_, ?_⟩, _, by rw [hm]; rfl, rd⟩
    · rw [env_ptDec, ← h2]
      dsimp only
      rw [Bp.encode_rep rd, ptDec_enc]
    · rw [env_ptDec, ← h2, hs]
      dsimp only
      rw [Bp.encode_rep rv, ptDec_enc]
      rfl

/-- What the owner finds, it can read. -/
theorem finds_reads {o o' : Outside} (ho : o.Ok) (hh : o'.hash = o.hash) (hv : o'.view ≠ 0) {cfg : Config} (hf : 9 ≤ cfg.hf) {D R : Sub} {n : ℕ}
    {out : Made Fl Sub} (ha : out.dst.amount < 2 ^ 64) (h : Finds (env o) cfg D o'.view R n out) :
    ∃ P dv, decodePoint (Bp.enc R) = some P ∧ keyDerivation P (Bp.num o'.view) = some dv ∧
      derivationToScalar o'.hash dv n = some (sh o.hash ((8 : ℤ) • Bp.num o'.view • (R : Point)) n) ∧
      ∃ e, ecdhParse out.ecdh (cfg.hf == 9) = some e ∧
        ecdhDecodeSimple o.hash e (Bp.enc (Signer.genC (env o) out.mask out.dst.amount)) (sh o.hash ((8 : ℤ) • Bp.num o'.view • (R : Point)) n)
          (decide (10 ≤ cfg.hf)) = some ((out.dst.amount : ℤ), Bp.num out.mask) := by
  obtain ⟨dv, h1, h2⟩ := keyDerivation_rep (Bp.rep_sub_canon R) (num_pos hv) (Bp.num_range _).2
  refine ⟨_, dv, Bp.decode_enc R, h1, by rw [hh]; exact toScalar_rep _ h2 n, ?_⟩
  set k := sh o.hash ((8 : ℤ) • Bp.num o'.view • (R : Point)) n with hk
  have hsc : (env o).scEnc (shared (env o) o'.view R n) = encodeInt k := by
    show encodeInt (Bp.num _) = _
    rw [shared_eq, Bp.num_cast (a := sh _ _ _) (hs_range _ _)]
  have ham := h.amount
  rw [hsc] at ham
  have hcm : Bp.enc (Signer.genC (env o) out.mask out.dst.amount) = encodePoint (Key.genC (Bp.num out.mask) out.dst.amount) := by
    rw [encodePoint_rep (Sig.rep_genC _ _), Bp.enc, coe_genC]
  have ha' : 0 ≤ (out.dst.amount : ℤ) ∧ (out.dst.amount : ℤ) < 2 ^ 64 := ⟨Int.natCast_nonneg _, Int.ofNat_lt.2 ha⟩
  rw [hcm]
  by_cases h10 : 10 ≤ cfg.hf
  · have hmask : Bp.num out.mask = commitmentMask o.hash (encodeInt k) := by
      have hm := h.mask
      rw [hsc] at hm
      have hm' : out.mask = ((hs o.hash (ascii "commitment_mask" ++ encodeInt k) : ℤ) : Fl) := hm
      rw [hm', Bp.num_cast (hs_range _ _)]
      rfl
    have h9 : (cfg.hf == 9) = false := by simp; omega
    rw [h9, decide_eq_true h10, hmask]
    rw [decide_eq_true h10] at ham
    obtain ⟨e, e', e1, -, e2, e3⟩ := C37_amount_v2 o.hash ho.hashLen out.dst.amount k ha'
    refine ⟨e', ?_, e3⟩
    have : (ecdhEncode o.hash (Bp.num out.mask) out.dst.amount (encodeInt k) true).map (fun e => ecdhSerialize e true) = some out.ecdh := ham
    rw [hmask, e1] at this
    simp only [Option.map_some, Option.some.injEq] at this
    rw [← this]
    exact e2
  · have h9 : (cfg.hf == 9) = true := by simp; omega
    rw [h9, decide_eq_false h10]
    rw [decide_eq_false h10] at ham
    obtain ⟨e, e', e1, e2, e3⟩ := C37_amount_v1 o.hash (Bp.num out.mask) out.dst.amount k (Bp.num_range _) ha'
    refine ⟨e', ?_, e3⟩
    have : (ecdhEncode o.hash (Bp.num out.mask) out.dst.amount (encodeInt k) false).map (fun e => ecdhSerialize e false) = some out.ecdh := ham
    rw [e1] at this
    simp only [Option.map_some, Option.some.injEq] at this
    rw [← this]
    exact e2

end Verif.Real

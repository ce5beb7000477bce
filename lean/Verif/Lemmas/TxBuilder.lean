import Verif.Spec.TxBuilder
import Verif.Lemmas.RealReceive

/-! The builder of unsigned transactions. -/

namespace Verif.Builder
open Verif Ed Edwards Key Agent Real
open Verif.Signer (Src RingMember)

theorem subSecret_zero {H : Bytes → Bytes} {a : ℤ} {i j : ℕ} (h : i = 0 ∧ j = 0) : subSecret H a i j = some a := if_pos h
theorem subAddressKeys_zero {H : Bytes → Bytes} {a : ℤ} {S : Ext} {i j : ℕ} (h : i = 0 ∧ j = 0) :
    subAddressKeys H a S i j = some (S, scalarmultB a) := if_pos h
theorem subSpendPub_zero {H : Bytes → Bytes} {a : ℤ} {S : Ext} {i j : ℕ} (h : i = 0 ∧ j = 0) : subSpendPub H a S i j = some S := if_pos h

/-- A sub-address: the secret of its spend key, and its keys. -/
theorem sub_keys (o : Outside) {i j : ℕ} (hi : i < 2 ^ 32) (hj : j < 2 ^ 32) : ∃ (sec : ℤ) (K₁ K₂ : Ext) (s : Fl),
    subSecret o.hash (Bp.num o.view) i j = some sec ∧ subAddressKeys o.hash (Bp.num o.view) (scalarmultB (Bp.num o.spend)) i j = some (K₁, K₂) ∧
    subSpendPub o.hash (Bp.num o.view) (scalarmultB (Bp.num o.spend)) i j = some K₁ ∧
    s = (if i = 0 ∧ j = 0 then o.spend else (sec : Fl) + o.spend) ∧ Rep K₁ ((s • baseS : Sub) : Point) ∧
    Rep K₂ ((if i = 0 ∧ j = 0 then o.view • baseS else o.view • s • baseS : Sub) : Point) := by
  have rb : Rep (scalarmultB (Bp.num o.spend)) ((o.spend • baseS : Sub) : Point) := by rw [coe_smul']; exact rep_B _
  have rv : Rep (scalarmultB (Bp.num o.view)) ((o.view • baseS : Sub) : Point) := by rw [coe_smul']; exact rep_B _
  by_cases hz : i = 0 ∧ j = 0
  · exact ⟨Bp.num o.view, scalarmultB (Bp.num o.spend), scalarmultB (Bp.num o.view), o.spend, subSecret_zero hz, subAddressKeys_zero hz,
      subSpendPub_zero hz, (if_pos hz).symm, rb, Eq.mpr (congrArg (fun q : Sub => Rep _ (q : Point)) (if_pos hz)) rv⟩
  · obtain ⟨sec, hsec⟩ : ∃ sec, subSecret o.hash (Bp.num o.view) i j = some sec := by
      rw [subSecret, if_neg hz, subSecretCore, if_pos ⟨hi, hj⟩]; exact ⟨_, rfl⟩
    have rm : Rep (scalarmultB sec) (((sec : Fl) • baseS : Sub) : Point) := Bp.rep_BS sec
    have rd : Rep (add (scalarmultB (Bp.num o.spend)) (scalarmultB sec)) ((((sec : Fl) + o.spend) • baseS : Sub) : Point) := by
      rw [add_comm, add_smul, AddSubgroup.coe_add]; exact rep_add rb rm
    refine ⟨sec, _, _, _, hsec, by rw [subAddressKeys, if_neg hz, hsec, Option.map_some], by rw [subSpendPub, if_neg hz, hsec, Option.map_some], rfl, ?_, ?_⟩
    · rw [if_neg hz]; exact rd
    · rw [if_neg hz, if_neg hz, coe_smul']
      exact Key.rep_smul rd (Bp.num_range _).1

/-- The source that `gen_input` makes: transaction key, additional keys, and what stands in the ring. -/
structure Built (o : Outside) (i j : ℕ) (value : ℕ) (w : Draws) (src : Src) : Prop where
  real : ∃ (D R txKey : Sub) (addKeys : List Sub) (P : Ext) (m : RingMember),
    subSpendPub o.hash (Bp.num o.view) (scalarmultB (Bp.num o.spend)) i j = some P ∧ Rep P (D : Point) ∧
    (addKeys = [] ∨ w.oidx < addKeys.length) ∧ (R = txKey ∨ addKeys[w.oidx]? = some R) ∧ (addKeys = [] → R = txKey) ∧
    src.outputs[src.realOutput]? = some m ∧ m.dest = Bp.enc (shared (env o) o.view R w.oidx • baseS + D) ∧
    m.commitment = Bp.enc (Signer.genC (env o) ((env o).scDec src.mask) src.amount) ∧ src.txKey = Bp.enc txKey ∧ src.addKeys = addKeys.map Bp.enc
  index : src.inTxIndex = w.oidx
  amount : src.amount = value
  size : src.outputs.length = w.others.length + 1
  points : ∀ m ∈ src.outputs, Sig.decodable (member m) = true

theorem Built.owns {o : Outside} (hv : o.view ≠ 0) (hs : o.spend ≠ 0) {i j value : ℕ} {w : Draws} {src : Src} (h : Built o i j value w src) {t : Table}
    (ht : t.Valid o.hash (Bp.num o.view) (scalarmultB (Bp.num o.spend)))
    (hg : ∃ D, subSpendPub o.hash (Bp.num o.view) (scalarmultB (Bp.num o.spend)) i j = some D ∧ t.get (encodePoint D) ≠ none) :
    ∃ x ki, Owns (env o) t src x ki := by
  obtain ⟨D, R, txKey, addKeys, P, m, h1, h2, h3, h4, -, h5, h6, h7, h8, h9⟩ := h.real
  obtain ⟨P', hP', hg⟩ := hg
  rw [h1, Option.some.injEq] at hP'
  subst hP'
  rw [Bp.encode_rep h2] at hg
  exact owns_received hv hs ht hg h3 h4 h5 h6 h7 h.index h8 h9

/-- The wallet can spend it in every request with the index of the address. -/
theorem Built.spendable {o : Outside} (hv : o.view ≠ 0) (hs : o.spend ≠ 0) {i j value : ℕ} {w : Draws} (hw : w.Ok) {src : Src} (h : Built o i j value w src)
    {d : TxData} (hi : d.account = i) (hi32 : i < 2 ^ 32) (hj : j ∈ d.indices) (hall : ∀ m ∈ d.indices, m < 2 ^ 32) :
    Spendable o (tableOf (env o) d) src where
  mine := by
    obtain ⟨ht, hg⟩ := table_ok (o := o) (d := d) (by omega) hall
    exact h.owns hv hs ht (by have := hg j hj; rwa [hi] at this)
  size := by
    have := List.length_pos_iff.2 hw.ring
    rw [h.size]; omega
  points := h.points

theorem guard_true {α : Type} (f : Unit → Option α) : (guard true).bind f = f () := rfl

theorem mapM_decode : ∀ ps : List Sub, (ps.map Bp.enc).mapM decodePoint = some (ps.map fun p : Sub => canon (p : Point))
  | [] => rfl
  | p :: ps => by simp [Bp.decode_enc, mapM_decode ps]

theorem smul8 (o : Outside) (r : ℤ) (D V R : Sub) (h : o.view • R = (r : Fl) • V) : (8 : ℤ) • r • (V : Point) = (8 : ℤ) • Bp.num o.view • (R : Point) := by
  rw [← coe_smul', h, ← Bp.coe_smul]

/-- The secret of the spend key, as `gen_input` computes it. -/
def spendSub (isSub : Bool) (sec b : ℤ) : ℤ := if isSub then scAdd sec b else b

theorem spendSub_ok (o : Outside) {sec : ℤ} {isSub : Bool} (hs : o.spend ≠ 0) (hn : isSub = true → (sec : Fl) + o.spend ≠ 0) :
    ((spendSub isSub sec (Bp.num o.spend) : ℤ) : Fl) = (if isSub then (sec : Fl) + o.spend else o.spend) ∧
    0 < spendSub isSub sec (Bp.num o.spend) ∧ spendSub isSub sec (Bp.num o.spend) < l := by
  cases isSub
  · exact ⟨Bp.cast_num _, num_pos hs, (Bp.num_range _).2⟩
  · have hc : ((scAdd sec (Bp.num o.spend) : ℤ) : Fl) = (sec : Fl) + o.spend := by rw [Bp.cast_scAdd, Bp.cast_num]
    have hr : 0 ≤ scAdd sec (Bp.num o.spend) ∧ scAdd sec (Bp.num o.spend) < l := emod_l_range _
    refine ⟨hc, lt_of_le_of_ne hr.1 fun h0 => hn rfl ?_, hr.2⟩
    have h0' : scAdd sec (Bp.num o.spend) = 0 := h0.symm
    rw [← hc, h0', Int.cast_zero]

theorem kout_rep (o : Outside) {kssub : ℤ} {s : Fl} (hk : (kssub : Fl) = s) {D R : Sub} (hD : D = s • baseS) (n : ℕ) :
    Rep (scalarmultB (scAdd kssub (sh o.hash ((8 : ℤ) • Bp.num o.view • (R : Point)) n))) ((shared (env o) o.view R n • baseS + D : Sub) : Point) := by
  have : ((scAdd kssub (sh o.hash ((8 : ℤ) • Bp.num o.view • (R : Point)) n) : ℤ) : Fl) • baseS = shared (env o) o.view R n • baseS + D := by
    rw [Bp.cast_scAdd, hk, shared_eq, add_smul, hD, add_comm]
  rw [← this]; exact Bp.rep_BS _

theorem KOUT_rep (o : Outside) {K : Ext} {D R : Sub} {n : ℕ}
    (h : Rep K ((D : Point) + sh o.hash ((8 : ℤ) • Bp.num o.view • (R : Point)) n • base)) : Rep K ((shared (env o) o.view R n • baseS + D : Sub) : Point) := by
  have : ((shared (env o) o.view R n • baseS + D : Sub) : Point) = (D : Point) + sh o.hash ((8 : ℤ) • Bp.num o.view • (R : Point)) n • base := by
    rw [AddSubgroup.coe_add, shared_eq, Bp.coe_smul, add_comm]; rfl
  rw [this]; exact h

theorem pointEq_rep {P Q : Ext} {p : Point} (h1 : Rep P p) (h2 : Rep Q p) : pointEq P Q = some true := by
  rw [pointEq, if_pos ((isOnCurve_iff P).2 ⟨p, h1⟩), (pointEqual_iff h1 h2).2 rfl]

/-- The keys of a generated input. -/
structure Keys (o : Outside) (i j : ℕ) (w : Draws) (isSub : Bool) (sec kout : ℤ) (K₁ K₂ deriv KOUT : Ext) (D R : Sub) : Prop where
  hsec : subSecret o.hash (Bp.num o.view) i j = some sec
  hkeys : subAddressKeys o.hash (Bp.num o.view) (scalarmultB (Bp.num o.spend)) i j = some (K₁, K₂)
  hpub : subSpendPub o.hash (Bp.num o.view) (scalarmultB (Bp.num o.spend)) i j = some K₁
  hrepD : Rep K₁ (D : Point)
  heqD : pointEq K₁ (scalarmultB (spendSub isSub sec (Bp.num o.spend))) = some true
  hderiv : keyDerivation K₂ w.r = some deriv
  hkout : deriveSecretKey o.hash deriv w.oidx (spendSub isSub sec (Bp.num o.spend)) = some kout
  hKOUT : derivePublicKey o.hash deriv w.oidx K₁ = some KOUT
  hrange : 0 ≤ kout ∧ kout < l
  hrepK : Rep KOUT ((shared (env o) o.view R w.oidx • baseS + D : Sub) : Point)
  hrepk : Rep (scalarmultB kout) ((shared (env o) o.view R w.oidx • baseS + D : Sub) : Point)
  hR : R = if isSub then (w.r : Fl) • D else (w.r : Fl) • baseS

theorem exists_keys {o : Outside} (hs : o.spend ≠ 0) {i j : ℕ} (hi : i < 2 ^ 32) (hj : j < 2 ^ 32) {w : Draws} (hw : w.Ok)
    (hns : ∀ sec, ¬ (i = 0 ∧ j = 0) → subSecret o.hash (Bp.num o.view) i j = some sec → (sec : Fl) + o.spend ≠ 0) :
    ∃ sec kout K₁ K₂ deriv KOUT D R, Keys o i j w (!decide (i = 0 ∧ j = 0)) sec kout K₁ K₂ deriv KOUT D R := by
  obtain ⟨sec, K₁, K₂, s, h1, h2, h3, h4, h5, h6⟩ := sub_keys o hi hj
  obtain ⟨k1, k2, k3⟩ := spendSub_ok o (sec := sec) (isSub := !decide (i = 0 ∧ j = 0)) hs fun h => hns sec (fun hz => by rw [decide_eq_true hz] at h; cases h) h1
  have k1' : ((spendSub (!decide (i = 0 ∧ j = 0)) sec (Bp.num o.spend) : ℤ) : Fl) = s := by
    rw [k1, h4]
    by_cases hz : i = 0 ∧ j = 0
    · rw [decide_eq_true hz, if_pos hz]; rfl
    · rw [decide_eq_false hz, if_neg hz]; rfl
  have hDk : Rep (scalarmultB (spendSub (!decide (i = 0 ∧ j = 0)) sec (Bp.num o.spend))) ((s • baseS : Sub) : Point) := by
    have := Bp.rep_BS (spendSub (!decide (i = 0 ∧ j = 0)) sec (Bp.num o.spend))
    rwa [k1'] at this
  obtain ⟨deriv, hd1, hd2⟩ := keyDerivation_rep h6 hw.r.1 hw.r.2
  obtain ⟨R, hR⟩ : ∃ R : Sub, R = if !decide (i = 0 ∧ j = 0) then (w.r : Fl) • s • baseS else (w.r : Fl) • baseS := ⟨_, rfl⟩
  have hV : o.view • R = (w.r : Fl) • (if i = 0 ∧ j = 0 then o.view • baseS else o.view • s • baseS : Sub) := by
    rw [hR]
    by_cases hz : i = 0 ∧ j = 0
    · rw [decide_eq_true hz, if_pos hz]; exact smul_comm _ _ _
    · rw [decide_eq_false hz, if_neg hz]; exact smul_comm _ _ _
  rw [smul8 o w.r R _ R hV] at hd2
  obtain ⟨KOUT, ho1, ho2⟩ := derivePublic_rep o.hash hd2 w.oidx h5
  refine ⟨sec, scAdd (spendSub (!decide (i = 0 ∧ j = 0)) sec (Bp.num o.spend)) (sh o.hash ((8 : ℤ) • Bp.num o.view • (R : Point)) w.oidx),
    K₁, K₂, deriv, KOUT, s • baseS, R, h1, h2, h3, h5, pointEq_rep h5 hDk, hd1, ?_, ho1, emod_l_range _, KOUT_rep o ho2,
    kout_rep o k1' rfl w.oidx, hR⟩
  generalize spendSub (!decide (i = 0 ∧ j = 0)) sec (Bp.num o.spend) = e at k2 k3
  rw [deriveSecretKey, if_neg (by rw [scCheck_eq k2 k3]; simp), toScalar_rep o.hash hd2, Option.map_some]

/-- The source of a generated input. -/
def source (w : Draws) (value : ℕ) (isSub additionals : Bool) (K₁ KOUT : Ext) : Src :=
  { outputs := List.zipWith (fun i p => ⟨i, p.1, p.2⟩) w.idxs
      ((w.others.map fun p => (encodePoint (scalarmultB p.1), encodePoint (scalarmultB p.2))).insertIdx w.index
        (encodePoint KOUT, encodePoint (Key.addKeys2 w.mask value hPt)))
    realOutput := w.index
    txKey := encodePoint (if isSub && !additionals then smul K₁ w.r else scalarmultB w.r)
    addKeys := (if additionals then (w.adds.map scalarmultB).set w.oidx (if isSub then smul K₁ w.r else scalarmultB w.r) else []).map encodePoint
    inTxIndex := w.oidx
    amount := value
    rct := true
    mask := encodeInt w.mask
    subaddrMinor := none }

theorem genInput_eval {o : Outside} {i j : ℕ} {w : Draws} {value : ℕ} {sec kout : ℤ} {K₁ K₂ deriv KOUT : Ext} {D R : Sub}
    (hk : Keys o i j w (!decide (i = 0 ∧ j = 0)) sec kout K₁ K₂ deriv KOUT D R) (hval : value < 2 ^ 64) (additionals : Bool) {t : Table}
    (ht : computeSubaddresses o.hash (Bp.num o.view) (scalarmultB (Bp.num o.spend)) i [j] [] = some t) {r : ℤ × Ext × Ext}
    (hr : checkInput o.hash (creds o) t (source w value (!decide (i = 0 ∧ j = 0)) additionals K₁ KOUT) = some r) (hrk : r.1 = kout) {m : RingMember} {P : Ext}
    (hm : (source w value (!decide (i = 0 ∧ j = 0)) additionals K₁ KOUT).outputs[w.index]? = some m) (hP : decodePoint m.dest = some P)
    (he : pointEq P (scalarmultB kout) = some true) :
    genInput o.hash (creds o) w value i j additionals = some (source w value (!decide (i = 0 ∧ j = 0)) additionals K₁ KOUT) := by
  unfold genInput
  obtain ⟨q1, q2, -, -, q3, q4, q5, q6, -, q7, q8, -⟩ := hk
  rw [show (creds o).view = Bp.num o.view from rfl, show (creds o).spend = Bp.num o.spend from rfl, q1, Option.bind_some, q2, Option.bind_some]
  dsimp only
  rw [show (if (!decide (i = 0 ∧ j = 0)) = true then scAdd sec (Bp.num o.spend) else Bp.num o.spend) =
    spendSub (!decide (i = 0 ∧ j = 0)) sec (Bp.num o.spend) from rfl, q3, Option.bind_some, guard_true, q4, Option.bind_some, q5, Option.bind_some, q6,
    Option.bind_some, pointEq_rep q7 q8, Option.bind_some, guard_true, decide_eq_true hval, guard_true, ht, Option.bind_some]
  generalize (!decide (i = 0 ∧ j = 0)) = b at *
  generalize hS : source w value b additionals K₁ KOUT = S at *
  rw [source] at hS
  rw [← hS] at hm
  dsimp only at hm
  rw [hS, hr, Option.bind_some, decide_eq_true hrk, guard_true, hm, Option.bind_some, hP, Option.bind_some, he, Option.bind_some, guard_true]

theorem ite_rep {K₁ : Ext} {D : Sub} (h : Rep K₁ (D : Point)) {r : ℤ} (hr : 0 ≤ r) (b : Bool) :
    Rep (if b then smul K₁ r else scalarmultB r) ((if b then (r : Fl) • D else (r : Fl) • baseS : Sub) : Point) := by
  cases b
  · rw [if_neg Bool.false_ne_true, if_neg Bool.false_ne_true]; exact Bp.rep_BS _
  · rw [if_pos rfl, if_pos rfl]; exact Bp.rep_smulS h hr

theorem set_enc {K₁ : Ext} {D R : Sub} (h : Rep K₁ (D : Point)) {r : ℤ} (hr : 0 ≤ r) (b : Bool) (hR : R = if b then (r : Fl) • D else (r : Fl) • baseS)
    (adds : List ℤ) (n : ℕ) : ((adds.map scalarmultB).set n (if b then smul K₁ r else scalarmultB r)).map encodePoint =
      ((adds.map fun x : ℤ => (x : Fl) • baseS).set n R).map Bp.enc := by
  have h1 := Bp.encode_rep (ite_rep h hr b)
  rw [← hR] at h1
  have h2 : (adds.map scalarmultB).map encodePoint = (adds.map fun x : ℤ => (x : Fl) • baseS).map Bp.enc := by
    rw [List.map_map, List.map_map]
    exact List.map_congr_left fun x _ => Bp.encode_rep (Bp.rep_BS x)
  rw [List.map_set, List.map_set, h1, h2]

theorem commit_enc (o : Outside) {mask : ℤ} (hm : 0 ≤ mask ∧ mask < l) (value : ℕ) :
    encodePoint (Key.addKeys2 mask value hPt) = Bp.enc (Signer.genC (env o) ((env o).scDec (encodeInt mask)) value) := by
  have e1 : (env o).scDec (encodeInt mask) = (mask : Fl) := by
    have := scRound_ok o (mask : Fl)
    rw [show (env o).scEnc (mask : Fl) = encodeInt (Bp.num (mask : Fl)) from rfl, Bp.num_cast hm] at this
    exact this
  rw [e1]
  apply Bp.encode_rep
  rw [coe_genC, Bp.num_cast hm]
  exact rep_add (rep_B _) (Key.rep_smul Sig.rep_hBase (Int.natCast_nonneg _))

theorem source_built {o : Outside} {i j : ℕ} {w : Draws} (hw : w.Ok) (value : ℕ) {isSub : Bool} {sec kout : ℤ} {K₁ K₂ deriv KOUT : Ext} {D R : Sub}
    (hk : Keys o i j w isSub sec kout K₁ K₂ deriv KOUT D R) (additionals : Bool) :
    (∃ (n : ℕ) (txKey : Sub) (addKeys : List Sub), (source w value isSub additionals K₁ KOUT).outputs[w.index]? =
      some ⟨n, Bp.enc (shared (env o) o.view R w.oidx • baseS + D), Bp.enc (Signer.genC (env o) ((env o).scDec (encodeInt w.mask)) value)⟩ ∧
      (source w value isSub additionals K₁ KOUT).txKey = Bp.enc txKey ∧
      (source w value isSub additionals K₁ KOUT).addKeys = addKeys.map Bp.enc) ∧
    Built o i j value w (source w value isSub additionals K₁ KOUT) := by
  have hr := hw.r.1.le
  obtain ⟨txKey, htx⟩ : ∃ T : Sub, T = if isSub && !additionals then (w.r : Fl) • D else (w.r : Fl) • baseS := ⟨_, rfl⟩
  have e1 : (source w value isSub additionals K₁ KOUT).txKey = Bp.enc txKey := by
    rw [htx]; exact Bp.encode_rep (ite_rep hk.hrepD hr (isSub && !additionals))
  obtain ⟨addKeys, hadd⟩ : ∃ l : List Sub, l = if additionals then (w.adds.map fun x : ℤ => (x : Fl) • baseS).set w.oidx R else [] := ⟨_, rfl⟩
  have e2 : (source w value isSub additionals K₁ KOUT).addKeys = addKeys.map Bp.enc := by
    rw [hadd]
    cases additionals
    · rfl
    · show ((w.adds.map scalarmultB).set w.oidx (if isSub then smul K₁ w.r else scalarmultB w.r)).map encodePoint =
        ((w.adds.map fun x : ℤ => (x : Fl) • baseS).set w.oidx R).map Bp.enc
      exact set_enc hk.hrepD hr isSub hk.hR w.adds w.oidx
  have hlen : addKeys = [] ∨ w.oidx < addKeys.length := by
    rw [hadd]
    cases additionals
    · exact .inl rfl
    · right; rw [if_pos rfl, List.length_set, List.length_map]; exact hw.adds
  have hR : (R = txKey ∨ addKeys[w.oidx]? = some R) ∧ (addKeys = [] → R = txKey) := by
    cases additionals
    · have : R = txKey := by rw [hk.hR, htx]; cases isSub <;> rfl
      exact ⟨.inl this, fun _ => this⟩
    · have h2 : addKeys[w.oidx]? = some R := by
        rw [hadd, if_pos rfl, List.getElem?_set_self (by rw [List.length_map]; exact hw.adds)]
      refine ⟨.inr h2, fun h => ?_⟩
      rw [h] at h2
      cases h2
  have hidx : w.index < w.idxs.length := by rw [hw.idxs]; have := hw.index; omega
  obtain ⟨ring, hring⟩ : ∃ ring, ring = (w.others.map fun p => (encodePoint (scalarmultB p.1), encodePoint (scalarmultB p.2))).insertIdx w.index
    (Bp.enc (shared (env o) o.view R w.oidx • baseS + D), Bp.enc (Signer.genC (env o) ((env o).scDec (encodeInt w.mask)) value)) := ⟨_, rfl⟩
  have eo : (source w value isSub additionals K₁ KOUT).outputs = List.zipWith (fun i p => (⟨i, p.1, p.2⟩ : RingMember)) w.idxs ring := by
    rw [hring, ← commit_enc o hw.mask, ← Bp.encode_rep hk.hrepK]; rfl
  have hrl : ring.length = w.others.length + 1 := by
    rw [hring, List.length_insertIdx_of_le_length (by rw [List.length_map]; exact hw.index), List.length_map]
  have hget : (source w value isSub additionals K₁ KOUT).outputs[w.index]? =
      some ⟨w.idxs[w.index], Bp.enc (shared (env o) o.view R w.oidx • baseS + D), Bp.enc (Signer.genC (env o) ((env o).scDec (encodeInt w.mask)) value)⟩ := by
    have h0 : ring[w.index]? = some (Bp.enc (shared (env o) o.view R w.oidx • baseS + D), Bp.enc (Signer.genC (env o) ((env o).scDec (encodeInt w.mask)) value)) := by
      rw [hring, List.getElem?_insertIdx_self, if_pos (by rw [List.length_map]; exact hw.index)]
    rw [eo, List.getElem?_zipWith, List.getElem?_eq_getElem hidx, h0]
  refine ⟨⟨_, txKey, addKeys, hget, e1, e2⟩, ⟨D, R, txKey, addKeys, K₁, _, hk.hpub, hk.hrepD, hlen, hR.1, hR.2, hget, rfl, rfl, e1, e2⟩, rfl, rfl, ?_, ?_⟩
  · rw [eo, List.length_zipWith, hrl, hw.idxs, Nat.min_self]
  · intro m hm
    rw [eo] at hm
    obtain ⟨n, hn, rfl⟩ := List.getElem_of_mem hm
    have hmem : ring[n]'(by rw [List.length_zipWith] at hn; omega) ∈ ring := List.getElem_mem _
    have hdec : ∀ p ∈ ring, ∃ a b : Sub, p = (Bp.enc a, Bp.enc b) := by
      intro p hp
      rw [hring] at hp
      rcases List.eq_or_mem_of_mem_insertIdx hp with rfl | hp
      · exact ⟨_, _, rfl⟩
      · obtain ⟨x, -, rfl⟩ := List.mem_map.1 hp
        exact ⟨_, _, by rw [Bp.encode_rep (Bp.rep_BS x.1), Bp.encode_rep (Bp.rep_BS x.2)]⟩
    obtain ⟨a, b, hab⟩ := hdec _ hmem
    rw [List.getElem_zipWith, hab]
    simp [Sig.decodable, member, Bp.decode_enc]

/-- `gen_input` succeeds. -/
theorem genInput_ok {o : Outside} (hv : o.view ≠ 0) (hs : o.spend ≠ 0) {i j : ℕ} (hi : i < 2 ^ 32) (hj : j < 2 ^ 32) {w : Draws} (hw : w.Ok) {value : ℕ}
    (hval : value < 2 ^ 64) (additionals : Bool)
    (hns : ∀ sec, ¬ (i = 0 ∧ j = 0) → subSecret o.hash (Bp.num o.view) i j = some sec → (sec : Fl) + o.spend ≠ 0) :
    ∃ src, genInput o.hash (creds o) w value i j additionals = some src ∧ Built o i j value w src ∧ (additionals = false → src.addKeys = []) := by
  obtain ⟨sec, kout, K₁, K₂, deriv, KOUT, D, R, hk⟩ := exists_keys hs hi hj hw hns
  obtain ⟨⟨n, txKey, addKeys, hget, e1, e2⟩, hb⟩ := source_built hw value hk additionals
  refine ⟨source w value (!decide (i = 0 ∧ j = 0)) additionals K₁ KOUT, ?_, hb, ?_⟩
  swap
  · intro ha; rw [ha]; rfl
  obtain ⟨t, ht⟩ := compute_some (H := o.hash) (a := Bp.num o.view) (S := scalarmultB (Bp.num o.spend)) hi [j] [] (by simpa using hj)
  have htv := C38_table_valid _ _ _ _ _ [] t (by intro k idx h; simp [Table.get] at h) ht
  obtain ⟨x, ki, hown⟩ := hb.owns hv hs htv.1 (htv.2.2 j (by simp))
  obtain ⟨real, tk, ak, q1, q2, -, q4, q5, q6⟩ := hown.real
  have q1' : (source w value (!decide (i = 0 ∧ j = 0)) additionals K₁ KOUT).outputs[w.index]? = some real := q1
  rw [hget, Option.some.injEq] at q1'
  subst q1'
  have q2' : x • (env o).G = shared (env o) o.view R w.oidx • baseS + D := by
    rw [env_ptDec] at q2
    dsimp only at q2
    rw [ptDec_enc] at q2
    exact (Option.some.inj q2).symm
  rw [env_ptDec, e1, ptDec_enc, Option.some.injEq] at q4
  rw [env_ptDec, e2, mapM_enc, Option.some.injEq] at q5
  rw [← q4, ← q5, q2'] at q6
  have q6' : Real.keyImage o t (shared (env o) o.view R w.oidx • baseS + D) txKey addKeys w.oidx = some (x, ki) := q6
  rw [Real.keyImage] at q6'
  obtain ⟨r, hr, -⟩ := Option.bind_eq_some_iff.1 q6'
  obtain ⟨hr1, -, hr3⟩ := ki_sound (Bp.rep_sub_canon _) hr
  have hrk : r.1 = kout := scalar_unique hr1 hk.hrange (hr3.trans (rep_unique hk.hrepk (rep_B kout)))
  refine genInput_eval hk hval additionals ht (r := r) ?_ hrk hget (Bp.decode_enc _) (pointEq_rep (Bp.rep_sub_canon _) hk.hrepk)
  have hget' : (source w value (!decide (i = 0 ∧ j = 0)) additionals K₁ KOUT).outputs[(source w value (!decide (i = 0 ∧ j = 0)) additionals K₁ KOUT).realOutput]? = _ := hget
  rw [checkInput, hget', Option.bind_some, e1, Bp.decode_enc, Option.bind_some, e2, mapM_decode, Option.bind_some]
  dsimp only
  rw [Bp.decode_enc, Option.bind_some]
  exact hr

/-! ## The builder -/

/-- No address has the null key. -/
theorem enc_ne_null (p : Sub) : Bp.enc p ≠ Signer.nullKey := by
  intro h
  have h1 := Bp.decode_enc p
  rw [h] at h1
  have h2 : ((decodePoint Signer.nullKey).map fun Q => pointEqual (scalarmult Q 4) ident) = some true := by decide +kernel
  rw [h1, Option.map_some, Option.some.injEq] at h2
  have h3 : (4 : ℕ) • (p : Point) = 0 := (pointEqual_iff (Ed.rep_smul (Bp.rep_sub_canon p) 4) rep_ident).1 h2
  have h4 : (4 * (lN / 4) + 1) • (p : Point) = 0 := p.2
  rw [add_nsmul, mul_nsmul, h3, nsmul_zero, zero_add, one_nsmul] at h4
  have h5 : Bp.enc p = encodePoint ident := by rw [Bp.encode_rep (p := p) (by rw [h4]; exact rep_ident)]
  rw [h] at h5
  revert h5
  decide +kernel


theorem inputs_ok {o : Outside} (hv : o.view ≠ 0) (hs : o.spend ≠ 0) : ∀ (ins : List In) (s : State), (∀ i ∈ ins, i.Ok o s.account) →
    ∃ srcs : List Src, ins.foldlM (fun (s : State) i => s.addInput o.hash (creds o) i.w i.value i.major i.minor i.additionals) s =
      some { s with sources := s.sources ++ srcs, indices := s.indices ++ ins.map fun i => (i.major.getD s.account, i.minor) } ∧
      List.Forall₂ (fun i src => Built o (i.major.getD s.account) i.minor i.value i.w src ∧ (i.additionals = false → src.addKeys = [])) ins srcs
  | [], s, _ => ⟨[], by simp, .nil⟩
  | i :: ins, s, h => by
    have hi := h i List.mem_cons_self
    obtain ⟨src, h1, h2, h3⟩ := genInput_ok hv hs hi.major hi.minor hi.draws hi.value i.additionals hi.key
    obtain ⟨srcs, h4, h5⟩ := inputs_ok hv hs ins { s with sources := s.sources ++ [src], indices := s.indices ++ [(i.major.getD s.account, i.minor)] }
      fun k hk => h k (List.mem_cons_of_mem _ hk)
    refine ⟨src :: srcs, ?_, .cons ⟨h2, h3⟩ h5⟩
    rw [List.foldlM_cons, State.addInput, h1]
    dsimp only [Option.map_some, Option.bind_eq_bind, Option.bind_some]
    rw [h4]
    simp [List.append_assoc]

/-- A destination made for an output. -/
structure Paid (o : Outside) (p : Out) (d : Signer.Dst) : Prop where
  amount : d.amount = p.value
  addr : p.addr o.hash = some d.addr
  points : (∃ q : Sub, d.addr.spend = Bp.enc q) ∧ ∃ q : Sub, d.addr.view = Bp.enc q

theorem genOutput_ok (o : Outside) {p : Out} (hp : p.Ok) : ∃ d, genOutput o.hash p.dest p.value p.major p.minor false = some d ∧ Paid o p d := by
  have rs := Bp.rep_BS p.dest.spend
  have rv := Bp.rep_BS p.dest.view
  by_cases hz : p.major = 0 ∧ p.minor = 0
  · refine ⟨⟨p.value, ⟨encodePoint (scalarmultB p.dest.spend), encodePoint (scalarmultB p.dest.view)⟩, !decide (p.major = 0 ∧ p.minor = 0)⟩, ?_,
      ⟨rfl, ?_, ⟨_, Bp.encode_rep rs⟩, ⟨_, Bp.encode_rep rv⟩⟩⟩
    · rw [genOutput, Bool.and_false, Bool.not_false, guard_true, subAddressKeys_zero hz, Option.map_some]
    · rw [Out.addr, subAddressKeys_zero hz, Option.map_some]
  · obtain ⟨sec, hsec⟩ : ∃ sec, subSecret o.hash p.dest.view p.major p.minor = some sec := by
      rw [subSecret, if_neg hz, subSecretCore, if_pos ⟨hp.major, hp.minor⟩]; exact ⟨_, rfl⟩
    have rd : Rep (add (scalarmultB p.dest.spend) (scalarmultB sec)) (((p.dest.spend : Fl) • baseS + (sec : Fl) • baseS : Sub) : Point) := by
      rw [AddSubgroup.coe_add]; exact rep_add rs (Bp.rep_BS sec)
    have hk : subAddressKeys o.hash p.dest.view (scalarmultB p.dest.spend) p.major p.minor =
        some (add (scalarmultB p.dest.spend) (scalarmultB sec), smul (add (scalarmultB p.dest.spend) (scalarmultB sec)) p.dest.view) := by
      rw [subAddressKeys, if_neg hz, hsec, Option.map_some]
    refine ⟨⟨p.value, ⟨encodePoint (add (scalarmultB p.dest.spend) (scalarmultB sec)),
      encodePoint (smul (add (scalarmultB p.dest.spend) (scalarmultB sec)) p.dest.view)⟩, !decide (p.major = 0 ∧ p.minor = 0)⟩, ?_,
      ⟨rfl, ?_, ⟨_, Bp.encode_rep rd⟩, ⟨_, Bp.encode_rep (Bp.rep_smulS rd hp.view)⟩⟩⟩
    · rw [genOutput, Bool.and_false, Bool.not_false, guard_true, hk, Option.map_some]
    · rw [Out.addr, hk, Option.map_some]

theorem outputs_ok (o : Outside) : ∀ (outs : List Out) (s : State), (∀ p ∈ outs, p.Ok) →
    ∃ ds : List Signer.Dst, outs.foldlM (fun (s : State) p => s.addOutput o.hash p.dest p.value p.major p.minor false) s = some { s with outputs := s.outputs ++ ds } ∧
      List.Forall₂ (Paid o) outs ds
  | [], s, _ => ⟨[], by simp, .nil⟩
  | p :: outs, s, h => by
    obtain ⟨d, h1, h2⟩ := genOutput_ok o (h p List.mem_cons_self)
    obtain ⟨ds, h4, h5⟩ := outputs_ok o outs { s with outputs := s.outputs ++ [d] } fun k hk => h k (List.mem_cons_of_mem _ hk)
    refine ⟨d :: ds, ?_, .cons h2 h5⟩
    rw [List.foldlM_cons, State.addOutput, h1]
    dsimp only [Option.map_some, Option.bind_eq_bind, Option.bind_some]
    rw [h4]
    simp [List.append_assoc]

theorem sum_built {o : Outside} {a : ℕ} {ins : List In} {srcs : List Src}
    (h : List.Forall₂ (fun i src => Built o (i.major.getD a) i.minor i.value i.w src ∧ (i.additionals = false → src.addKeys = [])) ins srcs) :
    (srcs.map (·.amount)).sum = (ins.map (·.value)).sum := by
  induction h with
  | nil => rfl
  | cons h _ ih => rw [List.map_cons, List.map_cons, List.sum_cons, List.sum_cons, ih, h.1.amount]

theorem sum_paid {o : Outside} {outs : List Out} {ds : List Signer.Dst} (h : List.Forall₂ (Paid o) outs ds) :
    (ds.map (·.amount)).sum = (outs.map (·.value)).sum := by
  induction h with
  | nil => rfl
  | cons h _ ih => rw [List.map_cons, List.map_cons, List.sum_cons, List.sum_cons, ih, h.amount]

/-- The transaction that is built. -/
theorem transaction_ok {o : Outside} (hv : o.view ≠ 0) (hs : o.spend ≠ 0) {account fee : ℕ} (ha : account < 2 ^ 32) {ins : List In} {outs : List Out}
    (hi : ∀ i ∈ ins, i.Ok o account) (hp : ∀ p ∈ outs, p.Ok) (hsum : (outs.map (·.value)).sum + fee ≤ (ins.map (·.value)).sum)
    (hsmall : (ins.map (·.value)).sum < (outs.map (·.value)).sum + fee + 2 ^ 64) :
    ∃ (srcs : List Src) (ds : List Signer.Dst) (change : Signer.Dst),
      transaction o.hash (creds o) account fee ins outs = some
        { sources := srcs, dsts := ds ++ [change], change := change, paymentId := [], unlockTime := 0, account := account
          indices := (ins.map fun i => i.major.getD account).eraseDups, useBp := true } ∧
      List.Forall₂ (fun i src => Built o (i.major.getD account) i.minor i.value i.w src ∧ (i.additionals = false → src.addKeys = [])) ins srcs ∧
      List.Forall₂ (Paid o) outs ds ∧
      Paid o ⟨creds o, (ins.map (·.value)).sum - (outs.map (·.value)).sum - fee, account, 0⟩ change := by
  obtain ⟨srcs, h1, h2⟩ := inputs_ok hv hs ins ⟨account, fee, [], [], [], none⟩ hi
  obtain ⟨ds, h3, h4⟩ := outputs_ok o outs ⟨account, fee, srcs, ins.map fun i => (i.major.getD account, i.minor), [], none⟩ hp
  obtain ⟨change, h5, h6⟩ := genOutput_ok o (p := ⟨creds o, (ins.map (·.value)).sum - (outs.map (·.value)).sum - fee, account, 0⟩)
    ⟨(Bp.num_range _).1, by show _ < _; dsimp only; omega, ha, by norm_num⟩
  refine ⟨srcs, ds, change, ?_, h2, h4, h6⟩
  unfold transaction
  rw [h1]
  dsimp only [Option.bind_some]
  rw [List.nil_append, List.nil_append, h3]
  dsimp only [Option.bind_some]
  rw [State.addChange]
  dsimp only
  have e : (((srcs.map (·.amount)).sum : ℕ) : ℤ) - (((([] ++ ds : List Signer.Dst).map (·.amount)).sum : ℕ) : ℤ) - (fee : ℤ) =
      (((ins.map (·.value)).sum - (outs.map (·.value)).sum - fee : ℕ) : ℤ) := by
    rw [List.nil_append, sum_built h2, sum_paid h4]; omega
  rw [e, if_neg (not_lt.2 (Int.natCast_nonneg _)), Int.toNat_natCast, State.addOutput, h5]
  dsimp only [Option.map_some, Option.bind_some]
  rw [State.build]
  dsimp only [Option.bind_some]
  rw [List.nil_append, List.length_append, List.length_singleton, Nat.add_sub_cancel, List.getElem?_append_right (le_refl _), Nat.sub_self]
  simp [List.map_map, Function.comp_def]

theorem eraseDups_same {a : ℕ} : ∀ {l : List ℕ}, l ≠ [] → (∀ x ∈ l, x = a) → l.eraseDups = [a]
  | [], h, _ => absurd rfl h
  | x :: xs, _, h => by
    have hf : xs.filter (fun b => !b == x) = [] := by
      rw [List.filter_eq_nil_iff]
      intro y hy
      rw [h y (List.mem_cons_of_mem _ hy), h x List.mem_cons_self]; simp
    rw [List.eraseDups_cons, hf, h x List.mem_cons_self]; rfl

theorem forall_mem {α β : Type} {R : α → β → Prop} {l : List α} {l' : List β} (h : List.Forall₂ R l l') : ∀ b ∈ l', ∃ a ∈ l, R a b := by
  induction h with
  | nil => intro b hb; cases hb
  | cons h _ ih =>
    intro b hb
    rcases List.mem_cons.1 hb with rfl | hb
    · exact ⟨_, List.mem_cons_self, h⟩
    · obtain ⟨a, ha, hr⟩ := ih b hb
      exact ⟨a, List.mem_cons_of_mem _ ha, hr⟩

theorem forall_mem' {α β : Type} {R : α → β → Prop} {l : List α} {l' : List β} (h : List.Forall₂ R l l') : ∀ a ∈ l, ∃ b ∈ l', R a b := by
  induction h with
  | nil => intro b hb; cases hb
  | cons h _ ih =>
    intro b hb
    rcases List.mem_cons.1 hb with rfl | hb
    · exact ⟨_, List.mem_cons_self, h⟩
    · obtain ⟨a, ha, hr⟩ := ih b hb
      exact ⟨a, List.mem_cons_of_mem _ ha, hr⟩

end Verif.Builder

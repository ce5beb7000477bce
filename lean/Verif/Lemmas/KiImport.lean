import Verif.Spec.KiImport
import Verif.Props.KiSync
import Verif.Props.Sig
import Verif.Props.AgentSound
import Verif.Lemmas.RealReceive
import Verif.Lemmas.Extra

/-! Key image import with the modelled cryptography. -/

namespace Verif.KiSync
open Verif Ed Edwards Key Signer Agent Real

theorem steps_inv {env : Env} {rnd : Nat → Rand} : ∀ {cs : List (List Td)} {n : ℕ} {s : Sync} {acc : List Eki} {r : Option Sync × List Eki},
    importSteps env rnd cs n (some s) acc = some r → ∀ td ∈ cs.flatten, (env.exportKi s.subs td).isSome
  | [], _, _, _, _, _ => by simp
  | c :: cs, n, s, acc, r, h => by
    unfold importSteps at h
    split at h
    · rename_i d kis hd
      simp only [device, Option.bind_some] at hd
      split at hd
      · rename_i s' r' hs
        simp only [Prod.mk.injEq] at hd
        obtain ⟨rfl, rfl⟩ := hd
        obtain ⟨-, -, -, -, g, -, -, -, kis', -, -, g9⟩ := sync_spec hs
        intro td htd
        rw [List.flatten_cons, List.mem_append] at htd
        rcases htd with htd | htd
        · obtain ⟨i, hi⟩ := List.mem_iff_getElem?.1 htd
          obtain ⟨b, k, e, -⟩ := g9 i td hi
          rw [e]; rfl
        · rw [← g]
          exact steps_inv h td htd
      · simp at hd
    · simp at h

/-- An import that succeeds: the user confirmed and every key image was exported. -/
theorem import_inv {env : Env} {rnd : Nat → Rand} {subs : List (Nat × List Nat)} {tds : List Td} {chunks : List (List Td)} {d : Option Sync}
    {ps : List Bytes} (hci : ∀ key nonce data, env.decrypt key nonce (env.encrypt key nonce data) = some data)
    (hc : Common.chunkRuns tds 10 chunks) (h : importOutputs env tds chunks subs rnd d = some ps) :
    Accepting env rnd subs tds ∧ ¬ 10 ∣ tds.length := by
  have h10 : ¬ 10 ∣ tds.length := by
    intro h10
    rw [C16_false env rnd subs tds chunks d hc h10] at h
    simp at h
  refine ⟨?_, h10⟩
  obtain ⟨cs, last, hcs, hfl, _, _⟩ := Common.chunkRuns_shape (by norm_num) hc
  have hflat : chunks.flatten = tds := by rw [hcs]; simpa using hfl
  unfold importOutputs at h
  dsimp only at h
  split at h
  · rename_i d' hd
    simp only [device, init] at hd
    split at hd
    · rename_i s r hi
      simp only [Prod.mk.injEq] at hd
      obtain ⟨rfl, rfl⟩ := hd
      split at hi
      · simp at hi
      rename_i h1
      split at hi
      · simp at hi
      rename_i h2
      split at hi
      · simp at hi
      rename_i h3
      simp only [Option.some.injEq, Prod.mk.injEq, and_true] at hi
      split at h
      · simp at h
      · rename_i hst
        have := steps_inv hst
        rw [← hi, hflat] at this
        exact ⟨by simpa using h1, by simpa using h3, by simpa using h2, this, hci⟩
    · simp at hd
  · simp at h

/-! ### One output -/

theorem checkRing_image {H : Bytes → Bytes} {pre : Bytes} {I I' P : Ext} {p : Point} {out : Point} (hI : Rep I p) (hI' : Rep I' p) (hP : Rep P out)
    {c r : ℤ} (h : Sig.checkRing H pre I [P] [(c, r)] = some true) : (0 < c ∧ c < l) ∧ (0 < r ∧ r < l) ∧
      Sig.checkRing H pre I' [P] [(c, r)] = some true := by
  unfold Sig.checkRing Sig.ringCheckLoop at h ⊢
  by_cases hs : scCheck c ≠ 0 ∨ scCheck r ≠ 0
  · rw [if_pos hs] at h
    simp at h
  · rw [if_neg hs] at h ⊢
    rw [not_or, not_not, not_not] at hs
    have hc := scCheck_zero hs.1
    have hr := scCheck_zero hs.2
    refine ⟨hc, hr, ?_⟩
    have : Sig.ringMember H I' P c r = Sig.ringMember H I P c r := by
      rw [Sig.ringMember_rep H hI hP hc.1.le hr.1.le, Sig.ringMember_rep H hI' hP hc.1.le hr.1.le]
    rw [this]
    exact h

theorem split_plain (I : Ext) (c r : ℤ) : splitPlain (encodePoint I ++ encodeInt c ++ encodeInt r) = (encodePoint I, encodeInt c, encodeInt r) := by
  have h1 : (encodePoint I).length = 32 := by rw [encodePoint, packBits_length]
  have h2 : (encodeInt c).length = 32 := encodeInt_length _
  unfold splitPlain
  rw [List.append_assoc, List.take_left' h1, List.drop_left' h1, List.take_left' h2, ← List.append_assoc,
    List.drop_left' (by rw [List.length_append, h1, h2])]

/-- What the device exports for an output is its key image, with a signature that verifies. -/
theorem export_sound {o : Outside} {draw : Td → ℤ × ℤ × ℤ} {subs : List (ℕ × List ℕ)} {td : Td} {b : Bytes}
    (h : exportKi o draw subs td = some b) : ImageOk o.hash td.outKey (splitPlain b) ∧
      ∃ P x p, decodePoint td.outKey = some P ∧ (0 ≤ x ∧ x < l) ∧ Rep P p ∧ x • base = p ∧ (splitPlain b).1 = encodePoint (smul (hp o.hash (encPt p)) x) := by
  unfold exportKi at h
  split at h
  · rename_i t P tx adds ht hP htx hadds
    split at h
    · rename_i ki c r rest he
      simp only [Option.some.injEq] at h
      subst h
      obtain ⟨p, rP⟩ := decodePoint_rep hP
      unfold Sig.exportKeyImage at he
      split at he
      · simp at he
      · rename_i xi ki' recv hki
        split at he
        · simp at he
        · rename_i sig hsig
          rw [if_pos rfl] at he
          split at he
          · rename_i hck
            simp only [Option.some.injEq, Prod.mk.injEq] at he
            obtain ⟨rfl, rfl⟩ := he
            obtain ⟨hx, hI, hxo⟩ := ki_sound rP hki
            dsimp only at hx hI hxo
            have hlen : ((c, r) :: rest).length = 1 := by
              unfold Sig.genRing at hsig
              split at hsig
              · simp at hsig
              · split at hsig
                · simp at hsig
                · simp only [List.length_singleton, Nat.zero_lt_one, if_true, Option.some.injEq] at hsig
                  rw [← hsig]
                  simp
            obtain rfl : rest = [] := by simpa using hlen
            obtain ⟨q, hq, hq0⟩ := rep_hp o.hash (encPt p)
            have rI : Rep ki' (xi • q) := by rw [hI]; exact Key.rep_smul hq hx.1
            obtain ⟨hc, hr, hck'⟩ := checkRing_image rI (rep_canon (xi • q)) rP hck
            rw [split_plain]
            refine ⟨⟨P, canon (xi • q), c, r, hP, ?_, C35_scalar_roundtrip c hc.1.le hc.2, C35_scalar_roundtrip r hr.1.le hr.2, hck'⟩,
              P, xi, p, hP, hx, rP, hxo, ?_⟩
            · show decodePoint (encodePoint ki') = _
              rw [encodePoint_rep rI, decode_encPt]
            · show encodePoint ki' = _
              rw [hI]
          · simp at he
    · simp at h
  · simp at h

theorem base_inj {a b : ℤ} (ha : 0 ≤ a ∧ a < l) (hb : 0 ≤ b ∧ b < l) (h : a • base = b • base) : a = b := by
  have := zsmul_eq_zsmul_iff_modEq.1 h
  rw [order_base, ← l_eq] at this
  have h2 : a % l = b % l := this
  rwa [Int.emod_eq_of_lt ha.1 ha.2, Int.emod_eq_of_lt hb.1 hb.2] at h2

/-- It is the key image of every source with that key. -/
theorem export_owns {o : Outside} {draw : Td → ℤ × ℤ × ℤ} {subs : List (ℕ × List ℕ)} {td : Td} {b : Bytes} (h : exportKi o draw subs td = some b)
    {t : SubTable} {src : Src} {x : Fl} {ki : Sub} (how : Owns (env o) t src x ki) {m : RingMember} (hm : src.outputs[src.realOutput]? = some m)
    (hd : m.dest = td.outKey) : (splitPlain b).1 = Bp.enc ki := by
  obtain ⟨-, P, y, p, h1, h2, h3, h4, h5⟩ := export_sound h
  obtain ⟨m', k, ks, a1, a2, -, a3, a4, a5⟩ := how.real
  rw [hm, Option.some.injEq] at a1
  subst a1
  rw [env_ptDec, hd, ptDec, h1, Option.bind_some] at a2
  have rP : Rep P ((x • baseS : Sub) : Point) := rep_of_toSub a2
  have hp' : p = ((x • baseS : Sub) : Point) := rep_unique h3 rP
  have a5' : Real.keyImage o t (x • baseS) k ks src.inTxIndex = some (x, ki) := a5
  unfold Real.keyImage at a5'
  rw [Option.bind_eq_some_iff] at a5'
  obtain ⟨r, hr, a6⟩ := a5'
  obtain ⟨s1, s2, s3⟩ := ki_sound (Bp.rep_sub_canon _) hr
  rw [Option.map_eq_some_iff] at a6
  obtain ⟨I, hI, a7⟩ := a6
  simp only [Prod.mk.injEq] at a7
  obtain ⟨hxx, rfl⟩ := a7
  have e : r.1 = y := by
    have : r.1 • base = y • base := by rw [s3, h4, hp']
    exact base_inj s1 h2 this
  rw [h5, ← e, hp', ← s2, encodePoint_rep (rep_of_toSub hI)]
  rfl

/-! ### Received outputs -/

theorem parse_tail (key : Bytes) (hk : key.length = 32) (adds : List Bytes) (ha : ∀ a ∈ adds, a.length = 32) (f : ℕ) (hf : 2 ≤ f) :
    parseExtra f ([1] ++ key ++ (if adds = [] then [] else [4] ++ Varint.dumpNat adds.length ++ adds.flatten)) =
      some (Field.pubKey key :: if adds = [] then [] else [.additional adds]) := by
  obtain ⟨f, rfl⟩ : ∃ g, f = g + 2 := ⟨f - 2, by omega⟩
  rw [List.append_assoc, List.singleton_append, parse_step, readField_key _ _ hk]
  dsimp only
  split
  · rw [parseExtra]; rfl
  · rw [List.append_assoc, List.singleton_append, parse_step, ← List.append_nil adds.flatten, readField_additional adds ha]
    dsimp only
    rw [parseExtra]; rfl

/-- The extra field of a transaction parses. -/
theorem extra_fields {d : TxData} {nonce : Bytes} (hn : NonceOk d nonce) {key : Bytes} (hk : key.length = 32) {adds : List Bytes}
    (ha : ∀ a ∈ adds, a.length = 32) {extra : Bytes}
    (he : extra = nonce ++ [1] ++ key ++ (if adds = [] then [] else [4] ++ Varint.dumpNat adds.length ++ adds.flatten)) :
    ∃ fs, parseExtra extra.length extra = some fs ∧ txPubKey fs = some key ∧ ((additionals fs)[0]?).getD [] = adds := by
  have hcons : ∀ n : Bytes, n.length < 128 → nonce = 2 :: UInt8.ofNat n.length :: n →
      ∃ fs, parseExtra extra.length extra = some fs ∧ txPubKey fs = some key ∧ ((additionals fs)[0]?).getD [] = adds := by
    intro n hlt hnn
    refine ⟨.nonce n :: .pubKey key :: if adds = [] then [] else [.additional adds], ?_, ?_, ?_⟩
    · rw [he, hnn, List.append_assoc, List.append_assoc, ← List.append_assoc [1], List.cons_append, List.cons_append, List.length_cons, parse_step,
        readField_nonce _ _ hlt]
      dsimp only
      rw [parse_tail key hk adds ha _ (by simp; omega)]
      rfl
    · by_cases hz : adds = [] <;> simp [txPubKey, pubKeys, hz]
    · by_cases hz : adds = [] <;> simp [additionals, hz]
  rcases hn with ⟨-, rfl⟩ | ⟨-, h, hl, rfl⟩ | ⟨h32, rfl⟩
  · refine ⟨_, by rw [he, List.nil_append]; exact parse_tail key hk adds ha _ (by simp; omega), ?_, ?_⟩
    · by_cases hz : adds = [] <;> simp [txPubKey, pubKeys, hz]
    · by_cases hz : adds = [] <;> simp [additionals, hz]
  · exact hcons (1 :: h) (by simp [hl]) (by rw [List.length_cons, hl]; rfl)
  · exact hcons (0 :: d.paymentId) (by simp [h32]) (by rw [List.length_cons, h32]; rfl)

/-- The table with all addresses of the received outputs. -/
theorem subTable_ok (o : Outside) : ∀ (es : List (ℕ × List ℕ)) (t : Table), (∀ e ∈ es, e.1 < 2 ^ 32 ∧ ∀ j ∈ e.2, j < 2 ^ 32) →
    t.Valid o.hash (Bp.num o.view) (scalarmultB (Bp.num o.spend)) →
    ∃ t', subTable o es t = some t' ∧ t'.Valid o.hash (Bp.num o.view) (scalarmultB (Bp.num o.spend)) ∧ (∀ k, t.get k ≠ none → t'.get k ≠ none) ∧
      ∀ e ∈ es, ∀ j ∈ e.2, ∃ D, subSpendPub o.hash (Bp.num o.view) (scalarmultB (Bp.num o.spend)) e.1 j = some D ∧ t'.get (encodePoint D) ≠ none
  | [], t, _, hv => ⟨t, rfl, hv, fun _ h => h, by simp⟩
  | e :: es, t, hb, hv => by
    obtain ⟨t1, h1⟩ := compute_some (H := o.hash) (a := Bp.num o.view) (S := scalarmultB (Bp.num o.spend)) (hb e List.mem_cons_self).1 e.2 t
      (hb e List.mem_cons_self).2
    obtain ⟨v1, m1, a1⟩ := C38_table_valid _ _ _ _ _ t t1 hv h1
    obtain ⟨t2, h2, v2, m2, a2⟩ := subTable_ok o es t1 (fun x hx => hb x (List.mem_cons_of_mem _ hx)) v1
    refine ⟨t2, by rw [subTable, h1]; exact h2, v2, fun k hk => m2 k (m1 k hk), ?_⟩
    intro x hx j hj
    rcases List.mem_cons.1 hx with rfl | hx
    · obtain ⟨D, hD, hg⟩ := a1 j hj
      exact ⟨D, hD, m2 _ hg⟩
    · exact a2 x hx j hj

theorem mapM_dec : ∀ ps : List Sub, (ps.map Bp.enc).mapM decodePoint = some (ps.map fun p : Sub => canon (p : Point))
  | [] => rfl
  | p :: ps => by simp [Bp.decode_enc, mapM_dec ps]

/-- The export for a received output. -/
theorem export_complete {o : Outside} (hh : ∀ b, hs o.hash b ≠ 0) (hv : o.view ≠ 0) (hs0 : o.spend ≠ 0) {draw : Td → ℤ × ℤ × ℤ}
    {subs : List (ℕ × List ℕ)} {t : Table} (ht : subTable o subs [] = some t)
    (hval : t.Valid o.hash (Bp.num o.view) (scalarmultB (Bp.num o.spend))) {D : Sub} (hD : t.get (Bp.enc D) ≠ none) {txKey : Sub}
    {addKeys : List Sub} {n : ℕ} (hlen : addKeys = [] ∨ n < addKeys.length) {R : Sub} (hR : R = txKey ∨ addKeys[n]? = some R) {out : Sub}
    (hout : out = shared (env o) o.view R n • baseS + D) {td : Td} (htd : td = ⟨Bp.enc out, Bp.enc txKey, addKeys.map Bp.enc, n⟩)
    (hd : Sig.Reduced (draw td).1 ∧ Sig.Reduced (draw td).2.1 ∧ Sig.Reduced (draw td).2.2)
    (hz : ∀ x, Sig.Reduced x → encodePoint (scalarmultB x) = td.outKey → response o.hash td.outKey x (draw td).1 ≠ 0) :
    (exportKi o draw subs td).isSome := by
  have hpo : (out : Point) = sh o.hash ((8 : ℤ) • Bp.num o.view • (R : Point)) n • base + (D : Point) := by
    rw [hout, AddSubgroup.coe_add, shared_eq, Bp.coe_smul]
    rfl
  have hg : t.get (encPt ((out : Point) - sh o.hash ((8 : ℤ) • Bp.num o.view • (R : Point)) n • base)) ≠ none := by
    rw [hpo, add_sub_cancel_left]
    exact hD
  obtain ⟨recv, ds, idx, dv, δ, d, D', x, I, -, -, -, -, -, -, -, hki⟩ := kiHelper_complete (num_pos hv) (Bp.num_range _).2 (num_pos hs0)
    (Bp.num_range _).2 hval (Bp.rep_sub_canon out) (Bp.rep_sub_canon txKey) (Rs := addKeys.map fun p : Sub => canon (p : Point))
    (by intro P hP; obtain ⟨p, -, rfl⟩ := List.mem_map.1 hP; exact ⟨_, Bp.rep_sub_canon p⟩) (n := n)
    (by intro h; rcases hlen with h' | h' <;> simp_all) (by
      rcases hR with rfl | hR
      · exact .inl hg
      · exact .inr ⟨canon (R : Point), R, by rw [List.getElem?_map, hR]; rfl, Bp.rep_sub_canon R, hg⟩)
  obtain ⟨hx, hI, hxo⟩ := ki_sound (Bp.rep_sub_canon out) hki
  dsimp only at hx hI hxo
  have henc : encodePoint (canon (out : Point)) = Bp.enc out := Bp.encode_rep (Bp.rep_sub_canon out)
  have hpk : encodePoint (scalarmultB x) = td.outKey := by
    rw [encodePoint_rep (rep_B x), hxo, htd]
    rfl
  have hz' := hz x hx hpk
  obtain ⟨sig, e1, e2, e3, e4⟩ := Sig.C40_ring_partial o.hash (encodePoint I) I [canon (out : Point)] x 0 true (draw td).1 [(draw td).2]
    (canon (out : Point)) rfl (by simp only [List.mem_singleton, forall_eq]; exact rep_on (Bp.rep_sub_canon out)) hx hd.1
    ((pointEqual_iff (rep_B x) (Bp.rep_sub_canon out)).mpr hxo) (by rw [hI, henc]; rfl) rfl (by simpa using hd.2)
  have hsig : sig = [(scSub (hs o.hash (encodePoint I ++ (encodePoint (scalarmultB (draw td).1) ++
      encodePoint (smul (hp o.hash (Bp.enc out)) (draw td).1)))) 0, response o.hash td.outKey x (draw td).1)] := by
    have hsub : ∀ b, scSub (hs o.hash b) 0 = hs o.hash b := fun b => by
      rw [scSub, sub_zero, Int.emod_eq_of_lt (hs_range _ _).1 (hs_range _ _).2]
    have h := e1
    unfold Sig.genRing at h
    split at h
    · simp at h
    · simp only [Sig.ringGenLoop, if_true, henc, List.length_singleton, Nat.zero_lt_one, Option.some.injEq] at h
      rw [← h, response, hI, htd, hsub]
      rfl
  have hok : decide (∀ v ∈ sig, v.1 ≠ 0 ∧ v.2 ≠ 0) = true := by
    rw [decide_eq_true_iff, hsig]
    simp only [List.mem_singleton, forall_eq]
    refine ⟨?_, hz'⟩
    rw [scSub, sub_zero, Int.emod_eq_of_lt (hs_range _ _).1 (hs_range _ _).2]
    exact hh _
  have hexp : Sig.exportKeyImage o.hash (Bp.num o.view) (Bp.num o.spend) t (canon (out : Point)) (canon (txKey : Point))
      (addKeys.map fun p : Sub => canon (p : Point)) n true true (draw td).1 [(draw td).2] = some (I, sig) := by
    unfold Sig.exportKeyImage
    rw [hki]
    dsimp only
    rw [e1]
    dsimp only
    rw [if_pos rfl, e4, hok]
  unfold exportKi
  have hq : td.addKeys.mapM decodePoint = some (addKeys.map fun p : Sub => canon (p : Point)) := by rw [htd]; exact mapM_dec _
  have hq1 : decodePoint td.outKey = some (canon (out : Point)) := by rw [htd]; exact Bp.decode_enc _
  have hq2 : decodePoint td.txPub = some (canon (txKey : Point)) := by rw [htd]; exact Bp.decode_enc _
  have hq3 : td.idx = n := by rw [htd]
  rw [ht, hq, hq1, hq2, hq3]
  dsimp only
  rw [hexp, hsig]
  rfl

/-- A received output, as the host sends it to the device. -/
theorem sent_data {s o : Outside} {tx : Tx} {n i j : ℕ} (h : Sent s o tx n i j) :
    ∃ (txKey : Sub) (addKeys : List Sub) (R D : Sub) (P : Ext), transferData (transferOf tx n i j) =
        some ⟨Bp.enc (shared (env o) o.view R n • baseS + D), Bp.enc txKey, addKeys.map Bp.enc, n⟩ ∧ (addKeys = [] ∨ n < addKeys.length) ∧
      (R = txKey ∨ addKeys[n]? = some R) ∧ subSpendPub o.hash (Bp.num o.view) (scalarmultB (Bp.num o.spend)) i j = some P ∧ Rep P (D : Point) := by
  obtain ⟨cfg, d, rnd, hrnd, c, c', dst, hfit, hsub, hrun, hn, haddr, hidx, hown⟩ := h.run
  obtain ⟨ins, outs, groups, nonce, txKey, addKeys, h1, h2⟩ := C74_recipients_find_outputs_partial (lawful h.sender) hfit hsub hrun
  have hout : ∃ out, outs[n]? = some out ∧ out.dst = dst := by
    have := hn
    rw [← h1.dests, List.getElem?_map, Option.map_eq_some_iff] at this
    exact this
  obtain ⟨out, ho1, rfl⟩ := hout
  obtain ⟨D, hD, P, hP, rP⟩ := address_owner (o := s) haddr hidx
  obtain ⟨R, hR, hF⟩ := h2 n out ho1 D o.view hD (fun h => hown h)
  refine ⟨txKey, addKeys, R, D, P, ?_, ?_, hR, hP, rP⟩
  · obtain ⟨fs, f1, f2, f3⟩ := extra_fields h1.payment (key := Bp.enc txKey) (adds := addKeys.map Bp.enc) (extra := tx.extra) (Bp.enc_length _)
      (by intro a ha; obtain ⟨p, -, rfl⟩ := List.mem_map.1 ha; exact Bp.enc_length _)
      (by rw [h1.extra]; simp only [List.map_eq_nil_iff, List.length_map]; rfl)
    have hv : tx.vout = outs.map fun o => ⟨0, Bp.enc o.key⟩ := h1.vout
    have hne : (transferOf tx n i j).vout ≠ [] := by
      show tx.vout.map _ ≠ []
      rw [hv, List.map_map, Ne, List.map_eq_nil_iff]
      rintro rfl
      simp at ho1
    unfold transferData
    rw [if_neg hne]
    show (match parseExtra tx.extra.length tx.extra with | none => none | some fs => _) = _
    rw [f1]
    dsimp only
    have hk : (transferOf tx n i j).vout[(transferOf tx n i j).index]? = some (Bp.enc out.key) := by
      show (tx.vout.map _)[n]? = _
      rw [hv, List.map_map, List.getElem?_map, ho1]; rfl
    rw [f2, hk, f3]
    dsimp only
    have e : out.key = shared (env o) o.view R n • baseS + D := by
      rw [hF.key, shared_eq, shared_eq, h.hash]
      rfl
    rw [e]
    rfl
  · rcases h1.additional with h | h
    · exact .inl h
    · right
      rw [h]
      exact (List.getElem?_eq_some_iff.1 ho1).1

end Verif.KiSync

import Verif.Lemmas.KiImport
import Verif.Props.EndToEnd

/-! C77: imported key images. -/

namespace Verif.KiSync
open Verif Ed Edwards Key Signer Agent Real

theorem map_of_mapM {α β : Type} {f : α → Option β} : ∀ {l : List α} {r : List β}, l.mapM f = some r → l.map f = r.map some
  | [], r, h => by simp at h; subst h; rfl
  | a :: l, r, h => by
    rw [List.mapM_cons] at h
    obtain ⟨b, hb, h⟩ := Option.bind_eq_some_iff.1 h
    obtain ⟨r', hr', h⟩ := Option.bind_eq_some_iff.1 h
    simp only [Option.pure_def, Option.some.injEq] at h
    subst h
    rw [List.map_cons, List.map_cons, hb, map_of_mapM hr']

/-- C77. Whatever the import returns: the user confirmed, and there is one entry for every output, in order. Each is a key image with a signature that
the wallet accepts, and it is the key image of every source with which the wallet can spend that output. -/
theorem C77_imported_images {o : Outside} {draw : Td → ℤ × ℤ × ℤ} {encrypt : Bytes → Bytes → Bytes → Bytes} {decrypt : Bytes → Bytes → Bytes → Option Bytes}
    (hci : ∀ key nonce data, decrypt key nonce (encrypt key nonce data) = some data) {ts : List Transfer} {subs : List (ℕ × List ℕ)}
    {chunk : List Td → List (List Td)} (hc : ∀ tds, Common.chunkRuns tds 10 (chunk tds)) {rnd : ℕ → KiSync.Rand} {d : Option Sync}
    {res : List (Bytes × Bytes × Bytes)} (h : importTransfers (device' o draw encrypt decrypt) ts subs chunk rnd d = some res) :
    (rnd 0).confirm = true ∧ res.length = ts.length ∧ ∀ (i : ℕ) t r, ts[i]? = some t → res[i]? = some r →
      ∃ out, t.vout[t.index]? = some out ∧ ImageOk o.hash out r ∧
        ∀ table src x ki m, Owns (env o) table src x ki → src.outputs[src.realOutput]? = some m → m.dest = out → r.1 = Bp.enc ki := by
  unfold importTransfers at h
  obtain ⟨tds, h1, h⟩ := Option.bind_eq_some_iff.1 h
  obtain ⟨ps, h2, rfl⟩ := Option.map_eq_some_iff.1 h
  obtain ⟨ha, h10⟩ := import_inv hci (hc tds) h2
  obtain ⟨ps', h3, h4, h5⟩ := C16_import_partial _ rnd subs tds _ d (hc tds) ha h10
  obtain rfl : ps' = ps := by rw [h3] at h2; simpa using h2
  have h6 := map_of_mapM h1
  have hlen : tds.length = ts.length := by have := congrArg List.length h6; simpa using this.symm
  refine ⟨ha.confirm, by rw [List.length_map, h4, hlen], ?_⟩
  intro i t r ht hr
  have e6 := congrArg (·[i]?) h6
  have e5 := congrArg (·[i]?) h5
  simp only [List.getElem?_map] at e5 e6 hr
  rw [ht, Option.map_some] at e6
  obtain ⟨p, hp, rfl⟩ := Option.map_eq_some_iff.1 hr
  rw [hp, Option.map_some] at e5
  obtain ⟨td, htd, e5⟩ := Option.map_eq_some_iff.1 e5
  rw [htd, Option.map_some, Option.some.injEq] at e6
  have hout : t.vout[t.index]? = some td.outKey := by
    unfold transferData at e6
    split at e6
    · simp at e6
    split at e6
    · simp at e6
    split at e6
    · rename_i ho
      rw [ho]
      simp only [Option.some.injEq] at e6
      rw [← e6]
    · simp at e6
  have e5' : exportKi o draw subs td = some p := e5
  exact ⟨td.outKey, hout, (export_sound e5').1, fun table src x ki m how hm hd => export_owns e5' how hm hd⟩

/-- C77. So the imported key image of an output is found in every transaction of the wallet that spends the output. -/
theorem C77_found_when_spent {o : Outside} (ho : o.Ok) {draw : Td → ℤ × ℤ × ℤ} {encrypt : Bytes → Bytes → Bytes → Bytes}
    {decrypt : Bytes → Bytes → Bytes → Option Bytes} (hci : ∀ key nonce data, decrypt key nonce (encrypt key nonce data) = some data)
    {ts : List Transfer} {subs : List (ℕ × List ℕ)} {chunk : List Td → List (List Td)} (hc : ∀ tds, Common.chunkRuns tds 10 (chunk tds))
    {rnd : ℕ → KiSync.Rand} {d : Option Sync} {res : List (Bytes × Bytes × Bytes)}
    (h : importTransfers (device' o draw encrypt decrypt) ts subs chunk rnd d = some res)
    {cfg : Config} {dt : TxData} (hfit : Fits cfg dt) {rnd' : ℕ → Signer.Rand Fl} {hrnd : ℕ → Bytes} {c c' : Conn Fl Sub} {tx : Tx}
    (hrun : signTransaction (env o) cfg Wire.codec rnd' hrnd dt c = some (tx, c')) {i : ℕ} {t : Transfer} {r : Bytes × Bytes × Bytes}
    (ht : ts[i]? = some t) (hr : res[i]? = some r) {src : Src} (hsrc : src ∈ dt.sources) {m : RingMember}
    (hm : src.outputs[src.realOutput]? = some m) (hd : t.vout[t.index]? = some m.dest) : r.1 ∈ tx.vin.map (·.ki) := by
  obtain ⟨-, -, hall⟩ := C77_imported_images hci hc h
  obtain ⟨out, h1, -, h2⟩ := hall i t r ht hr
  obtain ⟨-, -, -, ins, outs, groups, nonce, txKey, addKeys, h3⟩ := C74_result_is_right_partial (lawful ho) hfit hrun
  obtain ⟨s, hs, rfl⟩ := List.mem_map.1 (h3.sources.mem_iff.2 hsrc)
  rw [h2 _ _ _ _ m (h3.mine s hs) hm (by rw [hd] at h1; simpa using h1), h3.vin, List.map_map]
  exact List.mem_map.2 ⟨s, hs, rfl⟩

/-- C77. Outputs that the wallet received, whoever sent them, are imported: if the user confirms, the number is not a multiple of ten (C16), and no
signature happens to have a zero response. -/
theorem C77_received_are_imported_partial {o : Outside} (ho : o.Ok) {draw : Td → ℤ × ℤ × ℤ} {encrypt : Bytes → Bytes → Bytes → Bytes}
    {decrypt : Bytes → Bytes → Bytes → Option Bytes} (hci : ∀ key nonce data, decrypt key nonce (encrypt key nonce data) = some data)
    {ts : List Transfer} {subs : List (ℕ × List ℕ)} {chunk : List Td → List (List Td)} (hc : ∀ tds, Common.chunkRuns tds 10 (chunk tds))
    {rnd : ℕ → KiSync.Rand} (d : Option Sync) (hconf : (rnd 0).confirm = true) (hmine : ∀ t ∈ ts, ∃ s tx n i j, Sent s o tx n i j ∧ t = transferOf tx n i j)
    (hsubs : SubIndices ts subs) (h10 : ¬ 10 ∣ ts.length) (hd : ∀ td, Sig.Reduced (draw td).1 ∧ Sig.Reduced (draw td).2.1 ∧ Sig.Reduced (draw td).2.2)
    (hz : ∀ t ∈ ts, ∀ td, transferData t = some td → ∀ x, Sig.Reduced x → encodePoint (scalarmultB x) = td.outKey →
      response o.hash td.outKey x (draw td).1 ≠ 0) :
    ∃ res, importTransfers (device' o draw encrypt decrypt) ts subs chunk rnd d = some res := by
  obtain ⟨tb, tb1, tb2, -, tb3⟩ := subTable_ok o subs [] (fun e he => by
      have hlt : ∀ j ∈ e.2, e.1 < 2 ^ 32 ∧ j < 2 ^ 32 := by
        intro j hj
        obtain ⟨t, ht, h1, h2⟩ := (hsubs.mem e.1 j).1 ⟨e, he, rfl, hj⟩
        obtain ⟨s, tx, n, i', j', hs, rfl⟩ := hmine t ht
        have := hs.indices
        rw [← h1, ← h2]
        exact this
      refine ⟨?_, fun j hj => (hlt j hj).2⟩
      obtain ⟨j, hj⟩ := List.exists_mem_of_ne_nil _ (hsubs.sets e he).1
      exact (hlt j hj).1) (by intro k idx h; simp [Table.get] at h)
  have hdata : ∀ t ∈ ts, ∃ td, transferData t = some td ∧ (exportKi o draw subs td).isSome := by
    intro t ht
    obtain ⟨s, tx, n, i, j, hs, rfl⟩ := hmine t ht
    obtain ⟨txKey, addKeys, R, D, P, h1, h2, h3, h4, h5⟩ := sent_data hs
    refine ⟨_, h1, ?_⟩
    obtain ⟨e, he, e1, e2⟩ := (hsubs.mem i j).2 ⟨_, ht, rfl, rfl⟩
    obtain ⟨P', hP', hg⟩ := tb3 e he j e2
    rw [e1, h4, Option.some.injEq] at hP'
    subst hP'
    rw [Bp.encode_rep h5] at hg
    exact export_complete ho.hashNonzero ho.view ho.spend tb1 tb2 hg h2 h3 rfl rfl (hd _) (hz _ ht _ h1)
  have hmap : ∃ tds, keyImageData ts = some tds ∧ tds.length = ts.length ∧ ∀ td ∈ tds, (exportKi o draw subs td).isSome := by
    clear hsubs h10 hz hmine
    unfold keyImageData
    induction ts with
    | nil => exact ⟨[], rfl, rfl, by simp⟩
    | cons t ts ih =>
      obtain ⟨tds, i1, i2, i3⟩ := ih fun t ht => hdata t (List.mem_cons_of_mem _ ht)
      obtain ⟨td, j1, j2⟩ := hdata t List.mem_cons_self
      refine ⟨td :: tds, by simp [List.mapM_cons, i1, j1], by simp [i2], ?_⟩
      intro x hx
      rcases List.mem_cons.1 hx with rfl | hx
      · exact j2
      · exact i3 x hx
  obtain ⟨tds, m1, m2, m3⟩ := hmap
  obtain ⟨ps, p1, -⟩ := C16_import_partial (device' o draw encrypt decrypt) rnd subs tds (chunk tds) d (hc tds)
    ⟨rfl, by show (subTable o subs []).isSome = true; rw [tb1]; rfl, hconf, m3, hci⟩ (by rw [m2]; exact h10)
  exact ⟨ps.map splitPlain, by unfold importTransfers; rw [m1, Option.bind_some, p1]; rfl⟩

/-- The change that the wallet of the example sent to itself is imported. -/
example : ∃ tx c', signTransaction (env Demo.parts) ⟨10, 1⟩ Wire.codec Demo.draws (fun _ => []) (Demo.request 1) ⟨{}, 0⟩ = some (tx, c') ∧
    SubIndices [transferOf tx 1 0 0] [(0, [0])] ∧ ∃ chunk : List Td → List (List Td), (∀ tds, Common.chunkRuns tds 10 (chunk tds)) ∧
    ∃ res, importTransfers (device' Demo.parts (fun _ => (5, 1, 1)) (fun _ _ b => b) (fun _ _ b => some b)) [transferOf tx 1 0 0] [(0, [0])] chunk
      (fun _ => ⟨true, [], fun _ => []⟩) none = some res := by
  obtain ⟨tx, c', _, h, -⟩ := C75_honest_is_accepted Demo.ok Demo.is_request Demo.draws (fun _ => []) ⟨{}, 0⟩ Demo.agrees
  have hr := Demo.is_request
  have hsent : Sent Demo.parts Demo.parts tx 1 0 0 := ⟨Demo.ok, rfl, by decide, ⟨10, 1⟩, Demo.request 1, Demo.draws, fun _ => [], ⟨{}, 0⟩, c',
    ⟨6, Demo.own, false⟩, ⟨hr.version, hr.hf, hr.fewSources, hr.fewDsts, hr.amounts⟩, by simp [Real.Demo.request], h, rfl, Demo.address_own, by simp,
    fun _ => rfl⟩
  have hsub : SubIndices [transferOf tx 1 0 0] [(0, [0])] := ⟨by simp, by simp, by
    intro i j
    simp only [transferOf, List.mem_singleton, exists_eq_left]
    exact and_congr_right fun _ => eq_comm⟩
  refine ⟨tx, c', h, hsub, fun tds => (Common.C34_chunk tds (size := 10) (by decide)).choose,
    fun tds => (Common.C34_chunk tds (size := 10) (by decide)).choose_spec.1, ?_⟩
  have hl5 : (5 : ℤ) < l := by decide +kernel
  have h1l : (1 : ℤ) < l := by omega
  refine C77_received_are_imported_partial Demo.ok (fun _ _ _ => rfl) (fun tds => (Common.C34_chunk tds (size := 10) (by decide)).choose_spec.1) none rfl
    (by intro t ht; rw [List.mem_singleton] at ht; exact ⟨_, _, _, _, _, hsent, ht⟩) hsub (by simp) (fun _ => ⟨⟨by decide, hl5⟩, ⟨by decide, h1l⟩, ⟨by decide, h1l⟩⟩) ?_
  intro t ht td htd x hx hk
  rw [List.mem_singleton] at ht
  subst ht
  obtain ⟨txKey, addKeys, R, D, P, h1, -, -, h4, h5⟩ := sent_data hsent
  rw [h1, Option.some.injEq] at htd
  have hone : ∀ b, hs Demo.parts.hash b = 1 := fun b => by
    show (bitSum (1 :: List.replicate 31 0) 256 : ℤ) % l = 1
    decide +kernel
  have hD : (D : Point) = (2 : ℤ) • base := by
    rw [subSpendPub, if_pos ⟨rfl, rfl⟩, Option.some.injEq] at h4
    subst h4
    rw [← rep_unique (rep_B _) h5]
    refine congrArg (· • base) ?_
    show Bp.num (2 : Fl) = 2
    have : ((2 : ℤ) : Fl) = 2 := by norm_num
    rw [← this, Bp.num_cast ⟨by decide, by omega⟩]
  have hx3 : x = 3 := by
    refine base_inj hx ⟨by decide, by omega⟩ ?_
    rw [encodePoint_rep (rep_B x), ← htd] at hk
    have := encPt_injective hk
    rw [this, AddSubgroup.coe_add, shared_eq, Bp.coe_smul, hD, sh, hone]
    show (1 : ℤ) • base + _ = _
    rw [← add_smul]
    norm_num
  rw [response, hone, hx3]
  have : (5 - 1 * 3 : ℤ) % l = 2 := by rw [show (5 - 1 * 3 : ℤ) = 2 by norm_num]; exact Int.emod_eq_of_lt (by decide) (by omega)
  rw [this]
  decide

end Verif.KiSync

import Verif.Lemmas.RealLawful
import Verif.Props.Mlsag
import Verif.Lemmas.Stealth

/-! Ring signatures of the concrete parts: they are produced, read back from their bytes, and accepted. -/

namespace Verif.Real
open Verif Ed Key Sig Edwards Signer Agent

/-- C42_simple for a pseudo output in any coordinates. -/
theorem prove_simple (H : Bytes → Bytes) (m : Bytes) (ring : List CtPub) {x mask amount a : ℤ} (idx : ℕ) (alpha : List ℤ)
    (rnd : List (List ℤ)) (p : CtPub) (cout d c : Ext) (h2 : 2 ≤ ring.length) (hdec : ∀ q ∈ ring, decodable q = true) (hreal : ring[idx]? = some p)
    (hd : decodePoint p.dest = some d) (rd : Rep d (x • base)) (hc : decodePoint p.commitment = some c) (rc : Rep c (mask • base + amount • hBase))
    (rout : Rep cout (a • base + amount • hBase)) (hx : 0 ≤ x) (hal : alpha.length = 2) (hal0 : ∀ x ∈ alpha, 0 ≤ x)
    (hr1 : rnd.length = ring.length) (hr2 : ∀ s ∈ rnd, s.length = 2) :
    ∃ mg ch, proveMgSimple H m ring ⟨x, mask⟩ a cout idx alpha rnd = some (mg, ch) ∧ verMgSimple H m mg ring cout = some true ∧
      mg.II = [smul (hp H (encodePoint d)) x] ∧ (0 ≤ mg.cc ∧ mg.cc < l) ∧ mg.ss = rnd.set idx (closing ch [x, scSub mask a] alpha) := by
  obtain ⟨M, h1, hl, hrect, hM⟩ := simpleMatrix_some cout ring (fun q hq => (decodable_iff q).mp (hdec q hq))
  obtain ⟨d', c', hd', hc', hcol⟩ := hM idx p hreal
  rw [hd, Option.some.injEq] at hd'
  rw [hc, Option.some.injEq] at hc'
  subst hd' hc'
  have rz : Rep (sub c cout) (scSub mask a • base) := by
    have := rep_sub rc rout
    rw [scSub_smul _ _ l_base]
    rwa [show mask • base + amount • hBase - (a • base + amount • hBase) = mask • base - a • base by abel] at this
  obtain ⟨mg, c2, e1, e2, e3, e4, e5⟩ := gen_ver H m (pk := M) (xx := [x, scSub mask a]) (idx := idx) (ds := 1) (rows := 2)
    (alpha := alpha) (rnd := rnd) (by omega) hcol (by omega) hrect (by omega) hal hal0 (by rw [hr1, hl]) hr2
    (.cons ⟨hx, rd⟩ (.cons ⟨(emod_l_range _).1, rz⟩ .nil))
  refine ⟨mg, c2, ?_, ?_, ?_, e4, e5⟩
  · unfold proveMgSimple; rw [if_neg (by omega), h1]; exact e1
  · unfold verMgSimple; rw [if_neg (by omega), h1]; exact e2
  · rw [e3]
    obtain ⟨x, y, hxy⟩ := List.length_eq_two.mp hal
    rw [hxy]
    simp only [List.take_succ_cons, List.take_zero, secretDs]

/-- A matrix that could be built comes from points. -/
theorem matrix_rep {cout : Ext} {pc : Point} (hc : Rep cout pc) : ∀ (ring : List CtPub) (M : List (List Ext)), simpleMatrix cout ring = some M →
    (∃ M', List.Forall₂ Reps M M') ∧ (∀ q ∈ ring, decodable q = true) ∧ M.length = ring.length
  | [], M, h => by
    simp only [simpleMatrix, Option.some.injEq] at h
    subst h
    exact ⟨⟨[], .nil⟩, by simp, rfl⟩
  | p :: ps, M, h => by
    rw [simpleMatrix] at h
    split at h
    · rename_i d c m h1 h2 h3
      obtain ⟨⟨m', hm⟩, hq, hl⟩ := matrix_rep hc ps m h3
      obtain ⟨d', rd⟩ := decodePoint_rep h1
      obtain ⟨c', rc⟩ := decodePoint_rep h2
      simp only [Option.some.injEq] at h
      subst h
      refine ⟨⟨[d', c' - pc] :: m', .cons (.cons rd (.cons (rep_sub rc hc) .nil)) hm⟩, ?_, by simp [hl]⟩
      intro q hq'
      rcases List.mem_cons.1 hq' with rfl | hq'
      · rw [decodable_iff]; exact ⟨by rw [h1]; rfl, by rw [h2]; rfl⟩
      · exact hq q hq'
    · simp at h

theorem ver_simple_ring {H : Bytes → Bytes} {m : Bytes} {mg : MgSig} {ring : List CtPub} {cout : Ext} {pc : Point} (hc : Rep cout pc)
    (h : verMgSimple H m mg ring cout = some true) : 2 ≤ ring.length ∧ ∀ q ∈ ring, decodable q = true := by
  unfold verMgSimple at h
  split at h
  · simp at h
  split at h
  · simp at h
  rename_i M hM
  obtain ⟨-, h1, h2⟩ := matrix_rep hc ring M hM
  refine ⟨?_, h1⟩
  unfold verMlsag at h
  split at h
  · simp at h
  rename_i ha
  unfold verMlsagAssert at ha
  by_contra hlt
  rw [if_pos (by omega)] at ha
  simp at ha

/-- The verifier sees only the points, not their coordinates. -/
theorem ver_simple_images {H : Bytes → Bytes} {m : Bytes} {mg : MgSig} {ring : List CtPub} {cout : Ext} {pc : Point} (hc : Rep cout pc)
    (h : verMgSimple H m mg ring cout = some true) {I : List Ext} {I' : List Point} (h1 : Reps mg.II I') (h2 : Reps I I')
    (hss : ∀ s ∈ mg.ss, ∀ x ∈ s, 0 ≤ x) (hcc : 0 ≤ mg.cc ∧ mg.cc < l) : verMgSimple H m ⟨mg.ss, mg.cc, I⟩ ring cout = some true := by
  unfold verMgSimple at h ⊢
  split at h
  · simp at h
  rename_i h0
  rw [if_neg h0]
  split at h
  · simp at h
  rename_i M hM
  obtain ⟨⟨M', hM'⟩, -, -⟩ := matrix_rep hc ring M hM
  exact (verMlsag_iff H m hM' (rv := ⟨mg.ss, mg.cc, I⟩) h2 hss hcc).2 ((verMlsag_iff H m hM' h1 hss hcc).1 h)

/-! ## Bytes -/

theorem rdVec_col (col : List ℤ) (r : Bytes) : Bp.rdVec (Wire.dumpCol col ++ r) = some (col.map encodeInt, r) := by
  have := Bp.rdKeys_append (col.map encodeInt) r (by intro x hx; obtain ⟨y, -, rfl⟩ := List.mem_map.1 hx; exact encodeInt_length y)
  rw [List.length_map] at this
  rw [Wire.dumpCol, List.append_assoc, Bp.rdVec, Varint.load_dumpNat, Option.bind_some, this]

theorem rdCols_dump : ∀ (ss : List (List ℤ)) (r : Bytes), Wire.rdCols ss.length ((ss.map Wire.dumpCol).flatten ++ r) = some (ss.map (·.map encodeInt), r)
  | [], _ => rfl
  | c :: cs, r => by
    simp only [List.map_cons, List.flatten_cons, List.length_cons, List.append_assoc, Wire.rdCols, rdVec_col, Option.bind_eq_bind, Option.bind_some,
      rdCols_dump cs r]

theorem parse_mg (mg : MgSig) : Wire.parseMg (Wire.dumpMg mg) = some (mg.ss.map (·.map encodeInt), encodeInt mg.cc) := by
  have h := Bp.rdKey_append (encodeInt mg.cc) [] (encodeInt_length _)
  rw [List.append_nil] at h
  simp only [Wire.parseMg, Wire.dumpMg, List.append_assoc, Varint.load_dumpNat, Option.bind_eq_bind, Option.bind_some, rdCols_dump, h]

theorem mapM_scalars : ∀ col : List ℤ, (∀ x ∈ col, 0 ≤ x ∧ x < l) → (col.map encodeInt).mapM decodeScalar = some col
  | [], _ => rfl
  | x :: xs, h => by
    have h1 := h x (by simp)
    rw [List.map_cons, List.mapM_cons, C35_scalar_roundtrip x h1.1 h1.2]
    simp only [Option.bind_eq_bind, Option.bind_some, mapM_scalars xs fun y hy => h y (by simp [hy])]
    rfl

theorem mapM_cols : ∀ ss : List (List ℤ), (∀ s ∈ ss, ∀ x ∈ s, 0 ≤ x ∧ x < l) →
    (ss.map (·.map encodeInt)).mapM (fun col => col.mapM decodeScalar) = some ss
  | [], _ => rfl
  | s :: ss, h => by
    rw [List.map_cons, List.mapM_cons, mapM_scalars s (h s (by simp))]
    simp only [Option.bind_eq_bind, Option.bind_some, mapM_cols ss fun y hy => h y (by simp [hy])]
    rfl

theorem decode_mg (mg : MgSig) (I : List Ext) (hss : ∀ s ∈ mg.ss, ∀ x ∈ s, 0 ≤ x ∧ x < l) (hcc : 0 ≤ mg.cc ∧ mg.cc < l) :
    Wire.decodeMg (mg.ss.map (·.map encodeInt), encodeInt mg.cc) I = some ⟨mg.ss, mg.cc, I⟩ := by
  simp only [Wire.decodeMg, mapM_cols mg.ss hss, C35_scalar_roundtrip _ hcc.1 hcc.2, Option.bind_eq_bind, Option.bind_some]

theorem closing_range (c : ℤ) : ∀ (xs als : List ℤ), ∀ y ∈ closing c xs als, 0 ≤ y ∧ y < l
  | [], als, y, h => by simp [closing] at h
  | x :: xs, [], y, h => by simp [closing] at h
  | x :: xs, al :: als, y, h => by
    rw [closing] at h
    rcases List.mem_cons.1 h with rfl | h
    · exact emod_l_range _
    · exact closing_range c xs als y h

/-! ## The wallet's sources -/

theorem coe_smul' (x : Fl) (p : Sub) : ((x • p : Sub) : Point) = Bp.num x • (p : Point) := by
  conv_lhs => rw [← Bp.cast_num x]
  exact Bp.coe_smul _ _

theorem coe_genC (o : Outside) (mask : Fl) (amount : ℕ) :
    ((Signer.genC (env o) mask amount : Sub) : Point) = Bp.num mask • base + (amount : ℤ) • hBase := by
  show ((mask • baseS + ((amount : ℕ) : Fl) • Bp.hS : Sub) : Point) = _
  rw [AddSubgroup.coe_add, coe_smul']
  have := Bp.coe_smul (amount : ℤ) Bp.hS
  rw [Int.cast_natCast] at this
  rw [this]
  rfl

theorem ki_sound {H : Bytes → Bytes} {a b : ℤ} {t : Table} {out txPub : Ext} {adds : List Ext} {i : ℕ} {po : Point} (ho : Rep out po)
    {r : ℤ × Ext × Ext} (h : kiHelper H a b t out txPub adds i = some r) :
    (0 ≤ r.1 ∧ r.1 < l) ∧ r.2.1 = smul (hp H (encPt po)) r.1 ∧ r.1 • base = po := by
  unfold kiHelper at h
  split at h
  · simp at h
  split at h
  · simp at h
  split at h
  · simp at h
  · simp at h
  rw [Option.map_eq_some_iff] at h
  obtain ⟨⟨x, I⟩, h1, rfl⟩ := h
  obtain ⟨h2, h4, h3, -⟩ := precomp_sound ho h1
  exact ⟨h2, h3, h4⟩

/-- What owning a source means for its bytes. -/
theorem owns_bytes {o : Outside} {table : SubTable} {src : Src} {x : Fl} {ki : Sub} (h : Owns (env o) table src x ki) :
    ∃ real d c, (src.outputs.map member)[src.realOutput]? = some real ∧ decodePoint real.dest = some d ∧ Rep d (Bp.num x • base) ∧
      decodePoint real.commitment = some c ∧ Rep c (Bp.num ((env o).scDec src.mask) • base + (src.amount : ℤ) • hBase) ∧
      Rep (smul (hp o.hash (encodePoint d)) (Bp.num x)) (ki : Point) := by
  obtain ⟨real, txKey, addKeys, h1, h2, h3, -, -, h6⟩ := h.real
  rw [env_ptDec] at h2 h3
  obtain ⟨d, hd, rd⟩ := ptDec_some h2
  obtain ⟨c, hc, rc⟩ := ptDec_some h3
  have rd' : Rep d (Bp.num x • base) := by
    have : ((x • (env o).G : Sub) : Point) = Bp.num x • base := coe_smul' x baseS
    rwa [this] at rd
  rw [coe_genC] at rc
  refine ⟨member real, d, c, by rw [List.getElem?_map, h1]; rfl, hd, rd', hc, rc, ?_⟩
  have h7 : Real.keyImage o table (x • baseS) txKey addKeys src.inTxIndex = some (x, ki) := h6
  rw [Real.keyImage, Option.bind_eq_some_iff] at h7
  obtain ⟨r, hr, h8⟩ := h7
  rw [Option.map_eq_some_iff] at h8
  obtain ⟨I, hI, h9⟩ := h8
  rw [Prod.mk.injEq] at h9
  obtain ⟨h9, rfl⟩ := h9
  obtain ⟨hx, hr2, -⟩ := ki_sound (Bp.rep_sub_canon _) hr
  have hxn : Bp.num x = r.1 := by rw [← h9, Bp.num_cast hx]
  have := rep_of_toSub hI
  rw [hr2, coe_smul', show ((baseS : Sub) : Point) = base from rfl, ← encodePoint_rep rd', ← hxn] at this
  exact this

/-- The prover succeeds on the wallet's sources. -/
theorem mlsag_some {o : Outside} (ho : o.Ok) {table : SubTable} {src : Src} {x : Fl} {ki : Sub} (h : Owns (env o) table src x ki)
    (h2 : 2 ≤ src.outputs.length) (hdec : ∀ m ∈ src.outputs, decodable (member m) = true) (msg : Bytes) (mask : Fl) (r : Bytes) :
    ∃ mg : MgSig, (env o).mlsag msg src.outputs x ((env o).scDec src.mask) mask (Signer.genC (env o) mask src.amount) src.realOutput r =
        some (Wire.dumpMg mg) ∧
      verMgSimple o.hash msg mg (src.outputs.map member) (canon ((Signer.genC (env o) mask src.amount : Sub) : Point)) = some true ∧
      Reps mg.II [(ki : Point)] ∧ (0 ≤ mg.cc ∧ mg.cc < l) ∧ ∀ s ∈ mg.ss, ∀ y ∈ s, 0 ≤ y ∧ y < l := by
  obtain ⟨real, d, c, hreal, hd, rd, hc, rc, rI⟩ := owns_bytes h
  have hr := ho.mgRand r src.outputs.length
  have rout := Bp.rep_sub_canon (Signer.genC (env o) mask src.amount)
  rw [coe_genC] at rout
  obtain ⟨mg, ch, e1, e2, e3, e4, e5⟩ := prove_simple o.hash msg (src.outputs.map member) (a := Bp.num mask) src.realOutput
    (o.mgRand r src.outputs.length).1 (o.mgRand r src.outputs.length).2 real (canon ((Signer.genC (env o) mask src.amount : Sub) : Point)) d c
    (by rw [List.length_map]; exact h2) (by intro q hq; obtain ⟨m, hm, rfl⟩ := List.mem_map.1 hq; exact hdec m hm) hreal hd rd hc rc
    (by rw [coe_genC]; exact rout) (Bp.num_range x).1 hr.1.1 (fun y hy => (hr.1.2 y hy).1) (by rw [List.length_map]; exact hr.2.1)
    (fun s hs => (hr.2.2 s hs).1)
  refine ⟨mg, ?_, e2, ?_, e4, ?_⟩
  · show Real.mlsag o _ _ _ _ _ _ _ _ = _
    simp only [Real.mlsag, e1, e2]
  · rw [e3]; exact .cons rI .nil
  · intro s hs y hy
    rw [e5] at hs
    rcases List.mem_or_eq_of_mem_set hs with hs | rfl
    · exact (hr.2.2 s hs).2 y hy
    · exact closing_range _ _ _ y hy

/-- A signature the device returned for a source of the wallet is accepted. -/
theorem mlsag_accepted {o : Outside} (ho : o.Ok) {table : SubTable} {src : Src} {x : Fl} {ki : Sub} (h : Owns (env o) table src x ki)
    {msg : Bytes} {mask : Fl} {r sig : Bytes} {vin : Vin} (hvin : vin.ki = Bp.enc ki)
    (hs : (env o).mlsag msg src.outputs x ((env o).scDec src.mask) mask (Signer.genC (env o) mask src.amount) src.realOutput r = some sig) :
    SignatureOk o.hash msg src.outputs vin (Bp.enc (Signer.genC (env o) mask src.amount)) sig := by
  have hpre : 2 ≤ src.outputs.length ∧ ∀ m ∈ src.outputs, decodable (member m) = true := by
    have hs' : Real.mlsag o msg src.outputs x ((env o).scDec src.mask) mask (Signer.genC (env o) mask src.amount) src.realOutput r = some sig := hs
    unfold Real.mlsag at hs'
    dsimp only at hs'
    split at hs'
    · simp at hs'
    split at hs'
    · rename_i hv
      obtain ⟨h1, h2⟩ := ver_simple_ring (Bp.rep_sub_canon _) hv
      exact ⟨by rwa [List.length_map] at h1, fun m hm => h2 _ (List.mem_map_of_mem hm)⟩
    · simp at hs'
  obtain ⟨mg, e1, e2, e3, e4, e5⟩ := mlsag_some ho h hpre.1 hpre.2 msg mask r
  rw [e1, Option.some.injEq] at hs
  subst hs
  refine ⟨canon (ki : Point), _, _, _, by rw [hvin]; exact Bp.decode_enc ki, Bp.decode_enc _, parse_mg mg, decode_mg mg _ e5 e4, ?_⟩
  exact ver_simple_images (Bp.rep_sub_canon _) e2 e3 (.cons (Bp.rep_sub_canon ki) .nil) (fun s hs y hy => (e5 s hs y hy).1) e4

end Verif.Real

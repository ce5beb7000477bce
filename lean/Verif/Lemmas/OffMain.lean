import Verif.Lemmas.OffLr

/-! The offloaded prover as a whole, compared with the prover that does everything in memory. -/

namespace Verif.Off
open Verif Ed Key Sig Edwards Bp Finset KeyV

/-- The scalars which both provers compute after the challenge `x`. -/
def tauxOf (rnd : Rand) (gamma : List ℤ) (s : Setup) : ℤ :=
  tauxLoop s.z gamma (scMul s.z s.z) (scMuladd rnd.tau2 (scMul s.x s.x) (scMul rnd.tau1 s.x))
def muOf (rnd : Rand) (s : Setup) : ℤ := scMuladd s.x rnd.rho rnd.alpha
def tOf (rnd : Rand) (sv : List ℤ) (s : Setup) : ℤ :=
  tsAt (lAt rnd sv s.z s.x) (rAt rnd sv s.y s.z s.x) 0 (2 ^ logM sv.length * 64) 0
def xipOf (H : Bytes → Bytes) (rnd : Rand) (sv gamma : List ℤ) (s : Setup) : ℤ :=
  mash H s.x [encodeInt s.x, encodeInt (tauxOf rnd gamma s), encodeInt (muOf rnd s), encodeInt (tOf rnd sv s)]
def pfOf (rnd : Rand) (sv gamma : List ℤ) (s : Setup) (r : List Bytes × List Bytes × ℤ × ℤ) : Proof :=
  ⟨s.V, s.A, s.S, s.T1, s.T2, encodeInt (tauxOf rnd gamma s), encodeInt (muOf rnd s), r.1, r.2.1, encodeInt r.2.2.1, encodeInt r.2.2.2,
    encodeInt (tOf rnd sv s)⟩
noncomputable def lF (rnd : Rand) (sv : List ℤ) (s : Setup) (i : ℕ) : Fl := (lAt rnd sv s.z s.x i : Fl)
noncomputable def rF (rnd : Rand) (sv : List ℤ) (s : Setup) (i : ℕ) : Fl := (rAt rnd sv s.y s.z s.x i : Fl)

theorem nums_of (n : ℕ) (a : ℕ → ℤ) (h : ∀ i, 0 ≤ a i ∧ a i < l) : (List.range n).map a = nums 0 n fun i => (a i : Fl) := by
  rw [List.range_eq_range', nums]
  exact List.map_congr_left fun i _ => (num_cast (h i)).symm

theorem zip_ts (n : ℕ) (a b : ℕ → ℤ) :
    (((List.range n).map a).zip ((List.range n).map b)).foldl (fun acc p => scMuladd p.1 p.2 acc) 0 = tsAt a b 0 n 0 := by
  rw [List.zip_map', List.foldl_map, List.range_eq_range']
  rfl

theorem setup_y {H : Bytes → Bytes} {rnd : Rand} {sv gamma : List ℤ} {s : Setup} (h : setup H rnd sv gamma = some s) : 0 ≤ s.y ∧ s.y < l := by
  simp only [setup] at h
  split at h
  · simp at h
  · simp only [Option.bind_eq_bind, Option.bind_eq_some_iff] at h
    obtain ⟨V, -, A, -, S, -, h⟩ := h
    split at h
    · simp at h
    split at h
    · simp at h
    simp only [Option.bind_eq_some_iff] at h
    obtain ⟨T1, -, T2, -, h⟩ := h
    split at h
    · simp at h
    have h := Option.some.inj h
    subst h
    exact hs_range _ _

/-- The prover in memory. -/
theorem proveBatch_eq (H : Bytes → Bytes) (rnd : Rand) (sv gamma : List ℤ) : proveBatch H rnd sv gamma =
    (setup H rnd sv gamma).bind fun s =>
      (proveLoop H (xipOf H rnd sv gamma s) (logM sv.length + 7) (2 ^ logM sv.length * 64 / 2) (xipOf H rnd sv gamma s) (pts 0 (2 ^ logM sv.length * 64) (gPt H))
        (pts 0 (2 ^ logM sv.length * 64) (hPt H s.y)) (nums 0 (2 ^ logM sv.length * 64) (lF rnd sv s)) (nums 0 (2 ^ logM sv.length * 64) (rF rnd sv s))).map
        (pfOf rnd sv gamma s) := by
  have eG (n : ℕ) : (List.range n).map (gGen H) = pts 0 n (gPt H) := by
    rw [List.range_eq_range', pts]; exact List.map_congr_left fun i _ => gGen_enc H i
  have eH (y : ℤ) (n : ℕ) : hPrime (scInv y) 0 ((List.range n).map (hGen H)) = some (pts 0 n (hPt H y)) := by
    rw [List.range_eq_range', hPrime_enc H (scInv_nn _)]
    simp only [cast_scInv]
    rfl
  unfold proveBatch setup
  split
  · rfl
  · simp only [Option.bind_eq_bind, Option.bind_assoc]
    refine congrArg _ (funext fun V => congrArg _ (funext fun A => congrArg _ (funext fun S => ?_)))
    by_cases hy : mash H (hashVct H V) [A, S] = 0
    · rw [if_pos hy, if_pos hy]; rfl
    rw [if_neg hy, if_neg hy]
    generalize mash H (hashVct H V) [A, S] = y
    by_cases hz : Key.hs H (encodeInt y) = 0
    · rw [if_pos hz, if_pos hz]; rfl
    rw [if_neg hz, if_neg hz]
    generalize Key.hs H (encodeInt y) = z
    rw [Option.bind_assoc]
    refine congrArg _ (funext fun T1 => ?_)
    rw [Option.bind_assoc]
    refine congrArg _ (funext fun T2 => ?_)
    by_cases hx : mash H z [encodeInt z, T1, T2] = 0
    · rw [if_pos hx, if_pos hx]; rfl
    rw [if_neg hx, if_neg hx]
    generalize mash H z [encodeInt z, T1, T2] = x
    rw [Option.bind_some, eH, Option.bind_some, eG,
      show ((List.range (2 ^ logM sv.length * 64)).map fun i => scMuladd x (rnd.sL i) (scSub (aLAt sv i) z)) =
        (List.range (2 ^ logM sv.length * 64)).map (lAt rnd sv z x) from rfl,
      show ((List.range (2 ^ logM sv.length * 64)).map fun i => scMuladd x (scMul (rnd.sR i) (pw y i)) (r0At (aRAt sv i) y z i)) =
        (List.range (2 ^ logM sv.length * 64)).map (rAt rnd sv y z x) from rfl, zip_ts,
      nums_of _ (lAt rnd sv z x) (fun i => emod_l_range _), nums_of _ (rAt rnd sv y z x) (fun i => emod_l_range _)]
    set P := proveLoop H _ _ _ _ _ _ _ _ with hP
    show _ = Option.map _ P
    cases P <;> rfl

/-- The host after the first phase. -/
noncomputable def tailOf (H : Bytes → Bytes) (rnd : Rand) (blind : ℕ → ℕ → ℤ) (cfg : Cfg) (MN : ℕ) (y : ℤ) (l r : Buf) (d : Dev) : Option Proof :=
  ((if cfg.method = 0 then some [] else hPrime (scInv y) 0 ((List.range MN).map (hGen H))).bind fun Hs =>
    (dots H rnd blind cfg (MN / 2) (MN / cfg.batching / 2) true ((List.range MN).map (gGen H)) Hs l r d).bind fun x =>
      firstFold H rnd blind cfg MN y x.2 l r x.1).bind fun x =>
  (clientLoop H rnd blind cfg (MN + 1) (MN / 4) x.2 x.1).bind (finish H rnd blind)

theorem computeBp_tail (H : Bytes → Bytes) (rnd : Rand) (blind : ℕ → ℕ → ℤ) (cfg : Cfg) (sv gamma : List ℤ) : computeBp H rnd blind cfg sv gamma =
    (start H rnd blind cfg sv gamma).bind fun x => match x.2 with
      | .bufs [l0, r0] => (recvLr H rnd blind (64 * sv.length / cfg.batching - 1) x.1 l0 r0).bind fun v =>
        (tx H rnd blind v.1 []).bind fun w => ((w.2.head?.bind (·.head?)).map kInt).bind fun y =>
          tailOf H rnd blind cfg (64 * sv.length) y v.2.1 v.2.2 w.1
      | _ => none := by
  unfold computeBp
  simp only [Option.bind_eq_bind]
  refine congrArg _ (funext fun x => ?_)
  obtain ⟨d, res⟩ := x
  dsimp only
  split
  · refine congrArg _ (funext fun v => congrArg _ (funext fun w => congrArg _ (funext fun y => ?_)))
    unfold tailOf
    rw [Option.bind_assoc]
    by_cases hm : cfg.method = 0
    · rw [if_pos hm, if_pos hm, Option.bind_some, Option.bind_some, Option.bind_assoc]
      rfl
    · rw [if_neg hm, if_neg hm]
      refine congrArg _ (funext fun Hs => ?_)
      rw [Option.bind_assoc]
      rfl
  · rename_i hne
    split
    · exact absurd rfl (hne _ _)
    · rfl

theorem tx_post (H : Bytes → Bytes) (rnd : Rand) (blind : ℕ → ℕ → ℤ) (d : P1) (h : d.done = true) (b : List Buf) :
    tx H rnd blind (.one d) b = (phase1Post H rnd d).bind fun x => match x.2 with | .bufs b => some (x.1, b) | _ => none := by
  have es : step H rnd blind (.one d) b = phase1Post H rnd d := by rw [step]; exact if_pos h
  rw [tx, es]
  rcases phase1Post H rnd d with _ | ⟨x, _ | _ | _⟩ <;> rfl

theorem post_eq (H : Bytes → Bytes) (rnd : Rand) (d : P1) {taux mu xip : ℤ}
    (h1 : tauxLoop d.z d.gamma (scMul d.z d.z) (scMuladd rnd.tau2 (scMul d.x d.x) (scMul rnd.tau1 d.x)) = taux)
    (h2 : scMuladd d.x rnd.rho rnd.alpha = mu) (h3 : mash H d.x [encodeInt d.x, encodeInt taux, encodeInt mu, encodeInt d.ts] = xip) :
    phase1Post H rnd d = if xip = 0 then none else
      some (.two (St ⟨⟨d.cfg, d.MN, d.logMN, d.V, d.A, d.S, d.T1, d.T2, taux, mu, d.ts, d.y, xip⟩,
        0, d.MN / 2, xip, List.replicate d.logMN zeroKey, List.replicate d.logMN zeroKey, 0, 0, zeroKey, zeroKey, d.bl, fun _ => 0, 1⟩
          (if d.cfg.method = 0 then 20 else 2) 0 Powers.new Powers.new ⟨[], [], [], []⟩), .bufs [[encodeInt d.y]]) := by
  subst h1 h2 h3
  rfl

/-- What the host needs: the number of amounts is the one the device pads to, the parameters are powers of two, chunks fit. -/
structure FitsL (cfg : Cfg) (M lgM β τ o : ℕ) : Prop extends Pars cfg β τ o where
  hM : M = 2 ^ lgM
  lg : logM M = lgM
  m3 : cfg.method ≤ 3
  b6 : β ≤ lgM + 6
  b5 : cfg.method ≤ 1 → β ≤ lgM + 5

/-- The state of the device at the start of the first round. -/
def K0 (H : Bytes → Bytes) (rnd : Rand) (blind : ℕ → ℕ → ℤ) (cfg : Cfg) (sv gamma : List ℤ) (lgM : ℕ) (s : Setup) : Rnd :=
  ⟨⟨cfg, 2 ^ (lgM + 6), lgM + 6, s.V, s.A, s.S, s.T1, s.T2, tauxOf rnd gamma s, muOf rnd s, tOf rnd sv s, s.y, xipOf H rnd sv gamma s⟩, 0, 2 ^ (lgM + 6) / 2,
    xipOf H rnd sv gamma s, List.replicate (lgM + 6) zeroKey, List.replicate (lgM + 6) zeroKey, 0, 0, zeroKey, zeroKey, blind 0, fun _ => 0, 1⟩

/-- The offloaded prover up to the end of the first round. -/
theorem computeBp_first (H : Bytes → Bytes) (rnd : Rand) (blind : ℕ → ℕ → ℤ) (hbl : ∀ k i, 0 ≤ blind k i ∧ (blind k i : Fl) ≠ 0) (cfg : Cfg)
    (sv gamma : List ℤ) {lgM β τ o : ℕ} (hF : FitsL cfg sv.length lgM β τ o) {s : Setup} (hset : setup H rnd sv gamma = some s) :
    (xipOf H rnd sv gamma s = 0 → computeBp H rnd blind cfg sv gamma = none) ∧ (xipOf H rnd sv gamma s ≠ 0 →
      Ok (K0 H rnd blind cfg sv gamma lgM s) ∧
      (chW H (K0 H rnd blind cfg sv gamma lgM s) (gPt H) (hPt H s.y) (lF rnd sv s) (rF rnd sv s) = 0 → computeBp H rnd blind cfg sv gamma = none) ∧
      (chW H (K0 H rnd blind cfg sv gamma lgM s) (gPt H) (hPt H s.y) (lF rnd sv s) (rF rnd sv s) ≠ 0 → ∃ c XA XB pl' pr' V',
        computeBp H rnd blind cfg sv gamma = (clientLoop H rnd blind cfg
          ((K0 H rnd blind cfg sv gamma lgM s).n + (K0 H rnd blind cfg sv gamma lgM s).n + 1) (2 ^ (lgM + 4))
          (nextHost (((K0 H rnd blind cfg sv gamma lgM s).after H blind (gPt H) (hPt H s.y) (lF rnd sv s) (rF rnd sv s)).sums c XA XB) (gPt H) (hPt H s.y) (lF rnd sv s) (rF rnd sv s))
          (.two (St (((K0 H rnd blind cfg sv gamma lgM s).after H blind (gPt H) (hPt H s.y) (lF rnd sv s) (rF rnd sv s)).sums c XA XB).next
            (if cfg.method = 0 then 20 else 2) 0 pl' pr' V'))).bind (finish H rnd blind))) := by
  rw [computeBp_tail]
  unfold start
  rw [hset]
  · dsimp only
    set d : P1 := ⟨cfg, 2 ^ logM sv.length * 64, logM sv.length + 6, sv, gamma, s.V, s.A, s.S, s.T1, s.T2, s.y, s.z, s.x, 0, none, false, 0, blind 0⟩ with hd
    have dMN : d.MN = 2 ^ (lgM + 6) := by show 2 ^ logM sv.length * 64 = _; rw [hF.lg, pow_split]
    have hb0 : 0 < cfg.batching := by rw [hF.b]; exact Nat.two_pow_pos β
    have hMN : 64 * sv.length = 2 ^ (lgM + 6) := by rw [hF.hM, mul_comm, pow_split]
    set cnt := 2 ^ (lgM + 6) / cfg.batching with hcnt
    have hc : cnt * cfg.batching = d.MN := by rw [dMN, hcnt, hF.b, Nat.div_mul_cancel (Nat.pow_dvd_pow 2 hF.b6)]
    have hc1 : 1 ≤ cnt := by
      rw [hcnt, hF.b]
      exact Nat.div_pos (Nat.pow_le_pow_right (by omega) hF.b6) (Nat.two_pow_pos _)
    -- the first phase
    obtain ⟨x1, e1, h1⟩ := phase1_step d rnd hc (j := 0) (by omega) hb0 (o := none) (by rw [Nat.zero_mul]; exact lrObjects_none _ _)
    rw [Nat.zero_mul, show D1 d rnd none 0 = d from rfl] at e1
    rw [e1, Option.bind_some]
    dsimp only
    rw [hMN, recvLr_run (H := H) (blind := blind) d hc hb0 (cnt - 1) 1 x1 _ _ (by omega) h1, Option.bind_some]
    dsimp only
    have ha (A : ℕ → Fl) : scs 0 d.cfg.batching A ++ scs (1 * d.cfg.batching) ((cnt - 1) * d.cfg.batching) A = scs 0 (2 ^ (lgM + 6)) A := by
      have := scs_append 0 d.cfg.batching ((cnt - 1) * d.cfg.batching) A
      rw [Nat.zero_add] at this
      rw [Nat.one_mul, this, ← dMN, ← hc]
      congr 1
      obtain ⟨c, hc⟩ : ∃ c, cnt = c + 1 := ⟨cnt - 1, by omega⟩
      rw [hc, Nat.add_sub_cancel, Nat.succ_mul]
      exact Nat.add_comm _ _
    rw [ha, ha]
    -- its end
    have ets : (D1e d rnd).ts = tOf rnd sv s := rfl
    have ep : tx H rnd blind (.one (D1e d rnd)) [] = if xipOf H rnd sv gamma s = 0 then none else
        some (.two (St (K0 H rnd blind cfg sv gamma lgM s)
          (if cfg.method = 0 then 20 else 2) 0 Powers.new Powers.new ⟨[], [], [], []⟩), [[encodeInt s.y]]) := by
      rw [tx_post H rnd blind (D1e d rnd) rfl, post_eq H rnd (D1e d rnd) (taux := tauxOf rnd gamma s) (mu := muOf rnd s)
        (xip := xipOf H rnd sv gamma s) rfl rfl rfl]
      have e1 : (D1e d rnd).MN = 2 ^ (lgM + 6) := dMN
      have e2 : (D1e d rnd).logMN = lgM + 6 := by show logM sv.length + 6 = _; rw [hF.lg]
      rw [e1, e2, ets]
      split <;> rfl
    rw [ep]
    refine ⟨fun hx => by rw [if_pos hx]; rfl, fun hx => ?_⟩
    rw [if_neg hx, Option.bind_some]
    set xip := xipOf H rnd sv gamma s with hxip
    set K : Rnd := K0 H rnd blind cfg sv gamma lgM s with hK
    have hy := setup_y hset
    have ey : kInt (encodeInt s.y) = s.y := by rw [encodeInt_sc hy, kInt_sc, num_cast hy]
    dsimp only [List.head?_cons, Option.bind_some, Option.map_some]
    rw [ey]
    -- the first round
    have hn : K.n = 2 ^ (lgM + 5) := half_two_pow _
    have hnn : 2 ^ (lgM + 6) = K.n + K.n := by rw [hn, ← two_pow_succ]
    have hOk : Ok K := ⟨by show 0 < lgM + 6; omega, List.length_replicate, List.length_replicate, fun i => (hbl 0 i).2, by rw [hn]; exact Nat.two_pow_pos _⟩
    have R := first_run (H := H) (rnd := rnd) (blind := blind) K hOk (fun i => (hbl 0 i).1) (fun k i => (hbl k i).1) rfl hn hnn cfg rfl hF.toPars hF.m3 hF.b5 s.y rfl
      (lF rnd sv s) (rF rnd sv s) Powers.new Powers.new ⟨[], [], [], []⟩
    dsimp only at R
    have hA : hostA K (lF rnd sv s) = scs 0 (2 ^ (lgM + 6)) (blS (d.MN / 2) (d.bl 4) (d.bl 5) fun i => (lAt rnd d.sv d.z d.x i : Fl)) := by
      rw [hnn, dMN]; rfl
    have hB : hostB K (rF rnd sv s) = scs 0 (2 ^ (lgM + 6)) (blS (d.MN / 2) (d.bl 6) (d.bl 7) fun i => (rAt rnd d.sv d.y d.z d.x i : Fl)) := by
      rw [hnn, dMN]; rfl
    rw [← hA, ← hB]
    unfold tailOf
    rw [hnn, half_add]
    refine ⟨hOk, fun h0 => ?_, fun h0 => ?_⟩
    · rw [show _ = none from R.1 h0]; rfl
    obtain ⟨c, XA, XB, pl', pr', V', e2⟩ := R.2 h0
    have e4 : (K.n + K.n) / 4 = 2 ^ (lgM + 4) := by
      rw [← hnn, show (4 : ℕ) = 2 ^ 2 from rfl, Nat.pow_div (by omega) (by omega)]
      congr 1
    refine ⟨c, XA, XB, pl', pr', V', ?_⟩
    rw [show _ = some _ from e2, Option.bind_some, e4]

/-- The offloaded prover. -/
theorem computeBp_eq (H : Bytes → Bytes) (rnd : Rand) (blind : ℕ → ℕ → ℤ) (hbl : ∀ k i, 0 ≤ blind k i ∧ (blind k i : Fl) ≠ 0) (cfg : Cfg)
    (sv gamma : List ℤ) {lgM β τ o : ℕ} (hF : FitsL cfg sv.length lgM β τ o)
    (hb4 : cfg.method = 0 → β ≤ lgM + 4) : computeBp H rnd blind cfg sv gamma =
    (setup H rnd sv gamma).bind fun s => if xipOf H rnd sv gamma s = 0 then none else
      (strictRound H (xipOf H rnd sv gamma s) (2 ^ (lgM + 5)) (xipOf H rnd sv gamma s) (gPt H) (hPt H s.y) (lF rnd sv s) (rF rnd sv s)
        (rounds H (xipOf H rnd sv gamma s) (stopAt cfg τ o) (lgM + 4))).map (pfOf rnd sv gamma s) := by
  cases hset : setup H rnd sv gamma with
  | none =>
    rw [computeBp_tail]
    unfold start
    rw [hset]
    rfl
  | some s =>
    obtain ⟨P0, P1⟩ := computeBp_first H rnd blind hbl cfg sv gamma hF hset
    rw [Option.bind_some]
    by_cases hx : xipOf H rnd sv gamma s = 0
    · rw [if_pos hx, P0 hx]
    rw [if_neg hx]
    obtain ⟨hOk, P2, P3⟩ := P1 hx
    set xip := xipOf H rnd sv gamma s with hxip
    set K : Rnd := K0 H rnd blind cfg sv gamma lgM s with hK
    have hn : K.n = 2 ^ (lgM + 5) := half_two_pow _
    have hnn : 2 ^ (lgM + 6) = K.n + K.n := by rw [hn, ← two_pow_succ]
    have hW : mash H xip [ptL (2 ^ (lgM + 5)) (lF rnd sv s) (rF rnd sv s) (gPt H) (hPt H s.y) xip,
        ptR (2 ^ (lgM + 5)) (lF rnd sv s) (rF rnd sv s) (gPt H) (hPt H s.y) xip] = chW H K (gPt H) (hPt H s.y) (lF rnd sv s) (rF rnd sv s) := by
      rw [chW, hn]; rfl
    by_cases h0 : chW H K (gPt H) (hPt H s.y) (lF rnd sv s) (rF rnd sv s) = 0
    · rw [P2 h0, strictRound]
      rw [if_pos (hW.trans h0)]
      rfl
    obtain ⟨c, XA, XB, pl', pr', V', e2⟩ := P3 h0
    rw [e2]
    set K' := ((K.after H blind (gPt H) (hPt H s.y) (lF rnd sv s) (rF rnd sv s)).sums c XA XB).next with hK'
    have hn' : K'.n = 2 ^ (lgM + 4) := by show K.n / 2 = _; rw [hn]; exact half_two_pow _
    have hOk' : Ok K' := by
      refine ⟨by show 1 < lgM + 6; omega, ?_, ?_, fun i => (hbl 1 i).2, by rw [hn']; exact Nat.two_pow_pos _⟩
      · show (K.L.set 0 _).length = lgM + 6; rw [List.length_set]; exact List.length_replicate
      · show (K.R.set 0 _).length = lgM + 6; rw [List.length_set]; exact List.length_replicate
    have hfu : lgM + 4 < K.n + K.n + 1 := by
      rw [← hnn]
      have := Nat.lt_two_pow_self (n := lgM + 6)
      omega
    have L := loop_run (H := H) (rnd := rnd) (blind := blind) cfg hF.toPars hbl (lgM + 4) K' (K.n + K.n + 1)
      (foldP (chW H K (gPt H) (hPt H s.y) (lF rnd sv s) (rF rnd sv s) : Fl)⁻¹ K.n (gPt H))
      (foldP (chW H K (gPt H) (hPt H s.y) (lF rnd sv s) (rF rnd sv s) : Fl) K.n (hPt H s.y))
      (foldS (chW H K (gPt H) (hPt H s.y) (lF rnd sv s) (rF rnd sv s) : Fl) K.n (lF rnd sv s))
      (foldS (chW H K (gPt H) (hPt H s.y) (lF rnd sv s) (rF rnd sv s) : Fl)⁻¹ K.n (rF rnd sv s)) pl' pr' V' hOk' (Nat.succ_ne_zero 0) rfl hn' hfu hb4
      (by show 0 + 1 + (lgM + 4) + 1 = lgM + 6; omega)
    refine Eq.trans L ?_
    rw [strictRound]
    rw [hW, if_neg h0, Option.map_map, ← hn]
    have eL : K'.L.take K'.r = [ptL K.n (lF rnd sv s) (rF rnd sv s) (gPt H) (hPt H s.y) xip] :=
      (set_take K.L 0 _ (by rw [hOk.L]; exact hOk.r)).trans (by rw [List.take_zero, List.nil_append]; rfl)
    have eR : K'.R.take K'.r = [ptR K.n (lF rnd sv s) (rF rnd sv s) (gPt H) (hPt H s.y) xip] :=
      (set_take K.R 0 _ (by rw [hOk.R]; exact hOk.r)).trans (by rw [List.take_zero, List.nil_append]; rfl)
    rw [eL, eR]
    refine congrArg (fun x => Option.map x _) (funext fun r => ?_)
    simp only [Function.comp_apply, List.singleton_append]
    rfl

end Verif.Off

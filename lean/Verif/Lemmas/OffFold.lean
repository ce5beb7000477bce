import Verif.Lemmas.OffRound
import Verif.Props.KeyVLazy

/-! Folding of the vectors by the device of the offloaded prover, chunk by chunk. -/

namespace Verif.Off
open Verif Ed Key Sig Edwards Bp Finset KeyV

/-! ## Powers read in order -/

/-- Index `i` can be read next. -/
def Rdy (x : ℤ) (i : ℕ) (p : Powers) : Prop := i ≤ 1 ∨ (p.last = (i : ℤ) - 1 ∧ p.cur = pw x (i - 1)) ∨ (p.last = i ∧ p.cur = pw x i)

theorem powers_get {x : ℤ} {size i : ℕ} {p : Powers} (hi : i < size) (h : Rdy x i p) :
    ∃ p', Powers.get size x p i = (p', some (pw x i)) ∧ Rdy x (i + 1) p' := by
  have e : at' size (i : ℤ) = i := by simp [at']
  have e2 : idxize size (i : ℤ) = some (i : ℤ) := by
    have := idxize_ok (size := size) (i := (i : ℤ)) (by rw [e]; omega)
    rwa [e] at this
  simp only [Powers.get, e2]
  rcases Nat.lt_or_ge i 2 with h2 | h2
  · interval_cases i
    · exact ⟨⟨1, 0⟩, by simp [pw], Or.inl (by omega)⟩
    · exact ⟨⟨x, 1⟩, by simp [pw], Or.inr (Or.inl (by simp [pw]))⟩
  · obtain ⟨k, rfl⟩ : ∃ k, i = k + 2 := ⟨i - 2, by omega⟩
    rw [if_neg (by omega), if_neg (by omega)]
    rcases h with h | ⟨h, hc⟩ | ⟨h, hc⟩
    · omega
    · refine ⟨⟨pw x (k + 2), ((k + 2 : ℕ) : ℤ)⟩, ?_, Or.inr (Or.inl ⟨by push_cast; ring, rfl⟩)⟩
      rw [if_neg (by rw [h]; push_cast; omega), if_pos (by rw [h]; push_cast; ring), hc, pw]
      rfl
    · refine ⟨⟨pw x (k + 2), ((k + 2 : ℕ) : ℤ)⟩, ?_, Or.inr (Or.inl ⟨by push_cast; ring, rfl⟩)⟩
      rw [if_pos h.symm, hc]

theorem pw_step {x : ℤ} (hx : 0 ≤ x ∧ x < l) : ∀ k, scMul (pw x k) x = pw x (k + 1)
  | 0 => by rw [pw, pw, scMul, one_mul, Int.emod_eq_of_lt hx.1 hx.2]
  | _ + 1 => rfl

theorem rewind_eq {x : ℤ} (hx : 0 ≤ x ∧ x < l) : ∀ n k : ℕ, Powers.rewind x n ⟨pw x k, k⟩ = ⟨pw x (k + n), ((k + n : ℕ) : ℤ)⟩
  | 0, k => rfl
  | n + 1, k => by
    rw [Powers.rewind]
    dsimp only
    rw [pw_step hx, show ((k : ℤ) + 1) = ((k + 1 : ℕ) : ℤ) by push_cast; rfl, rewind_eq hx n (k + 1), show k + 1 + n = k + (n + 1) by ring]

theorem scInv_range (y : ℤ) : 0 ≤ scInv y ∧ scInv y < l := by unfold scInv; exact emod_l_range _

/-- What the device prepares before it reads the upper half of the second generators. -/
theorem rewound (y : ℤ) {size : ℕ} (hs : 0 < size) (p : Powers) (n : ℕ) :
    Rdy (scInv y) n ((Powers.get size (scInv y) p 0).1.rewind (scInv y) n) := by
  have e : (Powers.get size (scInv y) p 0).1 = ⟨pw (scInv y) 0, (0 : ℕ)⟩ := by
    have e : at' size (0 : ℤ) = 0 := by simp [at']
    have e2 : idxize size (0 : ℤ) = some (0 : ℤ) := by
      have := idxize_ok (size := size) (i := (0 : ℤ)) (by rw [e]; omega)
      rwa [e] at this
    simp [Powers.get, e2, pw]
  rw [e, rewind_eq (scInv_range y), Nat.zero_add]
  exact Or.inr (Or.inr ⟨rfl, rfl⟩)

/-- The second generators the argument is about. -/
noncomputable def hPt (H : Bytes → Bytes) (y : ℤ) (i : ℕ) : Sub := ((y : Fl)⁻¹) ^ i • hGPt H i

theorem hElem_enc (H : Bytes → Bytes) {F : Fix} {p : Powers} {i : ℕ} (hi : i < F.MN) (h : Rdy (scInv F.y) i p) :
    ∃ p', hElem H F p i = some (p', enc (hPt H F.y i)) ∧ Rdy (scInv F.y) (i + 1) p' := by
  obtain ⟨p', e, r⟩ := powers_get hi h
  refine ⟨p', ?_, r⟩
  rw [hElem, e]
  simp only
  rw [hGen_enc, scalarmultKey_enc _ (pw_nn (scInv_nn _) _), cast_pw, cast_scInv]
  rfl

theorem gElem_enc (H : Bytes → Bytes) {F : Fix} {i : ℕ} (hi : i < F.MN) : gElem H F i = some (enc (gPt H i)) := by
  rw [gElem, if_pos hi, gGen_enc]

/-! ## Sequences of messages -/

section
variable {H : Bytes → Bytes} {rnd : Rand} {blind : ℕ → ℕ → ℤ}

theorem collect_run {msg : ℕ → List Buf} (P : ℕ → Dev → Prop) (out : ℕ → Buf) : ∀ (n i : ℕ) (d : Dev),
    (∀ j d, i ≤ j → j < i + n → P j d → ∃ d' res, tx H rnd blind d (msg j) = some (d', res) ∧ res.flatten = out j ∧ P (j + 1) d') → P i d →
    ∃ d', collect H rnd blind msg n i d = some (d', ((List.range' i n).map out).flatten) ∧ P (i + n) d'
  | 0, i, d, _, h => ⟨d, rfl, h⟩
  | n + 1, i, d, hs, h => by
    obtain ⟨d1, res, e1, e2, h1⟩ := hs i d le_rfl (by omega) h
    obtain ⟨d2, e3, h2⟩ := collect_run P out n (i + 1) d1 (fun j d a b => hs j d (by omega) (by omega)) h1
    refine ⟨d2, ?_, by rwa [show i + (n + 1) = i + 1 + n by ring]⟩
    rw [collect, e1]
    simp only
    rw [e3]
    simp only [e2]
    rw [List.range'_succ, List.map_cons, List.flatten_cons]

end

/-! ## The device while it folds -/

/-- What does not change while the device folds the vectors of a round. -/
structure Rnd where
  F : Fix
  r : ℕ
  n : ℕ
  cache : ℤ
  L : List Bytes
  R : List Bytes
  w : ℤ
  c : ℤ
  XA : Bytes
  XB : Bytes
  β : ℕ → ℤ
  γ : ℕ → ℤ
  k : ℕ

/-- The device in the second phase. -/
def St (K : Rnd) (s pos : ℕ) (pl pr : Powers) (V : Host) : P2 :=
  ⟨K.F, s, pos, K.r, K.n, K.cache, K.L, K.R, K.w, K.c, K.XA, K.XB, K.β, K.γ, K.k, pl, pr, V.G, V.Hp, V.a, V.b⟩

def Rnd.next (K : Rnd) : Rnd := { K with r := K.r + 1, n := K.n / 2, β := K.γ, γ := K.β }

/-- A vector put in its place. -/
def put (s : ℕ) (V : Host) (v : Buf) : Host :=
  if s = 3 then { V with G := v } else if s = 4 then { V with Hp := v } else if s = 5 then { V with a := v } else { V with b := v }
def getV (s : ℕ) (V : Host) : Buf := if s = 3 then V.G else if s = 4 then V.Hp else if s = 5 then V.a else V.b

theorem keep_St (K : Rnd) (s pos : ℕ) (pl pr : Powers) (V : Host) (ks : Buf) : keep (St K s pos pl pr V) ks =
    St K s pos pl pr (put s V (writeAt (if pos = 0 then List.replicate K.n zeroKey else getV s V) pos ks)) := by
  unfold keep put getV St
  dsimp only
  split_ifs <;> rfl

theorem getV_put {s : ℕ} (h3 : 3 ≤ s) (h6 : s ≤ 6) (V : Host) (v : Buf) : getV s (put s V v) = v := by
  unfold getV put; split_ifs <;> rfl
theorem put_put (s : ℕ) (V : Host) (v w : Buf) : put s (put s V v) w = put s V w := by unfold put; split_ifs <;> rfl

theorem inMem_St (K : Rnd) (s pos : ℕ) (pl pr : Powers) (V : Host) : inMem (St K s pos pl pr V) =
    (decide (K.r > 0) && (decide (K.n ≤ K.F.cfg.thresh) || (decide (K.F.cfg.method ≥ 2) && decide (K.n ≤ K.F.cfg.off2)))) := rfl

/-- The steps of the transition. -/
def nextState (d : P2) : P2 := if d.offpos ≥ d.nprime then { d with offpos := 0, offstate := d.offstate + 1 } else d
def nextRound (d : P2) (inmem : Bool) : P2 :=
  if d.offstate ≥ 7 ∨ (d.round = 0 ∧ d.fix.cfg.method ≥ 2 ∧ d.offstate ≥ 5) then
    { d with nprime := d.nprime / 2, round := d.round + 1, bl0 := d.bl1, bl1 := d.bl0,
             offstate := if inmem then 10 else if d.fix.cfg.method ≥ 1 then 2 else 20 }
  else d
def nextEnd (d : P2) : P2 := if d.nprime = 0 then { d with offstate := 12 } else d

theorem foldNext_eq (d : P2) (im : Bool) : foldNext d im = nextEnd (nextRound (nextState d) im) := rfl

theorem nextState_St (K : Rnd) (s pos : ℕ) (pl pr : Powers) (V : Host) :
    nextState (St K s pos pl pr V) = if pos ≥ K.n then St K (s + 1) 0 pl pr V else St K s pos pl pr V := rfl
theorem nextRound_St (K : Rnd) (s pos : ℕ) (pl pr : Powers) (V : Host) (im : Bool) :
    nextRound (St K s pos pl pr V) im = if s ≥ 7 ∨ (K.r = 0 ∧ K.F.cfg.method ≥ 2 ∧ s ≥ 5) then
      St K.next (if im then 10 else if K.F.cfg.method ≥ 1 then 2 else 20) pos pl pr V else St K s pos pl pr V := rfl
theorem nextEnd_St (K : Rnd) (s pos : ℕ) (pl pr : Powers) (V : Host) :
    nextEnd (St K s pos pl pr V) = if K.n = 0 then St K 12 pos pl pr V else St K s pos pl pr V := rfl

theorem foldNext_lt (K : Rnd) {s pos : ℕ} (pl pr : Powers) (V : Host) (im : Bool) (h : pos < K.n) (h6 : s ≤ 6)
    (h4 : K.r = 0 → K.F.cfg.method ≥ 2 → s ≤ 4) : foldNext (St K s pos pl pr V) im = St K s pos pl pr V := by
  rw [foldNext_eq, nextState_St, if_neg (by omega), nextRound_St, if_neg, nextEnd_St, if_neg (by omega)]
  rintro (h | ⟨a, b, c⟩)
  · omega
  · have := h4 a b; omega

theorem foldNext_state (K : Rnd) {s : ℕ} (pl pr : Powers) (V : Host) (im : Bool) (hn : 0 < K.n) (h5 : s ≤ 5)
    (h4 : K.r = 0 → K.F.cfg.method ≥ 2 → s ≤ 3) : foldNext (St K s K.n pl pr V) im = St K (s + 1) 0 pl pr V := by
  rw [foldNext_eq, nextState_St, if_pos le_rfl, nextRound_St, if_neg, nextEnd_St, if_neg (by omega)]
  rintro (h | ⟨a, b, c⟩)
  · omega
  · have := h4 a b; omega

theorem foldNext_round (K : Rnd) {s : ℕ} (pl pr : Powers) (V : Host) (im : Bool)
    (h : s = 6 ∨ (K.r = 0 ∧ K.F.cfg.method ≥ 2 ∧ s = 4)) : foldNext (St K s K.n pl pr V) im =
      St K.next (if K.n / 2 = 0 then 12 else if im then 10 else if K.F.cfg.method ≥ 1 then 2 else 20) 0 pl pr V := by
  rw [foldNext_eq, nextState_St, if_pos le_rfl, nextRound_St, if_pos, nextEnd_St]
  · show (if K.n / 2 = 0 then _ else _) = _
    by_cases h0 : K.n / 2 = 0
    · rw [if_pos h0, if_pos h0]
    · rw [if_neg h0, if_neg h0]
  · rcases h with h | ⟨a, b, c⟩
    · exact Or.inl (by omega)
    · exact Or.inr ⟨a, b, by omega⟩

/-! ## One message -/

/-- The elements of the halves of a vector in the loop of a message. -/
def loOf (H : Bytes → Bytes) (d : P2) (tgt : ℕ) (loB : Buf) (i : ℕ) (pl : Powers) : Option (Powers × Bytes) :=
  if d.round = 0 ∧ d.offstate = 3 then ((sliceIdx d.offpos (min (d.offpos + tgt) d.nprime) i).bind (gElem H d.fix)).map fun k => (pl, k)
  else if d.round = 0 ∧ d.offstate = 4 then (sliceIdx d.offpos (min (d.offpos + tgt) d.nprime) i).bind (hElem H d.fix pl)
  else loB[i]?.map fun k => (pl, k)
def hiOf (H : Bytes → Bytes) (d : P2) (tgt : ℕ) (hiB : Buf) (i : ℕ) (pr : Powers) : Option (Powers × Bytes) :=
  if d.round = 0 ∧ d.offstate = 3 then
    ((sliceIdx (d.nprime + d.offpos) (d.nprime + min (d.offpos + tgt) (2 * d.nprime)) i).bind (gElem H d.fix)).map fun k => (pr, k)
  else if d.round = 0 ∧ d.offstate = 4 then
    (sliceIdx (d.nprime + d.offpos) (d.nprime + min (d.offpos + tgt) (2 * d.nprime)) i).bind (hElem H d.fix pr)
  else hiB[i]?.map fun k => (pr, k)
def foldOf (d : P2) (im : Bool) (i : ℕ) (lo hi : Bytes) : Option Bytes :=
  if d.offstate ≤ 4 then foldPt (foldA d) (foldB d) (newBlind d im (i + d.offpos)) lo hi
  else some (foldSc (foldA d) (foldB d) (newBlind d im (i + d.offpos)) lo hi)

theorem ufoldLoop_gen {H : Bytes → Bytes} {d : P2} {tgt : ℕ} {im : Bool} {loB hiB : Buf} (PL PR : ℕ → Powers → Prop) (X Y out : ℕ → Bytes)
    (hlo : ∀ i pl, i < tgt → PL i pl → ∃ pl', loOf H d tgt loB i pl = some (pl', X i) ∧ PL (i + 1) pl')
    (hhi : ∀ i pr, i < tgt → PR i pr → ∃ pr', hiOf H d tgt hiB i pr = some (pr', Y i) ∧ PR (i + 1) pr')
    (hout : ∀ i, i < tgt → foldOf d im i (X i) (Y i) = some (out i)) : ∀ (m i : ℕ) (pl pr : Powers), i + m ≤ tgt → PL i pl → PR i pr →
    ∃ pl' pr', ufoldLoop H d tgt im loB hiB m i pl pr = some (pl', pr', (List.range' i m).map out) ∧ PL (i + m) pl' ∧ PR (i + m) pr'
  | 0, i, pl, pr, _, hl, hr => ⟨pl, pr, rfl, hl, hr⟩
  | m + 1, i, pl, pr, hi, hl, hr => by
    obtain ⟨pl1, e1, hl1⟩ := hlo i pl (by omega) hl
    obtain ⟨pr1, e2, hr1⟩ := hhi i pr (by omega) hr
    obtain ⟨pl2, pr2, e3, hl2, hr2⟩ := ufoldLoop_gen PL PR X Y out hlo hhi hout m (i + 1) pl1 pr1 (by omega) hl1 hr1
    refine ⟨pl2, pr2, ?_, by rwa [show i + (m + 1) = i + 1 + m by ring], by rwa [show i + (m + 1) = i + 1 + m by ring]⟩
    have e4 := hout i (by omega)
    unfold loOf at e1
    unfold hiOf at e2
    unfold foldOf at e4
    rw [ufoldLoop]
    simp only [e1, e2, e3, e4]
    rw [List.range'_succ, List.map_cons]

/-- The blind of an element after folding. -/
noncomputable def nbF (im : Bool) (n : ℕ) (γ0 γ1 : Fl) (i : ℕ) : Fl := if im then 1 else bl2 (n / 2) γ0 γ1 i

theorem newBlind_cast (K : Rnd) (s pos : ℕ) (pl pr : Powers) (V : Host) (im : Bool) (i : ℕ) (hγ : ∀ j, 0 ≤ K.γ j) :
    (∃ v : ℤ, newBlind (St K s pos pl pr V) im i = some v ∧ 0 ≤ v ∧ (v : Fl) = nbF im K.n (K.γ (2 * (s - 3))) (K.γ (2 * (s - 3) + 1)) i) ∨
      (newBlind (St K s pos pl pr V) im i = none ∧ nbF im K.n (K.γ (2 * (s - 3))) (K.γ (2 * (s - 3) + 1)) i = 1) := by
  cases im
  · refine Or.inl ⟨K.γ (2 * (s - 3) + half K.n i), rfl, hγ _, ?_⟩
    simp only [nbF, half, bl2]
    by_cases h : i < K.n / 2
    · have : ¬ i ≥ K.n / 2 := by omega
      simp [h, this]
    · have : i ≥ K.n / 2 := by omega
      simp [h, this]
  · exact Or.inr ⟨rfl, rfl⟩

theorem foldPt_enc {a b : ℤ} (ha : 0 ≤ a) (hb : 0 ≤ b) {nb : Option ℤ} {x : Fl} (h : (∃ v : ℤ, nb = some v ∧ 0 ≤ v ∧ (v : Fl) = x) ∨ (nb = none ∧ x = 1))
    (P Q : Sub) : foldPt a b nb (enc P) (enc Q) = some (enc (x • ((a : Fl) • P + (b : Fl) • Q))) := by
  have r := rep_addKeys3S (rep_sub_canon P) (rep_sub_canon Q) ha hb
  unfold foldPt
  rw [decode_enc, decode_enc]
  rcases h with ⟨v, rfl, hv, rfl⟩ | ⟨rfl, rfl⟩
  · simp only
    rw [encode_rep (rep_smulS r hv)]
  · simp only
    rw [encode_rep r, one_smul]

theorem foldSc_enc {a b : ℤ} {nb : Option ℤ} {x : Fl} (h : (∃ v : ℤ, nb = some v ∧ 0 ≤ v ∧ (v : Fl) = x) ∨ (nb = none ∧ x = 1)) (u v : Fl) :
    foldSc a b nb (sc u) (sc v) = sc (x * (u * a + v * b)) := by
  rcases h with ⟨t, rfl, -, rfl⟩ | ⟨rfl, rfl⟩
  · rw [foldSc]
    rw [sc_mul, cast_scAdd, cast_scMul, cast_scMul, cast_kInt_sc, cast_kInt_sc, mul_comm]
  · rw [foldSc_sc, one_mul]

/-- The factor of the low half. -/
noncomputable def wx (s : ℕ) (w : Fl) : Fl := if s = 3 ∨ s = 6 then w⁻¹ else w

theorem foldA_cast (K : Rnd) {s : ℕ} (h3 : 3 ≤ s) (pos : ℕ) (pl pr : Powers) (V : Host) :
    ((foldA (St K s pos pl pr V) : ℤ) : Fl) = wx s K.w * (eff K.r K.β (2 * (s - 3)))⁻¹ := by
  unfold foldA wx eff
  show ((scMul (if s = 3 ∨ s = 6 then scInv K.w else K.w) (if K.r = 0 ∧ s ≤ 4 then 1 else scInv (K.β (2 * (s - 3)))) : ℤ) : Fl) = _
  have : (K.r = 0 ∧ s ≤ 4) ↔ (K.r = 0 ∧ 2 * (s - 3) < 4) := by omega
  simp only [this, cast_scMul]
  split_ifs <;> simp

theorem foldB_cast (K : Rnd) {s : ℕ} (h3 : 3 ≤ s) (pos : ℕ) (pl pr : Powers) (V : Host) :
    ((foldB (St K s pos pl pr V) : ℤ) : Fl) = (wx s K.w)⁻¹ * (eff K.r K.β (2 * (s - 3) + 1))⁻¹ := by
  unfold foldB wx eff
  show ((scMul (if s = 3 ∨ s = 6 then K.w else scInv K.w) (if K.r = 0 ∧ s ≤ 4 then 1 else scInv (K.β (2 * (s - 3) + 1))) : ℤ) : Fl) = _
  have : (K.r = 0 ∧ s ≤ 4) ↔ (K.r = 0 ∧ 2 * (s - 3) + 1 < 4) := by omega
  simp only [this, cast_scMul]
  split_ifs <;> simp

theorem foldA_nn (K : Rnd) (s pos : ℕ) (pl pr : Powers) (V : Host) : 0 ≤ foldA (St K s pos pl pr V) := scMul_nn _ _
theorem foldB_nn (K : Rnd) (s pos : ℕ) (pl pr : Powers) (V : Host) : 0 ≤ foldB (St K s pos pl pr V) := scMul_nn _ _

/-- The elements of a folded vector. -/
noncomputable def outP (K : Rnd) (s : ℕ) (im : Bool) (g : ℕ → Sub) (i : ℕ) : Bytes :=
  enc (nbF im K.n (K.γ (2 * (s - 3))) (K.γ (2 * (s - 3) + 1)) i • foldP (wx s K.w) K.n g i)
noncomputable def outS (K : Rnd) (s : ℕ) (im : Bool) (f : ℕ → Fl) (i : ℕ) : Bytes :=
  sc (nbF im K.n (K.γ (2 * (s - 3))) (K.γ (2 * (s - 3) + 1)) i * foldS (wx s K.w) K.n f i)

theorem foldOf_pt (K : Rnd) {s : ℕ} (h3 : 3 ≤ s) (h4 : s ≤ 4) (pos : ℕ) (pl pr : Powers) (V : Host) (im : Bool) (i : ℕ) (hγ : ∀ j, 0 ≤ K.γ j)
    (hβ : ∀ j, (K.β j : Fl) ≠ 0) (g : ℕ → Sub) :
    foldOf (St K s pos pl pr V) im i (enc (eff K.r K.β (2 * (s - 3)) • g (pos + i))) (enc (eff K.r K.β (2 * (s - 3) + 1) • g (K.n + (pos + i)))) =
      some (outP K s im g (pos + i)) := by
  unfold foldOf
  have e : (St K s pos pl pr V).offstate ≤ 4 := h4
  rw [if_pos e, show i + (St K s pos pl pr V).offpos = pos + i from Nat.add_comm _ _]
  rw [foldPt_enc (foldA_nn _ _ _ _ _ _) (foldB_nn _ _ _ _ _ _) (newBlind_cast K s pos pl pr V im (pos + i) hγ), foldA_cast K h3, foldB_cast K h3]
  rw [smul_smul, smul_smul, inv_mul_cancel_right₀ (eff_ne hβ _ _), inv_mul_cancel_right₀ (eff_ne hβ _ _)]
  rfl

theorem foldOf_sc (K : Rnd) {s : ℕ} (h5 : 5 ≤ s) (pos : ℕ) (pl pr : Powers) (V : Host) (im : Bool) (i : ℕ) (hγ : ∀ j, 0 ≤ K.γ j)
    (hβ : ∀ j, (K.β j : Fl) ≠ 0) (f : ℕ → Fl) :
    foldOf (St K s pos pl pr V) im i (sc ((K.β (2 * (s - 3)) : Fl) * f (pos + i))) (sc ((K.β (2 * (s - 3) + 1) : Fl) * f (K.n + (pos + i)))) =
      some (outS K s im f (pos + i)) := by
  unfold foldOf
  have e : ¬ (St K s pos pl pr V).offstate ≤ 4 := by show ¬ s ≤ 4; omega
  rw [if_neg e, show i + (St K s pos pl pr V).offpos = pos + i from Nat.add_comm _ _]
  rw [foldSc_enc (newBlind_cast K s pos pl pr V im (pos + i) hγ), foldA_cast K (by omega), foldB_cast K (by omega)]
  have e1 : eff K.r K.β (2 * (s - 3)) = K.β (2 * (s - 3)) := by unfold eff; rw [if_neg (by omega)]
  have e2 : eff K.r K.β (2 * (s - 3) + 1) = K.β (2 * (s - 3) + 1) := by unfold eff; rw [if_neg (by omega)]
  have n1 := hβ (2 * (s - 3))
  have n2 := hβ (2 * (s - 3) + 1)
  rw [e1, e2, outS, foldS]
  congr 3
  field_simp

end Verif.Off

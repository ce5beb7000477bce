import Verif.Lemmas.OffFold

/-! All messages of the folding of one vector by the device. -/

namespace Verif.Off
open Verif Ed Key Sig Edwards Bp Finset KeyV

/-- The size of a chunk and whether the folded vectors stay on the device. -/
def tgtK (K : Rnd) (s : ℕ) : ℕ := min (if K.r = 0 ∧ s ≤ 4 then K.F.cfg.batching * 2 else K.F.cfg.batching) K.n
def imK (K : Rnd) : Bool :=
  decide (K.r > 0) && (decide (K.n ≤ K.F.cfg.thresh) || (decide (K.F.cfg.method ≥ 2) && decide (K.n ≤ K.F.cfg.off2)))
def kept (K : Rnd) (s : ℕ) : Prop := imK K = true ∨ (K.n = 1 ∧ s ≥ 5)
instance (K : Rnd) (s : ℕ) : Decidable (kept K s) := by unfold kept; infer_instance

/-- The powers for the upper half when a message arrives. -/
def prStart (K : Rnd) (s pos : ℕ) (pr : Powers) : Powers :=
  if K.r = 0 ∧ pos = 0 ∧ s = 4 ∧ K.F.cfg.method ≤ 2 then (Powers.get K.F.MN (scInv K.F.y) pr 0).1.rewind (scInv K.F.y) K.n else pr

theorem fold_msg {H : Bytes → Bytes} (K : Rnd) {s pos : ℕ} (pl pr : Powers) (V : Host) (bufs : List Buf) (h3 : ¬ (K.F.cfg.method = 3 ∧ K.r = 0 ∧ s ≤ 4))
    (hb : (K.r = 0 ∧ s ≤ 4) ∨ 2 ≤ bufs.length) (hm : K.F.cfg.method < 2 ∨ K.F.cfg.off2 ≤ K.F.cfg.thresh) (hp : pos + tgtK K s ≤ K.n) {pl' pr' : Powers} {ks : Buf}
    (hl : ufoldLoop H (St K s pos pl pr V) (tgtK K s) (imK K) (keyV 0 (bufs.getD 0 [])) (keyV 0 (bufs.getD 1 [])) (tgtK K s) 0 pl (prStart K s pos pr) =
      some (pl', pr', ks)) :
    fold H (St K s pos pl pr V) bufs = some (.two (foldNext (St K s (pos + tgtK K s) pl' pr'
      (if kept K s then put s V (writeAt (if pos = 0 then List.replicate K.n zeroKey else getV s V) pos ks) else V)) (imK K)),
      .bufs (if imK K then [] else [ks])) := by
  unfold fold
  rw [if_neg (show ¬ ((St K s pos pl pr V).fix.cfg.method = 3 ∧ (St K s pos pl pr V).round = 0 ∧ (St K s pos pl pr V).offstate ≤ 4) from h3)]
  have e : ufold H (St K s pos pl pr V) bufs (target (St K s pos pl pr V)) (inMem (St K s pos pl pr V)) = some (St K s (pos + tgtK K s) pl' pr'
      (if kept K s then put s V (writeAt (if pos = 0 then List.replicate K.n zeroKey else getV s V) pos ks) else V), ks) := by
    show ufold H (St K s pos pl pr V) bufs (tgtK K s) (imK K) = _
    unfold ufold
    have c1 : ¬ ((decide ((St K s pos pl pr V).round = 0) && decide ((St K s pos pl pr V).offstate ≤ 4)) = false ∧ bufs.length < 2) := by
      show ¬ ((decide (K.r = 0) && decide (s ≤ 4)) = false ∧ bufs.length < 2)
      rintro ⟨a, b⟩
      rcases hb with ⟨x, y⟩ | h
      · simp [x, y] at a
      · omega
    have c2 : ¬ ¬ ((St K s pos pl pr V).fix.cfg.method < 2 ∨ (St K s pos pl pr V).fix.cfg.off2 ≤ (St K s pos pl pr V).fix.cfg.thresh) := not_not.2 hm
    have c3 : ¬ (imK K = true ∧ (St K s pos pl pr V).offpos + tgtK K s > (St K s pos pl pr V).nprime) := by
      show ¬ (imK K = true ∧ pos + tgtK K s > K.n)
      omega
    have c4 : (if (decide ((St K s pos pl pr V).round = 0) && decide ((St K s pos pl pr V).offstate ≤ 4)) = true ∧ (St K s pos pl pr V).offpos = 0 ∧
        (St K s pos pl pr V).offstate = 4 ∧ (St K s pos pl pr V).fix.cfg.method ≤ 2 then
          (Powers.get (St K s pos pl pr V).fix.MN (scInv (St K s pos pl pr V).fix.y) (St K s pos pl pr V).powR 0).1.rewind (scInv (St K s pos pl pr V).fix.y)
            (St K s pos pl pr V).nprime else (St K s pos pl pr V).powR) = prStart K s pos pr := by
      show (if (decide (K.r = 0) && decide (s ≤ 4)) = true ∧ pos = 0 ∧ s = 4 ∧ K.F.cfg.method ≤ 2 then
          (Powers.get K.F.MN (scInv K.F.y) pr 0).1.rewind (scInv K.F.y) K.n else pr) = _
      unfold prStart
      have : ((decide (K.r = 0) && decide (s ≤ 4)) = true ∧ pos = 0 ∧ s = 4 ∧ K.F.cfg.method ≤ 2) ↔ (K.r = 0 ∧ pos = 0 ∧ s = 4 ∧ K.F.cfg.method ≤ 2) := by
        simp only [Bool.and_eq_true, decide_eq_true_eq]; omega
      simp only [this]
    dsimp only
    rw [if_neg c1, if_neg c2, if_neg c3, c4, show (St K s pos pl pr V).powL = pl from rfl, hl]
    dsimp only
    by_cases hk : kept K s
    · rw [if_pos hk, if_pos (show imK K = true ∨ ((St K s pos pl pr V).nprime = 1 ∧ (St K s pos pl pr V).offstate ≥ 5) from hk), keep_St]
      rfl
    · rw [if_neg hk, if_neg (show ¬ (imK K = true ∨ ((St K s pos pl pr V).nprime = 1 ∧ (St K s pos pl pr V).offstate ≥ 5)) from hk)]
      rfl
  rw [e]
  rfl

theorem writeAt_prefix {f : ℕ → Bytes} {n p c : ℕ} (h : p + c ≤ n) (old : Buf) (ho : p ≠ 0 → old = (List.range' 0 p).map f ++ List.replicate (n - p) zeroKey) :
    writeAt (if p = 0 then List.replicate n zeroKey else old) p ((List.range' p c).map f) =
      (List.range' 0 (p + c)).map f ++ List.replicate (n - (p + c)) zeroKey := by
  have e : (if p = 0 then List.replicate n zeroKey else old) = (List.range' 0 p).map f ++ List.replicate (n - p) zeroKey := by
    split
    · rename_i h0; subst h0; simp
    · rename_i h0; exact ho h0
  rw [e, writeAt, List.take_left' (by simp)]
  have e2 : ((List.range' 0 p).map f ++ List.replicate (n - p) zeroKey).drop (p + ((List.range' p c).map f).length) = List.replicate (n - (p + c)) zeroKey := by
    rw [List.drop_append, List.drop_of_length_le (by simp), List.nil_append, List.drop_replicate]
    simp
    omega
  rw [e2, ← List.map_append]
  have := List.range'_append (s := 0) (m := p) (n := c) (step := 1)
  rw [Nat.zero_add, Nat.one_mul] at this
  rw [this]

section
variable {H : Bytes → Bytes} {rnd : Rand} {blind : ℕ → ℕ → ℤ}

theorem tx_fold (K : Rnd) {s : ℕ} (h3 : 3 ≤ s) (h6 : s ≤ 6) (pos : ℕ) (pl pr : Powers) (V : Host) (bufs : List Buf) {d : Dev} {res : List Buf}
    (h : fold H (St K s pos pl pr V) bufs = some (d, .bufs res)) : tx H rnd blind (.two (St K s pos pl pr V)) bufs = some (d, res) := by
  have e : step H rnd blind (.two (St K s pos pl pr V)) bufs = fold H (St K s pos pl pr V) bufs := by
    show (if s = 2 then _ else if 3 ≤ s ∧ s ≤ 6 then _ else _) = _
    rw [if_neg (by omega), if_pos ⟨h3, h6⟩]
  rw [tx, e, h]

/-- The messages of one vector. -/
theorem fold_phase (K : Rnd) {s : ℕ} (msg : ℕ → List Buf) (cnt : ℕ) (PL PR : ℕ → Powers → Prop) (OUT : ℕ → Bytes) (h3 : 3 ≤ s) (h6 : s ≤ 6)
    (hs4 : K.r = 0 → K.F.cfg.method ≥ 2 → s ≤ 4) (hm3 : ¬ (K.F.cfg.method = 3 ∧ K.r = 0 ∧ s ≤ 4)) (hm : K.F.cfg.method < 2 ∨ K.F.cfg.off2 ≤ K.F.cfg.thresh)
    (hb : ∀ j, (K.r = 0 ∧ s ≤ 4) ∨ 2 ≤ (msg j).length) (hc0 : 0 < tgtK K s) (hcnt : cnt * tgtK K s = K.n)
    (hstep : ∀ j pl pr V, j < cnt → PL (j * tgtK K s) pl → PR (j * tgtK K s) pr → ∃ pl' pr',
      ufoldLoop H (St K s (j * tgtK K s) pl pr V) (tgtK K s) (imK K) (keyV 0 ((msg j).getD 0 [])) (keyV 0 ((msg j).getD 1 [])) (tgtK K s) 0 pl
        (prStart K s (j * tgtK K s) pr) = some (pl', pr', (List.range' (j * tgtK K s) (tgtK K s)).map OUT) ∧
        PL ((j + 1) * tgtK K s) pl' ∧ PR ((j + 1) * tgtK K s) pr')
    (pl pr : Powers) (V : Host) (hL : PL 0 pl) (hR : PR 0 pr) :
    ∃ pl' pr', collect H rnd blind msg cnt 0 (.two (St K s 0 pl pr V)) = some (.two (foldNext (St K s K.n pl' pr'
      (if kept K s then put s V ((List.range' 0 K.n).map OUT) else V)) (imK K)), if imK K then [] else (List.range' 0 K.n).map OUT) ∧
      PL K.n pl' ∧ PR K.n pr' := by
  set c := tgtK K s with hc
  have hn0 : 0 < K.n := by
    rcases Nat.eq_zero_or_pos K.n with h | h
    · exfalso; have : c ≤ K.n := by rw [hc, tgtK]; exact min_le_right _ _
      omega
    · exact h
  set Q : ℕ → Dev → Prop := fun j d => ∃ pl pr V1, PL (j * c) pl ∧ PR (j * c) pr ∧
    (¬ kept K s → V1 = V) ∧ (kept K s → j ≠ 0 → V1 = put s V ((List.range' 0 (j * c)).map OUT ++ List.replicate (K.n - j * c) zeroKey)) ∧
    (kept K s → j = 0 → V1 = V) ∧ d = .two (foldNext (St K s (j * c) pl pr V1) (imK K)) with hQ
  have h0 : Q 0 (.two (St K s 0 pl pr V)) := by
    refine ⟨pl, pr, V, by simpa using hL, by simpa using hR, fun _ => rfl, fun _ h => absurd rfl h, fun _ _ => rfl, ?_⟩
    rw [Nat.zero_mul, foldNext_lt K pl pr V _ hn0 h6 hs4]
  obtain ⟨d', e, hq⟩ := collect_run (H := H) (rnd := rnd) (blind := blind) (msg := msg) Q
    (fun j => if imK K then [] else (List.range' (j * c) c).map OUT) cnt 0 _ (by
      rintro j d - hj ⟨pl, pr, V1, hl, hr, v1, v2, v3, rfl⟩
      have hjc : j * c + c ≤ K.n := by
        have : (j + 1) * c ≤ cnt * c := Nat.mul_le_mul_right _ (by omega)
        rw [hcnt, Nat.succ_mul] at this
        exact this
      rw [foldNext_lt K pl pr V1 _ (by omega) h6 hs4]
      obtain ⟨pl', pr', el, hl', hr'⟩ := hstep j pl pr V1 (by omega) hl hr
      have em := fold_msg K pl pr V1 (msg j) hm3 (hb j) hm hjc el
      refine ⟨_, _, tx_fold K h3 h6 _ _ _ _ _ em, ?_, pl', pr',
        (if kept K s then put s V1 (writeAt (if j * c = 0 then List.replicate K.n zeroKey else getV s V1) (j * c) ((List.range' (j * c) c).map OUT)) else V1),
        hl', hr', fun hk => ?_, fun hk _ => ?_, fun _ h => absurd h (Nat.succ_ne_zero _), ?_⟩
      · cases imK K <;> simp
      · rw [if_neg hk]; exact v1 hk
      · rw [if_pos hk, Nat.succ_mul]
        have : put s V1 = put s V := by
          by_cases hj0 : j = 0
          · rw [v3 hk hj0]
          · rw [v2 hk hj0]; funext w; exact put_put _ _ _ _
        rw [this, writeAt_prefix hjc _ fun hp => ?_]
        have hj0 : j ≠ 0 := by rintro rfl; simp at hp
        rw [v2 hk hj0, getV_put h3 h6]
      · rw [Nat.succ_mul]) h0
  obtain ⟨pl', pr', V1, hl, hr, v1, v2, v3, rfl⟩ := hq
  simp only [Nat.zero_add] at hl hr v2 v3
  have hcnt0 : cnt ≠ 0 := by rintro rfl; omega
  refine ⟨pl', pr', ?_, hcnt ▸ hl, hcnt ▸ hr⟩
  rw [e, Nat.zero_add, hcnt]
  have eV : V1 = if kept K s then put s V ((List.range' 0 K.n).map OUT) else V := by
    by_cases hk : kept K s
    · rw [if_pos hk, v2 hk hcnt0, hcnt]; simp
    · rw [if_neg hk, v1 hk]
  rw [eV]
  congr 2
  cases imK K
  · have := chunks_flatten OUT c cnt 0
    rw [Nat.zero_mul, hcnt] at this
    simpa using this
  · simp

/-! ## Vectors sent by the host -/

theorem chunkLo_get {f : ℕ → Bytes} {N b j i : ℕ} (hi : i < b) (h : j * b + i < N) : (chunkLo b j ((List.range' 0 N).map f))[i]? = some (f (j * b + i)) := by
  rw [chunkLo, List.getElem?_take, if_pos hi, List.getElem?_drop, map_range'_get _ _ _ _ h, Nat.zero_add]
theorem chunkHi_get {f : ℕ → Bytes} {N b n j i : ℕ} (hi : i < b) (h : j * b + n + i < N) :
    (chunkHi b n j ((List.range' 0 N).map f))[i]? = some (f (n + (j * b + i))) := by
  rw [chunkHi, List.getElem?_take, if_pos hi, List.getElem?_drop, map_range'_get _ _ _ _ h, Nat.zero_add]
  congr 2
  ring

theorem keyV0 (b : Buf) : keyV 0 b = b := by
  unfold keyV; split
  · rename_i h; rw [h]; rfl
  · rfl

/-- With chunks of `min b n` elements, a chunk after the first has `b` elements. -/
theorem chunk_pos {b n cnt j : ℕ} (hcnt : cnt * min b n = n) (hj : j < cnt) (hn : 0 < n) : j * min b n = j * b := by
  rcases Nat.le_total b n with h | h
  · rw [min_eq_left h]
  · rw [min_eq_right h] at hcnt ⊢
    have : cnt = 1 := by
      have : cnt * n = 1 * n := by rw [hcnt, Nat.one_mul]
      exact Nat.eq_of_mul_eq_mul_right hn this
    have : j = 0 := by omega
    subst this; simp

theorem phase_buf (K : Rnd) {s : ℕ} (cnt : ℕ) (f : ℕ → Bytes) (OUT : ℕ → Bytes) (h3 : 3 ≤ s) (h6 : s ≤ 6) (hr : K.r = 0 → 5 ≤ s ∧ K.F.cfg.method < 2)
    (hm : K.F.cfg.method < 2 ∨ K.F.cfg.off2 ≤ K.F.cfg.thresh) (hb0 : 0 < K.F.cfg.batching) (hn : 0 < K.n) (hcnt : cnt * min K.F.cfg.batching K.n = K.n)
    (hout : ∀ (pl pr : Powers) (V : Host) (pos i : ℕ), pos + i < K.n → foldOf (St K s pos pl pr V) (imK K) i (f (pos + i)) (f (K.n + (pos + i))) = some (OUT (pos + i)))
    (pl pr : Powers) (V : Host) :
    ∃ pl' pr', devFold H rnd blind K.F.cfg.batching K.n cnt ((List.range' 0 (K.n + K.n)).map f) (.two (St K s 0 pl pr V)) =
      some (.two (foldNext (St K s K.n pl' pr' (if kept K s then put s V ((List.range' 0 K.n).map OUT) else V)) (imK K)),
        if imK K then [] else (List.range' 0 K.n).map OUT) := by
  have et : tgtK K s = min K.F.cfg.batching K.n := by
    unfold tgtK
    rw [if_neg]
    rintro ⟨a, b⟩
    have := (hr a).1
    omega
  have hz : ¬ (K.r = 0 ∧ s ≤ 4) := by rintro ⟨a, b⟩; have := (hr a).1; omega
  obtain ⟨pl', pr', e, -, -⟩ := fold_phase (H := H) (rnd := rnd) (blind := blind) K
    (fun j => [chunkLo K.F.cfg.batching j ((List.range' 0 (K.n + K.n)).map f), chunkHi K.F.cfg.batching K.n j ((List.range' 0 (K.n + K.n)).map f)]) cnt
    (fun _ _ => True) (fun _ _ => True) OUT h3 h6 (fun a b => absurd (hr a).2 (by omega)) (fun h => hz h.2) hm (fun j => Or.inr (by simp)) (by rw [et]; omega)
    (by rw [et]; exact hcnt) (by
      intro j pl pr V hj _ _
      rw [et]
      set c := min K.F.cfg.batching K.n with hc
      have hjb : j * c = j * K.F.cfg.batching := chunk_pos hcnt hj hn
      have hjc : j * c + c ≤ K.n := by
        have : (j + 1) * c ≤ cnt * c := Nat.mul_le_mul_right _ (by omega)
        rw [hcnt, Nat.succ_mul] at this
        exact this
      have hcb : c ≤ K.F.cfg.batching := min_le_left _ _
      have ep : prStart K s (j * c) pr = pr := by
        unfold prStart
        rw [if_neg]
        rintro ⟨a, -, b, -⟩
        exact hz ⟨a, by omega⟩
      rw [ep]
      obtain ⟨pl', pr', e, -, -⟩ := ufoldLoop_gen (H := H) (d := St K s (j * c) pl pr V) (tgt := c) (im := imK K)
        (loB := keyV 0 (chunkLo K.F.cfg.batching j ((List.range' 0 (K.n + K.n)).map f)))
        (hiB := keyV 0 (chunkHi K.F.cfg.batching K.n j ((List.range' 0 (K.n + K.n)).map f))) (fun _ _ => True) (fun _ _ => True)
        (fun i => f (j * c + i)) (fun i => f (K.n + (j * c + i))) (fun i => OUT (j * c + i)) (by
          intro i pl hi _
          refine ⟨pl, ?_, trivial⟩
          unfold loOf
          rw [if_neg (fun h => hz ⟨h.1, le_of_eq_of_le h.2 (by omega)⟩), if_neg (fun h => hz ⟨h.1, le_of_eq_of_le h.2 (by omega)⟩), keyV0,
            chunkLo_get (by omega) (by omega), hjb]
          rfl) (by
          intro i pr hi _
          refine ⟨pr, ?_, trivial⟩
          unfold hiOf
          rw [if_neg (fun h => hz ⟨h.1, le_of_eq_of_le h.2 (by omega)⟩), if_neg (fun h => hz ⟨h.1, le_of_eq_of_le h.2 (by omega)⟩), keyV0,
            chunkHi_get (by omega) (by omega), hjb]
          rfl) (fun i hi => hout pl pr V (j * c) i (by omega)) c 0 pl pr (by omega) trivial trivial
      refine ⟨pl', pr', ?_, trivial, trivial⟩
      rw [map_range'_shift OUT, List.range_eq_range']
      exact e) pl pr V trivial trivial
  exact ⟨pl', pr', e⟩

/-! ## Generators -/

theorem sliceIdx_lo {pos c n i : ℕ} (h : pos + c ≤ n) (hi : i < c) : sliceIdx pos (min (pos + c) n) i = some (pos + i) := by
  rw [sliceIdx, min_eq_left h, if_pos (by omega)]
theorem sliceIdx_hi {pos c n i : ℕ} (h : pos + c ≤ n) (hi : i < c) : sliceIdx (n + pos) (n + min (pos + c) (2 * n)) i = some (n + (pos + i)) := by
  rw [sliceIdx, min_eq_left (by omega), if_pos (by omega), Nat.add_assoc]

theorem eff_zero (β : ℕ → ℤ) {i : ℕ} (h : i < 4) : eff 0 β i = 1 := by simp [eff, h]

theorem phase_G (K : Rnd) (cnt : ℕ) (hr : K.r = 0) (hm3 : K.F.cfg.method ≤ 2) (hm : K.F.cfg.method < 2 ∨ K.F.cfg.off2 ≤ K.F.cfg.thresh)
    (hb0 : 0 < K.F.cfg.batching) (hn : 0 < K.n) (hMN : K.F.MN = K.n + K.n) (hcnt : cnt * min (K.F.cfg.batching * 2) K.n = K.n)
    (hγ : ∀ j, 0 ≤ K.γ j) (hβ : ∀ j, (K.β j : Fl) ≠ 0) (pl pr : Powers) (V : Host) :
    ∃ pl' pr', collect H rnd blind (fun _ => []) cnt 0 (.two (St K 3 0 pl pr V)) = some (.two (foldNext (St K 3 K.n pl' pr' V) (imK K)),
      (List.range' 0 K.n).map (outP K 3 false (gPt H))) := by
  have et : tgtK K 3 = min (K.F.cfg.batching * 2) K.n := by unfold tgtK; rw [if_pos ⟨hr, by omega⟩]
  have im : imK K = false := by simp [imK, hr]
  have nk : ¬ kept K 3 := by simp [kept, im]
  obtain ⟨pl', pr', e, -, -⟩ := fold_phase (H := H) (rnd := rnd) (blind := blind) K (s := 3)
    (fun _ => []) cnt
    (fun _ _ => True) (fun _ _ => True) (outP K 3 false (gPt H)) (by omega) (by omega) (fun _ _ => by omega) (fun h => by omega) hm
    (fun j => Or.inl ⟨hr, by omega⟩) (by rw [et]; omega)
    (by rw [et]; exact hcnt) (by
      intro j pl pr V hj _ _
      rw [et]
      set c := min (K.F.cfg.batching * 2) K.n with hc
      have hjc : j * c + c ≤ K.n := by
        have : (j + 1) * c ≤ cnt * c := Nat.mul_le_mul_right _ (by omega)
        rw [hcnt, Nat.succ_mul] at this
        exact this
      have ep : prStart K 3 (j * c) pr = pr := by
        unfold prStart
        rw [if_neg]
        rintro ⟨-, -, b, -⟩
        omega
      rw [ep]
      obtain ⟨pl', pr', e, -, -⟩ := ufoldLoop_gen (H := H) (d := St K 3 (j * c) pl pr V) (tgt := c) (im := imK K)
        (loB := keyV 0 (([] : List Buf).getD 0 []))
        (hiB := keyV 0 (([] : List Buf).getD 1 [])) (fun _ _ => True) (fun _ _ => True)
        (fun i => enc (gPt H (j * c + i))) (fun i => enc (gPt H (K.n + (j * c + i)))) (fun i => outP K 3 false (gPt H) (j * c + i)) (by
          intro i pl hi _
          refine ⟨pl, ?_, trivial⟩
          unfold loOf
          rw [if_pos ⟨hr, rfl⟩]
          show ((sliceIdx (j * c) (min (j * c + c) K.n) i).bind (gElem H K.F)).map _ = _
          rw [sliceIdx_lo hjc hi, Option.bind_some, gElem_enc H (by omega)]
          rfl) (by
          intro i pr hi _
          refine ⟨pr, ?_, trivial⟩
          unfold hiOf
          rw [if_pos ⟨hr, rfl⟩]
          show ((sliceIdx (K.n + j * c) (K.n + min (j * c + c) (2 * K.n)) i).bind (gElem H K.F)).map _ = _
          rw [sliceIdx_hi hjc hi, Option.bind_some, gElem_enc H (by omega)]
          rfl) (fun i hi => by
            have := foldOf_pt K (s := 3) (by omega) (by omega) (j * c) pl pr V (imK K) i hγ hβ (gPt H)
            rw [hr, eff_zero _ (by omega), eff_zero _ (by omega), one_smul, one_smul] at this
            rw [this, im]) c 0 pl pr (by omega) trivial trivial
      refine ⟨pl', pr', ?_, trivial, trivial⟩
      rw [map_range'_shift (outP K 3 false (gPt H)), List.range_eq_range']
      exact e) pl pr V trivial trivial
  rw [if_neg nk] at e
  refine ⟨pl', pr', ?_⟩
  rw [e, im]
  rfl

theorem phase_H (K : Rnd) (cnt : ℕ) (hr : K.r = 0) (hm3 : K.F.cfg.method ≤ 2) (hm : K.F.cfg.method < 2 ∨ K.F.cfg.off2 ≤ K.F.cfg.thresh)
    (hb0 : 0 < K.F.cfg.batching) (hn : 0 < K.n) (hMN : K.F.MN = K.n + K.n) (hcnt : cnt * min (K.F.cfg.batching * 2) K.n = K.n)
    (hγ : ∀ j, 0 ≤ K.γ j) (hβ : ∀ j, (K.β j : Fl) ≠ 0) (pl pr : Powers) (V : Host) :
    ∃ pl' pr', collect H rnd blind (fun _ => []) cnt 0 (.two (St K 4 0 pl pr V)) = some (.two (foldNext (St K 4 K.n pl' pr' V) (imK K)),
      (List.range' 0 K.n).map (outP K 4 false (hPt H K.F.y))) := by
  have et : tgtK K 4 = min (K.F.cfg.batching * 2) K.n := by unfold tgtK; rw [if_pos ⟨hr, by omega⟩]
  have im : imK K = false := by simp [imK, hr]
  have nk : ¬ kept K 4 := by simp [kept, im]
  obtain ⟨pl', pr', e, -, -⟩ := fold_phase (H := H) (rnd := rnd) (blind := blind) K (s := 4)
    (fun _ => []) cnt
    (fun i p => Rdy (scInv K.F.y) i p) (fun i p => i = 0 ∨ Rdy (scInv K.F.y) (K.n + i) p) (outP K 4 false (hPt H K.F.y)) (by omega) (by omega)
    (fun _ _ => by omega) (fun h => by omega) hm
    (fun j => Or.inl ⟨hr, by omega⟩) (by rw [et]; omega)
    (by rw [et]; exact hcnt) (by
      intro j pl pr V hj hL hR
      rw [et] at hL hR ⊢
      set c := min (K.F.cfg.batching * 2) K.n with hc
      have hjc : j * c + c ≤ K.n := by
        have : (j + 1) * c ≤ cnt * c := Nat.mul_le_mul_right _ (by omega)
        rw [hcnt, Nat.succ_mul] at this
        exact this
      have ep : Rdy (scInv K.F.y) (K.n + j * c) (prStart K 4 (j * c) pr) := by
        unfold prStart
        by_cases h0 : j * c = 0
        · rw [if_pos ⟨hr, h0, rfl, hm3⟩, h0]
          exact rewound _ (by omega) _ _
        · rw [if_neg (fun h => h0 h.2.1)]
          exact hR.resolve_left h0
      obtain ⟨pl', pr', e, l1, r1⟩ := ufoldLoop_gen (H := H) (d := St K 4 (j * c) pl pr V) (tgt := c) (im := imK K)
        (loB := keyV 0 (([] : List Buf).getD 0 []))
        (hiB := keyV 0 (([] : List Buf).getD 1 [])) (fun i p => Rdy (scInv K.F.y) (j * c + i) p) (fun i p => Rdy (scInv K.F.y) (K.n + j * c + i) p)
        (fun i => enc (hPt H K.F.y (j * c + i))) (fun i => enc (hPt H K.F.y (K.n + (j * c + i)))) (fun i => outP K 4 false (hPt H K.F.y) (j * c + i)) (by
          intro i pl hi hp
          unfold loOf
          rw [if_neg (fun h => by have := h.2; revert this; show ¬ (4 = 3); omega), if_pos ⟨hr, rfl⟩]
          show ∃ pl', (sliceIdx (j * c) (min (j * c + c) K.n) i).bind (hElem H K.F pl) = _ ∧ _
          rw [sliceIdx_lo hjc hi, Option.bind_some]
          exact hElem_enc H (by omega) hp) (by
          intro i pr hi hp
          unfold hiOf
          rw [if_neg (fun h => by have := h.2; revert this; show ¬ (4 = 3); omega), if_pos ⟨hr, rfl⟩]
          show ∃ pr', (sliceIdx (K.n + j * c) (K.n + min (j * c + c) (2 * K.n)) i).bind (hElem H K.F pr) = _ ∧ _
          rw [sliceIdx_hi hjc hi, Option.bind_some, Nat.add_assoc]
          rw [Nat.add_assoc] at hp
          exact hElem_enc H (by omega) hp) (fun i hi => by
            have := foldOf_pt K (s := 4) (by omega) (by omega) (j * c) pl pr V (imK K) i hγ hβ (hPt H K.F.y)
            rw [hr, eff_zero _ (by omega), eff_zero _ (by omega), one_smul, one_smul] at this
            rw [this, im]) c 0 pl (prStart K 4 (j * c) pr) (by omega) hL ep
      refine ⟨pl', pr', ?_, ?_, Or.inr ?_⟩
      · rw [map_range'_shift (outP K 4 false (hPt H K.F.y)), List.range_eq_range']
        exact e
      · rw [Nat.succ_mul]; simpa using l1
      · rw [Nat.succ_mul, ← Nat.add_assoc]; simpa using r1) pl pr V (Or.inl (by omega)) (Or.inl rfl)
  rw [if_neg nk] at e
  refine ⟨pl', pr', ?_⟩
  rw [e, im]
  rfl

/-- With method 3 the device sends multiples of the generators. -/
theorem phase_r0 (K : Rnd) {s : ℕ} (cnt : ℕ) (X : ℕ → Sub) (PL : ℕ → Powers → Prop) (hs : s = 3 ∨ s = 4) (hr : K.r = 0) (hm3 : K.F.cfg.method = 3)
    (hb0 : 0 < K.F.cfg.batching) (hn : 0 < K.n) (hcnt : cnt * min (K.F.cfg.batching * 2) K.n = K.n) (hβ0 : ∀ j, 0 ≤ K.β j)
    (hx : ∀ i p, i < K.n → PL i p → ∃ p', (if s = 3 then (gElem H K.F i).map fun k => (p, k) else hElem H K.F p i) = some (p', enc (X i)) ∧ PL (i + 1) p')
    (pl pr : Powers) (V : Host) (hL : PL 0 pl) :
    ∃ pl', collect H rnd blind (fun _ => []) cnt 0 (.two (St K s 0 pl pr V)) = some (.two (foldNext (St K s K.n pl' pr V) (imK K)),
      pts 0 K.n fun i => (K.β (2 * (s - 3)) : Fl) • X i) := by
  have im : imK K = false := by simp [imK, hr]
  have h3 : 3 ≤ s := by omega
  have h6 : s ≤ 6 := by omega
  set c := min (K.F.cfg.batching * 2) K.n with hc
  have et (pos : ℕ) (pl : Powers) : target (St K s pos pl pr V) = c := by
    show min (if K.r = 0 ∧ s ≤ 4 then K.F.cfg.batching * 2 else K.F.cfg.batching) K.n = c
    rw [if_pos ⟨hr, by omega⟩]
  have loop (pos : ℕ) (pl0 : Powers) : ∀ (m i : ℕ) (p : Powers), i + m ≤ K.n → PL i p → ∃ p', r0foldLoop H (St K s pos pl0 pr V) m i p =
      some (p', (List.range' i m).map fun i => enc ((K.β (2 * (s - 3)) : Fl) • X i)) ∧ PL (i + m) p' := by
    intro m
    induction m with
    | zero => intro i p _ h; exact ⟨p, rfl, h⟩
    | succ m ih =>
      intro i p hi h
      obtain ⟨p1, e1, h1⟩ := hx i p (by omega) h
      obtain ⟨p2, e2, h2⟩ := ih (i + 1) p1 (by omega) h1
      refine ⟨p2, ?_, by rwa [show i + (m + 1) = i + 1 + m by ring]⟩
      rw [r0foldLoop]
      have e1' : (if (St K s pos pl0 pr V).offstate = 3 then (gElem H (St K s pos pl0 pr V).fix i).map fun k => (p, k)
        else hElem H (St K s pos pl0 pr V).fix p i) = some (p1, enc (X i)) := e1
      simp only [e1', e2]
      rw [show (St K s pos pl0 pr V).bl0 = K.β from rfl, show (St K s pos pl0 pr V).offstate = s from rfl, scalarmultKey_enc _ (hβ0 _)]
      simp only
      rw [List.range'_succ, List.map_cons]
  set Q : ℕ → Dev → Prop := fun j d => ∃ p, PL (j * c) p ∧ d = .two (foldNext (St K s (j * c) p pr V) (imK K)) with hQ
  obtain ⟨d', e, hq⟩ := collect_run (H := H) (rnd := rnd) (blind := blind) (msg := fun _ => []) Q
    (fun j => (List.range' (j * c) c).map fun i => enc ((K.β (2 * (s - 3)) : Fl) • X i)) cnt 0 (.two (St K s 0 pl pr V)) (by
      rintro j d - hj ⟨p, hl, rfl⟩
      have hjc : j * c + c ≤ K.n := by
        have : (j + 1) * c ≤ cnt * c := Nat.mul_le_mul_right _ (by omega)
        rw [hcnt, Nat.succ_mul] at this
        exact this
      rw [foldNext_lt K p pr V _ (by omega) h6 (fun _ _ => by omega)]
      obtain ⟨p', el, hl'⟩ := loop (j * c) p c (j * c) p hjc hl
      refine ⟨.two (foldNext (St K s (j * c + c) p' pr V) (imK K)), [(List.range' (j * c) c).map fun i => enc ((K.β (2 * (s - 3)) : Fl) • X i)],
        tx_fold K h3 h6 _ _ _ _ _ ?_, by simp, p', ?_, ?_⟩
      · unfold fold
        rw [if_pos (show (St K s (j * c) p pr V).fix.cfg.method = 3 ∧ (St K s (j * c) p pr V).round = 0 ∧ (St K s (j * c) p pr V).offstate ≤ 4 from
          ⟨hm3, hr, by show s ≤ 4; omega⟩), et]
        show (match r0foldLoop H (St K s (j * c) p pr V) c (j * c) p with | none => none | some (p, ks) => _) = _
        rw [el]
        rfl
      · rw [Nat.succ_mul]; exact hl'
      · rw [Nat.succ_mul]) ⟨pl, by simpa using hL, by rw [Nat.zero_mul, foldNext_lt K pl pr V _ hn h6 (fun _ _ => by omega)]⟩
  obtain ⟨p, -, rfl⟩ := hq
  refine ⟨p, ?_⟩
  rw [e, Nat.zero_add, hcnt, chunks_flatten (fun i => enc ((K.β (2 * (s - 3)) : Fl) • X i)) c cnt 0, Nat.zero_mul, hcnt]
  rfl

end

end Verif.Off

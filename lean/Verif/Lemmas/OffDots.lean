import Verif.Lemmas.OffPhase

/-! The dot products of a round when the device computes them from the vectors the host sends. -/

namespace Verif.Off
open Verif Ed Key Sig Edwards Bp Finset KeyV

/-- The device with other partial sums. -/
def Rnd.sums (K : Rnd) (c : ℤ) (XA XB : Bytes) : Rnd := { K with c := c, XA := XA, XB := XB }

/-- The device after the challenge `W` of a round. -/
def Rnd.chal (K : Rnd) (W : ℤ) (Lp Rp : Bytes) (γ : ℕ → ℤ) : Rnd :=
  { K with cache := W, w := W, L := K.L.set K.r Lp, R := K.R.set K.r Rp, γ := γ, k := K.k + 1 }

def gOf (H : Bytes → Bytes) (d : P2) (gB : Buf) (i : ℕ) : Option Bytes :=
  if d.round = 0 then (if d.offstate = 20 then sliceIdx (d.nprime + d.offpos) (d.nprime + min (d.offpos + d.fix.cfg.batching) (2 * d.nprime)) i
    else sliceIdx d.offpos (min (d.offpos + d.fix.cfg.batching) d.nprime) i).bind (gElem H d.fix) else gB[i]?
def hOf (H : Bytes → Bytes) (d : P2) (hB : Buf) (i : ℕ) (p : Powers) : Option (Powers × Bytes) :=
  if d.round = 0 then (if d.offstate = 20 then sliceIdx d.offpos (min (d.offpos + d.fix.cfg.batching) d.nprime) i
    else sliceIdx (d.nprime + d.offpos) (d.nprime + min (d.offpos + d.fix.cfg.batching) (2 * d.nprime)) i).bind (hElem H d.fix p)
  else hB[i]?.map fun k => (p, k)

theorem clcrLoop_gen {H : Bytes → Bytes} {d : P2} {gB hB : Buf} (m0 : ℕ) (PL : ℕ → Powers → Prop) (α ρ : ℕ → Fl) (X Y : ℕ → Sub)
    (hg : ∀ i, i < m0 → gOf H d gB i = some (enc (X i)))
    (hh : ∀ i p, i < m0 → PL i p → ∃ p', hOf H d hB i p = some (p', enc (Y i)) ∧ PL (i + 1) p') :
    ∀ (m i : ℕ) (p : Powers) (c : ℤ) (U W : Sub), i + m ≤ m0 → PL i p → ∃ p' c', clcrLoop H d gB hB i ((List.range' i m).map fun j => sc (α j))
      ((List.range' i m).map fun j => sc (ρ j)) p c (enc U) (enc W) =
        some (p', c', enc (U + ∑ j ∈ range m, α (i + j) • X (i + j)), enc (W + ∑ j ∈ range m, ρ (i + j) • Y (i + j))) ∧
      (c' : Fl) = c + ∑ j ∈ range m, α (i + j) * ρ (i + j) ∧ PL (i + m) p'
  | 0, i, p, c, U, W, _, h => ⟨p, c, by simp [clcrLoop], by simp, h⟩
  | m + 1, i, p, c, U, W, hi, h => by
    obtain ⟨p1, e1, h1⟩ := hh i p (by omega) h
    obtain ⟨p2, c2, e2, ec, h2⟩ := clcrLoop_gen m0 PL α ρ X Y hg hh m (i + 1) p1 (scMuladd (kInt (sc (α i))) (kInt (sc (ρ i))) c) (U + α i • X i) (W + ρ i • Y i)
      (by omega) h1
    refine ⟨p2, c2, ?_, ?_, by rwa [show i + (m + 1) = i + 1 + m by ring]⟩
    · have eg := hg i (by omega)
      unfold gOf at eg
      unfold hOf at e1
      rw [List.range'_succ, List.map_cons, List.map_cons, clcrLoop]
      simp only [eg, e1]
      rw [scalarmultKey_enc _ (kInt_sc_nn _), scalarmultKey_enc _ (kInt_sc_nn _), Option.bind_some, Option.bind_some, addKeys_enc, addKeys_enc, cast_kInt_sc,
        cast_kInt_sc]
      simp only
      rw [e2, sum_range_succ', sum_range_succ']
      have t (f : ℕ → Sub) : ∑ j ∈ range m, f (i + 1 + j) = ∑ j ∈ range m, f (i + (j + 1)) :=
        sum_congr rfl fun j _ => by rw [show i + 1 + j = i + (j + 1) by ring]
      rw [t fun j => α j • X j, t fun j => ρ j • Y j]
      simp only [Nat.add_zero]
      rw [add_assoc, add_comm (α i • X i), add_assoc W, add_comm (ρ i • Y i)]
    · have t : ∑ j ∈ range m, α (i + 1 + j) * ρ (i + 1 + j) = ∑ j ∈ range m, α (i + (j + 1)) * ρ (i + (j + 1)) :=
        sum_congr rfl fun j _ => by rw [show i + 1 + j = i + (j + 1) by ring]
      rw [ec, sum_range_succ', t, cast_scMuladd, cast_kInt_sc, cast_kInt_sc]
      simp only [Nat.add_zero]
      ring

section
variable {H : Bytes → Bytes} {rnd : Rand} {blind : ℕ → ℕ → ℤ}

theorem collect_snoc (msg : ℕ → List Buf) : ∀ (m i : ℕ) (d : Dev), collect H rnd blind msg (m + 1) i d =
    (collect H rnd blind msg m i d).bind fun r => (tx H rnd blind r.1 (msg (i + m))).map fun t => (t.1, r.2 ++ t.2.flatten)
  | 0, i, d => by
    rw [collect, collect, Option.bind_some, Nat.add_zero]
    cases tx H rnd blind d (msg i) with
    | none => rfl
    | some t => simp [collect]
  | m + 1, i, d => by
    rw [collect]
    conv_rhs => rw [collect]
    cases tx H rnd blind d (msg i) with
    | none => rfl
    | some t =>
      simp only
      rw [collect_snoc msg m (i + 1) t.1, show i + 1 + m = i + (m + 1) by ring]
      cases collect H rnd blind msg m (i + 1) t.1 with
      | none => rfl
      | some r =>
        simp only [Option.bind_some]
        cases tx H rnd blind r.1 (msg (i + (m + 1))) with
        | none => rfl
        | some u => simp

theorem one_eq : one = enc (0 : Sub) := one_enc

/-- The sums so far. -/
theorem clcr_msg (K : Rnd) (st pos : ℕ) (p pr : Powers) (V : Host) (c : ℤ) (U W : Sub) (msg : List Buf) (PL : ℕ → Powers → Prop) (α ρ : ℕ → Fl) (X Y : ℕ → Sub)
    (hst : st = 20 → pos = 0 → c = 0 ∧ U = 0 ∧ W = 0) (hb0 : 0 < K.F.cfg.batching)
    (c0 : ℤ) (XA XB : Bytes) (hX : ¬ (st = 20 ∧ pos = 0) → c0 = c ∧ XA = enc U ∧ XB = enc W)
    (hmsg : ∃ rest, msg = ((List.range' pos K.F.cfg.batching).map fun j => sc (α j)) :: ((List.range' pos K.F.cfg.batching).map fun j => sc (ρ j)) :: rest ∧
      (K.r > 0 → 2 ≤ rest.length) ∧
      (∀ i, i < K.F.cfg.batching → gOf H (St (K.sums c (enc U) (enc W)) st pos p pr V) (keyV K.F.cfg.batching (rest.getD 0 [])) i = some (enc (X (pos + i)))) ∧
      (∀ i p', i < K.F.cfg.batching → PL (pos + i) p' → ∃ p'', hOf H (St (K.sums c (enc U) (enc W)) st pos p pr V) (keyV K.F.cfg.batching (rest.getD 1 [])) i p' =
        some (p'', enc (Y (pos + i))) ∧ PL (pos + i + 1) p''))
    (hp : PL pos p) :
    ∃ p' c', clcr H blind (St (K.sums c0 XA XB) st pos p pr V) msg =
      (if pos + K.F.cfg.batching ≥ K.n then
        clcrEnd H blind (St (K.sums c' (enc (U + ∑ j ∈ range K.F.cfg.batching, α (pos + j) • X (pos + j)))
          (enc (W + ∑ j ∈ range K.F.cfg.batching, ρ (pos + j) • Y (pos + j)))) st (pos + K.F.cfg.batching) p' pr V)
      else some (.two (St (K.sums c' (enc (U + ∑ j ∈ range K.F.cfg.batching, α (pos + j) • X (pos + j)))
          (enc (W + ∑ j ∈ range K.F.cfg.batching, ρ (pos + j) • Y (pos + j)))) st (pos + K.F.cfg.batching) p' pr V), .bufs [])) ∧
      (c' : Fl) = c + ∑ j ∈ range K.F.cfg.batching, α (pos + j) * ρ (pos + j) ∧ PL (pos + K.F.cfg.batching) p' := by
  obtain ⟨rest, rfl, hl, hg, hh⟩ := hmsg
  have e0 : (if (St (K.sums c0 XA XB) st pos p pr V).offstate = 20 ∧ (St (K.sums c0 XA XB) st pos p pr V).offpos = 0 then
      { St (K.sums c0 XA XB) st pos p pr V with c := 0, XA := one, XB := one } else St (K.sums c0 XA XB) st pos p pr V) =
      St (K.sums c (enc U) (enc W)) st pos p pr V := by
    by_cases h : st = 20 ∧ pos = 0
    · obtain ⟨rfl, rfl, rfl⟩ := hst h.1 h.2
      rw [if_pos (show (St (K.sums c0 XA XB) st pos p pr V).offstate = 20 ∧ (St (K.sums c0 XA XB) st pos p pr V).offpos = 0 from h), ← one_eq]
      rfl
    · obtain ⟨rfl, rfl, rfl⟩ := hX h
      rw [if_neg (show ¬ ((St (K.sums c0 (enc U) (enc W)) st pos p pr V).offstate = 20 ∧ (St (K.sums c0 (enc U) (enc W)) st pos p pr V).offpos = 0) from h)]
  obtain ⟨p', c', e1, ec, h1⟩ := clcrLoop_gen (H := H) (d := St (K.sums c (enc U) (enc W)) st pos p pr V) (gB := keyV K.F.cfg.batching (rest.getD 0 []))
    (hB := keyV K.F.cfg.batching (rest.getD 1 [])) K.F.cfg.batching (fun i => PL (pos + i)) (fun j => α (pos + j)) (fun j => ρ (pos + j)) (fun j => X (pos + j))
    (fun j => Y (pos + j)) hg (fun i p' hi hp => hh i p' hi hp) K.F.cfg.batching 0 p c U W (by omega) (by simpa using hp)
  simp only [Nat.zero_add] at e1 ec h1
  refine ⟨p', c', ?_, ec, h1⟩
  have ea : ((List.range' pos K.F.cfg.batching).map fun j => sc (α j)) = (List.range' 0 K.F.cfg.batching).map fun j => sc (α (pos + j)) := by
    rw [map_range'_shift, List.range_eq_range']
  have eb : ((List.range' pos K.F.cfg.batching).map fun j => sc (ρ j)) = (List.range' 0 K.F.cfg.batching).map fun j => sc (ρ (pos + j)) := by
    rw [map_range'_shift, List.range_eq_range']
  have e2 : clcrLoop H (St (K.sums c (enc U) (enc W)) st pos p pr V) (keyV (St (K.sums c (enc U) (enc W)) st pos p pr V).fix.cfg.batching (rest.getD 0 []))
      (keyV (St (K.sums c (enc U) (enc W)) st pos p pr V).fix.cfg.batching (rest.getD 1 [])) 0
      (keyV (St (K.sums c (enc U) (enc W)) st pos p pr V).fix.cfg.batching ((List.range' pos K.F.cfg.batching).map fun j => sc (α j)))
      (keyV (St (K.sums c (enc U) (enc W)) st pos p pr V).fix.cfg.batching ((List.range' pos K.F.cfg.batching).map fun j => sc (ρ j)))
      (St (K.sums c (enc U) (enc W)) st pos p pr V).powL (St (K.sums c (enc U) (enc W)) st pos p pr V).c
      (St (K.sums c (enc U) (enc W)) st pos p pr V).XA (St (K.sums c (enc U) (enc W)) st pos p pr V).XB =
      some (p', c', enc (U + ∑ j ∈ range K.F.cfg.batching, α (pos + j) • X (pos + j)), enc (W + ∑ j ∈ range K.F.cfg.batching, ρ (pos + j) • Y (pos + j))) := by
    rw [keyV_map hb0.ne', keyV_map hb0.ne', ea, eb]
    exact e1
  unfold clcr
  dsimp only
  rw [e0]
  rw [if_neg (show ¬ ((St (K.sums c (enc U) (enc W)) st pos p pr V).round > 0 ∧ rest.length < 2) from fun h => absurd (hl h.1) (by omega)), e2]
  dsimp only
  rw [keyV_map hb0.ne', List.length_map, List.length_range',
    show min K.F.cfg.batching (St (K.sums c (enc U) (enc W)) st pos p pr V).fix.cfg.batching = K.F.cfg.batching from min_self _]
  rfl

theorem tx_clcr (K : Rnd) {st : ℕ} (hs : st = 20 ∨ st = 21) (pos : ℕ) (pl pr : Powers) (V : Host) (bufs : List Buf) :
    step H rnd blind (.two (St K st pos pl pr V)) bufs = clcr H blind (St K st pos pl pr V) bufs := by
  show (if st = 2 then _ else if 3 ≤ st ∧ st ≤ 6 then _ else if st = 20 ∨ st = 21 then _ else _) = _
  rw [if_neg (by omega), if_neg (by omega), if_pos hs]

/-- The messages for one of the two products. -/
theorem clcr_phase (K : Rnd) (st cnt : ℕ) (hs : st = 20 ∨ st = 21) (pl pr : Powers) (V : Host) (msg : ℕ → List Buf) (PL : ℕ → Powers → Prop)
    (α ρ : ℕ → Fl) (X Y : ℕ → Sub) (hb0 : 0 < K.F.cfg.batching) (hn : 0 < K.n) (hcnt : cnt * K.F.cfg.batching = K.n)
    (h21 : st = 21 → K.c = 0 ∧ K.XA = enc (0 : Sub) ∧ K.XB = enc (0 : Sub))
    (hmsg : ∀ j c XA XB p, j < cnt →
      ∃ rest, msg j = ((List.range' (j * K.F.cfg.batching) K.F.cfg.batching).map fun j => sc (α j)) ::
        ((List.range' (j * K.F.cfg.batching) K.F.cfg.batching).map fun j => sc (ρ j)) :: rest ∧ (K.r > 0 → 2 ≤ rest.length) ∧
      (∀ i, i < K.F.cfg.batching → gOf H (St (K.sums c XA XB) st (j * K.F.cfg.batching) p pr V) (keyV K.F.cfg.batching (rest.getD 0 [])) i =
        some (enc (X (j * K.F.cfg.batching + i)))) ∧
      (∀ i p', i < K.F.cfg.batching → PL (j * K.F.cfg.batching + i) p' → ∃ p'',
        hOf H (St (K.sums c XA XB) st (j * K.F.cfg.batching) p pr V) (keyV K.F.cfg.batching (rest.getD 1 [])) i p' =
        some (p'', enc (Y (j * K.F.cfg.batching + i))) ∧ PL (j * K.F.cfg.batching + i + 1) p''))
    (hp : PL 0 pl) :
    ∃ p' c', collect H rnd blind msg cnt 0 (.two (St K st 0 pl pr V)) =
      ((clcrEnd H blind (St (K.sums c' (enc (∑ j ∈ range K.n, α j • X j)) (enc (∑ j ∈ range K.n, ρ j • Y j))) st K.n p' pr V)).bind fun r =>
        match r with | (d, .bufs b) => some (d, b.flatten) | _ => none) ∧
      (c' : Fl) = ∑ j ∈ range K.n, α j * ρ j ∧ PL K.n p' := by
  set b := K.F.cfg.batching with hb
  have hc0 : cnt ≠ 0 := by rintro rfl; omega
  obtain ⟨m, rfl⟩ : ∃ m, cnt = m + 1 := ⟨cnt - 1, by omega⟩
  have split_sum {M : Type} [AddCommMonoid M] (f : ℕ → M) (x : ℕ) : ∑ j ∈ range x, f j + ∑ j ∈ range b, f (x + j) = ∑ j ∈ range (x + b), f j :=
    (sum_range_add f x b).symm
  set Q : ℕ → Dev → Prop := fun j d => ∃ (p : Powers) (c c0 : ℤ) (XA XB : Bytes), PL (j * b) p ∧ (c : Fl) = ∑ i ∈ range (j * b), α i * ρ i ∧
    (st = 20 → j = 0 → c = 0) ∧
    (¬ (st = 20 ∧ j = 0) → c0 = c ∧ XA = enc (∑ i ∈ range (j * b), α i • X i) ∧ XB = enc (∑ i ∈ range (j * b), ρ i • Y i)) ∧
    d = .two (St (K.sums c0 XA XB) st (j * b) p pr V) with hQ
  have msg_run (j : ℕ) (hj : j < m + 1) (p : Powers) (c c0 : ℤ) (XA XB : Bytes) (hp : PL (j * b) p) (hc : (c : Fl) = ∑ i ∈ range (j * b), α i * ρ i)
      (hz : st = 20 → j = 0 → c = 0)
      (hX : ¬ (st = 20 ∧ j = 0) → c0 = c ∧ XA = enc (∑ i ∈ range (j * b), α i • X i) ∧ XB = enc (∑ i ∈ range (j * b), ρ i • Y i)) :
      ∃ p' c', clcr H blind (St (K.sums c0 XA XB) st (j * b) p pr V) (msg j) =
        (if (j + 1) * b ≥ K.n then clcrEnd H blind (St (K.sums c' (enc (∑ i ∈ range ((j + 1) * b), α i • X i)) (enc (∑ i ∈ range ((j + 1) * b), ρ i • Y i)))
          st ((j + 1) * b) p' pr V)
        else some (.two (St (K.sums c' (enc (∑ i ∈ range ((j + 1) * b), α i • X i)) (enc (∑ i ∈ range ((j + 1) * b), ρ i • Y i)))
          st ((j + 1) * b) p' pr V), .bufs [])) ∧ (c' : Fl) = ∑ i ∈ range ((j + 1) * b), α i * ρ i ∧ PL ((j + 1) * b) p' := by
    have hjz : j * b = 0 → j = 0 := fun h => by rcases Nat.mul_eq_zero.mp h with h | h <;> omega
    obtain ⟨p', c', e, ec, h'⟩ := clcr_msg (H := H) (blind := blind) K st (j * b) p pr V c (∑ i ∈ range (j * b), α i • X i) (∑ i ∈ range (j * b), ρ i • Y i) (msg j) PL
      α ρ X Y (fun a h0 => ⟨hz a (hjz h0), by rw [h0]; simp, by rw [h0]; simp⟩) hb0 c0 XA XB
      (fun h => hX fun h' => h ⟨h'.1, by rw [h'.2]; simp⟩) (hmsg j _ _ _ p hj) hp
    refine ⟨p', c', ?_, ?_, by rw [Nat.succ_mul]; exact h'⟩
    · rw [e, Nat.succ_mul, split_sum fun i => α i • X i, split_sum fun i => ρ i • Y i]
    · rw [ec, hc, split_sum fun i => α i * ρ i, Nat.succ_mul]
  have h0 : Q 0 (.two (St K st 0 pl pr V)) := by
    refine ⟨pl, 0, K.c, K.XA, K.XB, by simpa using hp, by simp, fun _ _ => rfl, fun h => ?_, by rw [Nat.zero_mul]; rfl⟩
    have : st = 21 := by
      rcases hs with h' | h'
      · exact absurd ⟨h', rfl⟩ h
      · exact h'
    obtain ⟨a, b1, c⟩ := h21 this
    exact ⟨a, by rw [b1]; simp, by rw [c]; simp⟩
  obtain ⟨d', e, p1, c1, c0, XA, XB, hp1, hc1, hz, hX, rfl⟩ := collect_run (H := H) (rnd := rnd) (blind := blind) (msg := msg) Q (fun _ => []) m 0 _ (by
    rintro j d - hj ⟨p, c, c0, XA, XB, hp, hc, hz, hX, rfl⟩
    obtain ⟨p', c', e, ec, h'⟩ := msg_run j (by omega) p c c0 XA XB hp hc hz hX
    have hlt : ¬ (j + 1) * b ≥ K.n := by
      have : (j + 1) * b < (m + 1) * b := Nat.mul_lt_mul_of_pos_right (by omega) hb0
      omega
    rw [if_neg hlt] at e
    refine ⟨_, [], ?_, rfl, p', c', c', _, _, h', ec, fun _ h => absurd h (Nat.succ_ne_zero _), fun _ => ⟨rfl, rfl, rfl⟩, rfl⟩
    rw [tx, tx_clcr _ hs, e]) h0
  obtain ⟨p', c', e2, ec, h'⟩ := msg_run m (by omega) p1 c1 c0 XA XB (by simpa using hp1) (by simpa using hc1) (by simpa using hz) (by simpa using hX)
  rw [if_pos hcnt.ge, hcnt] at e2
  rw [hcnt] at ec h'
  refine ⟨p', c', ?_, ec, h'⟩
  rw [collect_snoc, e, Option.bind_some, Nat.zero_add, tx, tx_clcr _ hs, e2]
  cases clcrEnd H blind (St (K.sums c' (enc (∑ j ∈ range K.n, α j • X j)) (enc (∑ j ∈ range K.n, ρ j • Y j))) st K.n p' pr V) with
  | none => rfl
  | some r =>
    obtain ⟨d, r⟩ := r
    cases r <;> simp

theorem clcrEnd_20 (K : Rnd) (pos : ℕ) (p pr : Powers) (V : Host) (c : ℤ) (A B : Sub) (hr : K.r < K.F.logMN) :
    clcrEnd H blind (St (K.sums c (enc A) (enc B)) 20 pos p pr V) =
      some (.two (St ({ K with L := K.L.set K.r (enc ((inv8 : Fl) • (((K.β 4 : Fl)⁻¹ * (eff K.r K.β 1)⁻¹) • A + ((K.β 7 : Fl)⁻¹ * (eff K.r K.β 2)⁻¹) • B +
        (((c : Fl) * (K.β 4 : Fl)⁻¹ * (K.β 7 : Fl)⁻¹) * K.F.xip) • hS))) }.sums 0 one one) 21 0 p pr V), .bufs []) := by
  have ibg (i : ℕ) (hi : i < 4) : (((if K.r > 0 then K.β i else 1 : ℤ)) : Fl) = eff K.r K.β i := by
    unfold eff
    by_cases h0 : K.r = 0
    · simp [h0, hi]
    · simp [h0, Nat.pos_of_ne_zero h0]
  have e : clcrEnd H blind (St (K.sums c (enc A) (enc B)) 20 pos p pr V) = (do
      let XA ← scalarmultKey (enc A) (scInv (scMul (K.β 4) (if K.r > 0 then K.β 1 else 1)))
      let XB ← scalarmultKey (enc B) (scInv (scMul (K.β 7) (if K.r > 0 then K.β 2 else 1)))
      let P ← closeDot K.F.xip XA XB (scMul c (scInv (scMul (K.β 4) (K.β 7))))
      if K.r ≥ K.F.logMN then none
      else some (.two (St ({ K with L := K.L.set K.r P }.sums 0 one one) 21 0 p pr V), .bufs [])) := rfl
  rw [e, scalarmultKey_enc _ (scInv_nn _), scalarmultKey_enc _ (scInv_nn _)]
  simp only [Option.bind_eq_bind, Option.bind_some, closeDot_enc, cast_scInv, cast_scMul, ibg 1 (by omega), ibg 2 (by omega), mul_inv]
  rw [if_neg (by omega), ← mul_assoc (c : Fl)]

theorem clcrEnd_21 (K : Rnd) (pos : ℕ) (p pr : Powers) (V : Host) (c : ℤ) (A B : Sub) (hr : K.r < K.F.logMN) (hR : K.R.length = K.F.logMN) {Lp Rp : Bytes}
    (hL : K.L[K.r]? = some Lp)
    (hRp : Rp = enc ((inv8 : Fl) • (((K.β 5 : Fl)⁻¹ * (eff K.r K.β 0)⁻¹) • A + ((K.β 6 : Fl)⁻¹ * (eff K.r K.β 3)⁻¹) • B +
        (((c : Fl) * (K.β 5 : Fl)⁻¹ * (K.β 6 : Fl)⁻¹) * K.F.xip) • hS))) (hm : K.F.cfg.method = 0) :
    clcrEnd H blind (St (K.sums c (enc A) (enc B)) 21 pos p pr V) =
      if mash H K.cache [Lp, Rp] = 0 then none
      else some (.two (St ((K.sums c (enc A) (enc B)).chal (mash H K.cache [Lp, Rp]) Lp Rp (blind K.k)) 3 0 p pr V), .bufs []) := by
  have ibg (i : ℕ) (hi : i < 4) : (((if K.r > 0 then K.β i else 1 : ℤ)) : Fl) = eff K.r K.β i := by
    unfold eff
    by_cases h0 : K.r = 0
    · simp [h0, hi]
    · simp [h0, Nat.pos_of_ne_zero h0]
  have e : clcrEnd H blind (St (K.sums c (enc A) (enc B)) 21 pos p pr V) = (do
      let XA ← scalarmultKey (enc A) (scInv (scMul (K.β 5) (if K.r > 0 then K.β 0 else 1)))
      let XB ← scalarmultKey (enc B) (scInv (scMul (K.β 6) (if K.r > 0 then K.β 3 else 1)))
      let P ← closeDot K.F.xip XA XB (scMul c (scInv (scMul (K.β 5) (K.β 6))))
      if K.r ≥ K.F.logMN then none
      else do
        let d ← challenge H blind (St ({ K with R := K.R.set K.r P }.sums c (enc A) (enc B)) 21 pos p pr V)
        some (.two d, .bufs (if d.fix.cfg.method ≥ 2 then consts d else []))) := rfl
  rw [e, scalarmultKey_enc _ (scInv_nn _), scalarmultKey_enc _ (scInv_nn _)]
  simp only [Option.bind_eq_bind, Option.bind_some, closeDot_enc, cast_scInv, cast_scMul, ibg 0 (by omega), ibg 3 (by omega), mul_inv]
  have hset : K.L.set K.r Lp = K.L := by
    obtain ⟨h, rfl⟩ := List.getElem?_eq_some_iff.mp hL
    exact List.set_getElem_self h
  have ch : challenge H blind (St ({ K with R := K.R.set K.r Rp }.sums c (enc A) (enc B)) 21 pos p pr V) = if mash H K.cache [Lp, Rp] = 0 then none
      else some (St ((K.sums c (enc A) (enc B)).chal (mash H K.cache [Lp, Rp]) Lp Rp (blind K.k)) 3 0 p pr V) := by
    have := challenge_run H blind K.F 21 pos K.r K.n K.cache K.L (K.R.set K.r Rp) K.w c (enc A) (enc B) K.β K.γ K.k p pr V.G V.Hp V.a V.b Lp Rp hL
      (by rw [List.getElem?_set_self (by omega)])
    simp only [St, Rnd.chal, Rnd.sums, hset]
    exact this
  rw [if_neg (by omega), ← mul_assoc (c : Fl), ← hRp, ch]
  by_cases hw : mash H K.cache [Lp, Rp] = 0
  · rw [if_pos hw, if_pos hw]; rfl
  · rw [if_neg hw, if_neg hw, Option.bind_some]
    have : ¬ (St ((K.sums c (enc A) (enc B)).chal (mash H K.cache [Lp, Rp]) Lp Rp (blind K.k)) 3 0 p pr V).fix.cfg.method ≥ 2 := by
      show ¬ K.F.cfg.method ≥ 2; omega
    rw [if_neg this]

end

end Verif.Off

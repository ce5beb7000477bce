import Verif.Lemmas.OffFirst

/-! The first phase of the offloaded prover: the blinded vectors `l` and `r` in chunks. -/

namespace Verif.Off
open Verif Ed Key Sig Edwards Bp Finset KeyV

theorem idx_ok {size i : ℕ} (hi : i < size) : idxize size (i : ℤ) = some (i : ℤ) := by
  have e : at' size (i : ℤ) = i := by simp [at']
  have := idxize_ok (size := size) (i := (i : ℤ)) (by rw [e]; omega)
  rwa [e] at this

/-- Index `i` can be read next. -/
def PrngRdy (i : ℕ) (p : Prng) : Prop := i = 0 ∨ (p.drawn = i ∧ p.last = (i : ℤ) - 1)

theorem prng_get {size i : ℕ} (str : ℕ → ℤ) {p : Prng} (hi : i < size) (h : PrngRdy i p) :
    ∃ p', Prng.get size false str p i = (p', some (str i)) ∧ PrngRdy (i + 1) p' := by
  rw [Prng.get, idx_ok hi]
  dsimp only
  by_cases h0 : i = 0
  · subst h0
    exact ⟨⟨1, str 0, 0⟩, rfl, Or.inr ⟨rfl, by simp⟩⟩
  · obtain ⟨a, b⟩ := h.resolve_left h0
    rw [if_neg (by omega), if_neg (by omega), if_pos (by omega)]
    refine ⟨⟨i + 1, str i, i⟩, by simp [Prng.next, a], Or.inr ⟨rfl, by push_cast; ring⟩⟩

def R0Rdy (y z : ℤ) (i : ℕ) (s : R0) : Prop :=
  i = 0 ∨ (s.last = (i : ℤ) - 1 ∧ s.yp = ypAt y (i - 1) ∧ s.zt = ztAt z ((i - 1) / 64) ∧ s.p2 = p2At ((i - 1) % 64))

theorem r0_get {size i : ℕ} (aR : ℕ → ℤ) (y z : ℤ) {s : R0} (hi : i < size) (h : R0Rdy y z i s) :
    ∃ s', R0.get size 64 aR y z s i = (s', some (r0At (aR i) y z i)) ∧ R0Rdy y z (i + 1) s' := by
  rw [R0.get, idx_ok hi]
  dsimp only
  by_cases h0 : i = 0
  · subst h0
    refine ⟨_, rfl, Or.inr ⟨?_, ?_, ?_, ?_⟩⟩ <;> simp [R0.eval, R0.reset, ypAt, ztAt, p2At]
  · obtain ⟨a, b, c, d⟩ := h.resolve_left h0
    obtain ⟨j, rfl⟩ : ∃ j, i = j + 1 := ⟨i - 1, by omega⟩
    simp only [Nat.add_sub_cancel] at b c d
    rw [if_neg (by omega), if_pos (by omega)]
    have t : (R0.advance 64 y z ((j + 1 : ℕ) : ℤ) { s with last := ((j + 1 : ℕ) : ℤ) }).last = ((j + 1 : ℕ) : ℤ) ∧
        (R0.advance 64 y z ((j + 1 : ℕ) : ℤ) { s with last := ((j + 1 : ℕ) : ℤ) }).yp = ypAt y (j + 1) ∧
        (R0.advance 64 y z ((j + 1 : ℕ) : ℤ) { s with last := ((j + 1 : ℕ) : ℤ) }).zt = ztAt z ((j + 1) / 64) ∧
        (R0.advance 64 y z ((j + 1 : ℕ) : ℤ) { s with last := ((j + 1 : ℕ) : ℤ) }).p2 = p2At ((j + 1) % 64) := by
      by_cases hm : (j + 1) % 64 = 0
      · have hd : (j + 1) / 64 = j / 64 + 1 := by omega
        rw [R0.advance, if_pos (by omega), hd, hm]
        exact ⟨rfl, by simp [ypAt, b], by simp [ztAt, c], rfl⟩
      · have hd : (j + 1) / 64 = j / 64 := by omega
        have he : (j + 1) % 64 = j % 64 + 1 := by omega
        rw [R0.advance, if_neg (by omega), hd, he]
        exact ⟨rfl, by simp [ypAt, b], c, by simp [p2At, d]⟩
    generalize R0.advance 64 y z ((j + 1 : ℕ) : ℤ) { s with last := ((j + 1 : ℕ) : ℤ) } = T at t
    obtain ⟨t1, t2, t3, t4⟩ := t
    refine ⟨R0.eval aR z ((j + 1 : ℕ) : ℤ) T, ?_, Or.inr ⟨?_, t2, t3, t4⟩⟩
    · rw [Prod.mk.injEq]
      refine ⟨rfl, ?_⟩
      simp only [R0.eval, t2, t3, t4, Int.toNat_natCast]
      rfl
    · show T.last = _
      rw [t1]; push_cast; ring

/-- The elements of `l` and `r`. -/
def lAt (rnd : Rand) (sv : List ℤ) (z x : ℤ) (i : ℕ) : ℤ := scMuladd x (rnd.sL i) (scSub (aLAt sv i) z)
def rAt (rnd : Rand) (sv : List ℤ) (y z x : ℤ) (i : ℕ) : ℤ := scMuladd x (scMul (rnd.sR i) (pw y i)) (r0At (aRAt sv i) y z i)

/-- The lazy vectors can be read at `i`. -/
def LrRdy (y z : ℤ) (i : ℕ) (o : Lr) : Prop := PrngRdy i o.sL ∧ PrngRdy i o.sR ∧ R0Rdy y z i o.r0 ∧ Rdy y i o.yp

theorem lrElem_run (rnd : Rand) (d : P1) {o : Lr} {i : ℕ} (hi : i < d.MN) (h : LrRdy d.y d.z i o) :
    ∃ o', lrElem rnd d o i = some (o', lAt rnd d.sv d.z d.x i, rAt rnd d.sv d.y d.z d.x i) ∧ LrRdy d.y d.z (i + 1) o' := by
  obtain ⟨h1, h2, h3, h4⟩ := h
  obtain ⟨p1, e1, r1⟩ := prng_get rnd.sL hi h1
  obtain ⟨p2, e2, r2⟩ := prng_get rnd.sR hi h2
  obtain ⟨p3, e3, r3⟩ := r0_get (aRAt d.sv) d.y d.z hi h3
  obtain ⟨p4, e4, r4⟩ := powers_get (x := d.y) hi h4
  refine ⟨⟨p1, p2, p3, p4⟩, ?_, r1, r2, r3, r4⟩
  rw [lrElem, e1, e2, e3, e4]
  rfl

/-- The inner product so far. -/
def tsAt (a b : ℕ → ℤ) (s n : ℕ) (t : ℤ) : ℤ := (List.range' s n).foldl (fun acc i => scMuladd (a i) (b i) acc) t

theorem half_bl (bl : ℕ → ℤ) (N k i : ℕ) (f : ℕ → ℤ) : encodeInt (scMul (f i) (bl (k + half N i))) =
    sc (blS (N / 2) (bl k) (bl (k + 1)) (fun i => (f i : Fl)) i) := by
  rw [sc_mul, blS, bl2, half, mul_comm]
  by_cases h : i ≥ N / 2
  · rw [if_pos h, if_neg (by omega)]
  · rw [if_neg h, if_pos (by omega)]; rfl

theorem lrLoop_run (rnd : Rand) (d : P1) : ∀ (n i : ℕ) (o : Lr) (ts : ℤ), i + n ≤ d.MN → LrRdy d.y d.z i o →
    ∃ o', lrLoop rnd d n i o ts = some (o', tsAt (lAt rnd d.sv d.z d.x) (rAt rnd d.sv d.y d.z d.x) i n ts,
      scs i n (blS (d.MN / 2) (d.bl 4) (d.bl 5) fun i => (lAt rnd d.sv d.z d.x i : Fl)),
      scs i n (blS (d.MN / 2) (d.bl 6) (d.bl 7) fun i => (rAt rnd d.sv d.y d.z d.x i : Fl))) ∧ LrRdy d.y d.z (i + n) o'
  | 0, i, o, ts, _, h => ⟨o, rfl, h⟩
  | n + 1, i, o, ts, hi, h => by
    obtain ⟨o1, e1, h1⟩ := lrElem_run rnd d (show i < d.MN by omega) h
    obtain ⟨o2, e2, h2⟩ := lrLoop_run rnd d n (i + 1) o1 (scMuladd (lAt rnd d.sv d.z d.x i) (rAt rnd d.sv d.y d.z d.x i) ts) (by omega) h1
    refine ⟨o2, ?_, by rwa [show i + (n + 1) = i + 1 + n by ring]⟩
    rw [lrLoop, e1]
    simp only
    rw [e2]
    simp only [half_bl]
    rfl

theorem tsAt_append (a b : ℕ → ℤ) (s n m : ℕ) (t : ℤ) : tsAt a b (s + n) m (tsAt a b s n t) = tsAt a b s (n + m) t := by
  unfold tsAt
  rw [← List.foldl_append]
  congr 1
  have := List.range'_append (s := s) (m := n) (n := m) (step := 1)
  rwa [Nat.one_mul] at this

theorem scs_append (s n m : ℕ) (A : ℕ → Fl) : scs s n A ++ scs (s + n) m A = scs s (n + m) A := by
  unfold scs
  rw [← List.map_append]
  congr 1
  have := List.range'_append (s := s) (m := n) (n := m) (step := 1)
  rwa [Nat.one_mul] at this

/-- The device while it sends `l` and `r`: after `pos` elements. -/
def D1 (d : P1) (rnd : Rand) (o : Option Lr) (pos : ℕ) : P1 :=
  { d with ts := tsAt (lAt rnd d.sv d.z d.x) (rAt rnd d.sv d.y d.z d.x) 0 pos 0, lr := o, done := false, offpos := pos }
/-- ... and when it has sent all. -/
def D1e (d : P1) (rnd : Rand) : P1 :=
  { d with ts := tsAt (lAt rnd d.sv d.z d.x) (rAt rnd d.sv d.y d.z d.x) 0 d.MN 0, lr := none, done := true, offpos := 0 }

/-- The state of the device after `j` chunks. -/
def S1 (d : P1) (rnd : Rand) (j : ℕ) (x : Dev) : Prop :=
  (j * d.cfg.batching < d.MN ∧ ∃ o, x = .one (D1 d rnd o (j * d.cfg.batching)) ∧ LrRdy d.y d.z (j * d.cfg.batching) (lrObjects d.z o)) ∨
  (j * d.cfg.batching = d.MN ∧ x = .one (D1e d rnd))

theorem lrObjects_some {y z : ℤ} {i : ℕ} {o : Lr} (h : LrRdy y z i o) : LrRdy y z i (lrObjects z (some o)) := by
  obtain ⟨a, b, c, d⟩ := h
  exact ⟨a, b, c, d⟩

theorem lrObjects_none (y z : ℤ) : LrRdy y z 0 (lrObjects z none) := ⟨Or.inl rfl, Or.inl rfl, Or.inl rfl, Or.inl (by omega)⟩

theorem phase1_step (d : P1) (rnd : Rand) {cnt : ℕ} (hcnt : cnt * d.cfg.batching = d.MN) {j : ℕ} (hj : j < cnt) (hb : 0 < d.cfg.batching) {o : Option Lr}
    (h : LrRdy d.y d.z (j * d.cfg.batching) (lrObjects d.z o)) :
    ∃ x, phase1Lr rnd (D1 d rnd o (j * d.cfg.batching)) = some (x, .bufs
      [scs (j * d.cfg.batching) d.cfg.batching (blS (d.MN / 2) (d.bl 4) (d.bl 5) fun i => (lAt rnd d.sv d.z d.x i : Fl)),
       scs (j * d.cfg.batching) d.cfg.batching (blS (d.MN / 2) (d.bl 6) (d.bl 7) fun i => (rAt rnd d.sv d.y d.z d.x i : Fl))]) ∧ S1 d rnd (j + 1) x := by
  have hle : (j + 1) * d.cfg.batching ≤ d.MN := by rw [← hcnt]; exact Nat.mul_le_mul_right _ hj
  have hs : (j + 1) * d.cfg.batching = j * d.cfg.batching + d.cfg.batching := Nat.succ_mul _ _
  obtain ⟨o', e, r⟩ := lrLoop_run rnd (D1 d rnd o (j * d.cfg.batching)) d.cfg.batching (j * d.cfg.batching) (lrObjects d.z o)
    (tsAt (lAt rnd d.sv d.z d.x) (rAt rnd d.sv d.y d.z d.x) 0 (j * d.cfg.batching) 0) (by show _ ≤ d.MN; omega) h
  have et := tsAt_append (lAt rnd d.sv d.z d.x) (rAt rnd d.sv d.y d.z d.x) 0 (j * d.cfg.batching) d.cfg.batching 0
  rw [Nat.zero_add] at et
  change lrLoop rnd (D1 d rnd o (j * d.cfg.batching)) d.cfg.batching (j * d.cfg.batching) (lrObjects d.z o) _ =
    some (o', tsAt (lAt rnd d.sv d.z d.x) (rAt rnd d.sv d.y d.z d.x) (j * d.cfg.batching) d.cfg.batching
      (tsAt (lAt rnd d.sv d.z d.x) (rAt rnd d.sv d.y d.z d.x) 0 (j * d.cfg.batching) 0), _, _) at e
  rw [et] at e
  have ep : phase1Lr rnd (D1 d rnd o (j * d.cfg.batching)) =
      match lrLoop rnd (D1 d rnd o (j * d.cfg.batching)) d.cfg.batching (j * d.cfg.batching) (lrObjects d.z o)
        (tsAt (lAt rnd d.sv d.z d.x) (rAt rnd d.sv d.y d.z d.x) 0 (j * d.cfg.batching) 0) with
      | none => none
      | some (o, ts, l, r) =>
        if j * d.cfg.batching + d.cfg.batching ≥ d.MN then some (.one { D1 d rnd o (j * d.cfg.batching) with ts := ts, lr := none, done := true, offpos := 0 }, .bufs [l, r])
        else some (.one { D1 d rnd o (j * d.cfg.batching) with ts := ts, lr := some o, offpos := j * d.cfg.batching + d.cfg.batching }, .bufs [l, r]) := rfl
  rw [ep, e]
  dsimp only
  by_cases hc : j * d.cfg.batching + d.cfg.batching ≥ d.MN
  · rw [if_pos hc]
    refine ⟨_, rfl, Or.inr ⟨by omega, ?_⟩⟩
    have : j * d.cfg.batching + d.cfg.batching = d.MN := by omega
    rw [this]
    rfl
  · rw [if_neg hc]
    refine ⟨_, rfl, Or.inl ⟨by omega, some o', ?_, ?_⟩⟩
    · rw [hs]; rfl
    · rw [hs]; exact lrObjects_some r

section
variable {H : Bytes → Bytes} {rnd : Rand} {blind : ℕ → ℕ → ℤ}

theorem recvLr_run (d : P1) {cnt : ℕ} (hcnt : cnt * d.cfg.batching = d.MN) (hb : 0 < d.cfg.batching) : ∀ (n j : ℕ) (x : Dev) (l r : Buf), j + n = cnt →
    S1 d rnd j x → recvLr H rnd blind n x l r = some (.one (D1e d rnd),
      l ++ scs (j * d.cfg.batching) (n * d.cfg.batching) (blS (d.MN / 2) (d.bl 4) (d.bl 5) fun i => (lAt rnd d.sv d.z d.x i : Fl)),
      r ++ scs (j * d.cfg.batching) (n * d.cfg.batching) (blS (d.MN / 2) (d.bl 6) (d.bl 7) fun i => (rAt rnd d.sv d.y d.z d.x i : Fl)))
  | 0, j, x, l, r, hj, h => by
    have : j = cnt := by omega
    subst this
    rcases h with h | h
    · omega
    · rw [recvLr, h.2]; simp [scs]
  | n + 1, j, x, l, r, hj, h => by
    have hlt : j * d.cfg.batching < d.MN := by rw [← hcnt]; exact Nat.mul_lt_mul_of_pos_right (by omega) hb
    rcases h with h | h
    · obtain ⟨-, o, rfl, ho⟩ := h
      obtain ⟨x', e, hx⟩ := phase1_step d rnd hcnt (by omega) hb ho
      have et : tx H rnd blind (.one (D1 d rnd o (j * d.cfg.batching))) [] = some (x',
          [scs (j * d.cfg.batching) d.cfg.batching (blS (d.MN / 2) (d.bl 4) (d.bl 5) fun i => (lAt rnd d.sv d.z d.x i : Fl)),
           scs (j * d.cfg.batching) d.cfg.batching (blS (d.MN / 2) (d.bl 6) (d.bl 7) fun i => (rAt rnd d.sv d.y d.z d.x i : Fl))]) := by
        have : step H rnd blind (.one (D1 d rnd o (j * d.cfg.batching))) [] = phase1Lr rnd (D1 d rnd o (j * d.cfg.batching)) := rfl
        rw [tx, this, e]
      rw [recvLr, et]
      dsimp only
      rw [recvLr_run d hcnt hb n (j + 1) x' _ _ (by omega) hx, List.append_assoc, List.append_assoc, Nat.succ_mul j, scs_append, scs_append,
        show (n + 1) * d.cfg.batching = d.cfg.batching + n * d.cfg.batching by ring]
    · omega

end

end Verif.Off

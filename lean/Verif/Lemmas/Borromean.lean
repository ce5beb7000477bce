import Verif.Lemmas.SigRings
import Verif.Props.CurveCodec

/-! Borromean signatures and range proofs. -/

namespace Verif.Sig
open Verif Ed Key Edwards

/-! ## The signature -/

/-- Usable input for one bit: the secret opens the commitment selected by the bit. -/
structure BitOk (b : BitIn) (p1 p2 : Point) : Prop where
  r1 : Rep b.P1 p1
  r2 : Rep b.P2 p2
  zero : b.bit = 0 → p1 = b.x • base
  one : b.bit ≠ 0 → p2 = b.x • base

theorem boro_bit (H : Bytes → Bytes) {b : BitIn} {p1 p2 : Point} (h : BitOk b p1 p2) {ee : ℤ} (hee : 0 ≤ ee) :
    encodePoint (addKeys2 (boroSecond H ee b.x b.P1 b.bit b.rnd).2
      (hs H (encodePoint (addKeys2 (boroSecond H ee b.x b.P1 b.bit b.rnd).1 ee b.P1))) b.P2) = boroFirst H b.P2 b.bit b.rnd := by
  obtain ⟨r1, r2, h0, h1⟩ := h
  unfold boroSecond boroFirst
  by_cases hb : b.bit = 0
  · rw [if_pos hb, if_pos hb]
    dsimp only
    rw [encodePoint_rep (rep_addKeys2 r1 _ hee), h0 hb, closing_eq' l_base, ← encodePoint_rep (rep_B b.rnd.alpha)]
  · rw [if_neg hb, if_neg hb]
    dsimp only
    rw [encodePoint_rep (rep_addKeys2 r2 _ (hs_range _ _).1), h1 hb, closing_eq' l_base, ← encodePoint_rep (rep_B b.rnd.alpha)]

theorem boroCheck_gen (H : Bytes → Bytes) {ee : ℤ} (hee : 0 ≤ ee) : ∀ ins : List BitIn, (∀ b ∈ ins, ∃ p1 p2, BitOk b p1 p2) →
    boroCheck H ee (ins.map (·.P1)) (ins.map (·.P2)) ((ins.map fun b => boroSecond H ee b.x b.P1 b.bit b.rnd).map (·.1))
      ((ins.map fun b => boroSecond H ee b.x b.P1 b.bit b.rnd).map (·.2)) = some (ins.map fun b => boroFirst H b.P2 b.bit b.rnd).flatten
  | [], _ => by rw [boroCheck.eq_def]; rfl
  | b :: ins, h => by
    obtain ⟨p1, p2, hb⟩ := h b (by simp)
    simp only [List.map_cons, boroCheck, boroCheck_gen H hee ins (fun x hx => h x (by simp [hx])), Option.map_some, List.flatten_cons,
      boro_bit H hb hee]

theorem boro_complete (H : Bytes → Bytes) (ins : List BitIn) (h : ∀ b ∈ ins, ∃ p1 p2, BitOk b p1 p2) :
    verBorromean H (ins.map (·.P1)) (ins.map (·.P2)) (genBorromean H ins).s0 (genBorromean H ins).s1 (genBorromean H ins).ee = some true := by
  unfold verBorromean genBorromean
  dsimp only
  rw [boroCheck_gen H (hs_range _ _).1 ins h]
  simp

theorem boroCheck_rep (H : Bytes → Bytes) {ee : ℤ} (hee : 0 ≤ ee) : ∀ (ps : List (Point × Point)) (P1 P2 : List Ext),
    Reps P1 (ps.map (·.1)) → Reps P2 (ps.map (·.2)) → ∀ s0 s1 : List ℤ,
    boroCheck H ee P1 P2 s0 s1 = if ps.length ≤ s0.length ∧ ps.length ≤ s1.length then some (boroData H ee ps s0 s1) else none
  | [], _, _, .nil, _, s0, s1 => by rw [boroCheck.eq_def, boroData.eq_def]; simp
  | (p1, p2) :: ps, _, _, .cons h1 t1, .cons h2 t2, s0, s1 => by
    cases s0 with
    | nil => rw [boroCheck.eq_def]; simp
    | cons x s0 => cases s1 with
      | nil => rw [boroCheck.eq_def]; simp
      | cons y s1 =>
        rw [boroCheck, boroCheck_rep H hee ps _ _ t1 t2 s0 s1, boroData]
        simp only [List.length_cons, Nat.add_le_add_iff_right]
        split
        · rw [Option.map_some, encodePoint_rep (rep_addKeys2 h1 _ hee), encodePoint_rep (rep_addKeys2 h2 _ (hs_range _ _).1)]
        · rfl

/-! ## Bits -/

/-- Value of a list of binary digits, least significant first. -/
def bitsVal : List ℕ → ℕ
  | [] => 0
  | b :: bs => b + 2 * bitsVal bs

theorem d2bLoop_some : ∀ (k n : ℕ), n < 2 ^ k → ∃ bs, d2bLoop k n = some bs ∧ bs.length = k ∧ bitsVal bs = n ∧ ∀ b ∈ bs, b ≤ 1
  | 0, n, h => ⟨[], by rw [d2bLoop, if_pos (by omega)], rfl, by simp [bitsVal]; omega, by simp⟩
  | k + 1, n, h => by
    obtain ⟨bs, h1, h2, h3, h4⟩ := d2bLoop_some k (n / 2) (by rw [pow_succ] at h; omega)
    refine ⟨n % 2 :: bs, by rw [d2bLoop, h1]; rfl, by simp [h2], by rw [bitsVal, h3]; omega, ?_⟩
    intro b hb
    simp only [List.mem_cons] at hb
    rcases hb with rfl | hb
    · omega
    · exact h4 b hb

theorem d2bLoop_none : ∀ (k n : ℕ), 2 ^ k ≤ n → d2bLoop k n = none
  | 0, n, h => by rw [d2bLoop, if_neg (by simp at h; omega)]
  | k + 1, n, h => by rw [d2bLoop, d2bLoop_none k (n / 2) (by rw [pow_succ] at h; omega)]; rfl

/-- The digits `(n >> i) & 1` from position `i`. -/
def shiftBits (n : ℕ) : ℕ → ℕ → List ℕ
  | _, 0 => []
  | i, k + 1 => (n >>> i) % 2 :: shiftBits n (i + 1) k

theorem shiftBits_d2b (n : ℕ) : ∀ k i : ℕ, d2bLoop k ((n >>> i) % 2 ^ k) = some (shiftBits n i k)
  | 0, i => by rw [d2bLoop, if_pos (by omega)]; rfl
  | k + 1, i => by
    have h1 : (n >>> i) % 2 ^ (k + 1) / 2 = (n >>> (i + 1)) % 2 ^ k := by
      rw [Nat.shiftRight_succ, pow_succ', Nat.mod_mul_right_div_self]
    have h2 : (n >>> i) % 2 ^ (k + 1) % 2 = (n >>> i) % 2 := Nat.mod_mod_of_dvd _ (Dvd.intro_left (2 ^ k) rfl)
    rw [d2bLoop, h1, shiftBits_d2b n k (i + 1), h2]; rfl

/-! ## Commitments to the bits -/

theorem hPow_length : ∀ (n : ℕ) (P : Ext), (hPow n P).length = n
  | 0, _ => rfl
  | n + 1, P => by rw [hPow, List.length_cons, hPow_length n]

theorem length_succ {α : Type} {l : List α} {n : ℕ} (h : l.length = n + 1) : ∃ x t, l = x :: t ∧ t.length = n := by
  cases l with
  | nil => simp at h
  | cons x t => exact ⟨x, t, rfl, by simpa using h⟩

theorem bitIns_spec (as : List ℤ) (bs : List ℕ) (rs : List BitRnd) (n : ℕ) (P : Ext) (h : Point) (h1 : as.length = n) (h2 : bs.length = n)
    (h3 : rs.length = n) (hP : Rep P h) (hb : ∀ b ∈ bs, b ≤ 1) :
    (bitIns as bs (hPow n P) rs).length = n ∧ (∀ b ∈ bitIns as bs (hPow n P) rs, ∃ p1 p2, BitOk b p1 p2) ∧
    ∀ (acc : Ext) (q : Point), Rep acc q →
      Rep (((bitIns as bs (hPow n P) rs).map (·.P1)).foldl add acc) (q + as.sum • base + (bitsVal bs : ℤ) • h) := by
  induction n generalizing as bs rs P h with
  | zero =>
    obtain rfl := List.length_eq_zero_iff.mp h1
    obtain rfl := List.length_eq_zero_iff.mp h2
    obtain rfl := List.length_eq_zero_iff.mp h3
    exact ⟨by simp [bitIns], by simp [bitIns], fun acc q hq => by simpa [bitIns, bitsVal] using hq⟩
  | succ n ih =>
    obtain ⟨a, as, rfl, g1⟩ := length_succ h1
    obtain ⟨b, bs, rfl, g2⟩ := length_succ h2
    obtain ⟨r, rs, rfl, g3⟩ := length_succ h3
    obtain ⟨e1, e2, e3⟩ := ih as bs rs (add P P) (h + h) g1 g2 g3 (rep_add hP hP) (fun x hx => hb x (by simp [hx]))
    have hb1 := hb b (by simp)
    have hC : Rep (bitCommit a b P) (a • base + (b : ℤ) • h) := by
      unfold bitCommit
      split
      · rename_i h0; rw [h0, Nat.cast_zero, zero_smul, add_zero]; exact rep_B a
      · rename_i h0; rw [show b = 1 by omega, Nat.cast_one, one_smul]; exact rep_add (rep_B a) hP
    rw [hPow, bitIns]
    refine ⟨by simp [e1], ?_, ?_⟩
    · intro x hx
      simp only [List.mem_cons] at hx
      rcases hx with rfl | hx
      · refine ⟨_, _, hC, rep_sub hC hP, ?_, ?_⟩
        · intro h0
          dsimp only at h0 ⊢
          rw [h0, Nat.cast_zero, zero_smul, add_zero]
        · intro h0
          dsimp only at h0 ⊢
          rw [show b = 1 by omega, Nat.cast_one, one_smul, add_sub_cancel_right]
      · exact e2 x hx
    · intro acc q hq
      have := e3 (add acc (bitCommit a b P)) _ (rep_add hq hC)
      rw [List.map_cons, List.foldl_cons]
      convert this using 1
      rw [List.sum_cons, bitsVal]
      push_cast
      module

theorem bitIns_rnd (as : List ℤ) (bs : List ℕ) (hs : List Ext) (rs : List BitRnd) : ∀ b ∈ bitIns as bs hs rs, b.rnd ∈ rs := by
  induction rs generalizing as bs hs with
  | nil => intro b hb; rw [bitIns.eq_def] at hb; split at hb <;> simp_all
  | cons r rs ih =>
    intro b hb
    rw [bitIns.eq_def] at hb
    split at hb
    · rename_i h
      simp only [List.cons.injEq] at h
      obtain ⟨rfl, rfl⟩ := h
      simp only [List.mem_cons] at hb
      rcases hb with rfl | hb
      · simp
      · exact List.mem_cons_of_mem _ (ih _ _ _ b hb)
    · simp at hb

theorem verSums_bitIns (as : List ℤ) (bs : List ℕ) (rs : List BitRnd) (n : ℕ) (P acc : Ext) (h1 : as.length = n) (h2 : bs.length = n)
    (h3 : rs.length = n) :
    verSums ((bitIns as bs (hPow n P) rs).map (·.P1)) (hPow n P) acc =
      ((bitIns as bs (hPow n P) rs).map (·.P2), ((bitIns as bs (hPow n P) rs).map (·.P1)).foldl add acc) := by
  induction n generalizing as bs rs P acc with
  | zero =>
    obtain rfl := List.length_eq_zero_iff.mp h1
    rw [verSums.eq_def]; simp [bitIns]
  | succ n ih =>
    obtain ⟨a, as, rfl, g1⟩ := length_succ h1
    obtain ⟨b, bs, rfl, g2⟩ := length_succ h2
    obtain ⟨r, rs, rfl, g3⟩ := length_succ h3
    have := ih as bs rs (add P P) (add acc (bitCommit a b P)) g1 g2 g3
    rw [hPow, bitIns]
    simp only [List.map_cons, List.foldl_cons, verSums]
    rw [this]

theorem masks_length (last : Option ℤ) : ∀ (rs : List ℤ) (a : ℤ), (masks last rs a).1.length = rs.length
  | [], _ => rfl
  | r :: rs, a => by rw [masks]; simp [masks_length last rs]

theorem masks_sum (last : Option ℤ) {g : Point} (hg : lN • g = 0) : ∀ (rs : List ℤ) (a : ℤ),
    (masks last rs a).2 • g = a • g + (masks last rs a).1.sum • g
  | [], a => by simp [masks]
  | r :: rs, a => by
    rw [masks]
    dsimp only
    rw [masks_sum last hg rs, List.sum_cons, scAdd_smul _ _ hg]
    module

theorem masks_range (last : Option ℤ) : ∀ (rs : List ℤ) (a : ℤ), Reduced a → Reduced (masks last rs a).2
  | [], a, h => h
  | r :: rs, a, _ => by rw [masks]; exact masks_range last rs _ (emod_l_range _)

theorem masks_last (m : ℤ) : ∀ (rs : List ℤ) (a : ℤ), rs ≠ [] → (masks (some m) rs a).2 = m % l
  | [], _, h => absurd rfl h
  | [r], a, _ => by
    simp only [masks, pickMask, List.isEmpty_nil, if_pos]
    rw [scAdd, scSub, Int.add_emod_emod, add_sub_cancel]
  | r :: r' :: rs, a, _ => by
    rw [masks]
    exact masks_last m (r' :: rs) _ (by simp)

theorem masks_mem_range (last : Option ℤ) : ∀ (rs : List ℤ) (a : ℤ), (∀ r ∈ rs, Reduced r) → ∀ x ∈ (masks last rs a).1, Reduced x
  | [], _, _ => by simp [masks]
  | r :: rs, a, h => by
    rw [masks]
    intro x hx
    simp only [List.mem_cons] at hx
    rcases hx with rfl | hx
    · cases last with
      | none => exact h r (by simp)
      | some m =>
        unfold pickMask
        dsimp only
        split
        · exact emod_l_range _
        · exact h r (by simp)
    · exact masks_mem_range last rs _ (fun y hy => h y (by simp [hy])) x hx

/-! ## The memory saving variant -/

theorem memFirst_eq (H : Bytes → Bytes) (last : Option ℤ) (bs : List ℕ) (rs : List BitRnd) (n : ℕ) (st : MemSt) (h1 : bs.length = n)
    (h2 : rs.length = n) (m : List ℤ × ℤ) (hm : m = masks last (rs.map (·.ai)) st.a) (ins : List BitIn)
    (hins : ins = bitIns m.1 bs (hPow n st.cH) rs) :
    (memFirst H last bs rs st).a = m.2 ∧ (memFirst H last bs rs st).C = (ins.map (·.P1)).foldl add st.C ∧
    (memFirst H last bs rs st).kck = st.kck ++ (ins.map fun b => boroFirst H b.P2 b.bit b.rnd).flatten ∧
    (memFirst H last bs rs st).ai = st.ai ++ m.1 ∧ (memFirst H last bs rs st).Ci = st.Ci ++ ins.map (·.P1) := by
  induction n generalizing bs rs st m ins with
  | zero =>
    obtain rfl := List.length_eq_zero_iff.mp h1
    obtain rfl := List.length_eq_zero_iff.mp h2
    subst hins hm
    simp [memFirst, masks, bitIns]
  | succ n ih =>
    obtain ⟨b, bs, rfl, g1⟩ := length_succ h1
    obtain ⟨r, rs, rfl, g2⟩ := length_succ h2
    rw [memFirst]
    obtain ⟨e1, e2, e3, e4, e5⟩ := ih bs rs _ g1 g2 _ rfl _ rfl
    rw [e1, e2, e3, e4, e5]
    subst hins hm
    simp only [List.map_cons, masks, hPow, bitIns, List.foldl_cons, List.flatten_cons, List.isEmpty_map]
    refine ⟨trivial, rfl, ?_, by simp, by simp [bitCommit]⟩
    unfold boroFirst bitCommit
    split <;> simp [*]

theorem memSecond_eq (H : Bytes → Bytes) (ee : ℤ) (as : List ℤ) (bs : List ℕ) (rs : List BitRnd) (n : ℕ) (P : Ext) (h1 : as.length = n)
    (h2 : bs.length = n) (h3 : rs.length = n) : memSecond H ee bs as ((bitIns as bs (hPow n P) rs).map (·.P1)) rs =
      (bitIns as bs (hPow n P) rs).map fun b => boroSecond H ee b.x b.P1 b.bit b.rnd := by
  induction n generalizing as bs rs P with
  | zero =>
    obtain rfl := List.length_eq_zero_iff.mp h1
    obtain rfl := List.length_eq_zero_iff.mp h2
    simp [bitIns, memSecond]
  | succ n ih =>
    obtain ⟨a, as, rfl, g1⟩ := length_succ h1
    obtain ⟨b, bs, rfl, g2⟩ := length_succ h2
    obtain ⟨r, rs, rfl, g3⟩ := length_succ h3
    rw [hPow, bitIns]
    simp only [List.map_cons, memSecond]
    rw [ih as bs rs (add P P) g1 g2 g3]
    rfl

/-! ## The chunked variant -/

theorem chunkFirst_eq (H : Bytes → Bytes) (amount : ℕ) (last : Option ℤ) (ii : ℕ) (rs : List BitRnd) (n : ℕ) (st : ChunkSt) (h2 : rs.length = n)
    (hii : ii + n = 64) (h : Point) (hP : Rep st.cH h) (m : List ℤ × ℤ) (hm : m = masks last (rs.map (·.ai)) st.a) (ins : List BitIn)
    (hins : ins = bitIns m.1 (shiftBits amount ii n) (hPow n st.cH) rs) :
    (chunkFirst H amount last ii rs st).a = m.2 ∧
    (∀ (acc : Ext) (q : Point), Rep acc q → Rep st.C q →
      ∃ q', Rep (chunkFirst H amount last ii rs st).C q' ∧ Rep ((ins.map (·.P1)).foldl add acc) q') ∧
    (chunkFirst H amount last ii rs st).kck = st.kck ++ (ins.map fun b => boroFirst H b.P2 b.bit b.rnd).flatten ∧
    (chunkFirst H amount last ii rs st).ai = st.ai ++ m.1.map encodeInt ∧
    (chunkFirst H amount last ii rs st).alpha = st.alpha ++ rs.map (fun r => encodeInt r.alpha) ∧
    (chunkFirst H amount last ii rs st).Ci = st.Ci ++ ins.map (fun b => encodePoint b.P1) ∧
    (chunkFirst H amount last ii rs st).s1 = st.s1 ++ ins.map (fun b => if b.bit = 0 then encodeInt b.rnd.s1 else List.replicate 32 0) := by
  induction n generalizing ii rs st m ins h with
  | zero =>
    obtain rfl := List.length_eq_zero_iff.mp h2
    subst hins hm
    rw [chunkFirst.eq_def]
    simp only [List.map_nil, masks, bitIns, List.flatten_nil, List.append_nil, List.foldl_nil, and_self, and_true, true_and]
    exact fun acc q h1 h2 => ⟨q, h2, h1⟩
  | succ n ih =>
    obtain ⟨r, rs, rfl, g2⟩ := length_succ h2
    have hfin : (ii == 63) = rs.isEmpty := by
      cases rs with
      | nil => simp only [List.length_nil] at g2; simp; omega
      | cons x xs => simp only [List.length_cons] at g2; simp; omega
    rw [chunkFirst, hfin]
    obtain ⟨e1, e2, e3, e4, e5, e6, e7⟩ := ih (ii + 1) rs
      (let ai := pickMask last rs.isEmpty st.a r.ai
       let Ct := add (scalarmultB ai) (if (amount >>> ii) % 2 = 0 then ident else st.cH)
       let L' := if (amount >>> ii) % 2 = 0 then addKeys2 r.s1 (hs H (encodePoint (scalarmultB r.alpha))) (sub Ct st.cH) else scalarmultB r.alpha
       ⟨scAdd st.a ai, add st.C Ct, add st.cH st.cH, st.kck ++ encodePoint L', st.ai ++ [encodeInt ai], st.alpha ++ [encodeInt r.alpha],
        st.Ci ++ [encodePoint Ct], st.s1 ++ [if (amount >>> ii) % 2 = 0 then encodeInt r.s1 else List.replicate 32 0]⟩)
      g2 (by omega) (h + h) (rep_add hP hP) _ rfl _ rfl
    dsimp only at e1 e2 e3 e4 e5 e6 e7
    subst hins hm
    have hm1 : (masks last ((r :: rs).map (·.ai)) st.a).1 =
        pickMask last rs.isEmpty st.a r.ai :: (masks last (rs.map (·.ai)) (scAdd st.a (pickMask last rs.isEmpty st.a r.ai))).1 := by
      simp only [List.map_cons, masks, List.isEmpty_map]
    have hm2 : (masks last ((r :: rs).map (·.ai)) st.a).2 =
        (masks last (rs.map (·.ai)) (scAdd st.a (pickMask last rs.isEmpty st.a r.ai))).2 := by
      simp only [List.map_cons, masks, List.isEmpty_map]
    have rB := rep_B (pickMask last rs.isEmpty st.a r.ai)
    generalize hai : pickMask last rs.isEmpty st.a r.ai = ai at *
    -- the commitment of this bit, in both forms
    have hC : ∃ c, Rep (add (scalarmultB ai) (if (amount >>> ii) % 2 = 0 then ident else st.cH)) c ∧
        Rep (bitCommit ai ((amount >>> ii) % 2) st.cH) c := by
      unfold bitCommit
      split
      · refine ⟨_, rep_add rB rep_ident, ?_⟩
        rw [add_zero]; exact rB
      · exact ⟨_, rep_add rB hP, rep_add rB hP⟩
    obtain ⟨c, rc1, rc2⟩ := hC
    rw [e1, e3, e4, e5, e6, e7, hm1, hm2]
    generalize add (scalarmultB ai) (if (amount >>> ii) % 2 = 0 then ident else st.cH) = Ct at *
    rw [show shiftBits amount ii (n + 1) = (amount >>> ii) % 2 :: shiftBits amount (ii + 1) n from rfl, hPow, bitIns]
    simp only [List.map_cons, List.flatten_cons, List.append_assoc, List.cons_append, List.nil_append, List.append_cancel_left_eq,
      List.cons.injEq, and_true, true_and, List.foldl_cons]
    refine ⟨?_, ?_, ?_⟩
    · intro acc q h1 h2
      exact e2 (add acc (bitCommit ai ((amount >>> ii) % 2) st.cH)) (q + c) (rep_add h1 rc2) (rep_add h2 rc1)
    · congr 1
      unfold boroFirst
      dsimp only
      split
      · rw [encodePoint_rep (rep_addKeys2 (rep_sub rc1 hP) _ (hs_range _ _).1), encodePoint_rep (rep_addKeys2 (rep_sub rc2 hP) _ (hs_range _ _).1)]
      · rfl
    · rw [encodePoint_rep rc1, encodePoint_rep rc2]

theorem chunkSecond_eq (H : Bytes → Bytes) (amount : ℕ) {ee : ℤ} (hee : 0 ≤ ee) (as : List ℤ) (ii : ℕ) (rs : List BitRnd) (n : ℕ) (P : Ext) (h : Point)
    (h1 : as.length = n) (h3 : rs.length = n) (hP : Rep P h) (has : ∀ a ∈ as, Reduced a) (hrs : ∀ r ∈ rs, Reduced r.alpha) :
    chunkSecond H amount ee ii (as.map encodeInt) (rs.map fun r => encodeInt r.alpha)
      ((bitIns as (shiftBits amount ii n) (hPow n P) rs).map fun b => encodePoint b.P1)
      ((bitIns as (shiftBits amount ii n) (hPow n P) rs).map fun b => if b.bit = 0 then encodeInt b.rnd.s1 else List.replicate 32 0) rs =
    some ((bitIns as (shiftBits amount ii n) (hPow n P) rs).map fun b =>
      (encodeInt (boroSecond H ee b.x b.P1 b.bit b.rnd).1, encodeInt (boroSecond H ee b.x b.P1 b.bit b.rnd).2)) := by
  induction n generalizing as ii rs P h with
  | zero =>
    obtain rfl := List.length_eq_zero_iff.mp h1
    rw [chunkSecond.eq_def]
    simp [bitIns]
  | succ n ih =>
    obtain ⟨a, as, rfl, g1⟩ := length_succ h1
    obtain ⟨r, rs, rfl, g3⟩ := length_succ h3
    have hi := ih as (ii + 1) rs (add P P) (h + h) g1 g3 (rep_add hP hP) (fun x hx => has x (by simp [hx])) (fun x hx => hrs x (by simp [hx]))
    have ha := has a (by simp)
    have hr := hrs r (by simp)
    rw [show shiftBits amount ii (n + 1) = (amount >>> ii) % 2 :: shiftBits amount (ii + 1) n from rfl, hPow, bitIns]
    simp only [List.map_cons, chunkSecond]
    rw [C35_scalar_roundtrip _ hr.1 hr.2, C35_scalar_roundtrip _ ha.1 ha.2, hi]
    dsimp only
    obtain ⟨c, rc⟩ : ∃ c, Rep (bitCommit a ((amount >>> ii) % 2) P) c := by
      unfold bitCommit
      split
      · exact ⟨_, rep_B a⟩
      · exact ⟨_, rep_add (rep_B a) hP⟩
    unfold boroSecond
    split
    · rfl
    · rw [encodePoint_rep rc, decode_encPt]
      dsimp only
      rw [encodePoint_rep (rep_addKeys2 (rep_canon c) _ hee), encodePoint_rep (rep_addKeys2 rc _ hee)]

end Verif.Sig

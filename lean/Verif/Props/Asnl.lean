import Verif.Lemmas.Asnl
import Verif.Lemmas.Sound

/-!
C102: aggregate Schnorr signatures (trezor_unused/asnl.py).
-/

namespace Verif.Sig
open Verif Ed Key Edwards

/-- C102. One row is accepted exactly if its chain of challenges closes. -/
theorem C102_row_accept_iff (H : Bytes → Bytes) {P1 P2 L1 : Ext} {p1 p2 l1 : Point} (h1 : Rep P1 p1) (h2 : Rep P2 p2) (h3 : Rep L1 l1) (s1 s2 : ℤ) :
    verNl H P1 P2 L1 s1 s2 = 0 ↔ RowCloses H p1 p2 l1 s1 s2 := by
  have h : verNl H P1 P2 L1 s1 s2 = 0 ↔
      pointEqual L1 (add (scalarmultB s1) (smul P1 (hs H (encodePoint (add (scalarmultB s2) (smul P2 (hs H (encodePoint L1)))))))) = true := by
    unfold verNl
    dsimp only
    split
    · rename_i hp; simp [hp]
    · rename_i hp; simp [hp]
  rw [h, rep_L2 H s2 h2 h3]
  exact pointEqual_iff h3 (rep_add (rep_B s1) (rep_smul h1 (hs_range H _).1))

/-- C102. What the holder of either key of a row generates closes. -/
theorem gen_closes (H : Bytes → Bytes) {P1 P2 : Ext} {p1 p2 : Point} (h1 : Rep P1 p1) (h2 : Rep P2 p2) (x a b : ℤ) (index : ℕ)
    (hx0 : index = 0 → p1 = x • base) (hx1 : index ≠ 0 → p2 = x • base) :
    ∃ l1, Rep (genNl H x P1 P2 index a b).1 l1 ∧ RowCloses H p1 p2 l1 (genNl H x P1 P2 index a b).2.1 (genNl H x P1 P2 index a b).2.2 := by
  unfold genNl
  by_cases hi : index = 0
  · simp only [hi, if_true]
    refine ⟨a • base, rep_B a, ?_⟩
    unfold RowCloses
    rw [rep_L2 H b h2 (rep_B a), hx0 hi, closing_eq' l_base]
  · simp only [hi, if_false]
    have r2 := rep_add (rep_B b) (rep_smul h1 (hs_range H (encodePoint (scalarmultB a))).1)
    refine ⟨_, r2, ?_⟩
    unfold RowCloses challenge1 challenge2
    rw [hx1 hi, encodePoint_rep r2, closing_eq' l_base, encodePoint_rep (rep_B a)]

/-- C102. One row signed with either secret key is accepted, whatever the random scalars. -/
theorem C102_row_complete (H : Bytes → Bytes) {P1 P2 : Ext} {p1 p2 : Point} (h1 : Rep P1 p1) (h2 : Rep P2 p2) (x a b : ℤ) (index : ℕ)
    (hx0 : index = 0 → p1 = x • base) (hx1 : index ≠ 0 → p2 = x • base) :
    verNl H P1 P2 (genNl H x P1 P2 index a b).1 (genNl H x P1 P2 index a b).2.1 (genNl H x P1 P2 index a b).2.2 = 0 := by
  obtain ⟨l1, r, c⟩ := gen_closes H h1 h2 x a b index hx0 hx1
  exact (C102_row_accept_iff H h1 h2 r _ _).mpr c

/-- C102. One row on its own shows a secret key: from two accepted answers with the same second commitment and different first challenges, the first one
is computed; with the same first commitment hashed differently and the same point committed to in the second place, the second one. -/
theorem C102_row_sound (H H' : Bytes → Bytes) {P1 P2 L1 : Ext} {p1 p2 l1 : Point} (h1 : Rep P1 p1) (h2 : Rep P2 p2) (h3 : Rep L1 l1) (s1 s2 s1' s2' : ℤ)
    (h : verNl H P1 P2 L1 s1 s2 = 0) (h' : verNl H' P1 P2 L1 s1' s2' = 0) :
    (challenge1 H p2 l1 s2 ≠ challenge1 H' p2 l1 s2' →
      Known base p1 (secretOf (challenge1 H p2 l1 s2) s1 (challenge1 H' p2 l1 s2') s1')) ∧
    (challenge2 H l1 ≠ challenge2 H' l1 → s2 • base + challenge2 H l1 • p2 = s2' • base + challenge2 H' l1 • p2 →
      Known base p2 (secretOf (challenge2 H l1) s2 (challenge2 H' l1) s2')) := by
  have a := (C102_row_accept_iff H h1 h2 h3 s1 s2).mp h
  have b := (C102_row_accept_iff H' h1 h2 h3 s1' s2').mp h'
  have red : ∀ (K : Bytes → Bytes) (d : Bytes), hs K d % l = hs K d := fun K d => Int.emod_eq_of_lt (hs_range K d).1 (hs_range K d).2
  refine ⟨fun hne => extract ?_ p1 base ?_, fun hne he => extract ?_ p2 base ?_⟩
  · unfold challenge1 at hne ⊢; rw [red, red]; exact hne
  · unfold RowCloses at a b
    rw [add_comm, ← a, add_comm, ← b]
  · unfold challenge2 at hne ⊢; rw [red, red]; exact hne
  · rw [add_comm, he, add_comm]

/-- C102. All rows: accepted exactly if the sum of the closing equations holds. -/
theorem C102_accept_iff (H : Bytes → Bytes) {p1s p2s : List Ext} {sig : AsnlSig} {rows : List Row} (h : RepRows p1s p2s sig.L1 sig.s2 rows) :
    verAsnl H p1s p2s sig = some true ↔ SumCloses H rows sig.s := verAsnl_iff H h

theorem foldl_plain : ∀ (l : List ℤ) (a : ℤ), (l.foldl scAdd a) • base = (a + l.sum) • base
  | [], a => by simp
  | x :: l, a => by
    rw [List.foldl_cons, foldl_plain l, List.sum_cons, ← add_assoc, add_smul, add_smul (a + x)]
    congr 1
    exact mod_smul l_base (a + x)

/-- The usable input of a row. -/
def NlOk (b : NlIn) : Prop := ∃ p1 p2 : Point, Rep b.P1 p1 ∧ Rep b.P2 p2 ∧ (b.index = 0 → p1 = b.x • base) ∧ (b.index ≠ 0 → p2 = b.x • base)

/-- C102. What is signed with one secret key of each row is accepted. -/
theorem C102_complete (H : Bytes → Bytes) (ins : List NlIn) (h : ∀ b ∈ ins, NlOk b) :
    verAsnl H (ins.map (·.P1)) (ins.map (·.P2)) (genAsnl H ins) = some true := by
  have key : ∃ rows : List Row, RepRows (ins.map (·.P1)) (ins.map (·.P2)) (genAsnl H ins).L1 (genAsnl H ins).s2 rows ∧
      (rows.map fun r => r.2.2.1).sum = ((ins.map fun b => (genNl H b.x b.P1 b.P2 b.index b.a b.s2).2.1).sum) • base +
        (rows.map fun r => challenge1 H r.2.1 r.2.2.1 r.2.2.2 • r.1).sum := by
    induction ins with
    | nil => exact ⟨[], .nil, by simp⟩
    | cons b ins ih =>
      obtain ⟨rows, h1, h2⟩ := ih fun x hx => h x (List.mem_cons_of_mem _ hx)
      obtain ⟨p1, p2, r1, r2, e0, e1⟩ := h b (List.mem_cons_self ..)
      obtain ⟨l1, r3, c⟩ := gen_closes H r1 r2 b.x b.a b.s2 b.index e0 e1
      refine ⟨(p1, p2, l1, (genNl H b.x b.P1 b.P2 b.index b.a b.s2).2.2) :: rows, ?_, ?_⟩
      · exact RepRows.cons _ r1 r2 r3 h1
      · simp only [List.map_cons, List.sum_cons, h2]
        unfold RowCloses at c
        conv_lhs => rw [c]
        rw [add_smul]
        abel
  obtain ⟨rows, h1, h2⟩ := key
  rw [C102_accept_iff H h1]
  unfold SumCloses
  rw [h2]
  congr 1
  unfold genAsnl
  dsimp only
  rw [foldl_plain, zero_add, List.map_map]
  rfl

/-- C102, disagreement: an accepted aggregate signature does not show a secret key of every row. `forge` knows a secret key of the first row only and is accepted for any
further rows whatever, whose keys it knows nothing about. -/
theorem C102_false_forged (H : Bytes → Bytes) {P1 P2 : Ext} {p1 p2 : Point} (h1 : Rep P1 p1) (h2 : Rep P2 p2) (x a b : ℤ) (index : ℕ)
    (hx0 : index = 0 → p1 = x • base) (hx1 : index ≠ 0 → p2 = x • base) {p1s p2s L : List Ext} {t : List ℤ} {rows : List Row}
    (h : RepRows p1s p2s L t rows) : verAsnl H (P1 :: p1s) (P2 :: p2s) (forge H x P1 P2 index p1s p2s L t a b) = some true := by
  have hD := debt_rep H h (rep_B 0)
  rw [zero_smul, zero_add] at hD
  unfold forge
  by_cases hi : index = 0
  · simp only [hi, if_true]
    have r3 := rep_add hD (rep_B a)
    rw [C102_accept_iff H (RepRows.cons b h1 h2 r3 h)]
    unfold SumCloses
    dsimp only
    rw [rep_L2 H b h2 r3, List.map_cons, List.sum_cons, List.map_cons, List.sum_cons]
    dsimp only
    rw [← add_assoc, hx0 hi, closing_eq' l_base]
    abel
  · simp only [hi, if_false]
    have r3 := rep_add (rep_add hD (rep_B b)) (rep_smul h1 (hs_range H (encodePoint (scalarmultB a))).1)
    have hc : ∀ q : Point, Rep (add (add (debt H p1s p2s L t (scalarmultB 0)) (scalarmultB b)) (smul P1 (hs H (encodePoint (scalarmultB a))))) q →
        challenge1 H p2 q (scMulsub x (hs H (encodePoint (add (add (debt H p1s p2s L t (scalarmultB 0)) (scalarmultB b))
          (smul P1 (hs H (encodePoint (scalarmultB a))))))) a) = hs H (encodePoint (scalarmultB a)) := by
      intro q hq
      unfold challenge1 challenge2
      rw [encodePoint_rep hq, hx1 hi, closing_eq' l_base, encodePoint_rep (rep_B a)]
    rw [C102_accept_iff H (RepRows.cons _ h1 h2 r3 h)]
    unfold SumCloses
    dsimp only
    rw [List.map_cons, List.sum_cons, List.map_cons, List.sum_cons]
    dsimp only
    rw [hc _ r3]
    abel

/-! ### The hypotheses are met -/

/-- One row whose first key has the secret 5. -/
example (H : Bytes → Bytes) (P2 : Ext) (p2 : Point) (h2 : Rep P2 p2) :
    verAsnl H [scalarmultB 5] [P2] (genAsnl H [⟨5, scalarmultB 5, P2, 0, 11, 12⟩]) = some true := by
  have h := C102_complete H [⟨5, scalarmultB 5, P2, 0, 11, 12⟩] (by
    intro b hb
    rw [List.mem_singleton] at hb
    rw [hb]
    unfold NlOk
    dsimp only
    exact ⟨(5 : ℤ) • base, p2, rep_B (5 : ℤ), h2, fun _ => Eq.refl _, fun h => absurd (Eq.refl _) h⟩)
  simp only [List.map_cons, List.map_nil] at h
  exact h

/-- A forged second row: the keys are hashes, whose secrets nobody knows. -/
example (H : Bytes → Bytes) (u v : Bytes) :
    verAsnl H [scalarmultB 5, hp H u] [scalarmultB 6, hp H v] (forge H 6 (scalarmultB 5) (scalarmultB 6) 1 [hp H u] [hp H v] [scalarmultB 1] [2] 3 4) =
      some true := by
  obtain ⟨p, hp1, _⟩ := rep_hp H u
  obtain ⟨p', hp2, _⟩ := rep_hp H v
  exact C102_false_forged H (rep_B 5) (rep_B 6) 6 3 4 1 (fun h => absurd h (by decide)) (fun _ => rfl) (RepRows.cons 2 hp1 hp2 (rep_B 1) .nil)

end Verif.Sig

import Verif.Lemmas.Sig
import Verif.Lemmas.Stealth

/-! Ring signatures with a key image. -/

namespace Verif.Sig
open Verif Ed Key Edwards

def memberBytes (H : Bytes → Bytes) (I : Ext) : List Ext → List (ℤ × ℤ) → Bytes
  | P :: ps, (c, r) :: sig => ringMember H I P c r ++ memberBytes H I ps sig
  | _, _ => []

theorem scAdd_mod (s c t : ℤ) : (scAdd s c + t) % l = (s + (c + t)) % l := by
  rw [scAdd, Int.emod_add_emod, add_assoc]

theorem scAdd_range (a b : ℤ) : 0 ≤ scAdd a b ∧ scAdd a b < l := emod_l_range _

theorem checkLoop_proper (H : Bytes → Bytes) (I : Ext) : ∀ (ps : List Ext) (sig : List (ℤ × ℤ)) (buff : Bytes) (s : ℤ), sig.length = ps.length →
    (0 ≤ s ∧ s < l) → (∀ x ∈ sig, Proper x.1 ∧ Proper x.2) →
    ringCheckLoop H I ps sig (buff, s) = some (some (buff ++ memberBytes H I ps sig, (s + (sig.map (·.1)).sum) % l))
  | [], [], buff, s, _, hs, _ => by
    rw [ringCheckLoop, memberBytes]
    · simp [Int.emod_eq_of_lt hs.1 hs.2]
    · simp
  | P :: ps, (c, r) :: sig, buff, s, hl, hs, h => by
    obtain ⟨h1, h2⟩ := h (c, r) (by simp)
    rw [ringCheckLoop, if_neg (by simp [scCheck_eq h1.1 h1.2, scCheck_eq h2.1 h2.2]),
      checkLoop_proper H I ps sig _ _ (by simpa using hl) (scAdd_range _ _) (fun x hx => h x (by simp [hx])), scAdd_mod, memberBytes]
    simp

theorem checkLoop_improper (H : Bytes → Bytes) (I : Ext) : ∀ (ps : List Ext) (sig : List (ℤ × ℤ)) (buff : Bytes) (s : ℤ), sig.length = ps.length →
    (¬∀ x ∈ sig, Proper x.1 ∧ Proper x.2) → ringCheckLoop H I ps sig (buff, s) = some none
  | [], [], _, _, _, h => absurd (by simp) h
  | P :: ps, (c, r) :: sig, buff, s, hl, h => by
    rw [ringCheckLoop]
    split
    · rfl
    · rename_i hc
      simp only [ne_eq, not_or, not_not] at hc
      apply checkLoop_improper H I ps sig _ _ (by simpa using hl)
      intro h'
      apply h
      intro x hx
      simp only [List.mem_cons] at hx
      rcases hx with rfl | hx
      · exact ⟨scCheck_zero hc.1, scCheck_zero hc.2⟩
      · exact h' x hx

/-- `rs` with the pair at position `idx` replaced, counting from `i`. -/
def mark (idx : ℕ) (v : ℤ × ℤ) : ℕ → List (ℤ × ℤ) → List (ℤ × ℤ)
  | _, [] => []
  | i, x :: rs => (if i = idx then v else x) :: mark idx v (i + 1) rs

theorem mark_past (idx : ℕ) (v : ℤ × ℤ) : ∀ (i : ℕ) (rs : List (ℤ × ℤ)), idx < i → mark idx v i rs = rs
  | _, [], _ => rfl
  | i, x :: rs, h => by rw [mark, if_neg (by omega), mark_past idx v (i + 1) rs (by omega)]

theorem mark_set (idx : ℕ) (v : ℤ × ℤ) : ∀ (i : ℕ) (rs : List (ℤ × ℤ)), i ≤ idx → mark idx v i rs = rs.set (idx - i) v
  | _, [], _ => by simp [mark]
  | i, x :: rs, h => by
    rw [mark]
    split
    · rename_i he
      subst he
      rw [mark_past _ _ _ _ (by omega), Nat.sub_self, List.set_cons_zero]
    · rename_i he
      rw [mark_set idx v (i + 1) rs (by omega), show idx - i = (idx - (i + 1)) + 1 by omega, List.set_cons_succ]

theorem mark_sum (idx : ℕ) (v : ℤ × ℤ) : ∀ (i : ℕ) (rs : List (ℤ × ℤ)), i ≤ idx → idx < i + rs.length →
    ((mark idx v i rs).map (·.1)).sum = ((mark idx (0, 0) i rs).map (·.1)).sum + v.1
  | i, [], h, h' => absurd h' (by simp; omega)
  | i, x :: rs, h, h' => by
    rw [mark, mark]
    by_cases he : i = idx
    · subst he
      rw [if_pos rfl, if_pos rfl, mark_past _ _ _ _ (by omega), mark_past _ _ _ _ (by omega)]
      simp only [List.map_cons, List.sum_cons]
      ring
    · rw [if_neg he, if_neg he, List.map_cons, List.sum_cons, mark_sum idx v (i + 1) rs (by omega) (by simp at h' ⊢; omega)]
      simp only [List.map_cons, List.sum_cons]
      ring

theorem genLoop_eq (H : Bytes → Bytes) (I : Ext) (idx : ℕ) (k : ℤ) (v : ℤ × ℤ) : ∀ (i : ℕ) (ps : List Ext) (rs : List (ℤ × ℤ)) (buff : Bytes)
    (s : ℤ), rs.length = ps.length → (0 ≤ s ∧ s < l) →
    (∀ P : Ext, i ≤ idx → ps[idx - i]? = some P →
      ringMember H I P v.1 v.2 = encodePoint (scalarmultB k) ++ encodePoint (smul (hp H (encodePoint P)) k)) →
    ringGenLoop H I idx k i ps rs (buff, s) =
      some (buff ++ memberBytes H I ps (mark idx v i rs), (s + ((mark idx (0, 0) i rs).map (·.1)).sum) % l)
  | i, [], [], buff, s, _, hs, _ => by
    rw [ringGenLoop, memberBytes]
    · simp [mark, Int.emod_eq_of_lt hs.1 hs.2]
    · simp
  | i, P :: ps, (c, r) :: rs, buff, s, hl, hs, h => by
    rw [ringGenLoop]
    by_cases he : i = idx
    · rw [if_pos he, genLoop_eq H I idx k v (i + 1) ps rs _ s (by simpa using hl) hs (fun _ hi => by omega), mark, mark, if_pos he, if_pos he,
        memberBytes, h P (by omega) (by simp [he]), List.map_cons, List.sum_cons, zero_add]
      simp only [List.append_assoc]
    · rw [if_neg he, genLoop_eq H I idx k v (i + 1) ps rs _ _ (by simpa using hl) (scAdd_range _ _), mark, mark, if_neg he, if_neg he,
        memberBytes, scAdd_mod]
      · simp only [List.append_assoc, List.map_cons, List.sum_cons]
      · intro Q hi hQ
        refine h Q (by omega) ?_
        rw [show idx - i = (idx - (i + 1)) + 1 by omega]
        exact hQ

theorem ringMember_rep (H : Bytes → Bytes) {I P : Ext} {I' p : Point} (hI : Rep I I') (hP : Rep P p) {c r : ℤ} (hc : 0 ≤ c) (hr : 0 ≤ r) :
    ringMember H I P c r = encPt (c • p + r • base) ++ encPt (r • hpt H (encPt p) + c • I') := by
  rw [ringMember, encodePoint_rep hP, encodePoint_rep (rep_add (rep_smul hP hc) (rep_B r)),
    encodePoint_rep (rep_add (rep_smul (hpt_rep H (encPt p)) hr) (rep_smul hI hc))]

theorem memberBytes_rep (H : Bytes → Bytes) {I : Ext} {I' : Point} (hI : Rep I I') {ps : List Ext} {ps' : List Point} (h : List.Forall₂ Rep ps ps') :
    ∀ sig : List (ℤ × ℤ), (∀ x ∈ sig, 0 ≤ x.1 ∧ 0 ≤ x.2) → memberBytes H I ps sig = ringData H I' ps' sig := by
  induction h with
  | nil => intro sig _; rw [memberBytes.eq_def, ringData.eq_def]
  | cons hP _ ih =>
    intro sig hs
    cases sig with
    | nil => rw [memberBytes.eq_def, ringData.eq_def]
    | cons x sig =>
      obtain ⟨c, r⟩ := x
      have := hs (c, r) (by simp)
      rw [memberBytes, ringData, ringMember_rep H hI hP this.1 this.2, ih sig (fun x hx => hs x (by simp [hx]))]

/-- The member of the signer: with the challenge `c` and the answer `k - c·x`. -/
theorem member_closes (H : Bytes → Bytes) {I P : Ext} {x k : ℤ} (hk : 0 ≤ k) (hP : Rep P (x • base))
    (hI : Rep I (x • hpt H (encPt (x • base)))) {c : ℤ} (hc : 0 ≤ c) :
    ringMember H I P c (scMulsub c x k) = encodePoint (scalarmultB k) ++ encodePoint (smul (hp H (encodePoint P)) k) := by
  rw [ringMember_rep H hI hP hc (show 0 ≤ scMulsub c x k from (emod_l_range _).1), encodePoint_rep (rep_B k), encodePoint_rep hP,
    encodePoint_rep (rep_smul (hpt_rep H _) hk), add_comm, closing_eq l_base, closing_eq (hpt_order _ _)]

end Verif.Sig

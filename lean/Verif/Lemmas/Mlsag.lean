import Verif.Lemmas.Sig

/-! MLSAG: the signer's signature closes the ring. -/

namespace Verif.Sig
open Verif Ed Key Edwards

theorem gen_ver (H : Bytes → Bytes) (m : Bytes) {pk : List (List Ext)} {xx : List ℤ} {idx ds rows : ℕ} {alpha : List ℤ} {rnd : List (List ℤ)}
    {col : List Ext} (h2 : 2 ≤ pk.length) (hcol : pk[idx]? = some col) (hrows : 0 < rows) (hrect : ∀ col ∈ pk, col.length = rows)
    (hds : ds ≤ rows) (hal : alpha.length = rows) (hal0 : ∀ a ∈ alpha, 0 ≤ a) (hrnd : rnd.length = pk.length)
    (hrndr : ∀ s ∈ rnd, s.length = rows) (hopen : List.Forall₂ Opens col xx) :
    ∃ mg c, genMlsag H m pk xx idx ds alpha rnd = some (mg, c) ∧ verMlsag H m pk mg ds = some true ∧
      mg.II = (secretDs H (col.take ds) (xx.take ds) (alpha.take ds)).2 ∧ (0 ≤ mg.cc ∧ mg.cc < l) ∧
      mg.ss = rnd.set idx (closing c xx alpha) := by
  have hidx : idx < pk.length := (List.getElem?_eq_some_iff.mp hcol).1
  have hcl : col.length = rows := hrect col (List.mem_of_getElem? hcol)
  have hxx : xx.length = rows := by rw [← hopen.length_eq, hcl]
  set II := (secretDs H (col.take ds) (xx.take ds) (alpha.take ds)).2 with hII
  set c0 := hs H (m ++ (secretDs H (col.take ds) (xx.take ds) (alpha.take ds)).1 ++ secretPlain (col.drop ds) (alpha.drop ds)) with hc0
  let f : ℕ → ℤ → ℤ := fun i c => if i = idx then c0 else match pk[i]?, rnd[i]? with
    | some col, some s => column H m ds II col s c
    | _, _ => 0
  have hfr : ∀ i c, 0 ≤ f i c ∧ f i c < l := by
    intro i c
    simp only [f]
    split
    · exact hs_range _ _
    · split
      · exact hs_range _ _
      · exact ⟨le_refl _, l_pos⟩
  have hget : ∀ (i : ℕ), i < pk.length → ∃ (col' : List Ext) (s : List ℤ), pk[i]? = some col' ∧ rnd[i]? = some s := fun i hi =>
    ⟨_, _, List.getElem?_eq_getElem hi, List.getElem?_eq_getElem (hrnd ▸ hi)⟩
  have hgen := ring_gen (gen := colStep H m ds II pk rnd) (f := f) hidx (by
    intro i c hi hne
    obtain ⟨col', s, e1, e2⟩ := hget i hi
    simp only [colStep, f, e1, e2, if_neg hne]) c0
  set c := walk f pk.length idx c0 (pk.length - 1) with hcdef
  set cc := walk f pk.length idx c0 (pk.length - 1 - idx) with hccdef
  have hc : 0 ≤ c ∧ c < l := walk_reduced (fun c => 0 ≤ c ∧ c < l) (hs_range _ _) hfr _
  have hcc : 0 ≤ cc ∧ cc < l := walk_reduced (fun c => 0 ≤ c ∧ c < l) (hs_range _ _) hfr _
  have hclosing : (closing c xx alpha).length = rows := by rw [closing_length c xx alpha (by omega), hxx]
  have hlen : (secretDs H (col.take ds) (xx.take ds) (alpha.take ds)).2.length = ds := by
    rw [secretDs_length H _ _ _ (by simp; omega) (by simp; omega)]; simp; omega
  refine ⟨⟨rnd.set idx (closing c xx alpha), cc, II⟩, c, ?_, ?_, rfl, hcc, rfl⟩
  · unfold genMlsag
    rw [mlsagAssert_some h2 hidx hrows hrect hxx hds]
    simp only [hcol]
    rw [← hII, ← hc0, hgen]
  · unfold verMlsag
    rw [verAssert_iff.mpr ⟨⟨hrows, h2, hrect, hds, hlen, by simp [hrnd], by
      intro s hs
      rcases List.mem_or_eq_of_mem_set hs with h | h
      · exact hrndr s h
      · rw [h, hclosing]⟩, rfl⟩]
    dsimp only
    rw [ring_ver (f := f) hidx c0 (fun c => if_pos rfl)]
    · exact congrArg some ((scSub_zero hcc hcc).mpr rfl)
    · intro i c hi hne
      obtain ⟨col', s, e1, e2⟩ := hget i hi
      rw [colStep, List.getElem?_set_ne (fun h => hne h.symm)]
      simp only [f, e1, e2, if_neg hne]
    · rw [colStep, List.getElem?_set_self (by omega), hcol]
      simp only [Option.some.injEq]
      rw [column, closing_take, closing_drop, hII,
        secretDs_closes H hc.1 (List.forall₂_take ds hopen) _ (by simp; omega) (fun a h => hal0 a (List.mem_of_mem_take h)),
        secretPlain_closes hc.1 (List.forall₂_drop ds hopen) _ (by simp; omega)]

/-- Acceptance is the validity of the specification. -/
theorem verMlsag_iff (H : Bytes → Bytes) (m : Bytes) {pk : List (List Ext)} {pk' : List (List Point)} (hpk : List.Forall₂ Reps pk pk')
    {rv : MgSig} {ds : ℕ} {II' : List Point} (hI : Reps rv.II II') (hss : ∀ s ∈ rv.ss, ∀ x ∈ s, 0 ≤ x) (hcc : 0 ≤ rv.cc ∧ rv.cc < l) :
    verMlsag H m pk rv ds = some true ↔ MlsagValid H m pk' ds II' rv.ss rv.cc := by
  have hlen : pk.length = pk'.length := hpk.length_eq
  have hg : ∀ (i : ℕ) (col : List Ext), pk[i]? = some col → ∃ col', pk'[i]? = some col' ∧ Reps col col' := by
    intro i col h
    obtain ⟨hi, rfl⟩ := List.getElem?_eq_some_iff.mp h
    exact ⟨_, List.getElem?_eq_getElem (hlen ▸ hi), (List.forall₂_iff_get.mp hpk).2 i hi (hlen ▸ hi)⟩
  have hg' : ∀ (i : ℕ) (col' : List Point), pk'[i]? = some col' → ∃ col, pk[i]? = some col ∧ Reps col col' := by
    intro i col h
    obtain ⟨hi, rfl⟩ := List.getElem?_eq_some_iff.mp h
    exact ⟨_, List.getElem?_eq_getElem (hlen ▸ hi), (List.forall₂_iff_get.mp hpk).2 i (hlen ▸ hi) hi⟩
  have hrect : ∀ r, (∀ col ∈ pk, col.length = r) ↔ ∀ col ∈ pk', col.length = r := by
    intro r
    constructor
    · intro h col' hc
      obtain ⟨i, hi⟩ := List.mem_iff_getElem?.mp hc
      obtain ⟨col, h1, h2⟩ := hg' i col' hi
      rw [← h2.length_eq, h col (List.mem_of_getElem? h1)]
    · intro h col hc
      obtain ⟨i, hi⟩ := List.mem_iff_getElem?.mp hc
      obtain ⟨col', h1, h2⟩ := hg i col hi
      rw [h2.length_eq, h col' (List.mem_of_getElem? h1)]
  constructor
  · intro h
    unfold verMlsag at h
    split at h
    · simp at h
    rename_i r c' ha
    obtain ⟨⟨h1, h2, h3, h4, h5, h6, h7⟩, rfl⟩ := verAssert_iff.mp ha
    split at h
    · simp at h
    rename_i c hch
    obtain ⟨a, e0, e1, e2⟩ := chainLoop_inv _ _ _ _ hch
    simp only [Nat.zero_add] at e0 e1 e2
    have hra : ∀ i, i ≤ pk.length → 0 ≤ a i ∧ a i < l := by
      intro i hi
      cases i with
      | zero => rw [e0]; exact hcc
      | succ i =>
        have := e2 i (by omega)
        unfold colStep at this
        split at this
        · rw [← Option.some.inj this]; exact hs_range _ _
        · simp at this
    have hceq : c = rv.cc := (scSub_zero (by rw [← e1]; exact hra _ (le_refl _)) hcc).mp (Option.some.inj h)
    refine ⟨r, h1, by omega, (hrect r).mp h3, h4, by rw [← hI.length_eq]; exact h5, by omega, h7, a, e0, by rw [← hlen, e1, hceq], ?_⟩
    intro i col' s hcol' hs
    obtain ⟨col, hcol, hrep⟩ := hg' i col' hcol'
    have hi : i < pk.length := (List.getElem?_eq_some_iff.mp hcol).1
    have := e2 i hi
    rw [colStep, hcol, hs] at this
    rw [← Option.some.inj this, column_rep H m ds hI hrep (hss s (List.mem_of_getElem? hs)) (hra i (by omega)).1]
  · rintro ⟨r, h1, h2, h3, h4, h5, h6, h7, a, e0, e1, e2⟩
    unfold verMlsag
    rw [verAssert_iff.mpr ⟨⟨h1, by omega, (hrect r).mpr h3, h4, by rw [hI.length_eq]; exact h5, by omega, h7⟩, rfl⟩]
    dsimp only
    have hra : ∀ i, i ≤ pk.length → 0 ≤ a i := by
      intro i hi
      cases i with
      | zero => rw [e0]; exact hcc.1
      | succ i =>
        rw [e2 i _ _ (List.getElem?_eq_getElem (by omega)) (List.getElem?_eq_getElem (by omega))]
        exact (hs_range _ _).1
    have hch := chainLoop_of (step := colStep H m ds rv.II pk rv.ss) a pk.length 0 (by
        intro j hj
        simp only [Nat.zero_add]
        obtain ⟨col', hc', hrep⟩ := hg j _ (List.getElem?_eq_getElem hj)
        have hsj : rv.ss[j]? = some (rv.ss[j]'(by omega)) := List.getElem?_eq_getElem (by omega)
        rw [colStep, List.getElem?_eq_getElem hj, hsj]
        dsimp only
        rw [e2 j _ _ hc' hsj, column_rep H m ds hI hrep (hss _ (List.mem_of_getElem? hsj)) (hra j (by omega))])
    rw [← e0, hch, Nat.zero_add, hlen, e1, ← e0]
    rw [e0]
    exact congrArg some ((scSub_zero hcc hcc).mpr rfl)

end Verif.Sig

import Verif.Lemmas.Mlsag
import Verif.Lemmas.Amounts

/-! Matrices of the ring signatures, commitments. -/

namespace Verif.Sig
open Verif Ed Key Edwards

/-- The point `H` of the commitments. -/
noncomputable def hBase : Point := Classical.choose rep_hPt
theorem rep_hBase : Rep hPt hBase := Classical.choose_spec rep_hPt

theorem hPt_val : hPt = ⟨44115840154693352731557989475342686826820046586146704265789981914775973517427,
    9102111593045260626123023279363907201838477468971026384621755002289944880523, 1,
    45035627625256346993259834415070860711967380454398467193881681167533463681117⟩ := by decide +kernel

theorem l_hBase : lN • hBase = 0 := by
  have h1 := rep_smulFuel rep_hBase 253 lN (by decide +kernel)
  refine (pointEqual_iff h1 rep_ident).mp ?_
  rw [hPt_val]
  decide +kernel

theorem rep_genC (m a : ℤ) : Rep (genC m a) (m • base + a • hBase) := by
  have := rep_add (rep_B m) (rep_smul rep_hBase (emod_l_range a).1)
  rwa [mod_smul l_hBase] at this

theorem rep_of_equal {P Q : Ext} {q : Point} (hP : checkPoint P = true) (hQ : Rep Q q) (h : pointEqual P Q = true) : Rep P q := by
  obtain ⟨p, hp⟩ := (isOnCurve_iff P).mp hP
  rw [← (pointEqual_iff hp hQ).mp h]; exact hp

theorem rep_of_decode {s : Bytes} {P Q : Ext} {q : Point} (hP : decodePoint s = some P) (hQ : Rep Q q) (h : pointEqual P Q = true) : Rep P q := by
  obtain ⟨p, hp⟩ := decodePoint_rep hP
  rw [← (pointEqual_iff hp hQ).mp h]; exact hp

theorem scSub_smul (a b : ℤ) {g : Point} (hg : lN • g = 0) : scSub a b • g = a • g - b • g := by
  rw [scSub, mod_smul hg]; module

theorem scAdd_smul (a b : ℤ) {g : Point} (hg : lN • g = 0) : scAdd a b • g = a • g + b • g := by
  rw [scAdd, mod_smul hg]; module

/-! ## Simple -/

/-- Every member of the ring has decodable points. -/
def Decodes (p : CtPub) : Prop := (decodePoint p.dest).isSome ∧ (decodePoint p.commitment).isSome

theorem simpleMatrix_some (cout : Ext) : ∀ ring : List CtPub, (∀ p ∈ ring, Decodes p) →
    ∃ M, simpleMatrix cout ring = some M ∧ M.length = ring.length ∧ (∀ c ∈ M, c.length = 2) ∧
      ∀ (i : ℕ) (p : CtPub), ring[i]? = some p → ∃ d c, decodePoint p.dest = some d ∧ decodePoint p.commitment = some c ∧
        M[i]? = some [d, sub c cout]
  | [], _ => ⟨[], rfl, rfl, by simp, by simp⟩
  | p :: ps, h => by
    obtain ⟨M, h1, h2, h3, h4⟩ := simpleMatrix_some cout ps (fun p hp => h p (by simp [hp]))
    obtain ⟨hd, hc⟩ := h p (by simp)
    obtain ⟨d, hd⟩ := Option.isSome_iff_exists.mp hd
    obtain ⟨c, hc⟩ := Option.isSome_iff_exists.mp hc
    refine ⟨[d, sub c cout] :: M, by simp [simpleMatrix, h1, hd, hc], by simp [h2], by simpa using h3, ?_⟩
    intro i p' hi
    cases i with
    | zero => simp only [List.getElem?_cons_zero, Option.some.injEq] at hi; subst hi; exact ⟨d, c, hd, hc, rfl⟩
    | succ i => exact h4 i p' (by simpa using hi)

/-! ## Full -/

theorem fullColumn_some : ∀ (col : List CtPub) (acc : Ext) (p : Point), Rep acc p → (∀ x ∈ col, Decodes x) →
    ∃ ds S, fullColumn acc col = some (ds, S) ∧ ds.length = col.length ∧ (∃ s, Rep S s) ∧
      List.Forall₂ (fun (x : CtPub) d => decodePoint x.dest = some d) col ds ∧
      ∀ cs : List Point, List.Forall₂ (fun (x : CtPub) c => ∃ C, decodePoint x.commitment = some C ∧ Rep C c) col cs → Rep S (p + cs.sum)
  | [], acc, p, h, _ => ⟨[], acc, rfl, rfl, ⟨p, h⟩, .nil, fun cs hcs => by cases hcs; simpa using h⟩
  | x :: col, acc, p, h, hx => by
    obtain ⟨hd, hc⟩ := hx x (by simp)
    obtain ⟨d, hd⟩ := Option.isSome_iff_exists.mp hd
    obtain ⟨c, hc⟩ := Option.isSome_iff_exists.mp hc
    obtain ⟨c', hc'⟩ := decodePoint_rep hc
    obtain ⟨ds, S, h1, h2, h3, h4, h5⟩ := fullColumn_some col (add acc c) (p + c') (rep_add h hc') (fun y hy => hx y (by simp [hy]))
    refine ⟨d :: ds, S, by simp [fullColumn, hd, hc, h1], by simp [h2], h3, .cons hd h4, ?_⟩
    intro cs hcs
    cases hcs with
    | cons hx hcs =>
      obtain ⟨C, e1, e2⟩ := hx
      rw [hc, Option.some.injEq] at e1
      subst e1
      rw [rep_unique hc' e2] at h5
      have := h5 _ hcs
      rwa [add_assoc, ← List.sum_cons] at this

theorem subOuts_some : ∀ (os : List Bytes) (acc : Ext) (p : Point), Rep acc p → (∀ o ∈ os, (decodePoint o).isSome) →
    ∃ S, subOuts acc os = some S ∧ (∃ s, Rep S s) ∧
      ∀ cs : List Point, List.Forall₂ (fun o c => ∃ C, decodePoint o = some C ∧ Rep C c) os cs → Rep S (p - cs.sum)
  | [], acc, p, h, _ => ⟨acc, rfl, ⟨p, h⟩, fun cs hcs => by cases hcs; simpa using h⟩
  | o :: os, acc, p, h, hx => by
    obtain ⟨c, hc⟩ := Option.isSome_iff_exists.mp (hx o (by simp))
    obtain ⟨c', hc'⟩ := decodePoint_rep hc
    obtain ⟨S, h1, h3, h5⟩ := subOuts_some os (sub acc c) (p - c') (rep_sub h hc') (fun y hy => hx y (by simp [hy]))
    refine ⟨S, by simp [subOuts, hc, h1], h3, ?_⟩
    intro cs hcs
    cases hcs with
    | cons hx hcs =>
      obtain ⟨C, e1, e2⟩ := hx
      rw [hc, Option.some.injEq] at e1
      subst e1
      rw [rep_unique hc' e2] at h5
      have := h5 _ hcs
      rwa [sub_sub, ← List.sum_cons] at this

theorem fullMatrix_some (outPk : List Bytes) (feeKey : Ext) (fee : Point) (hfee : Rep feeKey fee) (hout : ∀ o ∈ outPk, (decodePoint o).isSome)
    (rows : ℕ) : ∀ pubs : List (List CtPub), (∀ col ∈ pubs, col.length = rows ∧ ∀ x ∈ col, Decodes x) →
    ∃ M, fullMatrix outPk feeKey pubs = some M ∧ M.length = pubs.length ∧ (∀ c ∈ M, c.length = rows + 1) ∧
      ∀ (i : ℕ) (col : List CtPub), pubs[i]? = some col → ∃ ds Z, M[i]? = some (ds ++ [Z]) ∧
        List.Forall₂ (fun (x : CtPub) d => decodePoint x.dest = some d) col ds ∧
        ∀ cs os : List Point, List.Forall₂ (fun (x : CtPub) c => ∃ C, decodePoint x.commitment = some C ∧ Rep C c) col cs →
          List.Forall₂ (fun o c => ∃ C, decodePoint o = some C ∧ Rep C c) outPk os → Rep Z (cs.sum - os.sum - fee)
  | [], _ => ⟨[], rfl, rfl, by simp, by simp⟩
  | col :: pubs, h => by
    obtain ⟨M, h1, h2, h3, h4⟩ := fullMatrix_some outPk feeKey fee hfee hout rows pubs (fun p hp => h p (by simp [hp]))
    obtain ⟨hl, hd⟩ := h col (by simp)
    obtain ⟨ds, S, e1, e2, ⟨s, hs⟩, e4, e5⟩ := fullColumn_some col ident 0 rep_ident hd
    obtain ⟨S', e6, -, e8⟩ := subOuts_some outPk S s hs hout
    refine ⟨(ds ++ [sub S' feeKey]) :: M, by simp [fullMatrix, e1, e6, h1], by simp [h2], ?_, ?_⟩
    · intro c hc
      simp only [List.mem_cons] at hc
      rcases hc with rfl | hc
      · simp [e2, hl]
      · exact h3 c hc
    · intro i col' hi
      cases i with
      | zero =>
        simp only [List.getElem?_cons_zero, Option.some.injEq] at hi
        subst hi
        refine ⟨ds, _, rfl, e4, ?_⟩
        intro cs os hcs hos
        have r1 := e5 cs hcs
        rw [zero_add] at r1
        rw [rep_unique hs r1] at e8
        exact rep_sub (e8 os hos) hfee
      | succ i => exact h4 i col' (by simpa using hi)

theorem foldl_scSub (ms : List ℤ) (s : ℤ) : (ms.foldl (fun s m => scSub s m) s) • base = s • base - (ms.map fun m => m • base).sum := by
  induction ms generalizing s with
  | nil => simp
  | cons m ms ih => rw [List.foldl_cons, ih, scSub_smul _ _ l_base, List.map_cons, List.sum_cons]; abel

theorem foldl_scAdd (ks : List CtSec) (s : ℤ) :
    (ks.foldl (fun s k => scAdd s k.mask) s) • base = s • base + (ks.map fun k => k.mask • base).sum := by
  induction ks generalizing s with
  | nil => simp
  | cons m ms ih => rw [List.foldl_cons, ih, scAdd_smul _ _ l_base, List.map_cons, List.sum_cons]; abel

theorem foldl_range (ms : List ℤ) (s : ℤ) (h : 0 ≤ s) : 0 ≤ ms.foldl (fun s m => scSub s m) s := by
  induction ms generalizing s with
  | nil => exact h
  | cons m ms ih => exact ih _ (emod_l_range _).1

theorem foldl_range' (ms : List CtSec) (s : ℤ) (h : 0 ≤ s) : 0 ≤ ms.foldl (fun s k => scAdd s k.mask) s := by
  induction ms generalizing s with
  | nil => exact h
  | cons m ms ih => exact ih _ (emod_l_range _).1

end Verif.Sig

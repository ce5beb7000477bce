import Verif.Lemmas.SignerTags
import Mathlib.Algebra.BigOperators.Group.List.Basic
import Mathlib.Data.List.Range
import Mathlib.Data.List.Perm.Subperm

/-! Positions and masks of the signatures of a finished session. -/

set_option linter.unusedSectionVars false

namespace Verif.Signer
open Verif
variable {S P : Type} [CommRing S] [AddCommGroup P] [Module S P] [DecidableEq S] [DecidableEq P]

theorem Stage.notHashing {st : St} {n m : Nat} {i o : Int} {ks : List Kind} (h : Stage st n m i o ks)
    (hc : .allOut ∈ ks) : st.hashing = false := by
  cases st <;> simp only [Stage] at h <;> first | rfl | exact h.elim | (exfalso; revert hc)
  · rw [h.2.2]; simp
  · obtain ⟨k, _, _, _, rfl⟩ := h; simp [List.mem_replicate]
  · obtain ⟨_, _, _, rfl⟩ := h; simp [List.mem_replicate]
  · obtain ⟨_, _, _, rfl⟩ := h; simp [preIn, List.mem_replicate]
  · obtain ⟨k, _, _, _, _, rfl⟩ := h; simp [preIn, List.mem_replicate]
  · obtain ⟨k, _, _, _, _, rfl⟩ := h; simp [preOut, preIn, List.mem_replicate]
  · obtain ⟨_, _, k, _, _, rfl⟩ := h; simp [preOut, preIn, List.mem_replicate]

variable {env : Env S P} {hd : Head S P} {s : List (Event S)} {b : Builder S P} {g : Ghost S}

theorem Inv.inputsLen (hI : Inv env hd s b g) (hst : b.state.s = .SIGNATURE_DONE) :
    (inputs s).length = hd.tsx.numInputs := by
  have := hI.stage
  rw [hst] at this
  rw [inputs_length, this.2.2.2.2, List.count_append, count_preSign]
  simp [List.count_replicate]

theorem Inv.outputsLen (hI : Inv env hd s b g) (hst : b.state.s = .SIGNATURE_DONE) :
    (outputs s).length = hd.tsx.outputs.length := by
  have := hI.stage
  rw [hst] at this
  rw [outputs_length, this.2.2.2.2, List.count_append, count_preSign]
  simp [List.count_replicate]

theorem Inv.signsLen (hI : Inv env hd s b g) (hst : b.state.s = .SIGNATURE_DONE) :
    (signs s).length = hd.tsx.numInputs := by
  have := hI.stage
  rw [hst] at this
  rw [signs_length, this.2.2.2.2, List.count_append, count_preSign]
  simp [List.count_replicate]

theorem Inv.viniHmac_inj (hI : Inv env hd s b g) (hB : Binding env) {i j : Nat} {r r' : InputRec S}
    (h : (inputs s)[i]? = some r) (h' : (inputs s)[j]? = some r') (he : r.viniHmac = r'.viniHmac) : i = j := by
  have hk : b.keyHmac.length = 32 := by rw [hI.keyHmac]; exact hB.keyLen _
  have h1 := (hI.inputsOk i r h).1
  have h2 := (hI.inputsOk j r' h').1
  unfold hmacVini at h1 h2
  rw [he] at h1
  exact (tag_inj hB hk (p := .txin) (q := .txin) h1 h2).2.1

/-- Signature `i`. -/
theorem Inv.signAt (hI : Inv env hd s b g) {i : Nat} {v : SignRec} (hv : (signs s)[i]? = some v) :
    ∃ d u, g.dec[i]? = some d ∧ g.used[i]? = some u ∧ SignOk env b i v d u := by
  have hi : i < (signs s).length := (List.getElem?_eq_some_iff.1 hv).1
  have hd1 : i < g.dec.length := by rw [hI.signLen.1]; exact hi
  have hd2 : i < g.used.length := by rw [hI.signLen.2]; exact hi
  exact ⟨_, _, List.getElem?_eq_getElem hd1, List.getElem?_eq_getElem hd2,
    hI.signsOk i v _ _ hv (List.getElem?_eq_getElem hd1) (List.getElem?_eq_getElem hd2)⟩

/-- `some`-lists: equal positions of a nodup list of in-range indices of full length form a permutation. -/
theorem perm_range_of_nodup {p : List Nat} {n : Nat} (hnd : p.Nodup) (hlen : n ≤ p.length)
    (hlt : ∀ i q, i < n → p[i]? = some q → q < n) : (p.take n).Perm (List.range n) := by
  have h1 : (p.take n).Nodup := hnd.sublist (List.take_sublist _ _)
  have h2 : (p.take n) ⊆ List.range n := by
    intro q hq
    obtain ⟨i, hi⟩ := List.mem_iff_getElem?.1 hq
    have hil := (List.getElem?_eq_some_iff.1 hi).1
    simp at hil
    rw [List.getElem?_take_of_lt hil.1] at hi
    exact List.mem_range.2 (hlt i q hil.1 hi)
  exact (List.subperm_of_subset h1 h2).perm_of_length_le (by simp; omega)

theorem Inv.signPositions (hI : Inv env hd s b g) (hB : Binding env) (hst : b.state.s = .SIGNATURE_DONE)
    (hissued : ∀ v ∈ signs s, v.viniHmac ∈ issued s) (hnd : b.perm.Nodup) :
    (b.perm.take hd.tsx.numInputs).Perm (List.range hd.tsx.numInputs) ∧
    ∀ (i : Nat) (v : SignRec), (signs s)[i]? = some v → ∃ (pos : Nat) (r : InputRec S), b.perm[i]? = some pos ∧ (inputs s)[pos]? = some r ∧
      r.viniHmac = v.viniHmac := by
  have hpos : ∀ (i : Nat) (v : SignRec), (signs s)[i]? = some v → ∃ (pos : Nat) (r : InputRec S), b.perm[i]? = some pos ∧ (inputs s)[pos]? = some r ∧
      r.viniHmac = v.viniHmac := by
    intro i v hv
    obtain ⟨d, u, _, _, pos, kA, aB, kS, sB, real, full, pOut, rnd, hp, hm, _⟩ := hI.signAt hv
    obtain ⟨r, h1, h2, _⟩ := hI.viniTag hB hm (hissued v (List.mem_of_getElem? hv))
    exact ⟨pos, r, hp, h1, h2⟩
  refine ⟨?_, hpos⟩
  have hidx : ∀ i, i < hd.tsx.numInputs → ∃ v, (signs s)[i]? = some v := by
    intro i hi
    rw [← hI.signsLen hst] at hi
    exact ⟨_, List.getElem?_eq_getElem hi⟩
  apply perm_range_of_nodup hnd
  · by_contra hc
    obtain ⟨v, hv⟩ := hidx b.perm.length (by omega)
    obtain ⟨pos, r, hp, _⟩ := hpos _ v hv
    simp at hp
  · intro i q hi hq
    obtain ⟨v, hv⟩ := hidx i hi
    obtain ⟨pos, r, hp, hr, _⟩ := hpos i v hv
    rw [hq] at hp
    simp only [Option.some.injEq] at hp
    subst hp
    rw [← hI.inputsLen hst]
    exact (List.getElem?_eq_some_iff.1 hr).1

theorem Inv.keyEnc (hI : Inv env hd s b g) :
    b.keyEnc = env.keccak2 (ascii "enc" ++ masterKey env hd.tsx hd.pid hd.rnd) := by
  have := hI.static
  simp only [Builder.static, Prod.mk.injEq] at this
  rw [this.2.1]; rfl

theorem getD_range_map {α β : Type} [Inhabited β] (l : List α) (f : α → β) (d : β) :
    (List.range l.length).map (fun q => ((l[q]?).map f).getD d) = l.map f := by
  apply List.ext_getElem (by simp)
  intro n h2 h3
  simp at h2 h3
  simp [List.getElem?_eq_getElem h2]

/-- Signature `i`: which sealed mask was opened, and what the returned pseudo output is. -/
theorem Inv.signMask (hI : Inv env hd s b g) (hB : Binding env) (hS : Sealing env)
    (hst : b.state.s = .SIGNATURE_DONE) {i : Nat} {v : SignRec} (hv : (signs s)[i]? = some v)
    (h2 : v.viniHmac ∈ issued s) (h3 : v.pseudoOutHmac ∈ issued s)
    (h4 : v.alphaEnc ∈ (inputs s).map (·.alphaEnc)) :
    ∃ (pos : Nat) (r : InputRec S) (u : S), b.perm[i]? = some pos ∧ (inputs s)[pos]? = some r ∧
      g.dec[i]? = some r.rnd.alpha ∧ g.used[i]? = some u ∧
      v.resultPseudoOut = env.ptEnc (genC env u r.src.amount) := by
  obtain ⟨d, u, hd1, hu1, pos, kA, aB, kS, sB, real, full, pOut, rnd, hp, hm, hk, hdec, hde, _, _, _, _, _, _, _,
    hres, hcase⟩ := hI.signAt hv
  obtain ⟨r, hr1, hr2, _⟩ := hI.viniTag hB hm h2
  have hkl : b.keyEnc.length = 32 := by rw [hI.keyEnc]; exact hB.keyLen _
  obtain ⟨r', hr', hra⟩ := List.mem_map.1 h4
  obtain ⟨j, hj⟩ := List.mem_iff_getElem?.1 hr'
  obtain ⟨_, hpo, _, ⟨k, hk2, hae⟩, _⟩ := hI.inputsOk j r' hj
  rw [← hra, hae] at hdec
  have hkk := hS.bind _ _ _ _ _ hdec
  subst hkk
  rw [hS.openSeal] at hdec
  simp only [Option.some.injEq] at hdec
  subst hdec
  have hjp := (buildKey_inj hB hkl (p := .txinAlpha) (q := .txinAlpha) hk2 hk).2
  subst hjp
  rw [hr1] at hj
  simp only [Option.some.injEq] at hj
  subst hj
  rw [hS.scRound] at hde
  subst hde
  refine ⟨j, r, u, hp, hr1, hd1, hu1, ?_⟩
  rcases hcase with ⟨hdet, hlast, hpout⟩ | ⟨_, htag, hpt, hu⟩
  · obtain ⟨rl, hrl, hra⟩ := hI.lastAmount (by rw [hst]; rfl)
    rw [List.getLast?_eq_getElem?, hI.inputsLen hst, ← hI.counts.1, ← hlast] at hrl
    simp only [Nat.add_sub_cancel] at hrl
    rw [hr1] at hrl
    simp only [Option.some.injEq] at hrl
    subst hrl
    rw [hres, hpout, hra]
  · obtain ⟨r2, hr2, hpo2⟩ := hI.commTag hB htag h3
    rw [hr1] at hr2
    simp only [Option.some.injEq] at hr2
    subst hr2
    rw [← hpo2, hpo, hS.ptRound] at hpt
    simp only [Option.some.injEq] at hpt
    rw [hres, ← hpt, hu]

theorem Inv.masksBalance (hI : Inv env hd s b g) (hB : Binding env) (hS : Sealing env)
    (hst : b.state.s = .SIGNATURE_DONE)
    (hissued : ∀ v ∈ signs s, v.viniHmac ∈ issued s ∧ v.pseudoOutHmac ∈ issued s ∧
      v.alphaEnc ∈ (inputs s).map (·.alphaEnc)) (hnd : b.perm.Nodup) :
    g.used.sum = g.masks.sum ∧
    (signs s).map (·.resultPseudoOut) = List.zipWith (fun m a => env.ptEnc (genC env m a)) g.used
      ((b.perm.take hd.tsx.numInputs).map fun q => (((inputs s)[q]?).map (·.src.amount)).getD 0) := by
  obtain ⟨hperm, _⟩ := hI.signPositions hB hst (fun v hv => (hissued v hv).1) hnd
  have hpl := hperm.length_eq
  rw [List.length_range] at hpl
  have hsl := hI.signsLen hst
  have key : ∀ i (hi : i < hd.tsx.numInputs), ∃ (v : SignRec) (pos : Nat) (r : InputRec S) (u : S),
      (signs s)[i]? = some v ∧ b.perm[i]? = some pos ∧ (inputs s)[pos]? = some r ∧
      g.dec[i]? = some r.rnd.alpha ∧ g.used[i]? = some u ∧
      v.resultPseudoOut = env.ptEnc (genC env u r.src.amount) := by
    intro i hi
    rw [← hsl] at hi
    have hv := List.getElem?_eq_getElem hi
    obtain ⟨h2, h3, h4⟩ := hissued _ (List.getElem_mem hi)
    obtain ⟨pos, r, u, h⟩ := hI.signMask hB hS hst hv h2 h3 h4
    exact ⟨_, pos, r, u, hv, h⟩
  have hdec : g.dec = (b.perm.take hd.tsx.numInputs).map
      fun q => (((inputs s)[q]?).map (·.rnd.alpha)).getD 0 := by
    apply List.ext_getElem?
    intro i
    by_cases hi : i < hd.tsx.numInputs
    · obtain ⟨v, pos, r, u, _, h2, h3, h4, _⟩ := key i hi
      rw [h4, List.getElem?_map, List.getElem?_take_of_lt hi, h2]
      simp [h3]
    · rw [List.getElem?_eq_none (by rw [hI.signLen.1]; omega), List.getElem?_eq_none (by simp; omega)]
  constructor
  · have h1 : g.dec.sum = ((inputs s).map (·.rnd.alpha)).sum := by
      rw [hdec, (hperm.map _).sum_eq, ← hI.inputsLen hst]
      congr 1
      haveI : Inhabited S := ⟨0⟩
      exact getD_range_map _ _ _
    have h2 := hI.alphaSum
    rw [h1, hI.signed hst, hI.sumout] at h2
    exact (add_right_cancel h2).symm
  · apply List.ext_getElem?
    intro i
    by_cases hi : i < hd.tsx.numInputs
    · obtain ⟨v, pos, r, u, h1, h2, h3, _, h5, h6⟩ := key i hi
      rw [List.getElem?_map, h1, List.getElem?_zipWith, h5, List.getElem?_map, List.getElem?_take_of_lt hi, h2]
      simp [h3, h6]
    · rw [List.getElem?_eq_none (by simp; omega), List.getElem?_eq_none (by
        simp only [List.length_zipWith, hI.signLen.2]; omega)]

end Verif.Signer

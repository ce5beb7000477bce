import Verif.Lemmas.SignerClash
import Verif.Lemmas.SignerBalance

set_option linter.unusedSectionVars false

namespace Verif.Signer
open Verif
variable {S P : Type} [CommRing S] [AddCommGroup P] [Module S P] [DecidableEq S] [DecidableEq P]
variable {env : Env S P} {hd : Head S P} {s : List (Event S)} {b : Builder S P} {g : Ghost S}

theorem sealSecretOf_eq (hI : Inv env hd s b g) {s' : List (Event S)} (h : initOf s' = some (hd.tsx, hd.rnd, hd.hmacs)) :
    sealSecretOf env s' = some b.keyEnc := by
  unfold sealSecretOf
  rw [h, Option.bind_some]
  dsimp only
  rw [hI.initOk.pidOk, Option.map_some, hI.keyEnc]
  rfl

/-- Signature `i` used the mask and the commitment of the input at position `pos`. -/
def MaskAt (env : Env S P) (s : List (Event S)) (b : Builder S P) (g : Ghost S) (i : Nat) (v : SignRec) : Prop :=
  ∃ (pos : Nat) (r : InputRec S) (u : S), b.perm[i]? = some pos ∧ (inputs s)[pos]? = some r ∧
    g.dec[i]? = some r.rnd.alpha ∧ g.used[i]? = some u ∧ v.resultPseudoOut = env.ptEnc (genC env u r.src.amount)

theorem Inv.positions_of (hI : Inv env hd s b g) (hst : b.state.s = .SIGNATURE_DONE) (hnd : b.perm.Nodup)
    (hpos : ∀ (i : Nat) (v : SignRec), (signs s)[i]? = some v → ∃ (pos : Nat) (r : InputRec S), b.perm[i]? = some pos ∧ (inputs s)[pos]? = some r) :
    (b.perm.take hd.tsx.numInputs).Perm (List.range hd.tsx.numInputs) := by
  have hidx : ∀ i, i < hd.tsx.numInputs → ∃ v, (signs s)[i]? = some v := by
    intro i hi
    rw [← hI.signsLen hst] at hi
    exact ⟨_, List.getElem?_eq_getElem hi⟩
  apply perm_range_of_nodup hnd
  · by_contra hc
    obtain ⟨v, hv⟩ := hidx b.perm.length (by omega)
    obtain ⟨pos, r, hp, _⟩ := hpos _ v hv
    simp at hp
  · intro i q hi hq
    obtain ⟨v, hv⟩ := hidx i hi
    obtain ⟨pos, r, hp, hr⟩ := hpos i v hv
    rw [hq] at hp
    simp only [Option.some.injEq] at hp
    subst hp
    rw [← hI.inputsLen hst]
    exact (List.getElem?_eq_some_iff.1 hr).1

theorem Inv.masks_of (hI : Inv env hd s b g) (hst : b.state.s = .SIGNATURE_DONE) (hnd : b.perm.Nodup)
    (hm : ∀ (i : Nat) (v : SignRec), (signs s)[i]? = some v → MaskAt env s b g i v) :
    (b.perm.take hd.tsx.numInputs).Perm (List.range hd.tsx.numInputs) ∧ g.used.sum = g.masks.sum ∧
    (signs s).map (·.resultPseudoOut) = List.zipWith (fun m a => env.ptEnc (genC env m a)) g.used
      ((b.perm.take hd.tsx.numInputs).map fun q => (((inputs s)[q]?).map (·.src.amount)).getD 0) := by
  have hperm := hI.positions_of hst hnd fun i v hv => by
    obtain ⟨pos, r, _, h1, h2, _⟩ := hm i v hv
    exact ⟨pos, r, h1, h2⟩
  refine ⟨hperm, ?_⟩
  have hsl := hI.signsLen hst
  have key : ∀ i (hi : i < hd.tsx.numInputs), ∃ (v : SignRec) (pos : Nat) (r : InputRec S) (u : S),
      (signs s)[i]? = some v ∧ b.perm[i]? = some pos ∧ (inputs s)[pos]? = some r ∧
      g.dec[i]? = some r.rnd.alpha ∧ g.used[i]? = some u ∧
      v.resultPseudoOut = env.ptEnc (genC env u r.src.amount) := by
    intro i hi
    rw [← hsl] at hi
    have hv := List.getElem?_eq_getElem hi
    obtain ⟨pos, r, u, h⟩ := hm i _ hv
    exact ⟨_, pos, r, u, hv, h⟩
  have hpl := hperm.length_eq
  rw [List.length_range] at hpl
  have hdec : g.dec = (b.perm.take hd.tsx.numInputs).map
      fun q => (((inputs s)[q]?).map (·.rnd.alpha)).getD 0 := by
    apply List.ext_getElem?
    intro i
    by_cases hi : i < hd.tsx.numInputs
    · obtain ⟨v, pos, r, u, _, h2, h3, h4, _⟩ := key i hi
      rw [h4, List.getElem?_map, List.getElem?_take_of_lt hi, h2]
      simp [h3]
    · rw [List.getElem?_eq_none (by rw [hI.signLen.1]; omega), List.getElem?_eq_none (by simp; omega)]
  constructor
  · have h1 : g.dec.sum = ((inputs s).map (·.rnd.alpha)).sum := by
      rw [hdec, (hperm.map _).sum_eq, ← hI.inputsLen hst]
      congr 1
      haveI : Inhabited S := ⟨0⟩
      exact getD_range_map _ _ _
    have h2 := hI.alphaSum
    rw [h1, hI.signed hst, hI.sumout] at h2
    exact (add_right_cancel h2).symm
  · apply List.ext_getElem?
    intro i
    by_cases hi : i < hd.tsx.numInputs
    · obtain ⟨v, pos, r, u, h1, h2, h3, _, h5, h6⟩ := key i hi
      rw [List.getElem?_map, h1, List.getElem?_zipWith, h5, List.getElem?_map, List.getElem?_take_of_lt hi, h2]
      simp [h3, h6]
    · rw [List.getElem?_eq_none (by simp; omega), List.getElem?_eq_none (by
        simp only [List.length_zipWith, hI.signLen.2]; omega)]

/-- If input and pseudo output are those of position `pos` and the sealed mask is the one sealed there, signature `i` used them. -/
theorem Inv.maskAt (hI : Inv env hd s b g) (hopen : ∀ k m n, env.decPack k (env.encPack k m n) = some m) (hsc : ∀ x, env.scDec (env.scEnc x) = x)
    (hpt : ∀ p, env.ptDec (env.ptEnc p) = some p) (hst : b.state.s = .SIGNATURE_DONE) {i : Nat} {v : SignRec} (hv : (signs s)[i]? = some v)
    {pos : Nat} {r : InputRec S} (hp : b.perm[i]? = some pos) (hr : (inputs s)[pos]? = some r)
    (hpo : (b.isDetMask = true ∧ pos + 1 = b.inputCount) ∨ r.pseudoOut = v.pseudoOut) (ha : v.alphaEnc = r.alphaEnc) : MaskAt env s b g i v := by
  obtain ⟨d, u, hd1, hu1, pos', kA, aB, kS, sB, real, full, pOut, rnd, hp', hm, hk, hdec, hde, _, _, _, _, _, _, _, hres, hcase⟩ := hI.signAt hv
  rw [hp] at hp'
  obtain rfl : pos = pos' := by simpa using hp'
  obtain ⟨_, hpo', _, ⟨k, hk2, hae⟩, _⟩ := hI.inputsOk pos r hr
  have hkk : kA = k := by rw [hk] at hk2; simpa using hk2
  subst hkk
  rw [ha, hae, hopen] at hdec
  obtain rfl : env.scEnc r.rnd.alpha = aB := by simpa using hdec
  rw [hsc] at hde
  subst hde
  refine ⟨pos, r, u, hp, hr, hd1, hu1, ?_⟩
  rcases hcase with ⟨hdet, hlast, hpout⟩ | ⟨hnl, htag, hpt', hu⟩
  · obtain ⟨rl, hrl, hra⟩ := hI.lastAmount (by rw [hst]; rfl)
    rw [List.getLast?_eq_getElem?, hI.inputsLen hst, ← hI.counts.1, ← hlast] at hrl
    simp only [Nat.add_sub_cancel] at hrl
    rw [hr] at hrl
    simp only [Option.some.injEq] at hrl
    subst hrl
    rw [hres, hpout, hra]
  · rcases hpo with ⟨h1, h2⟩ | hpo
    · exact absurd h2 (hnl h1)
    rw [← hpo, hpo', hpt] at hpt'
    simp only [Option.some.injEq] at hpt'
    rw [hres, ← hpt', hu]

end Verif.Signer

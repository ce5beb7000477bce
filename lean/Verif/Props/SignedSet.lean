import Verif.Lemmas.SignedSet
import Verif.Props.Agent
import Verif.Lemmas.AgentDemo

/-! C91: the signed set returned to the hot wallet. -/

namespace Verif.SignedSet
open Verif Verif.Signer Verif.Agent
variable {S P : Type} [CommRing S] [AddCommGroup P] [Module S P] [DecidableEq S] [DecidableEq P]

/-- C91. Signing a set from a wallet that sent its transfers: every transaction is confirmed and correctly signed; the key image returned for a transfer
that was spent is that of the source it was spent as; those of all other transfers are the ones the wallet sent. -/
theorem C91_signed_set {env : Env S P} {cdc : Codec} {cfg : Config} (hl : Lawful env cdc) {rnd : Nat → Rand S} {hrnd : Nat → Nat → Bytes}
    {transfers images : List Bytes} (ht : transfers ≠ []) {txes : List Unsigned} (hok : SetOk cfg txes) {c c' : Conn S P} {ps : List Pending}
    (hrun : signSet env cfg cdc rnd hrnd transfers txes c = some (ps, images, c')) :
    List.Forall₂ (RecordOk env cfg rnd) txes ps ∧ images.length = transfers.length ∧
    (∀ u ∈ txes, ∀ t src, Spends u t src → ∃ k, images[t]? = some k ∧ IsImage env u.data src k) ∧
    (∀ t, (∀ u ∈ txes, t ∉ u.selected) → images[t]? = transfers[t]?) := by
  have hi : initial transfers txes = transfers := by
    unfold initial
    rw [if_neg]
    intro e
    exact ht (List.length_eq_zero_iff.1 e)
  unfold signSet at hrun
  rw [hi] at hrun
  obtain ⟨h1, h2, h3, h4⟩ := signLoop_eff hl txes hok hrun
  exact ⟨h4, h1, h2, h3⟩

/-- C91. The same from a wallet that sent no transfers: the list covers every transfer spent, and the places in between hold the neutral element. -/
theorem C91_signed_set_no_transfers {env : Env S P} {cdc : Codec} {cfg : Config} (hl : Lawful env cdc) {rnd : Nat → Rand S} {hrnd : Nat → Nat → Bytes}
    {images : List Bytes} {txes : List Unsigned} (hok : SetOk cfg txes) {c c' : Conn S P} {ps : List Pending}
    (hrun : signSet env cfg cdc rnd hrnd [] txes c = some (ps, images, c')) :
    List.Forall₂ (RecordOk env cfg rnd) txes ps ∧
    (∀ u ∈ txes, ∀ t src, Spends u t src → ∃ k, images[t]? = some k ∧ IsImage env u.data src k) ∧
    (∀ t, t < images.length → (∀ u ∈ txes, t ∉ u.selected) → images[t]? = some neutral) ∧
    (images.length = 1 ∨ ∃ u ∈ txes, images.length - 1 ∈ u.selected) := by
  unfold signSet at hrun
  obtain ⟨h1, h2, h3, h4⟩ := signLoop_eff hl txes hok hrun
  refine ⟨h4, h2, ?_, ?_⟩
  · intro t hlt hn
    rw [h3 t hn]
    rw [h1] at hlt
    unfold initial at hlt ⊢
    rw [if_pos List.length_nil] at hlt ⊢
    rw [List.length_replicate] at hlt
    rw [List.getElem?_replicate, if_pos hlt]
    rfl
  · rw [h1]
    unfold initial
    rw [if_pos List.length_nil, List.length_replicate, Nat.add_sub_cancel]
    have key : ∀ (l : List Nat) m, l.foldl max m = m ∨ l.foldl max m ∈ l := by
      intro l
      induction l with
      | nil => intro m; exact .inl rfl
      | cons a l ih =>
        intro m
        rw [List.foldl_cons]
        rcases ih (max m a) with h | h
        · rw [h]
          rcases Nat.le_total m a with h' | h'
          · rw [Nat.max_eq_right h']; exact .inr List.mem_cons_self
          · rw [Nat.max_eq_left h']; exact .inl rfl
        · exact .inr (List.mem_cons_of_mem _ h)
    have key2 : ∀ (us : List Unsigned) m, us.foldl (fun m tx => tx.selected.foldl max m) m = m ∨
        ∃ u ∈ us, us.foldl (fun m tx => tx.selected.foldl max m) m ∈ u.selected := by
      intro us
      induction us with
      | nil => intro m; exact .inl rfl
      | cons u us ih =>
        intro m
        rw [List.foldl_cons]
        rcases ih (u.selected.foldl max m) with h | ⟨v, hv, h⟩
        · rw [h]
          rcases key u.selected m with h' | h'
          · exact .inl h'
          · exact .inr ⟨u, List.mem_cons_self, h'⟩
        · exact .inr ⟨v, List.mem_cons_of_mem _ hv, h⟩
    rcases key2 txes 0 with h | h
    · rw [h]; exact .inl rfl
    · exact .inr h

theorem signOne_ends {env : Env S P} {cdc : Codec} {cfg : Config} (hl : Lawful env cdc) {rnd : Nat → Rand S} (hrnd : Nat → Bytes)
    {u : Unsigned} (hh : Honest env cfg u.data) (hlen : u.selected.length = u.data.sources.length) {images : List Bytes}
    (hroom : ∀ t ∈ u.selected, t < images.length) (hui : ∀ k, (rnd k).confirm = true ∧ (rnd k).uiOk = true) (c : Conn S P) :
    ∃ p images' c', signOne env cfg cdc rnd hrnd u images c = some (p, images', c') ∧ images'.length = images.length := by
  obtain ⟨tx, c1, _, _, _, _, _, _, h1, _, _⟩ := C72_honest_signing_completes hl hh rnd hrnd c ⟨(hui _).1, fun k => (hui k).2⟩
  have hfit : Fits cfg u.data := ⟨hh.version, hh.hf, hh.fewSources, hh.fewDsts, hh.amounts⟩
  obtain ⟨p, g1, g2, g3, g4, _⟩ := sign_permutation hl hfit h1
  obtain ⟨calls, hcalls, _⟩ := Common.C33_apply g3
  obtain ⟨im, him⟩ := update_ends u.selected p (tx.vin.map (·.ki)) (List.range u.selected.length) images (by
    intro i hi
    have hi' : i < p.length := by rw [g2, ← hlen]; exact List.mem_range.1 hi
    have hm : p[i] < u.selected.length := by
      have := List.mem_range.1 (g3.mem_iff.1 (List.getElem_mem hi'))
      rw [hlen, ← g2]
      exact this
    refine ⟨p[i], u.selected[p[i]], List.getElem?_eq_getElem hi', List.getElem?_eq_getElem hm, ?_, ?_⟩
    · rw [List.length_map, g4, ← g2]; exact hi'
    · exact hroom _ (List.getElem_mem hm))
  refine ⟨⟨tx, u.selected, Common.doSwaps calls u.data.sources⟩, im, c1, ?_, (update_eff _ _ _ _ _ _ him).1⟩
  unfold signOne
  rw [h1, Option.bind_some, g1, Option.bind_some, hcalls _ (Nat.lt_succ_self _), Option.bind_some]
  dsimp only
  rw [him]
  rfl

/-- C91. A set of honest transactions is signed when the user agrees, if the wallet's list of transfers (when it sent one) covers those spent. -/
theorem C91_honest_set_is_signed {env : Env S P} {cdc : Codec} {cfg : Config} (hl : Lawful env cdc) {rnd : Nat → Rand S} (hrnd : Nat → Nat → Bytes)
    {transfers : List Bytes} {txes : List Unsigned} (hh : ∀ u ∈ txes, Honest env cfg u.data)
    (hlen : ∀ u ∈ txes, u.selected.length = u.data.sources.length) (hcov : transfers ≠ [] → ∀ u ∈ txes, ∀ t ∈ u.selected, t < transfers.length)
    (hui : ∀ k, (rnd k).confirm = true ∧ (rnd k).uiOk = true) (c : Conn S P) :
    ∃ ps images c', signSet env cfg cdc rnd hrnd transfers txes c = some (ps, images, c') := by
  have hroom : ∀ u ∈ txes, ∀ t ∈ u.selected, t < (initial transfers txes).length := by
    intro u hu t ht
    unfold initial
    split
    · rw [List.length_replicate]
      exact Nat.lt_succ_of_le ((foldl_sel_le txes 0).2 u hu t ht)
    · rename_i h
      exact hcov (fun e => h (by rw [e]; rfl)) u hu t ht
  unfold signSet
  generalize initial transfers txes = images at hroom
  generalize 0 = k
  clear hcov
  induction txes generalizing k images c with
  | nil => exact ⟨_, _, _, rfl⟩
  | cons u us ih =>
    obtain ⟨p, im, c1, hone, hil⟩ := signOne_ends hl (hrnd k) (hh u List.mem_cons_self) (hlen u List.mem_cons_self) (hroom u List.mem_cons_self) hui c
    obtain ⟨ps, ims, c2, h2⟩ := ih (fun v hv => hh v (List.mem_cons_of_mem _ hv)) (fun v hv => hlen v (List.mem_cons_of_mem _ hv)) c1 im
      (by intro v hv t ht; rw [hil]; exact hroom v (List.mem_cons_of_mem _ hv) t ht) (k + 1)
    refine ⟨p :: ps, ims, c2, ?_⟩
    rw [signLoop, hone, Option.bind_some]
    dsimp only
    rw [h2]
    rfl

/-- C91. In the record of a transaction the sources are in the order of its inputs. -/
theorem C91_record_order {env : Env S P} {cdc : Codec} {cfg : Config} (hl : Lawful env cdc) {u : Unsigned} (hfit : Fits cfg u.data)
    (hlen : u.selected.length = u.data.sources.length) (hnd : u.selected.Nodup) {rnd : Nat → Rand S} {hrnd : Nat → Bytes} {images images' : List Bytes}
    {c c' : Conn S P} {p : Pending} (hrun : signOne env cfg cdc rnd hrnd u images c = some (p, images', c')) :
    p.sources.Perm u.data.sources ∧
    ∀ (i : Nat) v src, p.tx.vin[i]? = some v → p.sources[i]? = some src → IsImage env u.data src v.ki := by
  obtain ⟨_, _, _, _, _, hperm, perm, hp, h⟩ := signOne_eff hl hfit hlen hnd hrun
  refine ⟨hperm, ?_⟩
  intro i v src hv hs
  have hi : i < perm.length := by rw [hp.length_eq, List.length_range, ← hperm.length_eq]; exact (List.getElem?_eq_some_iff.1 hs).1
  have hj : perm[i] < u.data.sources.length := List.mem_range.1 (hp.mem_iff.1 (List.getElem_mem hi))
  obtain ⟨h1, v', k, h2, rfl, h3⟩ := h i perm[i] (List.getElem?_eq_getElem hi) _ (List.getElem?_eq_getElem hj)
  cases h1.symm.trans hs
  cases h2.symm.trans hv
  exact h3

/-! Two transactions of the demo wallet, spending transfers 1 and 0, and 3 and 5. -/

namespace Demo
open Agent.Demo

def first : Unsigned := ⟨request, [1, 0]⟩
def second : Unsigned := ⟨request, [3, 5]⟩

theorem set_ok : SetOk ⟨10, 1⟩ [first, second] where
  fits := by
    intro u hu
    have h := honest 10 (by omega)
    have hf : Fits ⟨10, 1⟩ request := ⟨h.version, h.hf, h.fewSources, h.fewDsts, h.amounts⟩
    rcases List.mem_cons.1 hu with rfl | hu
    · exact hf
    · rcases List.mem_singleton.1 hu with rfl
      exact hf
  numbered := by
    intro u hu
    rcases List.mem_cons.1 hu with rfl | hu
    · rfl
    · rcases List.mem_singleton.1 hu with rfl
      rfl
  once := by decide

theorem signed (hrnd : Nat → Nat → Bytes) (transfers : List Bytes) (h : transfers ≠ [] → 6 ≤ transfers.length) (c : Conn F F) :
    ∃ ps images c', signSet parts ⟨10, 1⟩ codec (fun _ => draws) hrnd transfers [first, second] c = some (ps, images, c') := by
  refine C91_honest_set_is_signed lawful hrnd ?_ set_ok.numbered ?_ (fun _ => ⟨rfl, rfl⟩) c
  · intro u hu
    rcases List.mem_cons.1 hu with rfl | hu
    · exact honest 10 (by omega)
    · rcases List.mem_singleton.1 hu with rfl
      exact honest 10 (by omega)
  · intro hne u hu t ht
    have := h hne
    have ht' : t ≤ 5 := by
      rcases List.mem_cons.1 hu with rfl | hu
      · revert t; decide
      · rcases List.mem_singleton.1 hu with rfl
        revert t; decide
    omega

/-- The key image of the demo wallet's sources. -/
theorem image {a : Nat} {x : F} {d : TxData} {k : Bytes} (h : IsImage parts d (source a x) k) : k = enc x := by
  obtain ⟨y, ki, ho, rfl⟩ := h
  obtain ⟨real, txKey, addKeys, h1, h2, _, h3, h4, h5⟩ := ho.real
  cases h1
  have e : y = x := by
    have h2 : dec (enc x) = some (y • (1 : F)) := h2
    rw [dec_enc] at h2
    simpa using (Option.some.inj h2).symm
  subst e
  have h5 : some ((y • (1 : F)), (y • (1 : F))) = some (y, ki) := h5
  simp only [Option.some.injEq, Prod.mk.injEq] at h5
  rw [← h5.2, h5.1]
  rfl

/-- With six transfers, the fifth is left alone and the others get the key images of their sources. -/
example (hrnd : Nat → Nat → Bytes) (c : Conn F F) : ∃ ps c',
    signSet parts ⟨10, 1⟩ codec (fun _ => draws) hrnd (List.replicate 6 [7]) [first, second] c =
      some (ps, [enc 6, enc 4, [7], enc 4, [7], enc 6], c') := by
  obtain ⟨ps, images, c', h⟩ := signed hrnd (List.replicate 6 [7]) (fun _ => by simp) c
  obtain ⟨_, h1, h2, h3⟩ := C91_signed_set lawful (by simp) set_ok h
  refine ⟨ps, c', ?_⟩
  rw [h]
  have a0 : images[0]? = some (enc 6) := by
    obtain ⟨k, hk, hi⟩ := h2 first (by simp) 0 (source 20 6) ⟨1, rfl, rfl⟩
    rw [hk, image hi]
  have a1 : images[1]? = some (enc 4) := by
    obtain ⟨k, hk, hi⟩ := h2 first (by simp) 1 (source 10 4) ⟨0, rfl, rfl⟩
    rw [hk, image hi]
  have a3 : images[3]? = some (enc 4) := by
    obtain ⟨k, hk, hi⟩ := h2 second (by simp) 3 (source 10 4) ⟨0, rfl, rfl⟩
    rw [hk, image hi]
  have a5 : images[5]? = some (enc 6) := by
    obtain ⟨k, hk, hi⟩ := h2 second (by simp) 5 (source 20 6) ⟨1, rfl, rfl⟩
    rw [hk, image hi]
  have a2 : images[2]? = some [7] := h3 2 (by simp [first, second])
  have a4 : images[4]? = some [7] := h3 4 (by simp [first, second])
  have hl : images.length = 6 := by rw [h1]; rfl
  match images, hl, a0, a1, a2, a3, a4, a5 with
  | [_, _, _, _, _, _], _, a0, a1, a2, a3, a4, a5 =>
    simp only [List.getElem?_cons_zero, List.getElem?_cons_succ, Option.some.injEq] at a0 a1 a2 a3 a4 a5
    subst a0 a1 a2 a3 a4 a5
    rfl

/-- From a wallet that sent no transfers the set is signed too, as `C91_signed_set_no_transfers` and `C91_record_order` suppose. -/
example (hrnd : Nat → Nat → Bytes) (c : Conn F F) : ∃ ps images c',
    signSet parts ⟨10, 1⟩ codec (fun _ => draws) hrnd [] [first, second] c = some (ps, images, c') ∧ images[2]? = some neutral ∧ images[5]? = some (enc 6) := by
  obtain ⟨ps, images, c', h⟩ := signed hrnd [] (fun e => absurd rfl e) c
  obtain ⟨_, h2, h3, _⟩ := C91_signed_set_no_transfers lawful set_ok h
  obtain ⟨k, hk, hi⟩ := h2 second (by simp) 5 (source 20 6) ⟨1, rfl, rfl⟩
  have hlt : 5 < images.length := (List.getElem?_eq_some_iff.1 hk).1
  exact ⟨ps, images, c', h, h3 2 (by omega) (by simp [first, second]), by rw [hk, image hi]⟩

end Demo

/-- C91 fails for the record: its first source is not the one of its first selected transfer. The sources were put in the order of the inputs, the
numbers of the transfers were not. (Two sources; the key image of the second is the larger one.) -/
theorem C91_false_record (hrnd : Nat → Bytes) (images : List Bytes) (hlen : 2 ≤ images.length) (c : Conn Agent.Demo.F Agent.Demo.F) :
    ∃ p images' c', signOne Agent.Demo.parts ⟨10, 1⟩ Agent.Demo.codec (fun _ => Agent.Demo.draws) hrnd Demo.first images c = some (p, images', c') ∧
      ∃ t src, p.selected[0]? = some t ∧ p.sources[0]? = some src ∧ ¬ Spends Demo.first t src := by
  have hh := Agent.Demo.honest 10 (by omega)
  obtain ⟨p, im, c', h, _⟩ := signOne_ends Agent.Demo.lawful (rnd := fun _ => Agent.Demo.draws) hrnd (u := Demo.first) hh rfl (images := images)
    (by
      intro t ht
      have : t ≤ 1 := by revert t; decide
      omega) (fun _ => ⟨rfl, rfl⟩) c
  have hfit : Fits ⟨10, 1⟩ Demo.first.data := ⟨hh.version, hh.hf, hh.fewSources, hh.fewDsts, hh.amounts⟩
  obtain ⟨_, _, _, hsel, htx, _, perm, hperm, hget⟩ := signOne_eff Agent.Demo.lawful hfit rfl (by decide) h
  obtain ⟨_, _, _, _, _, _, _, _, _, hok⟩ := C74_result_is_right_partial Agent.Demo.lawful hfit htx
  have hlen2 : perm.length = 2 := hperm.length_eq
  have h1m : 1 ∈ perm := hperm.mem_iff.2 (by decide)
  have h0m : 0 ∈ perm := hperm.mem_iff.2 (by decide)
  match perm, hlen2, h0m, h1m, hget with
  | [a, b], _, h0m, h1m, hget =>
    rcases List.mem_cons.1 h1m with rfl | hb1
    · refine ⟨p, im, c', h, 1, Agent.Demo.source 20 6, by rw [hsel]; rfl, (hget 0 1 rfl _ rfl).1, ?_⟩
      rintro ⟨j, hj, hs⟩
      match j, hj, hs with
      | 0, _, hs => exact absurd (congrArg (fun x : Option Src => x.map (·.amount)) hs) (by decide)
      | 1, hj, _ => exact absurd hj (by decide)
      | j + 2, hj, _ => exact absurd hj (by simp [Demo.first])
    · exfalso
      rw [List.mem_singleton] at hb1
      subst hb1
      have ha : a = 0 := by
        rcases List.mem_cons.1 h0m with e | e
        · exact e.symm
        · simp at e
      subst ha
      obtain ⟨_, v0, _, hv0, rfl, hi0⟩ := hget 0 0 rfl _ rfl
      obtain ⟨_, v1, _, hv1, rfl, hi1⟩ := hget 1 1 rfl _ rfl
      have hs := hok.sorted
      rw [List.pairwise_iff_getElem] at hs
      obtain ⟨l0, e0⟩ := List.getElem?_eq_some_iff.1 hv0
      obtain ⟨l1, e1⟩ := List.getElem?_eq_some_iff.1 hv1
      have := hs 0 1 (by rw [List.length_map]; exact l0) (by rw [List.length_map]; exact l1) (by omega)
      rw [List.getElem_map, List.getElem_map, e0, e1, Demo.image hi0, Demo.image hi1] at this
      revert this
      decide

end Verif.SignedSet

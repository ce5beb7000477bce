import Verif.Lemmas.TestGen

/-! Where the change output goes when an unsigned transaction is rewritten. -/

namespace Verif.TestGen
open Verif Ed
open Verif.Key hiding Dst rep_smul
open Verif.Builder (Creds checkInput)
open Verif.Signer (Src Dst Addr RingMember addrEq)

/-- The index names an output with the address and the amount of the change. -/
def AtChange (tx : Tx) (i : Option ℕ) : Prop := ∃ k c d, i = some k ∧ tx.change = some c ∧ tx.dsts[k]? = some d ∧ d.addr = c.addr ∧ d.amount = c.amount

theorem changeIdx_some {L : List Dst} {ch : Option Dst} {k : ℕ} (h : changeIdx L ch = some k) :
    ∃ c d, ch = some c ∧ L[k]? = some d ∧ c.amount = d.amount ∧ addrEq c.addr d.addr = true := by
  cases ch with
  | none => simp [changeIdx] at h
  | some c =>
    obtain ⟨⟨d, k'⟩, hd, rfl⟩ := Option.map_eq_some_iff.mp h
    have hm := List.mem_of_mem_getLast? hd
    obtain ⟨hm, hp⟩ := List.mem_filter.mp hm
    simp only [Bool.and_eq_true, beq_iff_eq] at hp
    exact ⟨c, d, rfl, List.mem_zipIdx_iff_getElem?.mp hm, hp.1.2, hp.2⟩

theorem adjust_at {b : Bool} {mine : Addr} {tx tx' : Tx} {k : ℕ} (h : adjustChange b mine tx = some (tx', some k)) :
    AtChange tx' (some k) ∧ tx'.change.map (·.addr) = some mine ∧ tx'.dsts.length = tx.dsts.length ∧
      ∀ j, changeIdx tx.dsts tx.change = some j → k = j := by
  have hlen : tx'.dsts.length = tx.dsts.length := by
    have := congrArg List.length (adjust_amounts h).1
    simpa using this
  unfold adjustChange at h
  dsimp only at h
  obtain ⟨f, hf, h⟩ := Option.map_eq_some_iff.mp h
  rcases f with _ | ⟨k', a⟩
  · simp at h
  simp only [Prod.mk.injEq, Option.some.injEq] at h
  obtain ⟨rfl, rfl⟩ := h
  have key : ∃ c d, tx.change = some c ∧ tx.dsts[k']? = some d ∧ a = d.amount ∧ ∀ j, changeIdx tx.dsts tx.change = some j → k' = j := by
    cases hc : changeIdx tx.dsts tx.change with
    | some i =>
      obtain ⟨c, d, h1, h2, h3, -⟩ := changeIdx_some hc
      rw [hc, h1] at hf
      simp only [Option.some.injEq, Prod.mk.injEq] at hf
      obtain ⟨rfl, rfl⟩ := hf
      exact ⟨c, d, h1, h2, h3, fun j hj => Option.some.inj hj⟩
    | none =>
      cases hch : tx.change with
      | none =>
        rw [hch] at hf
        simp only [] at hf
        split at hf <;> simp at hf
      | some c =>
        rw [hc, hch] at hf
        simp only [Option.some.injEq] at hf
        obtain ⟨⟨d, k2⟩, hd, he⟩ := Option.map_eq_some_iff.mp hf
        simp only [Prod.mk.injEq] at he
        obtain ⟨rfl, rfl⟩ := he
        exact ⟨c, d, rfl, List.mem_zipIdx_iff_getElem?.mp (List.mem_of_find?_eq_some hd), rfl, fun j hj => by simp at hj⟩
  obtain ⟨c, d, h1, h2, rfl, h4⟩ := key
  refine ⟨⟨k', { c with amount := d.amount, addr := mine }, ?_⟩, by rw [h1]; rfl, hlen, h4⟩
  dsimp only
  rw [h1]
  have hd' : ∀ f : Option (ℕ × ℕ), ∃ d', (if b then tx.dsts.mapIdx fun i d => if f.map (·.1) = some i then d else { d with isSub := true } else tx.dsts)[k']? =
      some d' ∧ d'.amount = d.amount := by
    intro f
    split
    · rw [List.getElem?_mapIdx, h2]
      exact ⟨_, rfl, by dsimp only; split <;> rfl⟩
    · exact ⟨d, h2, rfl⟩
  obtain ⟨d', e1, e2⟩ := hd' (some (k', d.amount))
  refine ⟨{ d' with addr := mine }, rfl, rfl, ?_, rfl, e2⟩
  rw [List.getElem?_modify, e1]
  simp

theorem shuffle_at {perm : List ℕ} {tx tx' : Tx} {i j : Option ℕ} (hp : perm.Perm (List.range tx.dsts.length)) (ha : AtChange tx i)
    (h : shuffleOuts perm tx i = some (tx', j)) : AtChange tx' j := by
  obtain ⟨k, c, d, rfl, h1, h2, h3, h4⟩ := ha
  obtain ⟨-, -, -, s1, c', k', s2, rfl, -, s3⟩ := shuffle_spec hp h
  have : k = c' := by simpa [findChangeIdx] using s2
  subst this
  exact ⟨k', c, d, rfl, by rw [s1, h1], by rw [s3, h2], h3, h4⟩

/-- Fewer outputs: the index stays right if there is nothing to remove or the change was the first output. -/
theorem reduce_at {n : ℕ} {perm : List ℕ} {tx tx' : Tx} {i j : Option ℕ} (hp : perm.Perm (List.range n)) (ha : AtChange tx i)
    (hi : tx.dsts.length ≤ n ∨ i = some 0) (h : reduceOuts n perm tx i = some (tx', j)) :
    AtChange tx' j ∧ tx'.change.map (·.addr) = tx.change.map (·.addr) ∧ (tx.dsts.length ≤ n → j = i) := by
  unfold reduceOuts at h
  split at h
  · simp only [Option.some.injEq, Prod.mk.injEq] at h
    obtain ⟨rfl, rfl⟩ := h
    exact ⟨ha, rfl, fun _ => rfl⟩
  rename_i hlt
  obtain rfl : i = some 0 := by rcases hi with h | h; exacts [absurd h hlt, h]
  have hf : findChangeIdx tx (some 0) = some 0 := rfl
  dsimp only at h
  obtain ⟨L, hL, h⟩ := Option.bind_eq_some_iff.mp h
  rw [hf] at hL h
  obtain ⟨k, c, d, hk, h1, h2, h3, h4⟩ := ha
  obtain rfl : 0 = k := Option.some.inj hk
  dsimp only at hL
  rw [h2, Option.map_some] at hL
  obtain rfl := (Option.some.inj hL).symm
  have hlen : (d :: tx.dsts.eraseIdx 0).length = tx.dsts.length := by
    rw [List.length_cons, List.length_eraseIdx]
    have := (List.getElem?_eq_some_iff.mp h2).1
    split <;> omega
  by_cases hn : n = 0
  · subst hn
    simp at hp
    subst hp
    obtain ⟨-, -, -, -, c, k, -, -, hc, -⟩ := shuffle_spec (by simp) h
    simp at hc
  obtain ⟨-, c2⟩ := cut_paid (L := d :: tx.dsts.eraseIdx 0) (n := n) (by omega) (by omega) _ rfl
  obtain ⟨-, -, -, s4, -⟩ := shuffle_spec (by dsimp only; exact c2.symm ▸ hp) h
  refine ⟨shuffle_at (by dsimp only; exact c2.symm ▸ hp) ?_ h, ?_, fun hc => absurd hc hlt⟩
  · by_cases hn1 : n = 1
    · subst hn1
      refine ⟨0, { c with amount := d.amount + ((tx.dsts.eraseIdx 0).map (·.amount)).sum },
        { d with amount := d.amount + ((tx.dsts.eraseIdx 0).map (·.amount)).sum }, rfl, ?_, ?_, h3, rfl⟩
      · dsimp only
        rw [if_pos rfl, h1, Option.map_some]
        simp
      · simp
    · refine ⟨0, c, d, rfl, ?_, ?_, h3, h4⟩
      · dsimp only
        rw [if_neg hn1, h1]
      · dsimp only
        rw [List.getElem?_take, if_pos (by omega), List.getElem?_modify]
        simp
        omega
  · rw [s4]
    dsimp only
    split
    · rw [Option.map_map]; rfl
    · rfl

/-- More outputs: the index stays right if there is nothing to add, or the change was not the last output, or was the only one. -/
theorem amplify_at {n : ℕ} {perm : List ℕ} {tx tx' : Tx} {i j : Option ℕ} (hp : perm.Perm (List.range n)) (ha : AtChange tx i)
    (hi : n ≤ tx.dsts.length ∨ i ≠ some (tx.dsts.length - 1) ∨ tx.dsts.length = 1) (h : amplifyOuts n perm tx i = some (tx', j)) :
    AtChange tx' j ∧ tx'.change.map (·.addr) = tx.change.map (·.addr) := by
  unfold amplifyOuts at h
  split at h
  · simp only [Option.some.injEq, Prod.mk.injEq] at h
    obtain ⟨rfl, rfl⟩ := h
    exact ⟨ha, rfl⟩
  rename_i hlt
  have hi := hi.resolve_left hlt
  dsimp only at h
  obtain ⟨lst, hl, h⟩ := Option.bind_eq_some_iff.mp h
  obtain ⟨ys, hys⟩ := List.getLast?_eq_some_iff.mp hl
  have hd : tx.dsts.dropLast = ys := by rw [hys, List.dropLast_concat]
  have hln : tx.dsts.length = ys.length + 1 := by rw [hys]; simp
  obtain ⟨k, c, d, rfl, h1, h2, h3, h4⟩ := ha
  have hf : findChangeIdx tx (some k) = some k := rfl
  rw [hf, hd] at h
  generalize hS : splitLoop lst lst.amount (lst.amount / (n - tx.dsts.length + 1)) (n - tx.dsts.length) (List.range (n - tx.dsts.length))
    (lst.amount / (n - tx.dsts.length + 1)) = S at h
  have hSl : S.length = n - tx.dsts.length := by rw [← hS, split_length, List.length_range]
  have hlen : (ys ++ { lst with amount := lst.amount / (n - tx.dsts.length + 1) } :: S).length = n := by
    rw [List.length_append, List.length_cons, hSl]
    omega
  obtain ⟨-, -, -, s4, -⟩ := shuffle_spec (by dsimp only; exact hlen.symm ▸ hp) h
  have hkl : k < ys.length + 1 := hln ▸ (List.getElem?_eq_some_iff.mp h2).1
  refine ⟨shuffle_at (by dsimp only; exact hlen.symm ▸ hp) ?_ h, ?_⟩
  · by_cases hk : k = tx.dsts.length - 1
    · have h1l : tx.dsts.length = 1 := by
        rcases hi with hi | hi
        · exact absurd (congrArg some hk) hi
        · exact hi
      obtain rfl : ys = [] := List.length_eq_zero_iff.mp (by omega)
      obtain rfl : k = 0 := by omega
      rw [hys] at h2
      have h2 : lst = d := by simpa using h2
      subst h2
      refine ⟨0, { c with amount := lst.amount / (n - tx.dsts.length + 1) }, { lst with amount := lst.amount / (n - tx.dsts.length + 1) }, rfl, ?_, ?_, h3, rfl⟩
      · dsimp only
        rw [if_pos (by rw [hk]), h1]
        rfl
      · rfl
    · refine ⟨k, c, d, rfl, ?_, ?_, h3, h4⟩
      · dsimp only
        rw [if_neg (by simpa using hk), h1]
      · dsimp only
        rw [hys, List.getElem?_append_left (by omega)] at h2
        rw [List.getElem?_append_left (by omega), h2]
  · rw [s4]
    dsimp only
    split
    · rw [Option.map_map]; rfl
    · rfl

theorem sub_at {H : Bytes → Bytes} {cur dst : Creds} {curT dstT : Table} {major : ℕ} {tx tx' : Tx} {i j : Option ℕ} (ha : AtChange tx i)
    (h : subOuts H cur curT dst dstT major tx i = some (tx', j)) : AtChange tx' j ∧ tx'.change = tx.change := by
  obtain ⟨-, -, -, s1, rfl, s2⟩ := sub_spec h
  obtain ⟨k, c, d, rfl, h1, h2, h3, h4⟩ := ha
  have hf : findChangeIdx tx (some k) = some k := rfl
  obtain ⟨d', e1, e2⟩ := s2 k d h2
  rw [hf, if_pos rfl] at e2
  exact ⟨⟨k, c, d, hf, s1.trans h1, e2 ▸ e1, h3, h4⟩, s1⟩

end Verif.TestGen

import Verif.Spec.AgentDemo

/-! The demo parts and requests meet the hypotheses. -/

namespace Verif.Agent.Demo
open Verif Verif.Signer Verif.Signer.Demo

theorem pf_int : PF encInt := by
  intro a b x y h
  simp only [encInt, List.cons_append, List.cons.injEq] at h
  obtain ⟨h1, h2⟩ := h
  obtain ⟨h2, h3⟩ := encNat_inj h2
  refine ⟨?_, h3⟩
  by_cases ha : a < 0 <;> by_cases hb : b < 0 <;> simp [ha, hb] at h1 <;> omega

theorem dumpVin_inj {v w : Vin} (h : dumpVin parts v = dumpVin parts w) : v = w := by
  simp only [dumpVin, parts, List.cons_append, List.nil_append, List.cons.injEq, true_and] at h
  obtain ⟨h1, h⟩ := encNat_inj h
  obtain ⟨h2, h⟩ := pf_bytes _ _ _ _ h
  obtain ⟨h3, _⟩ := pf_list pf_int v.offsets w.offsets [] [] (by simpa using h)
  cases v; cases w; simp_all

theorem dec_enc : ∀ x : F, dec (enc x) = some x := by decide +kernel

theorem lawful : Lawful parts codec where
  msgOk _ _ := rfl
  respOk _ := rfl
  keyLen b := by simp [parts, first32]
  hashLen b := by simp [parts, first32]
  ptLen p := by simp [parts, enc]
  ptRound := dec_enc
  scRound s := by show (dec (enc s)).getD 0 = s; rw [dec_enc]; rfl
  scLen s := by simp [parts, enc]
  openSeal _ _ _ := rfl
  vin v _ _ := by
    have h : ∃ w, dumpVin parts w = dumpVin parts v := ⟨v, rfl⟩
    unfold codec
    dsimp only
    rw [dif_pos h, dumpVin_inj h.choose_spec]
  vout k _ := rfl
  ecdh _ _ _ v2 _ := ⟨_, rfl, by simp⟩
  bp _ _ _ _ _ := ⟨proof, [7], rfl, rfl, rfl, rfl, by simp⟩

theorem source_mine (a : Nat) (x : F) (t : SubTable) : Mine parts t (source a x) x x where
  real := by
    refine ⟨_, 1, [], rfl, ?_, ?_, dec_enc 1, rfl, ?_⟩
    · show dec (enc x) = some (x • (1 : F))
      rw [dec_enc]; simp
    · show dec (enc (1 + a * 3)) = some ((dec (enc 1)).getD 0 • (1 : F) + (a : F) • (3 : F))
      rw [dec_enc, dec_enc]; simp
    · show some (x • (1 : F), x • (1 : F)) = _
      simp
  prover _ _ _ := rfl

theorem honest (hf : Nat) (h : 9 ≤ hf) : Honest parts ⟨hf, 1⟩ request where
  version := Nat.le_refl 1
  hf := h
  useBp := rfl
  sources := by simp [request]
  dsts := by simp [request]
  fewSources := by decide
  fewDsts := by decide
  enough := by decide
  amounts := by decide
  mine := by
    intro src hs
    simp only [request, List.mem_cons, List.not_mem_nil, or_false] at hs
    rcases hs with rfl | rfl
    · exact ⟨_, _, source_mine 10 4 _⟩
    · exact ⟨_, _, source_mine 20 6 _⟩
  addrs := by
    intro dst hs
    simp only [request, List.mem_cons, List.not_mem_nil, or_false] at hs
    have h1 : ∀ x, ∃ p, parts.ptDec (enc x) = some p := fun x => ⟨x, dec_enc x⟩
    rcases hs with rfl | rfl | rfl
    · exact ⟨h1 _, h1 _, by decide⟩
    · exact ⟨h1 _, h1 _, by decide⟩
    · exact ⟨h1 _, h1 _, by decide⟩
  change := .inr ⟨⟨own 10, by simp [request], rfl⟩, rfl⟩
  paymentId := .inr (.inl ⟨rfl, payee 7, by simp [request], by decide, by decide⟩)

theorem agrees : Agrees (fun _ => draws) 0 := ⟨rfl, fun _ => rfl⟩

/-- A request whose declared change, of amount zero, is the address of the payee. -/
def misdirected : TxData where
  sources := [source 10 4, source 20 6]
  dsts := [payee 7, own 20]
  change := payee 0
  paymentId := []
  unlockTime := 0
  account := 0
  indices := []
  useBp := true

theorem honest_misdirected : Honest parts ⟨10, 1⟩ misdirected where
  version := Nat.le_refl 1
  hf := by decide
  useBp := rfl
  sources := by simp [misdirected]
  dsts := by simp [misdirected]
  fewSources := by decide
  fewDsts := by decide
  enough := by decide
  amounts := by decide
  mine := by
    intro src hs
    simp only [misdirected, List.mem_cons, List.not_mem_nil, or_false] at hs
    rcases hs with rfl | rfl
    · exact ⟨_, _, source_mine 10 4 _⟩
    · exact ⟨_, _, source_mine 20 6 _⟩
  addrs := by
    intro dst hs
    simp only [misdirected, List.mem_cons, List.not_mem_nil, or_false] at hs
    have h1 : ∀ x, ∃ p, parts.ptDec (enc x) = some p := fun x => ⟨x, dec_enc x⟩
    rcases hs with rfl | rfl
    · exact ⟨h1 _, h1 _, by decide⟩
    · exact ⟨h1 _, h1 _, by decide⟩
  change := .inl ⟨rfl, rfl⟩
  paymentId := .inr (.inl ⟨rfl, own 20, by simp [misdirected], by decide, by decide⟩)

/-- Requests with payment id `pid`, paying one subaddress. -/
def withId (pid : Bytes) : TxData where
  sources := [source 10 4, source 20 6]
  dsts := [subPayee 9, own 20]
  change := own 20
  paymentId := pid
  unlockTime := 0
  account := 0
  indices := []
  useBp := true

theorem honest_withId (pid : Bytes) (h : pid.length = 8 ∨ pid.length = 32) : Honest parts ⟨10, 1⟩ (withId pid) where
  version := Nat.le_refl 1
  hf := by decide
  useBp := rfl
  sources := by simp [withId]
  dsts := by simp [withId]
  fewSources := by simp [withId]
  fewDsts := by simp [withId]
  enough := by simp [withId, source, subPayee, own]
  amounts := by intro dst hd; simp [withId, subPayee, own] at hd; rcases hd with rfl | rfl <;> decide
  mine := by
    intro src hs
    simp only [withId, List.mem_cons, List.not_mem_nil, or_false] at hs
    rcases hs with rfl | rfl
    · exact ⟨_, _, source_mine 10 4 _⟩
    · exact ⟨_, _, source_mine 20 6 _⟩
  addrs := by
    intro dst hs
    simp only [withId, List.mem_cons, List.not_mem_nil, or_false] at hs
    have h1 : ∀ x, ∃ p, parts.ptDec (enc x) = some p := fun x => ⟨x, dec_enc x⟩
    rcases hs with rfl | rfl
    · exact ⟨h1 _, h1 _, by decide⟩
    · exact ⟨h1 _, h1 _, by decide⟩
  change := .inr ⟨⟨own 20, by simp [withId], rfl⟩, rfl⟩
  paymentId := by
    rcases h with h | h
    · refine .inr (.inr ⟨h, (subPayee 9).addr, ⟨subPayee 9, by simp [withId], by decide, by simp [withId]; decide⟩, ?_⟩)
      intro dst hd
      have h1 := hd.1
      simp only [withId, List.mem_cons, List.not_mem_nil, or_false] at h1
      rcases h1 with rfl | rfl
      · rfl
      · exact absurd rfl hd.2.2
    · exact .inl h

theorem owner_payee (a : Nat) : Owner parts (payee a) 4 2 := ⟨show dec (enc 4) = some 4 by decide +kernel, show dec (enc 2) = some ((2 : F) • (1 : F)) by decide +kernel⟩
theorem owner_sub (a : Nat) : Owner parts (subPayee a) 3 6 :=
  ⟨show dec (enc 3) = some 3 by decide +kernel, show dec (enc (6 * 3)) = some ((6 : F) • (3 : F)) by decide +kernel⟩
theorem owner_own (a : Nat) : Owner parts (own a) 5 5 := ⟨show dec (enc 5) = some 5 by decide +kernel, show dec (enc 5) = some ((5 : F) • (1 : F)) by decide +kernel⟩

end Verif.Agent.Demo

import Verif.Lemmas.SignerInv

set_option linter.unusedSectionVars false
set_option linter.unusedSimpArgs false

namespace Verif.Signer
open Verif
variable {S P : Type} [CommRing S] [AddCommGroup P] [Module S P] [DecidableEq S] [DecidableEq P]

theorem length_filterMap_count {α β : Type} (f : α → Option β) (k : α → Option Kind) (K : Kind)
    (h : ∀ e, (f e).isSome = (k e == some K)) (s : List α) :
    (s.filterMap f).length = (s.filterMap k).count K := by
  induction s with
  | nil => rfl
  | cons e s ih =>
    have he := h e
    cases hf : f e with
    | none =>
      rw [List.filterMap_cons_none hf]
      cases hk : k e with
      | none => rw [List.filterMap_cons_none hk, ih]
      | some x =>
        rw [List.filterMap_cons_some hk, List.count_cons, ih]
        simp [hf, hk] at he
        simp [he]
    | some y =>
      rw [List.filterMap_cons_some hf, List.length_cons, ih]
      cases hk : k e with
      | none => simp [hf, hk] at he
      | some x =>
        rw [List.filterMap_cons_some hk, List.count_cons]
        simp [hf, hk] at he
        simp [he]

theorem inputs_length (s : List (Event S)) : (inputs s).length = (kinds s).count .input := by
  apply length_filterMap_count
  intro e
  unfold Event.input? Event.kind?
  rcases e with ⟨m, r, p⟩
  cases m <;> cases p <;> first | rfl | (rename_i x; cases x <;> rfl)

theorem perms_length (s : List (Event S)) : (perms s).length = (kinds s).count .perm := by
  apply length_filterMap_count
  intro e
  unfold Event.perm? Event.kind?
  rcases e with ⟨m, r, p⟩
  cases m <;> cases p <;> first | rfl | (rename_i x; cases x <;> rfl)

theorem vinis_length (s : List (Event S)) : (vinis s).length = (kinds s).count .vini := by
  apply length_filterMap_count
  intro e
  unfold Event.vini? Event.kind?
  rcases e with ⟨m, r, p⟩
  cases m <;> cases p <;> first | rfl | (rename_i x; cases x <;> rfl)

theorem outputs_length (s : List (Event S)) : (outputs s).length = (kinds s).count .output := by
  apply length_filterMap_count
  intro e
  unfold Event.output? Event.kind?
  rcases e with ⟨m, r, p⟩
  cases m <;> cases p <;> first | rfl | (rename_i x; cases x <;> rfl)

theorem signs_length (s : List (Event S)) : (signs s).length = (kinds s).count .sign := by
  apply length_filterMap_count
  intro e
  unfold Event.sign? Event.kind?
  rcases e with ⟨m, r, p⟩
  cases m <;> cases p <;> first | rfl | (rename_i x; cases x <;> rfl)

/-- Extractors after appending one event. -/
theorem kinds_snoc (s : List (Event S)) (e : Event S) : kinds (s ++ [e]) = kinds s ++ e.kind?.toList := by
  cases h : e.kind? <;> simp [kinds, List.filterMap_append, List.filterMap_cons, h]
theorem inputs_snoc (s : List (Event S)) (e : Event S) : inputs (s ++ [e]) = inputs s ++ e.input?.toList := by
  cases h : e.input? <;> simp [inputs, List.filterMap_append, List.filterMap_cons, h]
theorem perms_snoc (s : List (Event S)) (e : Event S) : perms (s ++ [e]) = perms s ++ e.perm?.toList := by
  cases h : e.perm? <;> simp [perms, List.filterMap_append, List.filterMap_cons, h]
theorem vinis_snoc (s : List (Event S)) (e : Event S) : vinis (s ++ [e]) = vinis s ++ e.vini?.toList := by
  cases h : e.vini? <;> simp [vinis, List.filterMap_append, List.filterMap_cons, h]
theorem outputs_snoc (s : List (Event S)) (e : Event S) : outputs (s ++ [e]) = outputs s ++ e.output?.toList := by
  cases h : e.output? <;> simp [outputs, List.filterMap_append, List.filterMap_cons, h]
theorem signs_snoc (s : List (Event S)) (e : Event S) : signs (s ++ [e]) = signs s ++ e.sign?.toList := by
  cases h : e.sign? <;> simp [signs, List.filterMap_append, List.filterMap_cons, h]

theorem getElem?_snoc {α : Type} {l : List α} {x y : α} {i : Nat} (h : (l ++ [x])[i]? = some y) :
    l[i]? = some y ∨ (i = l.length ∧ y = x) := by
  rcases Nat.lt_trichotomy i l.length with hi | hi | hi
  · left; rwa [List.getElem?_append_left hi] at h
  · right
    subst hi
    simp at h
    exact ⟨rfl, h.symm⟩
  · rw [List.getElem?_append_right (by omega)] at h
    have : i - l.length ≠ 0 := by omega
    simp [this] at h

theorem head_snoc {hd : Head S P} {s : List (Event S)} (e : Event S)
    (h : ∃ off rest, s = ⟨.init hd.tsx, hd.rnd, .initAck hd.hmacs off⟩ :: rest) :
    ∃ off rest, s ++ [e] = ⟨.init hd.tsx, hd.rnd, .initAck hd.hmacs off⟩ :: rest := by
  obtain ⟨off, rest, rfl⟩ := h
  exact ⟨off, rest ++ [e], rfl⟩

theorem accepted_snoc {s : List (Event S)} {e : Event S}
    (h : ∀ e ∈ s, e.kind? = none → e.isProofUpload = true) (he : e.kind? = none → e.isProofUpload = true) :
    ∀ e' ∈ s ++ [e], e'.kind? = none → e'.isProofUpload = true := by
  intro e' h'
  rcases List.mem_append.1 h' with h1 | h1
  · exact h e' h1
  · simp at h1; subst h1; exact he

/-- Counts that follow from the builder's static part. -/
theorem Inv.counts {env : Env S P} {hd : Head S P} {s : List (Event S)} {b : Builder S P} {g : Ghost S}
    (h : Inv env hd s b g) : b.inputCount = hd.tsx.numInputs ∧ b.outputCount = hd.tsx.outputs.length ∧
      b.fee = hd.tsx.fee ∧ b.needAdd = (hd.builder env).needAdd ∧ b.rPub = hd.rPub ∧
      b.expPrefix = none ∧ b.state.inMem = false ∧ b.bpVersion = bpVersionOf hd.tsx := by
  have := h.static
  simp only [Builder.static, Head.builder, initBuilder, Prod.mk.injEq] at this
  simp only [Head.builder, initBuilder]
  simp_all

theorem Inv.setInput {env : Env S P} {hd : Head S P} {s : List (Event S)} {b b' : Builder S P} {g : Ghost S}
    {src : Src} {rnd : Rand S} {resp : Resp} (hI : Inv env hd s b g)
    (h : Signer.setInput env b src rnd = .ok (b', resp)) :
    Inv env hd (s ++ [⟨.setInput src, rnd, resp⟩]) b' g := by
  obtain ⟨hst, hlt, real, outKey, txKey, addKeys, subs, xi, ki, hmac, pHmac, kA, kS, h1, h2, h3, h4, h5, h6,
    h7, h8, h9, h10, rfl, hresp⟩ := setInput_eff h
  obtain ⟨hn, hm, _⟩ := hI.counts
  have hstage := hI.stage
  have hks : ∃ k : Nat, b.inpIdx + 1 = k ∧ b.outIdx = -1 ∧ kinds s = [.init] ++ List.replicate k .input ∧
      k < hd.tsx.numInputs := by
    rcases hst with hst | hst <;> rw [hst] at hstage <;> simp only [Stage] at hstage
    · exact ⟨0, by omega, hstage.2.1, by simpa using hstage.2.2, by omega⟩
    · obtain ⟨k, e1, e2, e3, e4⟩ := hstage
      exact ⟨k + 1, by omega, e3, e4, e2⟩
  obtain ⟨k, hk1, hk2, hk3, hk4⟩ := hks
  have hilen : (inputs s).length = k := by rw [inputs_length, hk3]; simp [List.count_replicate]
  have holen : outputs s = [] := by
    rw [← List.length_eq_zero_iff, outputs_length, hk3]; simp [List.count_replicate]
  have hvlen : vinis s = [] := by
    rw [← List.length_eq_zero_iff, vinis_length, hk3]; simp [List.count_replicate]
  have hslen : signs s = [] := by
    rw [← List.length_eq_zero_iff, signs_length, hk3]; simp [List.count_replicate]
  have hhash : b.state.s.hashing = true := by rcases hst with hst | hst <;> rw [hst] <;> rfl
  have hmask : g.masks = [] := by
    rw [← List.length_eq_zero_iff, hI.masksLen, holen]; rfl
  have hk : (b.inpIdx + 1).toNat = k := by omega
  have hlast : (b.inpIdx + 1 + 1 = (b.inputCount : Int)) ↔ k + 1 = hd.tsx.numInputs := by omega
  have hdec : g.dec = [] ∧ g.used = [] := by
    have := hI.signLen
    rw [hslen] at this
    simpa using this
  clear h
  generalize he : (⟨.setInput src, rnd, resp⟩ : Event S) = e
  have ek : e.kind? = some .input := by rw [← he, hresp]; rfl
  have ei : e.input? = some ⟨src, rnd, viniOf env src ki, hmac, env.ptEnc (genC env rnd.alpha src.amount), pHmac,
    env.encPack kA (env.scEnc rnd.alpha) rnd.nonceAlpha, env.encPack kS (env.scEnc xi) rnd.nonceSpend⟩ := by rw [← he, hresp]; rfl
  have ki' : kinds (s ++ [e]) = kinds s ++ [.input] := by rw [kinds_snoc, ek]; rfl
  have ii := inputs_snoc s e
  simp only [ei, Option.toList_some] at ii
  have pi : perms (s ++ [e]) = perms s := by rw [perms_snoc, ← he, hresp]; exact List.append_nil _
  have vi : vinis (s ++ [e]) = vinis s := by rw [vinis_snoc, ← he, hresp]; exact List.append_nil _
  have oi : outputs (s ++ [e]) = outputs s := by rw [outputs_snoc, ← he, hresp]; exact List.append_nil _
  have si : signs (s ++ [e]) = signs s := by rw [signs_snoc, ← he, hresp]; exact List.append_nil _
  have hnewst : ∀ {q : St → Bool}, q .INPUT = q .INPUT_DONE →
      q (if b.inpIdx + 1 + 1 = (b.inputCount : Int) then St.INPUT_DONE else St.INPUT) = q .INPUT := by
    intro q hq; split <;> simp [hq]
  constructor
  case initOk => exact hI.initOk
  case head => exact head_snoc e hI.head
  case accepted => exact accepted_snoc hI.accepted (by simp [ek])
  case static => exact hI.static
  case stage =>
    rw [ki', hk3]
    by_cases hl : b.inpIdx + 1 + 1 = (b.inputCount : Int)
    · simp only [hl, if_true, Stage]
      refine ⟨by omega, by omega, hk2, ?_⟩
      rw [← hlast.1 hl, List.replicate_succ']; simp
    · simp only [hl, if_false, Stage]
      refine ⟨k, hk1, ?_, hk2, ?_⟩
      · have := mt hlast.2 hl; omega
      · rw [List.replicate_succ']; simp
  case procOff => exact hI.procOff
  case sumIn => rw [ii]; simp [hI.sumIn]
  case sumOut => rw [oi]; exact hI.sumOut
  case inputsOk =>
    intro i r hr
    rw [ii] at hr
    rcases getElem?_snoc hr with hr | ⟨rfl, rfl⟩
    · exact hI.inputsOk i r hr
    · rw [hilen, ← hk]
      exact ⟨h7, rfl, h8, ⟨kA, h9, rfl⟩, subs, real, outKey, txKey, addKeys, xi, ki, kS, h1, h2, h3, h4, h6, rfl,
        h10, rfl⟩
  case lastAmount =>
    intro hs
    by_cases hl : b.inpIdx + 1 + 1 = (b.inputCount : Int)
    · rw [ii]; simp [hl]
    · simp [hl, St.inputsSet] at hs
  case perm =>
    intro hs
    rw [hnewst (q := St.permSet) rfl] at hs
    simp [St.permSet] at hs
  case vinisOk => rw [vi, hvlen]; simp
  case masksLen => rw [oi]; exact hI.masksLen
  case outputsOk => rw [oi, holen]; simp
  case sumout => exact hI.sumout
  case outputPk => simp only [commitments, oi]; exact hI.outputPk
  case pending => rw [oi]; exact hI.pending
  case batchesOk => exact hI.batchesOk
  case hashing =>
    intro _
    have := hI.hashing hhash
    simp only [prefixBytes, vi, oi] at this ⊢
    exact this
  case addKeys => rw [oi]; exact hI.addKeys
  case hashed =>
    intro hs
    rw [hnewst (q := St.hashing) rfl] at hs
    simp [St.hashing] at hs
  case preMasks =>
    intro _ hs
    rw [hnewst (q := St.masksSet) rfl] at hs
    simp [St.masksSet] at hs
  case signLen => rw [si]; exact hI.signLen
  case signsOk => rw [si, hslen]; simp
  case alphaSum =>
    have := hI.alphaSum
    rw [hdec.1, hdec.2] at this ⊢
    rw [ii]
    simp at this ⊢
    rw [this]
  case signed =>
    intro hs
    simp only at hs
    split at hs <;> simp at hs
  case closing =>
    intro hs
    rw [hnewst (q := St.hashing) rfl] at hs
    simp [St.hashing] at hs
  case balance =>
    intro hs
    rw [hnewst (q := St.hashing) rfl] at hs
    simp [St.hashing] at hs
  case uploaded => rintro ⟨e', h1, h2⟩; simp at h1; subst h1; rw [← he] at h2; simp [Event.isProofUpload, hresp] at h2
  case flushed => intro _ hc; rw [oi, holen] at hc; simp at hc

end Verif.Signer

import Verif.Lemmas.CommandRead

/-! C90: what a command typed at the agent's prompt has the wallet do. -/

namespace Verif.Cmd
open Verif

/-- C90. A transfer typed as documented: options, at least one address with an amount, and at the end a payment id of 8 or 32 bytes. When the wallet and
the device are ready, the agent first asks. With the answer yes, it requests a transfer from its account, with exactly the destinations typed, in order,
and with the sub-addresses, the priority, the number and the payment id that were typed; nothing else is requested. (The amounts are those of C89; the
address sent is the text of the decoded address, see C25.) -/
theorem C90_transfer {w : World} (hr : w.rpc = true) (hd : w.address = true) {o : Options} (ho : o.Ok) {dests : List (Text × Text)} {as : List ℕ}
    (hdst : List.Forall₂ (fun d a => AddressLike d.1 ∧ Amount.Denotes d.2 a) dests as) (h0 : dests ≠ []) {pid : Option Bytes} (hp : PidOk pid)
    {ds : List (Addr.Info × Int)} (hds : List.Forall₂ (fun d q => Addr.decodeAddr w.H (ascii d.1) = some q.1 ∧ Amount.sent d.2 = some q.2) dests ds)
    (hi : pid ≠ none → ∀ q ∈ ds, q.1.isIntegrated = false) :
    doTransfer w (transferLine o dests pid) = .asked (w.answer 0) :: if w.answer 0 = some true then
      prepare w 1 .transferSplit
        { dests := ds.map fun q => (q.2, q.1.addr), account := some w.account, indices := o.indices.map fun t => (Amount.value t : Int),
          priority := o.priority, mixin := o.ring.map fun t => (Amount.value t : Int), paymentId := pid } (some ds)
      else [] := by
  simp only [doTransfer, hr, hd, Bool.not_true, Bool.or_self, Bool.false_eq_true, if_false, transfer_read ho hdst h0 hp, Option.bind_some, transferParams,
    transferDests_ok hp hdst hds hi, Option.map_some, if_neg h0]

/-! ## What was requested is what was typed -/

/-- C90. Whatever line is typed after `transfer`: a request is made only if wallet and device are ready and the first question was answered with yes. It is
a transfer from the agent's account. The line consists of an index list, a priority and a number (each can be absent), then pairs of an address and an
amount, then, if there is one, a payment id. Exactly these make up the request. If there is no payment id, nothing is left of the line. -/
theorem C90_requested_is_typed {w : World} {line : Text} {m : Method} {p : Params} (h : Effect.request m p ∈ doTransfer w line) :
    w.rpc = true ∧ w.address = true ∧ w.answer 0 = some true ∧ m = .transferSplit ∧
    ∃ (index prio num : List Text) (dests : List (Text × Text)) (pid : Option Text) (rest : List Text),
      words line = index ++ prio ++ num ++ dests.flatMap (fun d => [d.1, d.2]) ++ pid.toList ++ rest ∧ (pid = none → rest = []) ∧ dests ≠ [] ∧
      ((index = [] ∧ p.indices = []) ∨ ∃ x, index = [indexTag ++ x] ∧ (splitComma x).mapM (fun t => Hd.pyInt (Seed.strip t)) = some p.indices) ∧
      ((prio = [] ∧ p.priority = none) ∨ ∃ n < 5, prio = [priorityName n] ∧ p.priority = some n) ∧
      ((num = [] ∧ p.mixin = none) ∨ ∃ t k, num = [t] ∧ Hd.pyInt t = some k ∧ p.mixin = some k) ∧
      (∃ ds : List (Addr.Info × Int), List.Forall₂ (fun d q => Addr.decodeAddr w.H (ascii d.1) = some q.1 ∧ Amount.sent d.2 = some q.2) dests ds ∧
        p.dests = ds.map (fun q => (q.2, q.1.addr)) ∧ (pid ≠ none → ∀ q ∈ ds, q.1.isIntegrated = false)) ∧
      (pid = none → p.paymentId = none) ∧ (∀ t, pid = some t → (t.length = 16 ∨ t.length = 64) ∧ ∃ b, unhex t = some b ∧ p.paymentId = some b) ∧
      p.account = some w.account ∧ p.ringSize = none ∧ p.address = none ∧ p.belowAmount = none ∧ p.keyImage = none ∧ p.paymentText = none := by
  rw [doTransfer] at h
  split at h
  · cases h
  · rename_i hready
    simp only [Bool.or_eq_true, Bool.not_eq_true', not_or, Bool.not_eq_false] at hready
    split at h
    · cases h
    · rename_i p' aux hp
      rcases List.mem_cons.1 h with h | h
      · cases h
      · split at h
        · rename_i hans
          obtain ⟨rfl, rfl⟩ := request_prepare h
          refine ⟨hready.1, hready.2, hans, rfl, ?_⟩
          obtain ⟨a, ha, hp⟩ := Option.bind_eq_some_iff.1 hp
          obtain ⟨t, ht, hp⟩ := Option.map_eq_some_iff.1 hp
          cases hp
          rw [parseTransfer] at ha
          split at ha
          · cases ha
          · simp only [Option.bind_eq_bind, Option.pure_def] at ha
            obtain ⟨⟨l, w1⟩, e1, ha⟩ := Option.bind_eq_some_iff.1 ha
            obtain ⟨⟨pr, w2⟩, e2, ha⟩ := Option.bind_eq_some_iff.1 ha
            dsimp only at e2 ha
            obtain ⟨mx, w3, e3⟩ : ∃ mx w3, cutMixin w2 = (mx, w3) := ⟨_, _, rfl⟩
            obtain ⟨dd, w4, e4⟩ : ∃ dd w4, cutDests w3 = (dd, w4) := ⟨_, _, rfl⟩
            simp only [e3, e4] at ha
            split at ha
            · cases ha
            · rename_i hdd
              obtain ⟨⟨pd, w5⟩, e5, ha⟩ := Option.bind_eq_some_iff.1 ha
              cases ha
              obtain ⟨texts, f1, f2⟩ := cutDests_sound w3
              rw [e4] at f1 f2
              dsimp only at f1 f2 ht
              obtain ⟨g1, g2, g3⟩ := transferDests_sound f2 (show transferDests w.H pd dd = some (t.1, t.2) from ht)
              have htx : texts ≠ [] := by
                rintro rfl
                cases f2
                exact hdd rfl
              have hpid : w4 = pd.toList ++ w5 ∧ (pd = none → w5 = []) ∧ ∀ t, pd = some t → t.length = 16 ∨ t.length = 64 := by
                cases w4 with
                | nil => cases e5; exact ⟨rfl, fun _ => rfl, fun _ e => by cases e⟩
                | cons x xs =>
                  rw [cutPaymentId] at e5
                  split at e5
                  · cases e5
                  · rename_i hl
                    cases e5
                    refine ⟨rfl, fun e => (by cases e), fun _ e => ?_⟩
                    cases e
                    omega
              obtain ⟨k1, k2, k3⟩ := hpid
              have hne : ∀ t, pd = some t → t ≠ [] := by
                rintro t ht rfl
                have := k3 _ ht
                simp at this
              obtain ⟨index, hw0, hidx⟩ : ∃ index, words line = index ++ w1 ∧ ((index = [] ∧ l = []) ∨ ∃ x, index = [indexTag ++ x] ∧
                  (splitComma x).mapM (fun t => Hd.pyInt (Seed.strip t)) = some l) := by
                rcases cutIndex_sound e1 with ⟨q1, q2⟩ | ⟨x, q1, q2⟩
                · exact ⟨[], q1, Or.inl ⟨rfl, q2⟩⟩
                · exact ⟨[indexTag ++ x], q1, Or.inr ⟨x, rfl, q2⟩⟩
              obtain ⟨prio, hw1, hpr⟩ : ∃ prio, w1 = prio ++ w2 ∧ ((prio = [] ∧ pr = none) ∨ ∃ n < 5, prio = [priorityName n] ∧ pr = some n) := by
                rcases cutPriority_sound e2 with ⟨q1, q2⟩ | ⟨n, hn, q1, q2⟩
                · exact ⟨[], q1, Or.inl ⟨rfl, q2⟩⟩
                · exact ⟨[priorityName n], q1, Or.inr ⟨n, hn, rfl, q2⟩⟩
              obtain ⟨num, hw2, hnm⟩ : ∃ num, w2 = num ++ w3 ∧ ((num = [] ∧ mx = none) ∨ ∃ t k, num = [t] ∧ Hd.pyInt t = some k ∧ mx = some k) := by
                rcases cutMixin_sound e3 with ⟨q1, q2⟩ | ⟨t, k, q1, q2, q3⟩
                · exact ⟨[], q1, Or.inl ⟨rfl, q2⟩⟩
                · exact ⟨[t], q1, Or.inr ⟨t, k, rfl, q2, q3⟩⟩
              refine ⟨index, prio, num, texts, pd, w5, ?_, k2, htx, hidx, hpr, hnm, ⟨t.1, g1, rfl, ?_⟩, g2, ?_, rfl, rfl, rfl, rfl, rfl, rfl⟩
              · rw [hw0, hw1, hw2, f1, k1]
                simp only [List.append_assoc]
              · intro hn
                obtain ⟨x, hx⟩ := Option.ne_none_iff_exists'.1 hn
                obtain ⟨_, _, _, hall⟩ := g3 x hx (hne x hx) htx
                exact hall
              · intro x hx
                obtain ⟨b, hb, hpb, _⟩ := g3 x hx (hne x hx) htx
                exact ⟨k3 x hx, b, hb, hpb⟩
        · cases h

/-! ## What is submitted was confirmed -/

/-- C90. A transfer is submitted only after three questions, all answered with yes: before the request, after the wallet's answer, and after signing. What is
submitted is what signing returned for the set in the wallet's answer, and it happens once. -/
theorem C90_transfer_confirmed {w : World} {line : Text} {b : Bytes} (h : Effect.submit b ∈ doTransfer w line) :
    ∃ p aux t u, doTransfer w line = [.asked (some true), .request .transferSplit p, .asked (some true), .sign u (some aux), .asked (some true), .submit b] ∧
      w.reply .transferSplit p = .result true (some t) ∧ unhex t = some u ∧ w.signer u (some aux) = .data b ∧ ∀ n < 3, w.answer n = some true := by
  have h1 := h
  rw [doTransfer] at h1 ⊢
  split at h1
  · cases h1
  · rename_i hready
    split at h1
    · cases h1
    · rename_i p aux hp
      rcases List.mem_cons.1 h1 with h1 | h1
      · cases h1
      · split at h1
        · rename_i ha
          obtain ⟨t, u, k1, k2, k3, k4, k5, k6⟩ := submit_prepare h1
          refine ⟨p, aux, t, u, ?_, k2, k3, k4, ?_⟩
          · simp only [if_neg hready, ha, if_true, k1]
          · intro n hn
            obtain rfl | rfl | rfl : n = 0 ∨ n = 1 ∨ n = 2 := by omega
            · exact ha
            · exact k5
            · exact k6
        · cases h1

/-- C90. What a sweep submits was confirmed twice: after the wallet's answer and after signing. (The addresses are not shown before the request.) -/
theorem C90_sweep_confirmed {w : World} {line : Text} {b : Bytes} {run : World → Text → List Effect}
    (hrun : run = doSweepAll ∨ run = doSweepBelow ∨ run = doSweepSingle) (h : Effect.submit b ∈ run w line) :
    ∃ m p t u, run w line = [.request m p, .asked (some true), .sign u none, .asked (some true), .submit b] ∧
      w.reply m p = .result true (some t) ∧ unhex t = some u ∧ w.signer u none = .data b ∧ w.answer 0 = some true ∧ w.answer 1 = some true := by
  have key : ∀ {m : Method} (q : Option Params) (c : Bool), Effect.submit b ∈ (if c = true then [] else match q with
      | none => []
      | some p => prepare w 0 m p none) → ∃ p t u, (if c = true then [] else match q with
      | none => []
      | some p => prepare w 0 m p none) = [.request m p, .asked (some true), .sign u none, .asked (some true), .submit b] ∧
      w.reply m p = .result true (some t) ∧ unhex t = some u ∧ w.signer u none = .data b ∧ w.answer 0 = some true ∧ w.answer 1 = some true := by
    intro m q c hq
    cases c with
    | true => cases hq
    | false =>
      cases q with
      | none => cases hq
      | some p =>
        obtain ⟨t, u, k1, k2⟩ := submit_prepare (show Effect.submit b ∈ prepare w 0 m p none from hq)
        exact ⟨p, t, u, k1, k2⟩
  rcases hrun with rfl | rfl | rfl
  · obtain ⟨p, t, u, k⟩ := key (m := .sweepAll) _ _ h
    exact ⟨_, p, t, u, k⟩
  · obtain ⟨p, t, u, k⟩ := key (m := .sweepAll) _ _ h
    exact ⟨_, p, t, u, k⟩
  · obtain ⟨p, t, u, k⟩ := key (m := .sweepSingle) _ _ h
    exact ⟨_, p, t, u, k⟩

/-- C90. Dust: only the submission is confirmed. -/
theorem C90_dust_confirmed {w : World} {b : Bytes} (h : Effect.submit b ∈ doSweepDust w) :
    ∃ r t u, doSweepDust w = [.request .sweepDust {}, .sign u none, .asked (some true), .submit b] ∧
      w.reply .sweepDust {} = .result r (some t) ∧ unhex t = some u ∧ w.signer u none = .data b ∧ w.answer 0 = some true := by
  have h1 := h
  rw [doSweepDust] at h1 ⊢
  split at h1
  · cases h1
  · rename_i hready
    rw [if_neg hready]
    rcases List.mem_cons.1 h1 with h1 | h1
    · cases h1
    · split at h1
      · cases h1
      · rename_i r t hr
        split at h1
        · rename_i u hu
          obtain ⟨x, rfl, hux⟩ := Option.bind_eq_some_iff.1 hu
          obtain ⟨k1, k2, k3⟩ := submit_signUnsigned h1
          refine ⟨r, x, u, ?_, hr, hux, k3, k2⟩
          simp only [hr, Option.bind_some, hux, k1]
        · cases h1

/-- C90. If the wallet answers with a set, the signer signs it and every question is answered with yes, then exactly the signed data is submitted. -/
theorem C90_transfer_done {w : World} (hr : w.rpc = true) (hd : w.address = true) {o : Options} (ho : o.Ok) {dests : List (Text × Text)} {as : List ℕ}
    (hdst : List.Forall₂ (fun d a => AddressLike d.1 ∧ Amount.Denotes d.2 a) dests as) (h0 : dests ≠ []) {pid : Option Bytes} (hp : PidOk pid)
    {ds : List (Addr.Info × Int)} (hds : List.Forall₂ (fun d q => Addr.decodeAddr w.H (ascii d.1) = some q.1 ∧ Amount.sent d.2 = some q.2) dests ds)
    (hi : pid ≠ none → ∀ q ∈ ds, q.1.isIntegrated = false) {u b : Bytes} (ha : ∀ n, w.answer n = some true)
    (hw : ∀ p, w.reply .transferSplit p = .result true (some (hexText u))) (hs : w.signer u (some ds) = .data b) :
    doTransfer w (transferLine o dests pid) = [.asked (some true), .request .transferSplit
        { dests := ds.map fun q => (q.2, q.1.addr), account := some w.account, indices := o.indices.map fun t => (Amount.value t : Int),
          priority := o.priority, mixin := o.ring.map fun t => (Amount.value t : Int), paymentId := pid },
      .asked (some true), .sign u (some ds), .asked (some true), .submit b] := by
  rw [C90_transfer hr hd ho hdst h0 hp hds hi]
  simp only [ha, if_true, prepare, hw, Option.bind_some, unhex_hexText, signUnsigned, hs]

/-! ## Sweeps -/

/-- C90. `sweep_all` typed as documented requests a sweep of the account to the address typed, with the options and the payment id typed. -/
theorem C90_sweep_all {w : World} (hr : w.rpc = true) {o : Options} (ho : o.Ok) {address : Text} (ha : AddressLike address) {pid : Option Bytes}
    (hp : PidOk pid) : doSweepAll w (sweepLine o address pid) = prepare w 0 .sweepAll
      { account := some w.account, indices := o.indices.map fun t => (Amount.value t : Int), priority := o.priority,
        ringSize := o.ring.map fun t => (Amount.value t : Int), paymentText := pid.map hexText, address := some address } none := by
  have hl : sweepLine o address pid ≠ [] := line_ne ⟨address, by simp, ha.plain.1⟩
  obtain ⟨w1, w2, e1, e2, e3⟩ := cut_options ho ha.stop (pid.map hexText).toList
  have : parseSweepAll (words (sweepLine o address pid)) = some
      { indices := o.indices.map fun t => (Amount.value t : Int), priority := o.priority,
        mixin := o.ring.map fun t => (Amount.value t : Int), address := some address, paymentId := pid.map hexText } := by
    rw [sweep_words ho ha hp, parseSweepAll, e1]
    simp [e2, e3, cutAddr, cutPaymentId_ok hp]
  rw [doSweepAll, if_neg (by simp [hr, hl]), this]
  rfl

/-- C90. `sweep_below` typed as documented does the same with outputs below the amount typed. -/
theorem C90_sweep_below {w : World} (hr : w.rpc = true) {amount : Text} {a : ℕ} (hx : Amount.Denotes amount a) {n : Int} (hn : Amount.sent amount = some n)
    {o : Options} (ho : o.Ok) {address : Text} (ha : AddressLike address) {pid : Option Bytes}
    (hp : PidOk pid) : doSweepBelow w (belowLine amount o address pid) = prepare w 0 .sweepAll
      { account := some w.account, indices := o.indices.map fun t => (Amount.value t : Int), priority := o.priority, belowAmount := some n,
        ringSize := o.ring.map fun t => (Amount.value t : Int), paymentText := pid.map hexText, address := some address } none := by
  have hl : belowLine amount o address pid ≠ [] := line_ne ⟨address, by simp, ha.plain.1⟩
  obtain ⟨w1, w2, e1, e2, e3⟩ := cut_options ho ha.stop (pid.map hexText).toList
  have : parseSweepBelow (words (belowLine amount o address pid)) = some
      { indices := o.indices.map fun t => (Amount.value t : Int), priority := o.priority,
        mixin := o.ring.map fun t => (Amount.value t : Int), address := some address, paymentId := pid.map hexText,
        threshold := some (Amount.round ((a : ℚ) / 10 ^ 12)) } := by
    rw [below_words hx ho ha hp, parseSweepBelow, if_neg (by simp), cutAmount, Amount.float_denotes hx]
    simp [e1, e2, e3, cutAddr, cutPaymentId_ok hp]
  have hs : Amount.amountToUint64 (Amount.round ((a : ℚ) / 10 ^ 12)) = some n := by
    rw [Amount.sent, Amount.float_denotes hx] at hn
    exact hn
  rw [doSweepBelow, if_neg (by simp [hr, hl]), this]
  simp only [Option.bind_some, sweepParams, hs, Option.map_some, Bool.false_eq_true, if_false]

/-! ## Where it fails -/

/-- C90 is false: no `sweep_single` ever names the output or the address to the wallet. -/
theorem C90_false_single {w : World} {line : Text} {m : Method} {p : Params} (h : Effect.request m p ∈ doSweepSingle w line) :
    m = .sweepSingle ∧ p.keyImage = none ∧ p.address = none := by
  rw [doSweepSingle] at h
  split at h
  · cases h
  · split at h
    · cases h
    · rename_i q hq
      obtain ⟨rfl, rfl⟩ := request_prepare h
      obtain ⟨a, ha, hq⟩ := Option.bind_eq_some_iff.1 hq
      obtain ⟨bl, _, rfl⟩ := Option.map_eq_some_iff.1 hq
      refine ⟨rfl, ?_, rfl⟩
      rw [parseSweepBelow] at ha
      split at ha
      · cases ha
      · simp only [Option.bind_eq_bind, Option.pure_def] at ha
        obtain ⟨_, _, ha⟩ := Option.bind_eq_some_iff.1 ha
        obtain ⟨_, _, ha⟩ := Option.bind_eq_some_iff.1 ha
        obtain ⟨_, _, ha⟩ := Option.bind_eq_some_iff.1 ha
        obtain ⟨_, _, ha⟩ := Option.bind_eq_some_iff.1 ha
        obtain ⟨_, _, ha⟩ := Option.bind_eq_some_iff.1 ha
        cases ha
        rfl

/-- C90 is false: `sweep_single` typed as documented, with a key image of which some digit is a letter other than `e`, does nothing at all. -/
theorem C90_false_single_nothing {w : World} {ki : Bytes} (hk : ki.length = 32) (hx : ∃ c ∈ hexText ki, c = 'a' ∨ c = 'b' ∨ c = 'c' ∨ c = 'd' ∨ c = 'f')
    {address : Text} (ha : AddressLike address) {pid : Option Bytes} (hp : PidOk pid) :
    doSweepSingle w (sepBy ' ' (hexText ki :: address :: (pid.map hexText).toList)) = [] := by
  have hw : words (sepBy ' ' (hexText ki :: address :: (pid.map hexText).toList)) = hexText ki :: address :: (pid.map hexText).toList := by
    apply words_plain (by simp)
    intro t ht
    rcases List.mem_cons.1 ht with rfl | ht
    · exact hexText_plain (pid := some ki) (fun b hb => by cases hb; exact Or.inr hk) _ (by simp)
    · rcases List.mem_cons.1 ht with rfl | ht
      · exact ha.plain
      · exact hexText_plain hp t ht
  have hf : Amount.float (hexText ki) = none := by
    apply float_hex (by rw [hexText_length, hk]; decide) (hexText_alnum ki)
    obtain ⟨c, hc, h⟩ := hx
    refine ⟨c, hc, ?_⟩
    unfold Amount.Digit
    rcases h with rfl | rfl | rfl | rfl | rfl <;> decide
  rw [doSweepSingle, hw]
  split
  · rfl
  · simp [parseSweepBelow, cutAmount, hf]

/-- C90 is false: a payment typed after the payment id is dropped without a word; the command does the same as without it. -/
theorem C90_false_dropped {w : World} {o : Options} (ho : o.Ok) {dests : List (Text × Text)} {as : List ℕ}
    (hd : List.Forall₂ (fun d a => AddressLike d.1 ∧ Amount.Denotes d.2 a) dests as) (h0 : dests ≠ []) {b : Bytes} (hb : b.length = 8 ∨ b.length = 32)
    {address amount : Text} (ha : AddressLike address) (hx : ∃ c ∈ address, ¬ Amount.Digit c ∧ c ≠ 'e' ∧ c ≠ 'E') {a : ℕ} (hm : Amount.Denotes amount a) :
    doTransfer w (sepBy ' ' (o.words ++ dests.flatMap (fun d => [d.1, d.2]) ++ [hexText b, address, amount])) =
      doTransfer w (transferLine o dests (some b)) := by
  have hp : PidOk (some b) := fun c hc => by cases hc; exact hb
  have hw : words (sepBy ' ' (o.words ++ dests.flatMap (fun d => [d.1, d.2]) ++ [hexText b, address, amount])) =
      o.words ++ dests.flatMap (fun d => [d.1, d.2]) ++ [hexText b, address, amount] := by
    apply words_plain
    · simp
    · intro t ht
      rcases List.mem_append.1 ht with ht | ht
      · rcases List.mem_append.1 ht with ht | ht
        · exact options_plain ho t ht
        · obtain ⟨d, hm, ht⟩ := List.mem_flatMap.1 ht
          obtain ⟨a, h1, h2⟩ := forall₂_left hd hm
          simp only [List.mem_cons, List.not_mem_nil, or_false] at ht
          rcases ht with rfl | rfl
          · exact h1.plain
          · exact denotes_plain h2
      · simp only [List.mem_cons, List.not_mem_nil, or_false] at ht
        rcases ht with rfl | rfl | rfl
        · exact hexText_plain hp _ (by simp)
        · exact ha.plain
        · exact denotes_plain hm
  have hpar : parseTransfer (words (sepBy ' ' (o.words ++ dests.flatMap (fun d => [d.1, d.2]) ++ [hexText b, address, amount]))) =
      parseTransfer (words (transferLine o dests (some b))) := by
    rw [transfer_read ho hd h0 hp, hw]
    have hf := floats_of hd
    have hfl : Amount.float address = none := float_hex (by have := ha.1; omega) ha.2.1 hx
    have hdests := cutDests_pairs hf [hexText b, address, amount] (by rw [cutDests, hfl])
    cases hd with
    | nil => exact absurd rfl h0
    | @cons d a r as h t =>
      obtain ⟨w1, w2, e1, e2, e3⟩ := cut_options ho h.1.stop (d.2 :: (r.flatMap (fun d => [d.1, d.2]) ++ [hexText b, address, amount]))
      have hl : ¬ (o.words ++ (d :: r).flatMap (fun d => [d.1, d.2]) ++ [hexText b, address, amount]).length < 2 := by simp; omega
      have he : o.words ++ (d :: r).flatMap (fun d => [d.1, d.2]) ++ [hexText b, address, amount] =
          o.words ++ d.1 :: (d.2 :: (r.flatMap (fun d => [d.1, d.2]) ++ [hexText b, address, amount])) := by simp
      rw [parseTransfer, if_neg hl, he, e1]
      simp only [Option.bind_eq_bind, Option.pure_def, Option.bind_some, e2, e3]
      have hd2 : cutDests (d.1 :: (d.2 :: (r.flatMap (fun d => [d.1, d.2]) ++ [hexText b, address, amount]))) = _ := hdests
      have hc : ¬ ((hexText b).length ≠ 16 ∧ (hexText b).length ≠ 64) := by rw [hexText_length]; omega
      rw [hd2]
      simp [cutPaymentId, if_neg hc]
  rw [doTransfer, doTransfer, hpar]

/-- C90 is false: dust is swept and signed before anything is asked. -/
theorem C90_false_dust {w : World} (hr : w.rpc = true) {r : Bool} {t : Text} {u : Bytes} (h : w.reply .sweepDust {} = .result r (some t)) (hu : unhex t = some u) :
    ∃ l, doSweepDust w = .request .sweepDust {} :: .sign u none :: l := by
  rw [doSweepDust, if_neg (by simp [hr]), h]
  simp only [Option.bind_some, hu, signUnsigned]
  exact ⟨_, rfl⟩

/-! ## Cases -/

namespace Demo

/-- A checksum for the examples. -/
def H : Bytes → Bytes := fun b => [UInt8.ofNat b.length, 2, 3, 4]

/-- Two addresses. -/
def addr1 : Text := (Addr.encodeCheck H 18 (List.replicate 64 7)).map fun x => Char.ofNat x.toNat
def addr2 : Text := (Addr.encodeCheck H 42 (List.replicate 64 9)).map fun x => Char.ofNat x.toNat

/-- A world in which everything works and is confirmed. -/
def world : World := ⟨H, 3, true, true, fun _ => some true, fun _ _ => .result true (some "0102ff".toList), fun u _ => .data (0 :: u)⟩

theorem like1 : AddressLike addr1 := by unfold AddressLike Alnum Amount.Digit; decide +kernel
theorem like2 : AddressLike addr2 := by unfold AddressLike Alnum Amount.Digit; decide +kernel

theorem amount1 : Amount.Denotes "0.75".toList 750000000000 :=
  Amount.Denotes.point "0".toList "75".toList (by decide) (by unfold Amount.Digit; decide) (by unfold Amount.Digit; decide) (by decide)
theorem amount2 : Amount.Denotes "12".toList 12000000000000 := Amount.Denotes.whole "12".toList (by decide) (by unfold Amount.Digit; decide)

/-- The options `index=0,17 elevated 11`. -/
def options : Options := ⟨["0".toList, "17".toList], some 3, some "11".toList⟩

theorem options_ok : options.Ok where
  indices := by unfold Number Amount.Digit; decide
  priority := by intro n hn; cases hn; decide
  ring := by intro t ht; cases ht; unfold Number Amount.Digit; decide

theorem dests_ok : List.Forall₂ (fun (d : Text × Text) (a : ℕ) => AddressLike d.1 ∧ Amount.Denotes d.2 a)
    [(addr1, "0.75".toList), (addr2, "12".toList)] [750000000000, 12000000000000] := .cons ⟨like1, amount1⟩ (.cons ⟨like2, amount2⟩ .nil)

/-- The line is `index=0,17 elevated 11 <addr1> 0.75 <addr2> 12 0102030405060708`; it is confirmed, signed and submitted. -/
example : ∃ i1 i2, Addr.decodeAddr H (ascii addr1) = some i1 ∧ Addr.decodeAddr H (ascii addr2) = some i2 ∧
    doTransfer world (transferLine options [(addr1, "0.75".toList), (addr2, "12".toList)] (some [1, 2, 3, 4, 5, 6, 7, 8])) =
      .asked (some true) :: prepare world 1 .transferSplit
        { dests := [(750000000000, i1.addr), (12000000000000, i2.addr)], account := some 3, indices := [0, 17], priority := some 3, mixin := some 11,
          paymentId := some [1, 2, 3, 4, 5, 6, 7, 8] } (some [(i1, 750000000000), (i2, 12000000000000)]) ∧
    ascii addr1 = i1.addr ∧ ascii addr2 = i2.addr := by
  obtain ⟨i1, e1, f1, g1⟩ : ∃ i, Addr.decodeAddr H (ascii addr1) = some i ∧ ascii addr1 = i.addr ∧ i.isIntegrated = false := by
    refine ⟨(Addr.decodeAddr H (ascii addr1)).get (by decide +kernel), (Option.some_get _).symm, ?_, ?_⟩ <;> decide +kernel
  obtain ⟨i2, e2, f2, g2⟩ : ∃ i, Addr.decodeAddr H (ascii addr2) = some i ∧ ascii addr2 = i.addr ∧ i.isIntegrated = false := by
    refine ⟨(Addr.decodeAddr H (ascii addr2)).get (by decide +kernel), (Option.some_get _).symm, ?_, ?_⟩ <;> decide +kernel
  refine ⟨i1, i2, e1, e2, ?_, f1, f2⟩
  have hp : PidOk (some [1, 2, 3, 4, 5, 6, 7, 8]) := fun b hb => by cases hb; exact Or.inl rfl
  have := C90_transfer (w := world) rfl rfl options_ok dests_ok (by simp) hp (ds := [(i1, 750000000000), (i2, 12000000000000)])
    (.cons ⟨e1, (by decide +kernel : Amount.sent "0.75".toList = some 750000000000)⟩
      (.cons ⟨e2, (by decide +kernel : Amount.sent "12".toList = some 12000000000000)⟩ .nil)) (fun _ q hq => by
      simp only [List.mem_cons, List.not_mem_nil, or_false] at hq
      rcases hq with rfl | rfl
      · exact g1
      · exact g2)
  exact this

/-- Something is submitted in this world. -/
example : Effect.submit [0, 1, 2, 255] ∈ doSweepAll world (sweepLine options addr1 none) := by
  rw [C90_sweep_all rfl options_ok like1 (fun _ h => by cases h)]
  simp only [prepare, world]
  have : unhex "0102ff".toList = some [1, 2, 255] := by decide
  simp only [if_true, Option.bind_some, this, signUnsigned]
  simp

example : ∃ n, doSweepBelow world (belowLine "0.75".toList options addr1 none) = prepare world 0 .sweepAll
      { account := some 3, indices := [0, 17], priority := some 3, belowAmount := some n, ringSize := some 11, address := some addr1 } none :=
  ⟨750000000000, C90_sweep_below (w := world) rfl amount1 (by decide +kernel) options_ok like1 (fun _ h => by cases h)⟩

/-- A key image with letters. -/
example : doSweepSingle world (sepBy ' ' (hexText (List.replicate 32 0xab) :: addr1 :: [])) = [] :=
  C90_false_single_nothing (pid := none) (by simp) ⟨'a', by decide, by simp⟩ like1 (fun _ h => by cases h)

/-- A key image with decimal digits only: a request without key image and address. -/
example : ∃ p, Effect.request .sweepSingle p ∈ doSweepSingle world (sepBy ' ' [hexText (List.replicate 32 0x11), addr1]) := by
  have h : ((parseSweepBelow (words (sepBy ' ' [hexText (List.replicate 32 0x11), addr1]))).bind fun a => sweepParams 3 a true).isSome = true := by
    decide +kernel
  obtain ⟨p, hp⟩ := Option.isSome_iff_exists.1 h
  refine ⟨p, ?_⟩
  have : doSweepSingle world (sepBy ' ' [hexText (List.replicate 32 0x11), addr1]) = prepare world 0 .sweepSingle p none := by
    rw [doSweepSingle, if_neg (by simp [world]; decide)]
    have hp' : ((parseSweepBelow (words (sepBy ' ' [hexText (List.replicate 32 0x11), addr1]))).bind fun a => sweepParams world.account a true) = some p := hp
    rw [hp']
  rw [this, prepare]
  exact List.mem_cons_self

example : ∃ c ∈ addr2, ¬ Amount.Digit c ∧ c ≠ 'e' ∧ c ≠ 'E' := by unfold Amount.Digit; decide +kernel

end Demo

end Verif.Cmd

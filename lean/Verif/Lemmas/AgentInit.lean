import Verif.Lemmas.AgentEnd
import Verif.Spec.Agent

/-! The init message of an honest request is accepted. -/

set_option linter.unusedSectionVars false
set_option linter.unusedSimpArgs false

namespace Verif.Agent
open Verif Verif.Signer Verif.Batches
variable {S P : Type} [CommRing S] [AddCommGroup P] [Module S P] [DecidableEq S] [DecidableEq P]

theorem addrEq_iff (a b : Addr) : addrEq a b = true ↔ a = b := by
  cases a; cases b
  simp [addrEq]

/-! ### Classification of the destinations -/

theorem classify_mono (ch : Addr) : ∀ (ds : List Dst) (seen : List Addr) (std sub : Nat) (single : Option Addr),
    std ≤ (classifyAux (some ch) ds seen std sub single).1 ∧ sub ≤ (classifyAux (some ch) ds seen std sub single).2.1 ∧
      ((classifyAux (some ch) ds seen std sub single).2.1 = sub → (classifyAux (some ch) ds seen std sub single).2.2 = single) ∧
      (sub < (classifyAux (some ch) ds seen std sub single).2.1 → ∃ d ∈ ds, (classifyAux (some ch) ds seen std sub single).2.2 = some d.addr) := by
  intro ds
  induction ds with
  | nil => intro seen std sub single; simp [classifyAux]
  | cons d ds ih =>
    intro seen std sub single
    unfold classifyAux
    dsimp only
    split
    · obtain ⟨a, b, c, e⟩ := ih seen std sub single
      exact ⟨a, b, c, fun h => by obtain ⟨x, hx, hy⟩ := e h; exact ⟨x, by simp [hx], hy⟩⟩
    · split
      · obtain ⟨a, b, c, e⟩ := ih seen std sub single
        exact ⟨a, b, c, fun h => by obtain ⟨x, hx, hy⟩ := e h; exact ⟨x, by simp [hx], hy⟩⟩
      · split
        · obtain ⟨a, b, c, e⟩ := ih (d.addr :: seen) std (sub + 1) (some d.addr)
          refine ⟨a, by omega, fun h => by omega, fun _ => ?_⟩
          rcases Nat.lt_or_ge (sub + 1) (classifyAux (some ch) ds (d.addr :: seen) std (sub + 1) (some d.addr)).2.1 with h | h
          · obtain ⟨x, hx, hy⟩ := e h; exact ⟨x, by simp [hx], hy⟩
          · exact ⟨d, by simp, c (by omega)⟩
        · obtain ⟨a, b, c, e⟩ := ih (d.addr :: seen) (std + 1) sub single
          exact ⟨by omega, b, c, fun h => by obtain ⟨x, hx, hy⟩ := e h; exact ⟨x, by simp [hx], hy⟩⟩

theorem classify_member (ch : Addr) : ∀ (ds : List Dst) (seen : List Addr) (std sub : Nat) (single : Option Addr),
    (∀ x ∈ ds, ∀ y ∈ ds, x.addr = y.addr → x.isSub = y.isSub) → ∀ x ∈ ds, ch ≠ x.addr →
      (x.isSub = false → x.addr ∈ seen ∨ std < (classifyAux (some ch) ds seen std sub single).1) ∧
      (x.isSub = true → x.addr ∈ seen ∨ (sub < (classifyAux (some ch) ds seen std sub single).2.1 ∧
        ((classifyAux (some ch) ds seen std sub single).2.1 = sub + 1 → (classifyAux (some ch) ds seen std sub single).2.2 = some x.addr))) := by
  intro ds
  induction ds with
  | nil => intro _ _ _ _ _ x hx; simp at hx
  | cons d ds ih =>
    intro seen std sub single hc x hx hch
    have hc' : ∀ x ∈ ds, ∀ y ∈ ds, x.addr = y.addr → x.isSub = y.isSub :=
      fun a ha b hb => hc a (by simp [ha]) b (by simp [hb])
    have hsame : x.addr = d.addr → x.isSub = d.isSub := hc x hx d (by simp)
    have hin : x = d ∨ x ∈ ds := by simpa using hx
    unfold classifyAux
    dsimp only
    split
    · rename_i hm
      have hne : x ≠ d := by
        rintro rfl
        exact hch ((addrEq_iff ch x.addr).1 hm)
      rcases hin with h | h
      · exact absurd h hne
      · exact ih seen std sub single hc' x h hch
    · split
      · rename_i hs
        rcases hin with rfl | h
        · have hs' : x.addr ∈ seen := by simpa using hs
          exact ⟨fun _ => .inl hs', fun _ => .inl hs'⟩
        · exact ih seen std sub single hc' x h hch
      · split
        · rename_i hsub
          obtain ⟨m1, m2, m3, m4⟩ := classify_mono ch ds (d.addr :: seen) std (sub + 1) (some d.addr)
          by_cases he : x.addr = d.addr
          · refine ⟨fun h => ?_, fun h => .inr ⟨by omega, fun e => by rw [he]; exact m3 e⟩⟩
            rw [hsame he, hsub] at h; cases h
          · have hxd : x ∈ ds := by
              rcases hin with rfl | h
              · exact absurd rfl he
              · exact h
            obtain ⟨i1, i2⟩ := ih (d.addr :: seen) std (sub + 1) (some d.addr) hc' x hxd hch
            refine ⟨fun h => ?_, fun h => ?_⟩
            · rcases i1 h with h1 | h1
              · rcases List.mem_cons.1 h1 with h2 | h2
                · exact absurd h2 he
                · exact .inl h2
              · exact .inr h1
            · rcases i2 h with h1 | h1
              · rcases List.mem_cons.1 h1 with h2 | h2
                · exact absurd h2 he
                · exact .inl h2
              · exact .inr ⟨by omega, fun e => by omega⟩
        · rename_i hsub
          obtain ⟨m1, m2, m3, m4⟩ := classify_mono ch ds (d.addr :: seen) (std + 1) sub single
          by_cases he : x.addr = d.addr
          · refine ⟨fun h => .inr (by omega), fun h => ?_⟩
            rw [hsame he] at h; exact absurd h hsub
          · have hxd : x ∈ ds := by
              rcases hin with rfl | h
              · exact absurd rfl he
              · exact h
            obtain ⟨i1, i2⟩ := ih (d.addr :: seen) (std + 1) sub single hc' x hxd hch
            refine ⟨fun h => ?_, fun h => ?_⟩
            · rcases i1 h with h1 | h1
              · rcases List.mem_cons.1 h1 with h2 | h2
                · exact absurd h2 he
                · exact .inl h2
              · exact .inr (by omega)
            · rcases i2 h with h1 | h1
              · rcases List.mem_cons.1 h1 with h2 | h2
                · exact absurd h2 he
                · exact .inl h2
              · exact .inr h1

theorem txPubKey_some (env : Env S P) (ds : List Dst) (ch : Addr) (r : S) (h : ∀ d ∈ ds, ∃ p, env.ptDec d.addr.spend = some p) :
    ∃ R, txPubKey env (classify ds (some ch)) r = some R := by
  unfold txPubKey
  split
  · rename_i hc
    obtain ⟨_, _, _, h4⟩ := classify_mono ch ds [] 0 0 none
    obtain ⟨d, hd, he⟩ := h4 (by show 0 < (classify ds (some ch)).2.1; omega)
    obtain ⟨p, hp⟩ := h d hd
    refine ⟨r • p, ?_⟩
    rw [show (classify ds (some ch)).2.2 = some d.addr from he, Option.bind_some, hp]
    rfl
  · exact ⟨_, rfl⟩

/-! ### Payment id -/

theorem destView_run (ch : Addr) (hasPid : Bool) (A : Addr) : ∀ (ds : List Dst) (a : Addr) (c : Nat),
    (∀ d ∈ ds, d.addr.view ≠ nullKey) → (hasPid = true → ∀ d ∈ ds, d.amount ≠ 0 → d.addr ≠ ch → d.addr = A) →
    (hasPid = true → c = 0 ∨ a = A) →
    ∃ a' c', destViewAux (some ch) hasPid ds a c = some (a', c') ∧
      ((a.view ≠ nullKey ∨ ∃ d ∈ ds, d.amount ≠ 0 ∧ d.addr ≠ ch) → a'.view ≠ nullKey ∧ (a' = a ∨ ∃ d ∈ ds, (d.amount ≠ 0 ∧ d.addr ≠ ch) ∧ a' = d.addr)) := by
  intro ds
  induction ds with
  | nil => intro a c _ _ _; exact ⟨a, c, rfl, fun h => ⟨by simpa using h, .inl rfl⟩⟩
  | cons d ds ih =>
    intro a c h1 h2 h3
    have h1' : ∀ d ∈ ds, d.addr.view ≠ nullKey := fun x hx => h1 x (by simp [hx])
    have h2' : hasPid = true → ∀ d ∈ ds, d.amount ≠ 0 → d.addr ≠ ch → d.addr = A := fun h x hx => h2 h x (by simp [hx])
    have skip : ∀ (a0 : Addr) (c0 : Nat), (hasPid = true → c0 = 0 ∨ a0 = A) → (a0 = a ∨ ((d.amount ≠ 0 ∧ d.addr ≠ ch) ∧ a0 = d.addr)) →
        ((a.view ≠ nullKey ∨ ∃ x ∈ d :: ds, x.amount ≠ 0 ∧ x.addr ≠ ch) → a0.view ≠ nullKey ∨ ∃ x ∈ ds, x.amount ≠ 0 ∧ x.addr ≠ ch) →
        ∃ a' c', destViewAux (some ch) hasPid ds a0 c0 = some (a', c') ∧
          ((a.view ≠ nullKey ∨ ∃ x ∈ d :: ds, x.amount ≠ 0 ∧ x.addr ≠ ch) → a'.view ≠ nullKey ∧ (a' = a ∨ ∃ x ∈ d :: ds, (x.amount ≠ 0 ∧ x.addr ≠ ch) ∧ a' = x.addr)) := by
      intro a0 c0 hc ha himp
      obtain ⟨a', c', e1, e2⟩ := ih a0 c0 h1' h2' hc
      refine ⟨a', c', e1, fun h => ?_⟩
      obtain ⟨f1, f2⟩ := e2 (himp h)
      refine ⟨f1, ?_⟩
      rcases f2 with rfl | ⟨x, hx, hy⟩
      · rcases ha with h | h
        · exact .inl h
        · exact .inr ⟨d, by simp, h⟩
      · exact .inr ⟨x, by simp [hx], hy⟩
    unfold destViewAux
    dsimp only
    split
    · rename_i hz
      refine skip a c h3 (.inl rfl) ?_
      rintro (h | ⟨x, hx, hp⟩)
      · exact .inl h
      · rcases List.mem_cons.1 hx with rfl | hx
        · simp at hz; exact absurd hz hp.1
        · exact .inr ⟨x, hx, hp⟩
    · rename_i hz
      split
      · rename_i hch
        refine skip a c h3 (.inl rfl) ?_
        rintro (h | ⟨x, hx, hp⟩)
        · exact .inl h
        · rcases List.mem_cons.1 hx with rfl | hx
          · exact absurd ((addrEq_iff _ _).1 hch) hp.2
          · exact .inr ⟨x, hx, hp⟩
      · rename_i hch
        have hpay : d.amount ≠ 0 ∧ d.addr ≠ ch := ⟨by simpa using hz, fun e => hch ((addrEq_iff _ _).2 e)⟩
        split
        · rename_i heq
          refine skip a c h3 (.inl rfl) fun _ => .inl ?_
          rw [← (addrEq_iff _ _).1 heq]
          exact h1 d (by simp)
        · rename_i heq
          split
          · rename_i hcnt
            rw [Bool.and_eq_true] at hcnt
            have hA := h2 hcnt.2 d (by simp) hpay.1 hpay.2
            rcases h3 hcnt.2 with h | h
            · simp [h] at hcnt
            · exact absurd ((addrEq_iff _ _).2 (hA.trans h.symm)) heq
          · refine skip d.addr (c + 1) (fun h => .inr (h2 h d (by simp) hpay.1 hpay.2)) (.inr ⟨hpay, rfl⟩) fun _ => .inl ?_
            exact h1 d (by simp)

theorem paymentId_some {env : Env S P} {cfg : Config} {d : TxData} (h : Honest env cfg d) (tsx : TsxData) (ho : tsx.outputs = d.dsts)
    (hp : tsx.paymentId = d.paymentId) (r : S) (extra : Bytes) :
    ∃ pid ex, processPaymentId env tsx (some d.change.addr) r extra = some (pid, ex) := by
  unfold processPaymentId
  rw [ho, hp]
  rcases h.paymentId with h32 | ⟨he, dst, hd1, hd2, hd3⟩ | ⟨h8, a, ⟨dst, hd1, hd2, hd3⟩, hall⟩
  · have e1 : d.paymentId.isEmpty = false := by cases hq : d.paymentId with
      | nil => rw [hq] at h32; simp at h32
      | cons _ _ => rfl
    simp [e1, h32]
  · obtain ⟨a', c', e1, e2⟩ := destView_run d.change.addr false ⟨nullKey, nullKey⟩ d.dsts ⟨nullKey, nullKey⟩ 0 (fun x hx => (h.addrs x hx).2.2)
      (by intro h; cases h) (by intro h; cases h)
    obtain ⟨f1, f2⟩ := e2 (.inr ⟨dst, hd1, hd2, hd3⟩)
    have hdec : ∃ p, env.ptDec a'.view = some p := by
      rcases f2 with rfl | ⟨x, hx, _, rfl⟩
      · simp at f1
      · exact (h.addrs x hx).2.1
    obtain ⟨p, hpd⟩ := hdec
    simp only [he, List.isEmpty_nil, Bool.true_or, if_true, destView, Bool.not_true, e1, Bool.true_and]
    by_cases hc : c' ≤ 1
    · simp [hc, f1, hpd]
    · simp [hc]
  · have hne : d.paymentId.isEmpty = false := by cases hq : d.paymentId with
      | nil => rw [hq] at h8; simp at h8
      | cons _ _ => rfl
    obtain ⟨a', c', e1, e2⟩ := destView_run d.change.addr true a d.dsts ⟨nullKey, nullKey⟩ 0 (fun x hx => (h.addrs x hx).2.2)
      (fun _ x hx h1 h2 => hall x ⟨hx, h1, h2⟩) (fun _ => .inl rfl)
    obtain ⟨f1, f2⟩ := e2 (.inr ⟨dst, hd1, hd2, hd3⟩)
    have hdec : ∃ p, env.ptDec a'.view = some p := by
      rcases f2 with rfl | ⟨x, hx, _, rfl⟩
      · simp at f1
      · exact (h.addrs x hx).2.1
    obtain ⟨p, hpd⟩ := hdec
    simp only [h8, beq_self_eq_true, Bool.or_true, if_true, destView, hne, Bool.not_false, e1, Bool.false_and]
    simp [hne, h8, f1, hpd]

/-- A short payment id is encrypted for the one address that is paid. -/
theorem paymentId_short {env : Env S P} {cfg : Config} {d : TxData} (h : Honest env cfg d) (tsx : TsxData) (ho : tsx.outputs = d.dsts)
    (hp : tsx.paymentId = d.paymentId) (r : S) (extra : Bytes) (h8 : d.paymentId.length = 8) {dst : Dst} (hd : Pays d dst) {V : P}
    (hV : env.ptDec dst.addr.view = some V) :
    processPaymentId env tsx (some d.change.addr) r extra = some (d.paymentId, [2, 9, 1] ++ encryptPaymentId env d.paymentId V r) := by
  have hne : d.paymentId.isEmpty = false := by cases hq : d.paymentId with
    | nil => rw [hq] at h8; simp at h8
    | cons _ _ => rfl
  unfold processPaymentId
  rw [ho, hp]
  rcases h.paymentId with h32 | ⟨he, _⟩ | ⟨_, a, _, hall⟩
  · omega
  · rw [he] at h8; simp at h8
  · obtain ⟨a', c', e1, e2⟩ := destView_run d.change.addr true a d.dsts ⟨nullKey, nullKey⟩ 0 (fun x hx => (h.addrs x hx).2.2)
      (fun _ x hx h1 h2 => hall x ⟨hx, h1, h2⟩) (fun _ => .inl rfl)
    obtain ⟨f1, f2⟩ := e2 (.inr ⟨dst, hd⟩)
    have ha : a' = dst.addr := by
      rcases f2 with rfl | ⟨x, hx, hpx, rfl⟩
      · simp at f1
      · exact (hall x ⟨hx, hpx⟩).trans (hall dst hd).symm
    simp only [h8, beq_self_eq_true, Bool.or_true, if_true, destView, hne, Bool.not_false, e1, Bool.false_and]
    rw [ha] at f1
    simp [hne, h8, f1, hV, ha]

/-- Whatever payment id was asked for: the shape of what is sent. -/
theorem nonce_ok {env : Env S P} (hlen : ∀ b, (env.keccak b).length = 32) {d : TxData} {tsx : TsxData} (hp : tsx.paymentId = d.paymentId)
    {ch : Option Addr} {r : S} {pid ex : Bytes} (h : processPaymentId env tsx ch r [] = some (pid, ex)) : NonceOk d ex := by
  have hzip : ∀ (p : Bytes) (v : P), p.length = 8 → (encryptPaymentId env p v r).length = 8 := by
    intro p v hp
    simp [encryptPaymentId, hlen, hp]
  have hview : ∀ p, (destView tsx.outputs ch p).2 = p ∨ (p = [] ∧ (destView tsx.outputs ch p).2.length = 8) := by
    intro p
    unfold destView
    split
    · exact .inl rfl
    · dsimp only
      split
      · rename_i hc
        simp only [Bool.and_eq_true, List.isEmpty_iff] at hc
        exact .inr ⟨hc.1, by simp⟩
      · exact .inl rfl
  unfold processPaymentId at h
  rw [hp] at h
  generalize hq : (if (d.paymentId.isEmpty || d.paymentId.length == 8) = true then destView tsx.outputs ch d.paymentId else (nullKey, d.paymentId)) = q at h
  have hq2 : q.2 = d.paymentId ∨ (d.paymentId = [] ∧ q.2.length = 8) := by
    rw [← hq]
    split
    · exact hview _
    · exact .inl rfl
  obtain ⟨vk, p⟩ := q
  dsimp only at h hq2
  split at h
  · rename_i he
    simp only [Option.some.injEq, Prod.mk.injEq] at h
    rw [List.isEmpty_iff] at he
    subst he
    rcases hq2 with hq2 | hq2
    · exact .inl ⟨hq2.symm, h.2.symm⟩
    · simp at hq2
  split at h
  · rename_i h8
    rw [beq_iff_eq] at h8
    split at h
    · simp at h
    · rw [Option.map_eq_some_iff] at h
      obtain ⟨v, -, h⟩ := h
      simp only [Prod.mk.injEq] at h
      refine .inr (.inl ⟨?_, _, hzip p v h8, h.2.symm⟩)
      rcases hq2 with rfl | hq2
      · exact .inr h8
      · exact .inl hq2.1
  split at h
  · rename_i h8 h32
    rw [beq_iff_eq] at h32 
    rcases hq2 with rfl | hq2
    · simp only [Option.some.injEq, Prod.mk.injEq] at h
      exact .inr (.inr ⟨h32, h.2.symm⟩)
    · omega
  · simp at h

theorem paymentId_long {env : Env S P} {d : TxData} (tsx : TsxData) (hp : tsx.paymentId = d.paymentId) (r : S) (extra : Bytes)
    (h32 : d.paymentId.length = 32) (ch : Option Addr) :
    processPaymentId env tsx ch r extra = some (d.paymentId, [2, 33, 0] ++ d.paymentId) := by
  have e1 : d.paymentId.isEmpty = false := by cases hq : d.paymentId with
    | nil => rw [hq] at h32; simp at h32
    | cons _ _ => rfl
  simp [processPaymentId, hp, e1, h32]

theorem checkChange_ok {env : Env S P} {cfg : Config} {d : TxData} (h : Honest env cfg d) :
    checkChange d.dsts (some d.change) (env.primaryAddr d.account) = .ok () := by
  unfold checkChange
  simp only
  split
  · rfl
  · rename_i hn
    simp only [bind_ok, ensure_ok, exists_unit]
    rcases h.change with ⟨h1, h2⟩ | ⟨⟨x, hx, he⟩, h2⟩
    · exact absurd (by simp [hasChangeIdx, h1, h2]) hn
    · exact ⟨List.any_eq_true.2 ⟨x, hx, (addrEq_iff _ _).2 he⟩, (addrEq_iff _ _).2 h2⟩

/-- What the run needs of a request, with the transaction secret `r`. -/
structure Ready (env : Env S P) (cfg : Config) (d : TxData) (r : S) : Prop where
  version : 1 ≤ cfg.clientVersion
  hf : 9 ≤ cfg.hf
  useBp : d.useBp = true
  sources : d.sources ≠ []
  dsts : d.dsts ≠ []
  fewSources : d.sources.length ≤ 2 ^ 42
  fewDsts : d.dsts.length ≤ 2 ^ 42
  enough : (d.dsts.map (·.amount)).sum ≤ (d.sources.map (·.amount)).sum
  amounts : ∀ dst ∈ d.dsts, dst.amount < 2 ^ 64
  mine : ∀ src ∈ d.sources, ∃ x ki, Mine env (tableOf env d) src x ki
  spend : ∀ dst ∈ d.dsts, ∃ p, env.ptDec dst.addr.spend = some p
  view : ∀ dst ∈ d.dsts, dst.addr ≠ d.change.addr → ∃ p, env.ptDec dst.addr.view = some p
  change : checkChange d.dsts (some d.change) (env.primaryAddr d.account) = .ok ()
  paymentId : ∀ tsx : TsxData, tsx.outputs = d.dsts → tsx.paymentId = d.paymentId →
    ∃ pid ex, processPaymentId env tsx (some d.change.addr) r [] = some (pid, ex)

theorem Honest.ready {env : Env S P} {cfg : Config} {d : TxData} (h : Honest env cfg d) (r : S) : Ready env cfg d r :=
  ⟨h.version, h.hf, h.useBp, h.sources, h.dsts, h.fewSources, h.fewDsts, h.enough, h.amounts, h.mine, fun x hx => (h.addrs x hx).1,
    fun x hx _ => (h.addrs x hx).2.1, checkChange_ok h, fun tsx h1 h2 => paymentId_some h tsx h1 h2 r []⟩

end Verif.Agent

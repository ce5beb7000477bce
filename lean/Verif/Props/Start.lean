import Verif.Lemmas.Start
import Verif.Lemmas.HdPath
import Verif.Lemmas.Amount
import Mathlib.Data.Countable.Basic
import Mathlib.Logic.Encodable.Basic
import Mathlib.Logic.Equiv.List

/-! C94: how the agent starts. -/

namespace Verif.Start
open Verif Verif.Ed Verif.Acct

/-- C94. A start, successful or not, changes no file that was there: neither a keys file nor the account file. -/
theorem C94_keeps (e : Env) (a : Args) (w : World) (d : Disk) : Keeps d (openAccount e a w d).1 := by
  have same : Keeps d d := ⟨fun _ _ h => h, fun _ h => h⟩
  unfold openAccount
  dsimp only
  cases hl : loadAccount e a w d with
  | none => exact same
  | some s₀ =>
    dsimp only
    split
    · exact same
    · split
      · rename_i he
        exact (ensure_keeps he).1
      · rename_i d₁ he
        obtain ⟨hk, ha⟩ := ensure_keeps he
        split
        · rename_i hf
          have hn : d.account = none := by
            simp only [Bool.and_eq_true, Option.isNone_iff_eq_none] at hf
            exact hf.2
          refine ⟨?_, fun f hf => by rw [hn] at hf; cases hf⟩
          unfold saveAccount
          split
          · exact hk.1
          · split <;> exact hk.1
        · exact hk

theorem keys_file (e : Env) (a : Args) (w : World) (d : Disk) {d' : Disk} {s : Agent} (h : openAccount e a w d = (d', some s)) (hi : a.noInit = false)
    {p : List Char} (hp : s.walletFile = some p) : ∃ data, d'.keys (keyFile p) = some data ∧
      (d.keys (keyFile p) = some data ∧ Watches e s data ∨
        d.keys (keyFile p) = none ∧ ∃ v k height said, s.view = some v ∧ s.keys = some k ∧ restoreParam w.turns = some (height, said) ∧
          (KeysFile.gen e.x e.c w.iv s.password
            ⟨some ⟨w.time, encodePoint k.2, encodePoint k.1, encodeInt 0, encodeInt v⟩, ⟨1, decide (s.net = some 1), height⟩⟩).1 = some data) := by
  obtain ⟨s₀, s₁, d₁, h1, h2, h3, _, h4⟩ := open_parts h
  have hs : s.walletFile = s₁.walletFile ∧ s.keys = s₁.keys ∧ s.view = s₁.view ∧ s.net = s₁.net ∧ s.password = s₁.password ∧ d'.keys = d₁.keys := by
    split at h4
    · obtain ⟨_, _, _, _, _, _, rfl, hk, _⟩ := save_parts h4
      exact ⟨rfl, rfl, rfl, rfl, rfl, hk⟩
    · cases h4
      exact ⟨rfl, rfl, rfl, rfl, rfl, rfl⟩
  obtain ⟨hs1, hs2, hs3, hs4, hs5, hs6⟩ := hs
  obtain ⟨k, hk, h⟩ := ensure_ok hi (by rw [← hs1]; exact hp) h3
  rcases h with ⟨data, rfl, hd, hc⟩ | ⟨hd, v, height, said, data, hv, hr, hg, _, hq⟩
  · refine ⟨data, by rw [hs6, hd], .inl ⟨hd, ?_⟩⟩
    obtain ⟨wl, kd, c1, c2, c3, c4⟩ := checkExisting_true hc
    exact ⟨k, wl, kd, by rw [hs2, hk], by rw [hs5, c1], c2, c3, c4⟩
  · refine ⟨data, by rw [hs6, hq, if_pos rfl], .inr ⟨hd, v, k, height, said, by rw [hs3, hv], by rw [hs2, hk], hr, ?_⟩⟩
    rw [hs5, hs4]
    exact hg

/-- C94. An agent that goes on, with a device that was initialised, has a keys file. If it was there before, it opens with the password and is the wallet of
the account. If not, it was made from the account: the public keys, the view key, no spend key, the network's flag and the height of the dialogue. -/
theorem C94_keys_file (e : Env) (a : Args) (w : World) (d : Disk) {d' : Disk} {s : Agent} (h : openAccount e a w d = (d', some s)) (hi : a.noInit = false)
    {p : List Char} (hp : s.walletFile = some p) : ∃ data, d'.keys (p ++ ".keys".toList) = some data ∧
      (d.keys (p ++ ".keys".toList) = some data ∧ Watches e s data ∨
        d.keys (p ++ ".keys".toList) = none ∧ ∃ v k height said, s.view = some v ∧ s.keys = some k ∧ restoreParam w.turns = some (height, said) ∧
          (KeysFile.gen e.x e.c w.iv s.password
            ⟨some ⟨w.time, encodePoint k.2, encodePoint k.1, encodeInt 0, encodeInt v⟩, ⟨1, decide (s.net = some 1), height⟩⟩).1 = some data) := keys_file e a w d h hi hp

/-- The keys of a new keys file do not contain the two bytes that the reader takes for their end (see C69). -/
def Readable (e : Env) (w : World) (s : Agent) : Prop := ∀ v k, s.view = some v → s.keys = some k →
  ¬ [0x22, 0x2c] <:+: e.c.esc (e.c.ser ⟨w.time, encodePoint k.2, encodePoint k.1, encodeInt 0, encodeInt v⟩)

/-- C94. So the agent works on a wallet of its own account, old or new. -/
theorem C94_watches_partial (e : Env) (hx : Enc.Involutive e.x) (hc : e.c.Lawful) (a : Args) (w : World) (hw : w.iv.length = 8) (d : Disk) {d' : Disk} {s : Agent}
    (h : openAccount e a w d = (d', some s)) (hi : a.noInit = false) {p : List Char} (hp : s.walletFile = some p) (hr : Readable e w s) :
    ∃ data, d'.keys (p ++ ".keys".toList) = some data ∧ Watches e s data := by
  obtain ⟨data, h1, h2⟩ := C94_keys_file e a w d h hi hp
  refine ⟨data, h1, ?_⟩
  rcases h2 with ⟨_, h2⟩ | ⟨_, v, k, height, said, g1, g2, _, g4⟩
  · exact h2
  · obtain ⟨data', l1, l2⟩ := KeysFile.C69_load_partial e.x hx e.c hc w.iv s.password hw
      ⟨w.time, encodePoint k.2, encodePoint k.1, encodeInt 0, encodeInt v⟩ ⟨1, decide (s.net = some 1), height⟩ (hr v k g1 g2)
    cases l1.symm.trans g4
    exact ⟨k, _, _, g2, l2, rfl, rfl, rfl⟩

/-- C94. Without the account's keys there is no start, and nothing is written: if the device does not give its view key, the agent stops. -/
theorem C94_device_fails (e : Env) (a : Args) (w : World) (d : Disk) (hv : a.viewKey = none) (hi : a.noInit = false) (hs : a.sign = false)
    (hd : a.accountFile = false ∨ d.account = none) (hw : w.device = none) : openAccount e a w d = (d, none) := by
  have hf : (a.accountFile && d.account.isSome) = false := by rcases hd with hd | hd <;> simp [hd]
  unfold openAccount loadAccount
  dsimp only
  rw [hv]
  dsimp only
  rw [hf]
  simp only [Bool.false_eq_true, if_false]
  by_cases hc : checkParams a (loadParams a Agent.new) = true
  · rw [if_pos hc]
    have hl : loadWatchOnly e a w (loadParams a Agent.new) = { loadParams a Agent.new with net := some (if a.testnet then 1 else 0) } := by
      unfold loadWatchOnly
      rw [hw]
    rw [hl]
    generalize (if a.testnet then 1 else 0 : ℕ) = net
    dsimp only
    obtain ⟨p, hp⟩ : ∃ p, (loadParams a Agent.new).walletFile = some p := by
      unfold checkParams at hc
      rw [hs] at hc
      simp only [Bool.false_or, Bool.and_eq_true] at hc
      exact Option.isSome_iff_exists.1 hc.1
    have hp2 : (loadParams a { loadParams a Agent.new with net := some net }).walletFile = some p := by
      show ((given a.watchWallet).orElse fun _ => (loadParams a Agent.new).walletFile) = some p
      rw [hp]
      change ((given a.watchWallet).orElse fun _ => Agent.new.walletFile) = some p at hp
      cases hg : given a.watchWallet with
      | none => rfl
      | some q => rw [hg] at hp; exact hp
    split
    · rfl
    · have he : ∀ s : Agent, s.walletFile = some p → s.keys = none → ensureWatchOnly e a w s d = (d, false) := by
        intro s h1 h2
        unfold ensureWatchOnly
        rw [h1, h2, hi]
        rfl
      split
      · rename_i d₂ h2
        rw [he _ (by split <;> exact hp2) (by split <;> rfl)] at h2
        cases h2
        rfl
      · rename_i d₂ h2
        rw [he _ (by split <;> exact hp2) (by split <;> rfl)] at h2
        cases h2
  · rw [if_neg hc]

/-- C94. After a start that made the account file, the agent starts again with the account file and the password alone: nothing is asked, no file changes, and
it is the same agent with the same account. -/
theorem C94_restart_partial (e : Env) (ho : e.o.Ok) (hx : Enc.Involutive e.x) (hc : e.c.Lawful) (a : Args) (w w' : World) (hw : w.iv.length = 8)
    (hn : w.nonce.length = 12) (d : Disk) {d' : Disk} {s : Agent} (h : openAccount e a w d = (d', some s)) (hi : a.noInit = false) (hs : a.sign = false)
    (ha : a.accountFile = true) (hd : d.account = none) (hr : Readable e w s) (hp : w'.password = w.password) :
    openAccount e { a with viewKey := none, address := none } w' d' = (d', some s) := by
  obtain ⟨s₀, s₁, d₁, h1, h2, h3, h5, h4⟩ := open_parts h
  have hf : (a.accountFile && d.account.isNone) = true := by rw [ha, hd]; rfl
  rw [if_pos hf] at h2 h4
  obtain ⟨p, hp'⟩ : ∃ p, s₁.walletFile = some p := by
    have := h5 hf
    unfold checkParams at this
    rw [hs] at this
    simp only [Bool.false_or, Bool.and_eq_true] at this
    rw [h2]
    exact Option.isSome_iff_exists.1 this.1
  obtain ⟨v', t', net', s1, s2, s3, s4, s5, s6⟩ := save_parts h4
  obtain ⟨data, hdata, k, wl, kd, c1, c2, c3, c4, c5⟩ :=
    C94_watches_partial e hx hc a w hw d h hi (p := p) (by rw [s4]; exact hp') hr
  have hk₁ : s₁.keys = some k := by rw [s4] at c1; exact c1
  have hk₀ : s₀.keys = some k := by rw [h2] at hk₁; exact hk₁
  obtain ⟨l0, v, t, l1, l2, l3, l4⟩ := loaded hd h1 hk₀
  have e1 : s₁.view = some v := by rw [h2]; exact l1
  have e2 : s₁.address = some t := by rw [h2]; exact l2
  have e3 : s₁.net = some (if a.testnet then 1 else 0) := by rw [h2]; exact l3
  have e4 : s₁.salt = none := by rw [h2]; exact l0
  have e5 : s₁.password = w.password := by rw [h2]
  obtain rfl := Option.some.inj (s1.symm.trans e1)
  obtain rfl := Option.some.inj (s2.symm.trans e2)
  obtain rfl := Option.some.inj (s3.symm.trans e3)
  obtain ⟨o1, o2⟩ := C92_saved_opens e.o ho (l4 s₁.salt s₁.password s₁.rpc s₁.walletFile s₁.moneroBin) w.fresh w'.fresh w.nonce hn
  have hacc := s6 k hk₁
  have hsome : d'.account.isSome = true := by rw [hacc]; rfl
  have hload : loadAccount e { a with viewKey := none, address := none } w' d' =
      some (Agent.of (save e.o w.fresh w.nonce ⟨v', t', k.1, k.2, if a.testnet then 1 else 0, s₁.salt, s₁.password, s₁.rpc, s₁.walletFile, s₁.moneroBin⟩).1) := by
    unfold loadAccount
    dsimp only
    rw [ha, hsome, Bool.and_self, if_pos rfl, hacc]
    dsimp only
    rw [hp, ← e5, o1, Option.map_some]
  have hpar : loadParams { a with viewKey := none, address := none }
      (Agent.of (save e.o w.fresh w.nonce ⟨v', t', k.1, k.2, if a.testnet then 1 else 0, s₁.salt, s₁.password, s₁.rpc, s₁.walletFile, s₁.moneroBin⟩).1) = s := by
    rw [o2, s4]
    unfold loadParams Agent.of
    have r1 : s₁.rpc = (given a.rpc).orElse fun _ => s₀.rpc := by rw [h2]; rfl
    have r2 : s₁.walletFile = (given a.watchWallet).orElse fun _ => s₀.walletFile := by rw [h2]; rfl
    have r3 : s₁.moneroBin = (given a.moneroBin).orElse fun _ => s₀.moneroBin := by rw [h2]; rfl
    have q1 : ((given a.rpc).orElse fun _ => s₁.rpc) = s₁.rpc := by rw [r1, given_twice]
    have q2 : ((given a.watchWallet).orElse fun _ => s₁.walletFile) = s₁.walletFile := by rw [r2, given_twice]
    have q3 : ((given a.moneroBin).orElse fun _ => s₁.moneroBin) = s₁.moneroBin := by rw [r3, given_twice]
    dsimp only
    rw [q1, q2, q3, ← e1, ← e2, ← e3, ← hk₁]
  have hens : ensureWatchOnly e { a with viewKey := none, address := none } w' s d' = (d', true) := by
    unfold ensureWatchOnly
    rw [show s.walletFile = some p by rw [s4]; exact hp']
    dsimp only
    rw [c1, show d'.keys (keyFile p) = _ from hdata]
    dsimp only
    rw [checkExisting_of c2 c3 c4 c5 (tn := a.testnet) (by rw [s4]; exact e3)]
    rfl
  unfold openAccount
  dsimp only
  rw [hload]
  dsimp only
  rw [show (a.accountFile && d'.account.isNone) = false by rw [hacc]; simp]
  simp only [Bool.false_and, Bool.false_eq_true, if_false]
  rw [hpar, hens]

/-- C94 is false for the password: an agent given the view key and the address, with no account file or with one that exists, asks for none and uses the
empty password for the keys file. -/
theorem C94_false_password (e : Env) (a : Args) (w : World) (d : Disk) {key t : Bytes} (hk : a.viewKey = some key) (ht : a.address = some t)
    (hf : (a.accountFile && d.account.isNone) = false) {d' : Disk} {s : Agent} (h : openAccount e a w d = (d', some s)) : s.password = [] := by
  obtain ⟨s₀, s₁, d₁, h1, h2, h3, _, h4⟩ := open_parts h
  rw [hf] at h2 h4
  simp only [Bool.false_eq_true, if_false, Prod.mk.injEq, Option.some.injEq] at h2 h4
  obtain ⟨-, rfl⟩ := h4
  unfold loadAccount at h1
  rw [hk, ht] at h1
  dsimp only at h1
  obtain ⟨acct, h5, rfl⟩ := Option.map_eq_some_iff.1 h1
  clear h1
  unfold openPassed at h5
  obtain ⟨v, _, h5⟩ := Option.bind_eq_some_iff.1 h5
  dsimp only at h5
  obtain ⟨t', _, h5⟩ := Option.bind_eq_some_iff.1 h5
  obtain ⟨k, _, rfl⟩ := Option.map_eq_some_iff.1 h5
  rw [h2]
  rfl

/-! ## Restore height -/

theorem loop_last (ts : List Turn) : ∀ (h : Height) (sure : Bool) (said : List Said) (r : Height) (said' : List Said),
    restoreLoop h sure said ts = some (r, said') → Confirmed said' r ∨ r = .num 0 ∧ Declined said' := by
  induction ts with
  | nil => intro h sure said r said' e; simp [restoreLoop] at e
  | cons t ts ih =>
    intro h sure said r said' e
    unfold restoreLoop at e
    dsimp only at e
    split at e
    · simp only [Option.some.injEq, Prod.mk.injEq] at e
      obtain ⟨rfl, rfl⟩ := e
      exact .inl (by simp [Confirmed])
    · split at e
      · split at e
        · cases e
        · exact ih _ _ _ _ _ e
      · split at e
        · exact ih _ _ _ _ _ e
        · split at e
          · split at e
            · exact ih _ _ _ _ _ e
            · split at e
              · exact ih _ _ _ _ _ e
              · simp only [Option.some.injEq, Prod.mk.injEq] at e
                obtain ⟨rfl, rfl⟩ := e
                exact .inr ⟨rfl, by simp [Declined]⟩
          · split at e
            · exact ih _ _ _ _ _ e
            · exact ih _ _ _ _ _ e

/-- C94. The height of a new wallet is one the user was shown and confirmed; or it is 0, after a date that could not be resolved and was not tried again. -/
theorem C94_height_confirmed (ts : List Turn) {h : Height} {said : List Said} (e : restoreParam ts = some (h, said)) :
    Confirmed said h ∨ h = .num 0 ∧ Declined said := loop_last ts _ _ _ _ _ e

theorem loop_said (ts : List Turn) : ∀ (h : Height) (sure : Bool) (said : List Said) (r : Height) (said' : List Said),
    restoreLoop h sure said ts = some (r, said') → said <+: said' := by
  induction ts with
  | nil => intro h sure said r said' e; simp [restoreLoop] at e
  | cons t ts ih =>
    intro h sure said r said' e
    have hs : said <+: (if sure = true then said ++ [.asked h false] else said) := by
      split
      · exact List.prefix_append _ _
      · exact List.prefix_rfl
    unfold restoreLoop at e
    dsimp only at e
    split at e
    · simp only [Option.some.injEq, Prod.mk.injEq] at e
      obtain ⟨rfl, rfl⟩ := e
      exact List.prefix_append _ _
    · generalize (if sure = true then said ++ [Said.asked h false] else said) = said₁ at e hs
      split at e
      · split at e
        · cases e
        · exact hs.trans (ih _ _ _ _ _ e)
      · split at e
        · exact hs.trans (ih _ _ _ _ _ e)
        · split at e
          · split at e
            · exact hs.trans (ih _ _ _ _ _ e)
            · split at e
              · exact (hs.trans (List.prefix_append _ _)).trans (ih _ _ _ _ _ e)
              · simp only [Option.some.injEq, Prod.mk.injEq] at e
                obtain ⟨rfl, rfl⟩ := e
                exact hs.trans (List.prefix_append _ _)
          · split at e
            · exact hs.trans (ih _ _ _ _ _ e)
            · exact hs.trans (ih _ _ _ _ _ e)

theorem loop_number (ts : List Turn) : ∀ (h : Height) (sure : Bool) (said : List Said) (r : Height) (said' : List Said),
    (sure = true → ∃ n, h = .num n) → restoreLoop h sure said ts = some (r, said') → .unresolved true ∉ said' → ∃ n, r = .num n := by
  induction ts with
  | nil => intro h sure said r said' _ e; simp [restoreLoop] at e
  | cons t ts ih =>
    intro h sure said r said' hn e hu
    unfold restoreLoop at e
    dsimp only at e
    split at e
    · rename_i hc
      simp only [Option.some.injEq, Prod.mk.injEq] at e
      obtain ⟨rfl, rfl⟩ := e
      exact hn (by simp only [Bool.and_eq_true] at hc; exact hc.1)
    · split at e
      · split at e
        · cases e
        · exact ih _ _ _ _ _ (fun _ => ⟨_, rfl⟩) e hu
      · split at e
        · exact ih _ _ _ _ _ (fun _ => ⟨_, rfl⟩) e hu
        · split at e
          · split at e
            · exact ih _ _ _ _ _ (fun _ => ⟨_, rfl⟩) e hu
            · split at e
              · exact absurd ((loop_said _ _ _ _ _ _ e).subset (by simp)) hu
              · simp only [Option.some.injEq, Prod.mk.injEq] at e
                obtain ⟨rfl, rfl⟩ := e
                exact ⟨0, rfl⟩
          · split at e
            · exact ih _ _ _ _ _ (fun _ => ⟨_, rfl⟩) e hu
            · exact ih _ _ _ _ _ (fun h => by cases h) e hu

theorem clean_plain {t : List Char} (h : ∀ c ∈ t, Amount.Digit c ∨ c = '-') : clean t = t := by
  have hs : ∀ c, Amount.Digit c ∨ c = '-' → Hd.isSpace c = false ∧ c.toLower = c := by
    rintro c (h | rfl)
    · exact ⟨(Amount.plain_char (.inl h)).1, (Amount.plain_char (.inl h)).2.2.2.2.2.2.2⟩
    · decide
  have hd : ∀ l : List Char, (∀ c ∈ l, Amount.Digit c ∨ c = '-') → l.dropWhile Hd.isSpace = l := by
    intro l hl
    cases l with
    | nil => rfl
    | cons c l => rw [List.dropWhile_cons, (hs c (hl c (by simp))).1]; rfl
  unfold clean
  rw [hd t h, hd t.reverse (by simpa using h), List.reverse_reverse]
  conv_rhs => rw [← List.map_id t]
  exact List.map_congr_left fun c hc => (hs c (h c hc)).2

theorem isDigit_iff {c : Char} : isDigit c = true ↔ Amount.Digit c := by
  unfold isDigit Amount.Digit
  simp only [Bool.and_eq_true, decide_eq_true_eq]
  exact ⟨fun h => ⟨h.1, h.2⟩, fun h => ⟨h.1, h.2⟩⟩

theorem digits_span {l r : List Char} (h : ∀ c ∈ l, Amount.Digit c) (hr : ∀ c ∈ r.head?, isDigit c = false) :
    (l ++ r).takeWhile isDigit = l ∧ (l ++ r).dropWhile isDigit = r := by
  induction l with
  | nil =>
    cases r with
    | nil => exact ⟨rfl, rfl⟩
    | cons c r => simp [hr c (by simp)]
  | cons c l ih =>
    obtain ⟨h1, h2⟩ := ih fun c hc => h c (by simp [hc])
    simp [isDigit_iff.2 (h c (by simp)), h1, h2]

/-- C94. A height that is typed and confirmed is the height. -/
theorem C94_height_typed (n : ℕ) (t t' : Turn) (ht : t.line = HdSpec.dec n) (hc : t'.correct = true) (ts : List Turn) :
    restoreParam (t :: t' :: ts) = some (.num n, [.asked (.num n) true]) := by
  obtain ⟨hd, hne⟩ := Hd.dec_digits n
  have hp := Hd.pyInt_dec n
  generalize HdSpec.dec n = l at *
  have hd' : ∀ c ∈ l, Amount.Digit c := hd
  have hcl : clean l = l := clean_plain fun c hc => .inl (hd' c hc)
  have hdate : isDate l = false := by
    obtain ⟨h1, h2⟩ := digits_span (r := []) hd' (by simp)
    rw [List.append_nil] at h1 h2
    unfold isDate
    rw [h2]
  have h0 : l ≠ ['-'] := by
    rintro rfl
    exact absurd (hd' '-' (by simp)) (by unfold Amount.Digit; decide)
  unfold restoreParam restoreLoop
  dsimp only
  rw [ht, hcl, if_neg (by simp), if_neg h0, if_neg (by simpa using hne), if_neg (by simp [hdate]), hp]
  dsimp only
  unfold restoreLoop
  rw [hc]
  simp

/-- C94. A date stands for the height the daemon gives for it. -/
theorem C94_height_date (y m d : List Char) (hy : ∀ c ∈ y, Amount.Digit c) (hm : ∀ c ∈ m, Amount.Digit c) (hd : ∀ c ∈ d, Amount.Digit c) (ly : y.length = 4)
    (lm : m.length = 1 ∨ m.length = 2) (ld : d.length = 1 ∨ d.length = 2) (t t' : Turn) (ht : t.line = y ++ '-' :: (m ++ '-' :: d)) {h : ℤ}
    (hh : t.daemon = some h) (hc : t'.correct = true) (ts : List Turn) : restoreParam (t :: t' :: ts) = some (.num h, [.asked (.num h) true]) := by
  have hmem : ∀ c ∈ y ++ '-' :: (m ++ '-' :: d), Amount.Digit c ∨ c = '-' := by
    intro c hc
    simp only [List.mem_append, List.mem_cons] at hc
    rcases hc with h | h | h | h | h
    · exact .inl (hy c h)
    · exact .inr h
    · exact .inl (hm c h)
    · exact .inr h
    · exact .inl (hd c h)
  have hcl := clean_plain hmem
  have hdate : isDate (y ++ '-' :: (m ++ '-' :: d)) = true := by
    obtain ⟨h1, h2⟩ := digits_span (r := '-' :: (m ++ '-' :: d)) hy (by simp; decide)
    obtain ⟨h3, h4⟩ := digits_span (r := '-' :: d) hm (by simp; decide)
    unfold isDate
    simp only [h1, h2, h3, h4, ly, lm, ld, decide_true, Bool.true_and, List.all_eq_true]
    exact fun c hc => isDigit_iff.2 (hd c hc)
  have hlen : (y ++ '-' :: (m ++ '-' :: d)).length ≠ 0 := by simp
  have h0 : y ++ '-' :: (m ++ '-' :: d) ≠ ['-'] := by
    intro h
    have := congrArg List.length h
    simp [ly] at this
    omega
  unfold restoreParam restoreLoop
  dsimp only
  rw [ht, hcl, if_neg (by simp), if_neg h0, if_neg hlen, if_pos hdate, hh]
  dsimp only
  unfold restoreLoop
  rw [hc]
  simp

/-- C94. Unless the user tried again after a date that could not be resolved, the height is a number. -/
theorem C94_height_number_partial (ts : List Turn) {h : Height} {said : List Said} (e : restoreParam ts = some (h, said)) (hu : .unresolved true ∉ said) :
    ∃ n, h = .num n := loop_number ts _ _ _ _ _ (fun h => by cases h) e hu

/-- C94 is false otherwise: the text of the date takes the place of a height refused before, is asked about, and is written to the wallet as its height. -/
theorem C94_false_height : restoreParam [⟨false, "7".toList, none, false⟩, ⟨false, "2018-13-01".toList, none, true⟩, ⟨true, [], none, false⟩] =
    some (.text "2018-13-01".toList, [.asked (.num 7) false, .unresolved true, .asked (.text "2018-13-01".toList) true]) := by decide +kernel

/-- C94 is false for signs: a negative height is taken. -/
theorem C94_false_negative : restoreParam [⟨false, "-5".toList, none, false⟩, ⟨true, [], none, false⟩] = some (.num (-5), [.asked (.num (-5)) true]) := by
  decide +kernel

/-! ## Examples -/

namespace Demo
open Classical

instance : Countable UInt8 := ⟨UInt8.toNat, fun _ _ h => UInt8.toNat_inj.1 h⟩
instance : Countable Char := ⟨Char.toNat, fun _ _ h => Char.ext (UInt32.toNat_inj.1 h)⟩

instance : Countable KeyData := Function.Injective.countable (f := fun k : KeyData => (k.created, k.spendPub, k.viewPub, k.spendSec, k.viewSec)) (by
  rintro ⟨⟩ ⟨⟩ h
  simp only [Prod.mk.injEq] at h
  obtain ⟨rfl, rfl, rfl, rfl, rfl⟩ := h
  rfl)

instance : Countable Height := Function.Injective.countable (f := fun h : Height => match h with
  | .num n => (Sum.inl n : ℤ ⊕ List Char)
  | .text t => .inr t) (by
  rintro ⟨⟩ ⟨⟩ h <;> simp_all)

instance : Countable Info := Function.Injective.countable (f := fun k : Info => (k.watchOnly, k.testnet, k.refreshHeight)) (by
  rintro ⟨⟩ ⟨⟩ h
  simp only [Prod.mk.injEq] at h
  obtain ⟨rfl, rfl, rfl⟩ := h
  rfl)

/-- A codec: values are numbers, written in unary. -/
noncomputable def codec {K J : Type} (f : K → ℕ) (g : J → ℕ) : KeysFile.Codec K J :=
  { KeysFile.epee with
    ser := fun k => List.replicate (f k + 1) 1
    parse := fun s => if h : ∃ k, f k + 1 = s.length then some h.choose else none
    dump := fun j => KeysFile.epee.dump (g j)
    load := fun s => (KeysFile.epee.load s).bind fun n => if h : ∃ j, g j = n then some h.choose else none }

theorem codec_lawful {K J : Type} {f : K → ℕ} {g : J → ℕ} (hf : Function.Injective f) (hg : Function.Injective g) : (codec f g).Lawful :=
  { KeysFile.epee_lawful with
    parse := fun k => by
      have h : ∃ k', f k' + 1 = (List.replicate (f k + 1) (1 : UInt8)).length := ⟨k, by simp⟩
      show (if h : ∃ k', f k' + 1 = (List.replicate (f k + 1) (1 : UInt8)).length then some h.choose else none) = some k
      rw [dif_pos h]
      rw [hf (Nat.add_right_cancel (h.choose_spec.trans List.length_replicate))]
    load := fun j => by
      show ((KeysFile.epee.load (KeysFile.epee.dump (g j))).bind fun n => if h : ∃ j', g j' = n then some h.choose else none) = some j
      rw [KeysFile.epee_lawful.load, Option.bind_some, dif_pos ⟨j, rfl⟩, hg (Exists.choose_spec (⟨j, rfl⟩ : ∃ j', g j' = g j))]
    full := fun k => by
      show List.flatMap KeysFile.escByte (List.replicate (f k + 1) 1) ≠ []
      rw [List.replicate_succ, List.flatMap_cons]
      exact List.append_ne_nil_of_left_ne_nil (by decide) _
    object := fun j => KeysFile.epee_lawful.object (g j) }

/-- No quote ends up in the keys. -/
theorem codec_plain {K J : Type} (f : K → ℕ) (g : J → ℕ) (k : K) : ¬ [0x22, 0x2c] <:+: (codec f g).esc ((codec f g).ser k) := by
  show ¬ [0x22, 0x2c] <:+: List.flatMap KeysFile.escByte (List.replicate (f k + 1) 1)
  intro h
  have : (0x22 : UInt8) ∈ List.flatMap KeysFile.escByte (List.replicate (f k + 1) 1) := h.subset (by simp)
  obtain ⟨b, hb, h⟩ := List.mem_flatMap.1 this
  rw [List.eq_of_mem_replicate hb] at h
  revert h
  decide

/-- An agent is started with a device, makes its files, and is started again. -/
example : ∃ (e : Env) (a : Args) (w : World) (d' : Disk) (s : Agent), e.o.Ok ∧ Enc.Involutive e.x ∧ e.c.Lawful ∧ w.iv.length = 8 ∧ w.nonce.length = 12 ∧
    Readable e w s ∧ openAccount e a w ⟨none, fun _ => none⟩ = (d', some s) ∧ s.walletFile = some ['w'] ∧ (d'.keys (keyFile ['w'])).isSome ∧ d'.account.isSome := by
  obtain ⟨f, hf⟩ := (inferInstance : Countable KeyData).exists_injective_nat'
  obtain ⟨g, hg⟩ := (inferInstance : Countable Info).exists_injective_nat'
  have hP := onCurve_base (a := 3) (by omega)
  have hV := onCurve_base (a := 5) (by omega)
  obtain ⟨t, _, ht, _⟩ := Addr.C25_roundtrip Acct.Demo.out.hash Acct.Demo.out_ok.hash _ _ (encode_len hP) (encode_len hV) 0 (by omega) false none (by simp) (by simp)
  obtain ⟨acct, h1, h2⟩ := C92_opens Acct.Demo.out Acct.Demo.out_ok (a := 5) (by omega) (by decide) hP ⟨encode_len hP, encode_len hV, by simp, ht⟩ false
    (some ['w']) (some ['b']) none [] Agent.new.rpc
  let e : Env := ⟨Acct.Demo.out, KeysFile.plainCipher, codec f g⟩
  let a : Args := ⟨some (hexOf (encodeInt 5)), some t, true, some ['w'], some ['b'], none, false, false, false⟩
  let w : World := ⟨none, [7], [1], List.replicate 12 0, List.replicate 8 0, 9, [⟨false, [], none, false⟩, ⟨true, [], none, false⟩]⟩
  have hl : loadAccount e a w ⟨none, fun _ => none⟩ = some (Agent.of acct) := by
    show (openPassed _ _ _ _ _ _ _ _ _).map Agent.of = _
    rw [h1]
    rfl
  have hopen : ∃ d' s, openAccount e a w ⟨none, fun _ => none⟩ = (d', some s) ∧ s.walletFile = some ['w'] ∧ (d'.keys (keyFile ['w'])).isSome ∧ d'.account.isSome := by
    unfold openAccount
    rw [hl]
    exact ⟨_, _, rfl, rfl, rfl, rfl⟩
  obtain ⟨d', s, h3, h4, h5, h6⟩ := hopen
  exact ⟨e, a, w, d', s, Acct.Demo.out_ok, fun _ _ _ => rfl, codec_lawful hf hg, rfl, rfl, fun _ _ _ _ => codec_plain f g _, h3, h4, h5, h6⟩

end Demo

end Verif.Start

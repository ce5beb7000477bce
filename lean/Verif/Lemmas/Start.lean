import Verif.Spec.Start
import Verif.Props.Account
import Verif.Props.KeysFile

namespace Verif.Start
open Verif Verif.Ed Verif.Acct

theorem ensure_keeps {e : Env} {a : Args} {w : World} {s : Agent} {d d' : Disk} {b : Bool} (h : ensureWatchOnly e a w s d = (d', b)) :
    Keeps d d' ∧ d'.account = d.account := by
  have same : Keeps d d ∧ d.account = d.account := ⟨⟨fun _ _ h => h, fun _ h => h⟩, rfl⟩
  unfold ensureWatchOnly at h
  cases hp : s.walletFile with
  | none => rw [hp] at h; cases h; exact same
  | some p =>
    rw [hp] at h
    dsimp only at h
    cases hk : s.keys with
    | none =>
      rw [hk] at h
      dsimp only at h
      split at h <;> cases h <;> exact same
    | some k =>
      rw [hk] at h
      cases hd : d.keys (keyFile p) with
      | some data =>
        rw [hd] at h
        dsimp only at h
        split at h
        · split at h <;> cases h <;> exact same
        · cases h; exact same
      | none =>
        rw [hd] at h
        dsimp only at h
        split at h
        · cases h; exact same
        · split at h
          · split at h
            · cases h; exact same
            · cases h
              refine ⟨⟨fun q b hq => ?_, fun _ h => h⟩, rfl⟩
              dsimp only
              split
              · rename_i he
                rw [he, hd] at hq
                cases hq
              · exact hq
          · cases h; exact same

/-- When `ensure_watch_only` returns. -/
theorem ensure_ok {e : Env} {a : Args} {w : World} {s : Agent} {d d' : Disk} (hi : a.noInit = false) {p : List Char} (hp : s.walletFile = some p)
    (h : ensureWatchOnly e a w s d = (d', true)) : ∃ k, s.keys = some k ∧
    ((∃ data, d' = d ∧ d.keys (keyFile p) = some data ∧ checkExisting e s k data = some true) ∨
      d.keys (keyFile p) = none ∧ ∃ v height said data, s.view = some v ∧ restoreParam w.turns = some (height, said) ∧
        (KeysFile.gen e.x e.c w.iv s.password (newWallet s v k w.time height)).1 = some data ∧ d'.account = d.account ∧
        ∀ q, d'.keys q = if q = keyFile p then some data else d.keys q) := by
  unfold ensureWatchOnly at h
  rw [hp] at h
  dsimp only at h
  cases hk : s.keys with
  | none =>
    rw [hk, hi] at h
    simp at h
  | some k =>
    refine ⟨k, rfl, ?_⟩
    rw [hk] at h
    cases hd : d.keys (keyFile p) with
    | some data =>
      rw [hd, hi] at h
      dsimp only at h
      left
      refine ⟨data, ?_, rfl, ?_⟩
      · split at h
        · simp at h
        · simp at h
          exact h.symm
      · split at h
        · simp at h
        · rename_i hc
          cases hx : checkExisting e s k data with
          | none => rw [hx] at hc; simp at hc
          | some b => rw [hx] at hc; simp at hc; rw [hc]
    | none =>
      rw [hd, hi] at h
      right
      refine ⟨rfl, ?_⟩
      simp only [Bool.false_eq_true, if_false] at h
      cases hv : s.view with
      | none => rw [hv] at h; simp at h
      | some v =>
        cases hr : restoreParam w.turns with
        | none => rw [hv, hr] at h; simp at h
        | some r =>
          obtain ⟨height, said⟩ := r
          rw [hv, hr] at h
          dsimp only at h
          cases hg : (KeysFile.gen e.x e.c w.iv s.password (newWallet s v k w.time height)).1 with
          | none => rw [hg] at h; simp at h
          | some data =>
            rw [hg] at h
            simp at h
            exact ⟨v, height, said, data, rfl, rfl, hg, by rw [← h], fun q => by rw [← h]⟩

theorem checkExisting_true {e : Env} {s : Agent} {k : Ext × Ext} {data : Bytes} (h : checkExisting e s k data = some true) :
    ∃ wl kd, KeysFile.load e.x e.c s.password data = some wl ∧ wl.keyData = some kd ∧ kd.spendPub = encodePoint k.2 ∧ kd.viewPub = encodePoint k.1 := by
  unfold checkExisting at h
  split at h
  · cases h
  · rename_i wl hl
    split at h
    · cases h
    · rename_i kd hkd
      dsimp only at h
      split at h
      · cases h
      · have h := Option.some.inj h
        simp only [Bool.and_eq_true, decide_eq_true_eq] at h
        exact ⟨wl, kd, hl, hkd, h.1, h.2⟩

theorem checkExisting_of {e : Env} {s : Agent} {k : Ext × Ext} {data : Bytes} {wl : KeysFile.Wallet KeyData Info} {kd : KeyData}
    (h1 : KeysFile.load e.x e.c s.password data = some wl) (h2 : wl.keyData = some kd) (h3 : kd.spendPub = encodePoint k.2) (h4 : kd.viewPub = encodePoint k.1)
    {tn : Bool} (hn : s.net = some (if tn then 1 else 0)) : checkExisting e s k data = some true := by
  obtain ⟨u, hu⟩ : ∃ u, Addr.netVersion s.net false false = some u := by
    rw [hn]
    cases tn <;> exact ⟨_, rfl⟩
  unfold checkExisting
  rw [h1]
  dsimp only
  rw [h2]
  dsimp only
  rw [hu, h3, h4]
  simp

/-- The parts of a start that goes on. -/
theorem open_parts {e : Env} {a : Args} {w : World} {d d' : Disk} {s : Agent} (h : openAccount e a w d = (d', some s)) :
    ∃ s₀ s₁ d₁, loadAccount e a w d = some s₀ ∧
      s₁ = (if a.accountFile && d.account.isNone then { loadParams a s₀ with password := w.password } else loadParams a s₀) ∧
      ensureWatchOnly e a w s₁ d = (d₁, true) ∧ ((a.accountFile && d.account.isNone) = true → checkParams a (loadParams a s₀) = true) ∧
      (if a.accountFile && d.account.isNone then saveAccount e w s₁ d₁ else (d₁, some s₁)) = (d', some s) := by
  unfold openAccount at h
  dsimp only at h
  cases hl : loadAccount e a w d with
  | none => rw [hl] at h; simp at h
  | some s₀ =>
    rw [hl] at h
    dsimp only at h
    split at h
    · simp at h
    · rename_i hc
      split at h
      · simp at h
      · rename_i d₁ he
        refine ⟨s₀, _, d₁, rfl, rfl, he, fun hf => ?_, h⟩
        rw [hf] at hc
        simpa using hc

theorem save_parts {e : Env} {w : World} {s s' : Agent} {d d' : Disk} (h : saveAccount e w s d = (d', some s')) :
    ∃ v t net, s.view = some v ∧ s.address = some t ∧ s.net = some net ∧ s' = { s with salt := some (s.salt.getD w.fresh) } ∧ d'.keys = d.keys ∧
      ∀ k, s.keys = some k → d'.account =
        some (some (save e.o w.fresh w.nonce ⟨v, t, k.1, k.2, net, s.salt, s.password, s.rpc, s.walletFile, s.moneroBin⟩).2) := by
  unfold saveAccount at h
  cases hv : s.view with
  | none => rw [hv] at h; simp at h
  | some v =>
    rw [hv] at h
    dsimp only at h
    cases ht : s.address with
    | none => rw [ht] at h; simp at h
    | some t =>
      cases hn : s.net with
      | none => rw [ht, hn] at h; simp at h
      | some net =>
        rw [ht, hn] at h
        simp only [Prod.mk.injEq, Option.some.injEq] at h
        obtain ⟨rfl, rfl⟩ := h
        refine ⟨v, t, net, rfl, rfl, rfl, rfl, rfl, fun k hk => ?_⟩
        dsimp only
        rw [hk]
        rfl

/-- The settings do not matter to what is opened. -/
theorem openPassed_settings {o : Outside} {key t : Bytes} {tn : Bool} {ww mb ww' mb' : Option (List Char)} {salt salt' : Option Bytes} {pw pw' : Bytes}
    {rpc rpc' : Option (List Char)} {acct : Account} (h : openPassed o key t tn ww mb salt pw rpc = some acct) :
    openPassed o key t tn ww' mb' salt' pw' rpc' =
      some ⟨acct.view, acct.address, acct.pubView, acct.pubSpend, acct.net, salt', pw', rpc', ww', mb'⟩ := by
  unfold openPassed at h ⊢
  obtain ⟨v, h1, h⟩ := Option.bind_eq_some_iff.1 h
  dsimp only at h
  obtain ⟨t', h2, h⟩ := Option.bind_eq_some_iff.1 h
  obtain ⟨k, h3, rfl⟩ := Option.map_eq_some_iff.1 h
  rw [h1, Option.bind_some, h2, Option.bind_some, h3, Option.map_some]

/-- What the device's answer gives: nothing, or an account. -/
theorem watch_keys {e : Env} {a : Args} {w : World} {s : Agent} (hs : s.keys = none) {k : Ext × Ext} (h : (loadWatchOnly e a w s).keys = some k) :
    ∃ key t v addr, w.device = some (key, t) ∧ decodeScalar key = some v ∧ setAddress e.o.hash v t = some addr ∧
      openWithKeys e.o.hash v addr = some k ∧
      loadWatchOnly e a w s = { s with net := some (if a.testnet then 1 else 0), view := some v, address := some addr, keys := some k } := by
  unfold loadWatchOnly at h ⊢
  dsimp only at h ⊢
  cases hd : w.device with
  | none => rw [hd] at h; dsimp only at h; rw [hs] at h; cases h
  | some r =>
    obtain ⟨key, t⟩ := r
    rw [hd] at h
    dsimp only at h ⊢
    cases hv : decodeScalar key with
    | none => rw [hv] at h; dsimp only at h; rw [hs] at h; cases h
    | some v =>
      rw [hv] at h
      dsimp only at h ⊢
      cases ha : setAddress e.o.hash v t with
      | none => rw [ha] at h; dsimp only at h; rw [hs] at h; cases h
      | some addr =>
        rw [ha] at h
        dsimp only at h ⊢
        cases hk : openWithKeys e.o.hash v addr with
        | none => rw [hk] at h; dsimp only at h; rw [hs] at h; cases h
        | some k' =>
          rw [hk] at h
          dsimp only at h
          cases h
          exact ⟨key, t, v, addr, rfl, hv, ha, hk, rfl⟩

/-- The account behind a new agent: its fields open it again, whatever the settings. -/
theorem loaded {e : Env} {a : Args} {w : World} {d : Disk} (hd : d.account = none) {s : Agent} (h : loadAccount e a w d = some s) {k : Ext × Ext}
    (hk : s.keys = some k) : s.salt = none ∧ ∃ v t, s.view = some v ∧ s.address = some t ∧ s.net = some (if a.testnet then 1 else 0) ∧
      ∀ salt pw rpc ww mb, Opened e.o ⟨v, t, k.1, k.2, if a.testnet then 1 else 0, salt, pw, rpc, ww, mb⟩ := by
  have dev : ∀ s', loadAccount e { a with viewKey := none } w d = some s' → s'.keys = some k →
      s'.salt = none ∧ ∃ v t, s'.view = some v ∧ s'.address = some t ∧ s'.net = some (if a.testnet then 1 else 0) ∧
      ∀ salt pw rpc ww mb, Opened e.o ⟨v, t, k.1, k.2, if a.testnet then 1 else 0, salt, pw, rpc, ww, mb⟩ := by
    intro s' h hk
    unfold loadAccount at h
    dsimp only at h
    rw [hd, if_neg (by simp)] at h
    split at h
    · cases h
      obtain ⟨key, t, v, addr, _, h2, h3, h4, h5⟩ := watch_keys (by rfl) hk
      rw [h5]
      refine ⟨rfl, v, addr, rfl, rfl, rfl, fun salt pw rpc ww mb => .device (key := key) (t := t) (testnet := a.testnet) (ww := ww) (mb := mb) (salt := salt)
        (pw := pw) (rpc := rpc) ?_⟩
      unfold openWatchOnly
      dsimp only
      rw [h2, Option.bind_some, h3, Option.bind_some, h4, Option.map_some]
    · cases h
  cases hv : a.viewKey with
  | none => exact dev s (by rw [← h]; cases a; cases hv; rfl) hk
  | some key =>
    cases ha : a.address with
    | none =>
      refine dev s ?_ hk
      rw [← h]
      unfold loadAccount
      rw [hv, ha]
      rfl
    | some t =>
      unfold loadAccount at h
      rw [hv, ha] at h
      dsimp only at h
      obtain ⟨acct, h1, rfl⟩ := Option.map_eq_some_iff.1 h
      have hn : acct.net = if a.testnet then 1 else 0 := by
        unfold openPassed at h1
        obtain ⟨v, _, h1⟩ := Option.bind_eq_some_iff.1 h1
        dsimp only at h1
        obtain ⟨t', _, h1⟩ := Option.bind_eq_some_iff.1 h1
        obtain ⟨k, _, rfl⟩ := Option.map_eq_some_iff.1 h1
        rfl
      have hsalt : acct.salt = none := by
        unfold openPassed at h1
        obtain ⟨v, _, h1⟩ := Option.bind_eq_some_iff.1 h1
        dsimp only at h1
        obtain ⟨t', _, h1⟩ := Option.bind_eq_some_iff.1 h1
        obtain ⟨k, _, rfl⟩ := Option.map_eq_some_iff.1 h1
        rfl
      cases hk
      refine ⟨hsalt, acct.view, acct.address, rfl, rfl, by rw [← hn]; rfl, fun salt pw rpc ww mb => ?_⟩
      rw [← hn]
      exact .passed (openPassed_settings (ww' := ww) (mb' := mb) (salt' := salt) (pw' := pw) (rpc' := rpc) h1)

theorem given_twice (x y : Option (List Char)) : ((given x).orElse fun _ => (given x).orElse fun _ => y) = (given x).orElse fun _ => y := by
  cases given x <;> rfl

end Verif.Start

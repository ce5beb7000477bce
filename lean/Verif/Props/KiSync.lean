import Verif.Spec.KiSync
import Verif.Props.Common
import Verif.Lemmas.Varint
import Mathlib.Tactic.Ring
import Mathlib.Tactic.NormNum

/-! C15, C16: key image synchronisation. -/

namespace Verif.KiSync
open Verif

/-- Effect of the loop of `sync`. -/
theorem syncLoop_spec (env : Env) (rnd : Rand) : ∀ (tds : List Td) (j : Nat) (s : Sync) (resp : List Eki) (s' : Sync)
    (out : List Eki), syncLoop env rnd tds j s resp = some (s', out) →
    s'.num = s.num ∧ s'.hash = s.hash ∧ s'.encKey = s.encKey ∧ s'.subs = s.subs ∧ s'.cIdx = s.cIdx + tds.length ∧
      (tds ≠ [] → s'.cIdx < s.num) ∧
      s'.hasher = s.hasher ++ (tds.map (computeHash env)).flatten ∧
      ∃ kis, out = resp ++ kis ∧ kis.length = tds.length ∧
        ∀ (i : Nat) (td : Td), tds[i]? = some td → ∃ buff key, env.exportKi s.subs td = some buff ∧ s.encKey = some key ∧
          kis[i]? = some ⟨rnd.nonce (j + i), env.encrypt key (rnd.nonce (j + i)) buff⟩ := by
  intro tds
  induction tds with
  | nil =>
    intro j s resp s' out h
    simp [syncLoop] at h
    obtain ⟨rfl, rfl⟩ := h
    simp
  | cons td tds ih =>
    intro j s resp s' out h
    unfold syncLoop at h
    simp only at h
    split at h
    · simp at h
    · rename_i hlt
      split at h
      · rename_i buff key hb hk
        obtain ⟨h1, h2, h3, h3', h4, h5, h6, kis, h7, h8, h9⟩ := ih _ _ _ _ _ h
        simp only at h1 h2 h3 h3' h4 h5 h6 h9
        refine ⟨h1, h2, h3, h3', ?_, ?_, ?_, ⟨rnd.nonce j, env.encrypt key (rnd.nonce j) buff⟩ :: kis, ?_, ?_, ?_⟩
        · rw [h4]; push_cast [List.length_cons]; omega
        · intro _
          by_cases he : tds = []
          · subst he; rw [h4]; simp; omega
          · exact h5 he
        · rw [h6]; simp
        · rw [h7]; simp
        · simp [h8]
        · intro i td' hi
          cases i with
          | zero =>
            simp at hi; subst hi
            exact ⟨buff, key, hb, hk, by simp⟩
          | succ i =>
            simp at hi
            obtain ⟨b, k, e1, e2, e3⟩ := h9 i td' hi
            exact ⟨b, k, e1, e2, by simpa [Nat.add_assoc, Nat.add_comm 1 i] using e3⟩
      · simp at h

theorem sync_spec {env : Env} {s s' : Sync} {tds : List Td} {rnd : Rand} {r : Resp} (h : sync env s tds rnd = some (s', r)) :
    tds ≠ [] ∧ s'.num = s.num ∧ s'.hash = s.hash ∧ s'.encKey = s.encKey ∧ s'.subs = s.subs ∧
      s'.cIdx = s.cIdx + tds.length ∧ s'.cIdx < s.num ∧
      s'.hasher = s.hasher ++ (tds.map (computeHash env)).flatten ∧
      ∃ kis, r = .stepAck kis ∧ kis.length = tds.length ∧
        ∀ (i : Nat) (td : Td), tds[i]? = some td → ∃ buff key, env.exportKi s.subs td = some buff ∧ s.encKey = some key ∧
          kis[i]? = some ⟨rnd.nonce i, env.encrypt key (rnd.nonce i) buff⟩ := by
  unfold sync at h
  split at h
  · simp at h
  · rename_i hl
    have hne : tds ≠ [] := by rintro rfl; simp at hl
    cases hx : syncLoop env rnd tds 0 s [] with
    | none => rw [hx] at h; simp at h
    | some x =>
      rw [hx] at h
      simp at h
      obtain ⟨rfl, rfl⟩ := h
      obtain ⟨h1, h2, h3, h3', h4, h5, h6, kis, h7, h8, h9⟩ := syncLoop_spec env rnd _ _ _ _ x.1 x.2 hx
      exact ⟨hne, h1, h2, h3, h3', h4, h5 hne, h6, kis, by simpa using h7, h8, by simpa using h9⟩

/-- The open session of a device, seen from its history. -/
structure Open (env : Env) (log : List Event) (s : Sync) : Prop where
  split : ∃ (pre mid : List Event) (num : Nat) (hash : Bytes) (subs : List (Nat × List Nat)) (rnd : Rand),
    log = pre ++ ⟨.init num hash subs, rnd, .initAck⟩ :: mid ∧ rnd.confirm = true ∧ (∀ e ∈ mid, e.isGoodStep) ∧
    s.num = num ∧ s.hash = some hash ∧ s.encKey = some rnd.encKey ∧ s.subs = subs ∧
    s.cIdx + 1 = (stepTds mid).length ∧ s.hasher = ((stepTds mid).map (computeHash env)).flatten

/-- What a device can hold: nothing, the object left by a refused `init`, or an open session. -/
theorem reach_cases {env : Env} {log : List Event} {d : Option Sync} (h : Reach env log d) :
    d = none ∨ d = some {} ∨ ∃ s, d = some s ∧ Open env log s := by
  induction h with
  | start => exact Or.inl rfl
  | @step log d m rnd hr ih =>
    cases m with
    | init num hash subs =>
      simp only [device, init]
      by_cases hc : env.credsOk
      · by_cases hf : rnd.confirm
        · by_cases hs : env.subsOk subs
          · simp only [hc, hf, hs, Bool.not_true, Bool.false_eq_true, if_false]
            exact Or.inr (Or.inr ⟨_, rfl, ⟨log, [], num, hash, subs, rnd, rfl, hf, by simp, rfl, rfl, rfl, rfl, by simp [stepTds], by simp [stepTds]⟩⟩)
          · simp [hc, hf, hs]
        · simp [hc, hf]
      · simp [hc]
    | step tds =>
      simp only [device]
      cases d with
      | none => simp
      | some s =>
        cases hx : sync env s tds rnd with
        | none => simp [hx]
        | some x =>
          obtain ⟨s', r⟩ := x
          obtain ⟨hne, h1, h2, h3, h3', h4, h5, h6, kis, h7, h8, h9⟩ := sync_spec hx
          rcases ih with ih | ih | ⟨s0, ih, ho⟩
          · simp at ih
          · simp at ih; subst ih
            exfalso
            have : (0:Int) < tds.length := by
              have := List.length_pos_iff.2 hne; omega
            simp at h4 h5; omega
          · simp at ih; subst ih
            obtain ⟨pre, mid, num, hash, subs, r0, e0, e1, e2, e3, e4, e5, e6, e7, e8⟩ := ho.split
            refine Or.inr (Or.inr ⟨s', by simp [hx], ⟨pre, mid ++ [⟨.step tds, rnd, r⟩], num, hash, subs, r0, ?_, e1, ?_, ?_⟩⟩)
            · simp [hx, e0]
            · intro e he
              rcases List.mem_append.1 he with he | he
              · exact e2 e he
              · simp at he; subst he; exact ⟨tds, kis, rfl, h7⟩
            · refine ⟨h1.trans e3, h2.trans e4, h3.trans e5, h3'.trans e6, ?_, ?_⟩
              · simp only [stepTds, List.flatMap_append, List.length_append, List.flatMap_cons, List.flatMap_nil,
                  List.append_nil] at e7 ⊢
                push_cast; omega
              · rw [h6, e8]; simp [stepTds]
    | final => left; simp only [device]; split <;> rfl
    | other => exact Or.inl rfl

/-- C15. The decryption key leaves the device only at the end of a confirmed session, all of whose messages
since its start were batches answered with key images, when the batches together hold exactly the announced number of outputs and
the hash of their hashes is the announced digest. The key is the one drawn at the start of that session. -/
theorem C15_released_only_for_committed {env : Env} {log : List Event} {d : Option Sync} (h : Reach env log d)
    (m : Msg) (rnd : Rand) (key : Bytes) (hk : (device env d m rnd).2 = .finalAck key) :
    m = .final ∧ ∃ (pre mid : List Event) (num : Nat) (hash : Bytes) (subs : List (Nat × List Nat)) (rnd0 : Rand),
      log = pre ++ ⟨.init num hash subs, rnd0, .initAck⟩ :: mid ∧ rnd0.confirm = true ∧ (∀ e ∈ mid, e.isGoodStep) ∧
      (stepTds mid).length = num ∧ env.keccak (((stepTds mid).map (computeHash env)).flatten) = hash ∧
      key = rnd0.encKey := by
  cases m with
  | init num hash subs =>
    exfalso
    simp only [device, init] at hk
    by_cases hc : env.credsOk
    · by_cases hf : rnd.confirm
      · by_cases hs : env.subsOk subs
        · simp [hc, hf, hs] at hk
        · simp [hc, hf, hs] at hk
      · simp [hc, hf] at hk
    · simp [hc] at hk
  | step tds =>
    exfalso
    simp only [device] at hk
    cases d with
    | none => simp at hk
    | some s =>
      cases hx : sync env s tds rnd with
      | none => simp [hx] at hk
      | some x =>
        obtain ⟨s', r⟩ := x
        obtain ⟨_, _, _, _, _, _, _, _, kis, h7, _⟩ := sync_spec hx
        simp [hx, h7] at hk
  | other => simp [device] at hk
  | final =>
    refine ⟨rfl, ?_⟩
    simp only [device] at hk
    rcases reach_cases h with rfl | rfl | ⟨s, rfl, ho⟩
    · simp at hk
    · simp [final] at hk
    · obtain ⟨pre, mid, num, hash, subs, r0, e0, e1, e2, e3, e4, e5, e6, e7, e8⟩ := ho.split
      refine ⟨pre, mid, num, hash, subs, r0, e0, e1, e2, ?_⟩
      simp only [Option.bind_some, final] at hk
      by_cases h1 : s.cIdx + 1 ≠ (s.num : Int)
      · simp [h1] at hk
      · by_cases h2 : some (env.keccak s.hasher) ≠ s.hash
        · simp [h1, h2] at hk
        · rw [not_not] at h1 h2
          simp [h1, h2, e5] at hk
          rw [e4, e8] at h2
          exact ⟨by omega, by simpa using h2, hk.symm⟩

/-- C15. Key images are only given in encrypted form, one per output sent and in order, under the key of the confirmed session. -/
theorem C15_answers_encrypted {env : Env} {log : List Event} {d : Option Sync} (h : Reach env log d)
    (m : Msg) (rnd : Rand) (kis : List Eki) (hk : (device env d m rnd).2 = .stepAck kis) :
    ∃ tds, m = .step tds ∧ kis.length = tds.length ∧
      ∃ (pre mid : List Event) (num : Nat) (hash : Bytes) (subs : List (Nat × List Nat)) (rnd0 : Rand),
        log = pre ++ ⟨.init num hash subs, rnd0, .initAck⟩ :: mid ∧ rnd0.confirm = true ∧ (∀ e ∈ mid, e.isGoodStep) ∧
        (stepTds mid).length + tds.length ≤ num ∧
        ∀ (i : Nat) (td : Td), tds[i]? = some td → ∃ buff, env.exportKi subs td = some buff ∧
          kis[i]? = some ⟨rnd.nonce i, env.encrypt rnd0.encKey (rnd.nonce i) buff⟩ := by
  cases m with
  | init num hash subs =>
    exfalso
    simp only [device, init] at hk
    by_cases hc : env.credsOk
    · by_cases hf : rnd.confirm
      · by_cases hs : env.subsOk subs
        · simp [hc, hf, hs] at hk
        · simp [hc, hf, hs] at hk
      · simp [hc, hf] at hk
    · simp [hc] at hk
  | other => simp [device] at hk
  | final =>
    exfalso
    simp only [device] at hk
    cases d with
    | none => simp at hk
    | some s =>
      simp only [Option.bind_some, final] at hk
      by_cases h1 : s.cIdx + 1 ≠ (s.num : Int)
      · simp [h1] at hk
      · by_cases h2 : some (env.keccak s.hasher) ≠ s.hash
        · simp [h1, h2] at hk
        · cases h3 : s.encKey <;> simp [h1, h2, h3] at hk
  | step tds =>
    refine ⟨tds, rfl, ?_⟩
    simp only [device] at hk
    rcases reach_cases h with rfl | rfl | ⟨s, rfl, ho⟩
    · simp at hk
    · exfalso
      cases hx : sync env {} tds rnd with
      | none => simp [hx] at hk
      | some x =>
        obtain ⟨hne, _, _, _, _, h4, h5, _⟩ := sync_spec (s' := x.1) (r := x.2) hx
        have := List.length_pos_iff.2 hne
        simp at h4 h5; omega
    · cases hx : sync env s tds rnd with
      | none => simp [hx] at hk
      | some x =>
        obtain ⟨s', r⟩ := x
        obtain ⟨hne, h1, h2, h3, h3', h4, h5, h6, kis', h7, h8, h9⟩ := sync_spec hx
        simp [hx, h7] at hk
        subst hk
        obtain ⟨pre, mid, num, hash, subs, r0, e0, e1, e2, e3, e4, e5, e6, e7, e8⟩ := ho.split
        refine ⟨h8, pre, mid, num, hash, subs, r0, e0, e1, e2, by omega, ?_⟩
        intro i td hi
        obtain ⟨b, k, q1, q2, q3⟩ := h9 i td hi
        rw [e5] at q2; simp at q2; subst q2
        exact ⟨b, e6 ▸ q1, q3⟩

/-- C15. After any failure, a refusal or a finished session, everything but a new start fails: the session is gone. -/
theorem C15_error_drops {env : Env} {log : List Event} {d : Option Sync} (h : Reach env log d) (m : Msg) (rnd : Rand)
    (hf : (device env d m rnd).2 = .failure ∨ ∃ k, (device env d m rnd).2 = .finalAck k)
    (m' : Msg) (rnd' : Rand) (hm : ∀ n hs su, m' ≠ .init n hs su) :
    (device env (device env d m rnd).1 m' rnd').2 = .failure := by
  have hd : (device env d m rnd).1 = none ∨ (device env d m rnd).1 = some {} := by
    rcases reach_cases (h.step m rnd) with h1 | h1 | ⟨s, h1, ho⟩
    · exact Or.inl h1
    · exact Or.inr h1
    · exfalso
      obtain ⟨pre, mid, num, hash, subs, r0, e0, e1, e2, _⟩ := ho.split
      rcases List.eq_nil_or_concat mid with rfl | ⟨mid', e, rfl⟩
      · have := List.append_inj_right' e0 rfl
        simp at this
        rw [this.2.2] at hf; simp at hf
      · rw [List.concat_eq_append] at e0 e2
        rw [← List.cons_append, ← List.append_assoc] at e0
        have := List.append_inj_right' e0 rfl
        simp at this
        obtain ⟨tds, kis, g1, g2⟩ := e2 e (by simp)
        rw [← this] at g2
        simp at g2
        rw [g2] at hf; simp at hf
  cases m' with
  | init n hs su => exact absurd rfl (hm n hs su)
  | other => rfl
  | final => rcases hd with hd | hd <;> rw [hd] <;> simp [device, final]
  | step tds =>
    rcases hd with hd | hd <;> rw [hd]
    · simp [device]
    · simp only [device, Option.bind_some]
      cases hx : sync env {} tds rnd' with
      | none => rfl
      | some x =>
        exfalso
        obtain ⟨hne, _, _, _, _, h4, h5, _⟩ := sync_spec (s' := x.1) (r := x.2) hx
        have := List.length_pos_iff.2 hne
        simp at h4 h5; omega

theorem dumpNat_length_pos (n : Nat) : 0 < (Varint.dumpNat n).length := by
  unfold Varint.dumpNat
  simp only
  split <;> simp

theorem dumpNat_length_le : ∀ (k n : Nat), n < 2 ^ (7 * (k + 1)) → (Varint.dumpNat n).length ≤ k + 1 := by
  intro k
  induction k with
  | zero =>
    intro n h
    unfold Varint.dumpNat
    have : n >>> 7 = 0 := by rw [Nat.shiftRight_eq_div_pow]; exact Nat.div_eq_of_lt (by simpa using h)
    simp [this]
  | succ k ih =>
    intro n h
    unfold Varint.dumpNat
    simp only
    split
    · simp
    · have := ih (n >>> 7) (by
        rw [Nat.shiftRight_eq_div_pow]
        apply Nat.div_lt_of_lt_mul
        rw [← pow_add]
        convert h using 2; ring)
      simp; omega

theorem flatten_length_of {l : List Bytes} (h : ∀ k ∈ l, k.length = 32) : l.flatten.length = 32 * l.length := by
  induction l with
  | nil => simp
  | cons a l ih =>
    simp only [List.flatten_cons, List.length_append, List.length_cons]
    rw [ih (fun k hk => h k (List.mem_cons_of_mem _ hk)), h a (List.mem_cons_self ..)]
    ring

theorem flatten_inj_of : ∀ {l m : List Bytes}, (∀ k ∈ l, k.length = 32) → (∀ k ∈ m, k.length = 32) →
    l.flatten = m.flatten → l = m := by
  intro l
  induction l with
  | nil =>
    intro m _ hm h
    have := congrArg List.length h
    rw [flatten_length_of hm] at this
    simp at this
    exact this.symm
  | cons a l ih =>
    intro m hl hm h
    cases m with
    | nil =>
      have := congrArg List.length h
      rw [flatten_length_of hl] at this
      simp at this
    | cons b m =>
      rw [List.flatten_cons, List.flatten_cons] at h
      have h2 := List.append_inj h ((hl a (List.mem_cons_self ..)).trans (hm b (List.mem_cons_self ..)).symm)
      rw [h2.1, ih (fun k hk => hl k (List.mem_cons_of_mem _ hk)) (fun k hk => hm k (List.mem_cons_of_mem _ hk)) h2.2]

/-- The digest fixes the outputs: with 32 byte keys and 64 bit indices the bytes hashed for an output determine
its keys and its index, although they are not length delimited. -/
theorem C15_hashed_bytes_injective (a b : Td)
    (ha : a.outKey.length = 32 ∧ a.txPub.length = 32 ∧ ∀ k ∈ a.addKeys, k.length = 32)
    (hb : b.outKey.length = 32 ∧ b.txPub.length = 32 ∧ ∀ k ∈ b.addKeys, k.length = 32)
    (hia : a.idx < 2 ^ 64) (hib : b.idx < 2 ^ 64) (h : tdBytes a = tdBytes b) : a = b := by
  obtain ⟨a1, a2, a3, a4⟩ := a
  obtain ⟨b1, b2, b3, b4⟩ := b
  simp only at ha hb hia hib
  simp only [tdBytes, List.append_assoc] at h
  obtain ⟨h1, h⟩ := List.append_inj h (ha.1.trans hb.1.symm)
  obtain ⟨h2, h⟩ := List.append_inj h (ha.2.1.trans hb.2.1.symm)
  have hl := congrArg List.length h
  rw [List.length_append, List.length_append, flatten_length_of ha.2.2, flatten_length_of hb.2.2] at hl
  have p1 := dumpNat_length_pos a4
  have p2 := dumpNat_length_pos b4
  have q1 := dumpNat_length_le 9 a4 (lt_of_lt_of_le hia (by norm_num))
  have q2 := dumpNat_length_le 9 b4 (lt_of_lt_of_le hib (by norm_num))
  obtain ⟨h3, h4⟩ := List.append_inj h (by
    rw [flatten_length_of ha.2.2, flatten_length_of hb.2.2]; omega)
  have h5 := flatten_inj_of ha.2.2 hb.2.2 h3
  have h6 : a4 = b4 := (Varint.dumpNat_append_inj (m := a4) (n := b4) (r := []) (s := []) (by simpa using h4)).1
  subst h1 h2 h5 h6
  rfl

/-- Without the assumption on the key sizes it does not: two different output descriptions with the same bytes. -/
theorem C15_hashed_bytes_ambiguous : ∃ a b : Td, a ≠ b ∧ tdBytes a = tdBytes b :=
  ⟨⟨[1], [], [], 0⟩, ⟨[], [1], [], 0⟩, by decide, by simp [tdBytes]⟩

/-! ### C16 -/

/-- A device and a user that let every output through: credentials available, sync confirmed, key image
computable for each output, and decryption inverts encryption. -/
structure Accepting (env : Env) (rnd : Nat → Rand) (subs : List (Nat × List Nat)) (tds : List Td) : Prop where
  creds : env.credsOk = true
  subsOk : env.subsOk subs = true
  confirm : (rnd 0).confirm = true
  «export» : ∀ td ∈ tds, (env.exportKi subs td).isSome
  cipher : ∀ key nonce data, env.decrypt key nonce (env.encrypt key nonce data) = some data

theorem syncLoop_ok (env : Env) (rnd : Rand) (key : Bytes) : ∀ (tds : List Td) (j : Nat) (s : Sync) (resp : List Eki),
    s.cIdx + tds.length < s.num → (∀ td ∈ tds, (env.exportKi s.subs td).isSome) → s.encKey = some key →
    (syncLoop env rnd tds j s resp).isSome := by
  intro tds
  induction tds with
  | nil => intro j s resp _ _ _; rfl
  | cons td tds ih =>
    intro j s resp h1 h2 h3
    unfold syncLoop
    simp only
    rw [if_neg (by push_cast [List.length_cons] at h1; omega)]
    obtain ⟨b, hb⟩ := Option.isSome_iff_exists.1 (h2 td (List.mem_cons_self ..))
    rw [hb, h3]
    exact ih _ _ _ (by push_cast [List.length_cons] at h1; simp only; omega)
      (fun td h => h2 td (List.mem_cons_of_mem _ h)) rfl

/-- All batches non-empty and within the announced number: the steps succeed and return, per output, its key
image encrypted under the session key. -/
theorem importSteps_ok (env : Env) (rnd : Nat → Rand) (key : Bytes)
    (hci : ∀ key nonce data, env.decrypt key nonce (env.encrypt key nonce data) = some data) :
    ∀ (cs : List (List Td)) (n : Nat) (s : Sync) (acc : List Eki),
    (∀ c ∈ cs, c ≠ []) → s.cIdx + cs.flatten.length < s.num →
    (∀ td ∈ cs.flatten, (env.exportKi s.subs td).isSome) → s.encKey = some key →
    ∃ s' kis, importSteps env rnd cs n (some s) acc = some (some s', acc ++ kis) ∧
      s'.num = s.num ∧ s'.hash = s.hash ∧ s'.encKey = s.encKey ∧ s'.cIdx = s.cIdx + cs.flatten.length ∧
      s'.hasher = s.hasher ++ (cs.flatten.map (computeHash env)).flatten ∧
      kis.map (fun e => env.decrypt key e.iv e.blob) = cs.flatten.map (env.exportKi s.subs) := by
  intro cs
  induction cs with
  | nil => intro n s acc _ _ _ _; exact ⟨s, [], by simp [importSteps]⟩
  | cons c cs ih =>
    intro n s acc h0 h1 h2 h3
    rw [List.flatten_cons, List.length_append] at h1
    rw [List.flatten_cons] at h2
    have hok := syncLoop_ok env (rnd n) key c 0 s [] (by push_cast at h1; omega)
      (fun td h => h2 td (List.mem_append_left _ h)) h3
    obtain ⟨x, hx⟩ := Option.isSome_iff_exists.1 hok
    have hs : sync env s c (rnd n) = some (x.1, .stepAck x.2) := by
      unfold sync
      rw [if_neg (by rw [List.length_eq_zero_iff]; exact h0 c (List.mem_cons_self ..)), hx]
      rfl
    obtain ⟨hne, g1, g2, g3, g3', g4, g5, g6, kis, g7, g8, g9⟩ := sync_spec hs
    simp at g7; subst g7
    obtain ⟨s', kis', i1, i2, i3, i4, i5, i6, i7⟩ := ih (n + 1) x.1 (acc ++ x.2)
      (fun c h => h0 c (List.mem_cons_of_mem _ h)) (by rw [g4, g1]; push_cast at h1; omega)
      (fun td h => g3' ▸ h2 td (List.mem_append_right _ h)) (g3.trans h3)
    refine ⟨s', x.2 ++ kis', ?_, i2.trans g1, i3.trans g2, i4.trans g3, ?_, ?_, ?_⟩
    · unfold importSteps
      simp only [device, Option.bind_some, hs]
      rw [i1]; simp
    · rw [i5, g4, List.flatten_cons, List.length_append]; push_cast; omega
    · rw [i6, g6]; simp
    · rw [List.map_append, i7, List.flatten_cons, List.map_append, g3']
      congr 1
      apply List.ext_getElem?
      intro i
      by_cases hi : i < c.length
      · obtain ⟨b, k, e1, e2, e3⟩ := g9 i c[i] (List.getElem?_eq_getElem hi)
        rw [h3] at e2; simp at e2; subst e2
        rw [List.getElem?_map, List.getElem?_map, e3, List.getElem?_eq_getElem hi]
        simp [hci, e1]
      · rw [List.getElem?_eq_none (by simp; omega), List.getElem?_eq_none (by simp; omega)]

theorem mapM_of_map {α β : Type} {f : α → Option β} : ∀ {l : List α} {r : List β},
    l.map f = r.map some → l.mapM f = some r := by
  intro l
  induction l with
  | nil => intro r h; simp at h; subst h; rfl
  | cons a l ih =>
    intro r h
    cases r with
    | nil => simp at h
    | cons b r =>
      simp at h
      simp [List.mapM_cons, h.1, ih h.2]

/-- C16, partial: when the number of outputs is not a multiple of ten, the import returns, for each output and in order, the key
image the device computes for it. Missing: the multiples of ten, where it fails (`C16_false`). -/
theorem C16_import_partial (env : Env) (rnd : Nat → Rand) (subs : List (Nat × List Nat)) (tds : List Td)
    (chunks : List (List Td)) (d : Option Sync) (hc : Common.chunkRuns tds 10 chunks)
    (ha : Accepting env rnd subs tds) (h10 : ¬ 10 ∣ tds.length) :
    ∃ kis, importOutputs env tds chunks subs rnd d = some kis ∧ kis.length = tds.length ∧
      tds.map (env.exportKi subs) = kis.map some := by
  obtain ⟨cs, last, hcs, hfl, _, _⟩ := Common.chunkRuns_shape (by norm_num) hc
  have hflat : chunks.flatten = tds := by rw [hcs]; simpa using hfl
  have hne : ∀ c ∈ chunks, c ≠ [] := by
    rintro c hm rfl
    exact h10 ((Common.C34_trailing_empty (by norm_num) hc).1 hm)
  obtain ⟨s', kis, i1, i2, i3, i4, i5, i6, i7⟩ := importSteps_ok env rnd (rnd 0).encKey ha.cipher chunks 1
    { num := tds.length, hash := some (commitment env tds).2, encKey := some (rnd 0).encKey, subs := subs } []
    hne (by rw [hflat]; simp only; omega) (by rw [hflat]; exact ha.export) rfl
  simp only [hflat, List.nil_append] at i1 i2 i3 i4 i5 i6 i7
  have hmap : tds.map (env.exportKi subs) = (tds.map fun td => (env.exportKi subs td).getD []).map some := by
    rw [List.map_map]
    apply List.map_congr_left
    intro td htd
    obtain ⟨b, hb⟩ := Option.isSome_iff_exists.1 (ha.export td htd)
    simp [hb]
  refine ⟨tds.map fun td => (env.exportKi subs td).getD [], ?_, by simp, hmap⟩
  unfold importOutputs
  simp only [device, init, ha.creds, ha.confirm, ha.subsOk, Bool.not_true, Bool.false_eq_true, if_false]
  have e1 : (commitment env tds).1 = tds.length := rfl
  rw [e1, i1]
  simp only [Option.bind_some, final]
  rw [if_neg (by rw [i2, i5]; omega), if_neg (by rw [i6, i3]; simp [commitment]), i4]
  simp only [Option.map_some]
  exact mapM_of_map (i7.trans hmap)

/-- C16 is false: for every list of outputs whose length is a multiple of ten (also for no outputs at all), with any device
answers, the import fails. The last batch is empty and the device refuses it. -/
theorem C16_false (env : Env) (rnd : Nat → Rand) (subs : List (Nat × List Nat)) (tds : List Td)
    (chunks : List (List Td)) (d : Option Sync) (hc : Common.chunkRuns tds 10 chunks) (h10 : 10 ∣ tds.length) :
    importOutputs env tds chunks subs rnd d = none := by
  have hm := (Common.C34_trailing_empty (by norm_num) hc).2 h10
  have key : ∀ (cs : List (List Td)) (n : Nat) (d : Option Sync) (acc : List Eki), [] ∈ cs →
      importSteps env rnd cs n d acc = none := by
    intro cs
    induction cs with
    | nil => intro _ _ _ h; simp at h
    | cons c cs ih =>
      intro n d acc h
      unfold importSteps
      rcases List.mem_cons.1 h with rfl | h
      · have : device env d (.step []) (rnd n) = (none, .failure) := by
          cases d <;> simp [device, sync]
        rw [this]
      · split
        · exact ih _ _ _ h
        · rfl
  unfold importOutputs
  simp only
  split
  · rw [key _ _ _ _ hm]
  · rfl

/-! Non-vacuity: a toy device. -/

def toyEnv : Env where
  keccak := fun b => b
  exportKi := fun _ td => some (td.outKey ++ [7])
  encrypt := fun k n d => k ++ n ++ d
  decrypt := fun k n c => some (c.drop (k.length + n.length))
  credsOk := true
  subsOk := fun _ => true

def toyRnd : Nat → Rand := fun n => ⟨true, [42], fun j => [UInt8.ofNat n, UInt8.ofNat j]⟩

def toyTds (n : Nat) : List Td := (List.range n).map fun i => ⟨[UInt8.ofNat i], [1], [], i⟩

theorem toy_accepting (n : Nat) : Accepting toyEnv toyRnd [] (toyTds n) :=
  ⟨rfl, rfl, rfl, fun _ _ => rfl, fun k n d => by simp [toyEnv]⟩

example : Common.chunkRuns (toyTds 12) 10 [toyTds 10, (toyTds 12).drop 10] := ⟨2, by decide +kernel⟩

example : importOutputs toyEnv (toyTds 12) [toyTds 10, (toyTds 12).drop 10] [] toyRnd none =
    some ((toyTds 12).map fun td => td.outKey ++ [7]) := by decide +kernel

example : Common.chunkRuns (toyTds 10) 10 [toyTds 10, []] ∧
    importOutputs toyEnv (toyTds 10) [toyTds 10, []] [] toyRnd none = none :=
  ⟨⟨2, by decide +kernel⟩, by decide +kernel⟩

/-- a session in which the key is released -/
example : ∃ log d, Reach toyEnv log d ∧ (device toyEnv d .final (toyRnd 0)).2 = .finalAck [42] := by
  refine ⟨_, _, (Reach.start.step (.init 2 (commitment toyEnv (toyTds 2)).2 []) (toyRnd 0)).step (.step (toyTds 2)) (toyRnd 1), ?_⟩
  decide +kernel

/-- a session refused because one output is missing -/
example : ∃ log d, Reach toyEnv log d ∧ (device toyEnv d .final (toyRnd 0)).2 = .failure := by
  refine ⟨_, _, (Reach.start.step (.init 2 (commitment toyEnv (toyTds 2)).2 []) (toyRnd 0)).step (.step (toyTds 1)) (toyRnd 1), ?_⟩
  decide +kernel

end Verif.KiSync

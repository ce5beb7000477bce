import Verif.Lemmas.Bip

/-! C30: packing bytes into 11-bit word indices; C31: memoized child lookup. -/

namespace Verif.Bip
open Verif Verif.Dig

/-- Exactly what comes back: all bytes if the surplus bits (8·length mod 11) are 0 or at least 8, else all but the last byte. -/
theorem C30_exact (seed : Bytes) (hne : seed ≠ []) :
    (∀ i ∈ bytesToIndices seed, i < 2048) ∧
    indicesToBytes (bytesToIndices seed) =
      some (if 8 * seed.length % 11 = 0 ∨ 8 ≤ 8 * seed.length % 11 then seed else seed.dropLast) := by
  obtain ⟨h1, h2⟩ := b2iLoop_spec seed 0 0 [] (by omega) (by simp) (by simp) hne
  refine ⟨h2, ?_⟩
  have hs : bits11 [] ++ (toBE 2 0 0 ++ bits8 (nats seed)) = bits8 (nats seed) := by simp [bits11, toBE]
  rw [hs] at h1
  have hL : (bits8 (nats seed)).length = 8 * seed.length := by rw [bits8_length, nats_length]
  have hpos : 0 < seed.length := List.length_pos_iff.2 hne
  have hne2 : bytesToIndices seed ≠ [] := by
    intro e
    unfold bytesToIndices at e
    rw [e] at h1
    have := congrArg List.length h1
    unfold pack at this
    rw [hL] at this
    split at this
    · rw [List.length_take, hL] at this; simp [bits11] at this; omega
    · rw [List.length_append, hL] at this; simp [bits11] at this; omega
  obtain ⟨r, r1, r2⟩ := indicesToBytes_spec _ hne2
  rw [r1]
  congr 1
  unfold bytesToIndices at r2
  rw [h1] at r2
  have hinj : ∀ t : Bytes, bits8 (nats r) = bits8 (nats t) → r = t := by
    intro t ht
    have := bits8_inj (nats_lt r) (nats_lt t) ht
    have := congrArg ofNats this
    simpa using this
  by_cases hr : 8 * seed.length % 11 = 0 ∨ 8 ≤ 8 * seed.length % 11
  · rw [if_pos hr]
    apply hinj
    rw [r2]
    rcases hr with h0 | h8
    · have hp : pack (bits8 (nats seed)) = bits8 (nats seed) := by
        unfold pack; rw [hL, h0, if_pos (by omega), Nat.sub_zero, ← hL, List.take_length]
      rw [hp, hL, Nat.mul_div_cancel_left _ (by omega), ← hL, List.take_length]
    · have hp : pack (bits8 (nats seed)) = bits8 (nats seed) ++ List.replicate (11 - 8 * seed.length % 11) 0 := by
        unfold pack; rw [hL, if_neg (by omega)]
      have hd : (8 * seed.length + (11 - 8 * seed.length % 11)) / 8 = seed.length := by omega
      rw [hp, List.length_append, hL, List.length_replicate, hd, ← hL, List.take_left]
  · rw [if_neg hr]
    apply hinj
    have hp : pack (bits8 (nats seed)) = (bits8 (nats seed)).take (8 * seed.length - 8 * seed.length % 11) := by
      unfold pack; rw [hL, if_pos (by omega)]
    rw [r2, hp, List.length_take, hL, Nat.min_eq_left (by omega), List.take_take]
    have hd : (8 * seed.length - 8 * seed.length % 11) / 8 = seed.length - 1 := by omega
    rw [hd, Nat.min_eq_left (by omega)]
    have hsp := List.dropLast_concat_getLast hne
    have hdl : seed.dropLast.length = seed.length - 1 := by simp
    have hsplit : bits8 (nats seed) = bits8 (nats seed.dropLast) ++ bits8 (nats [seed.getLast hne]) := by
      rw [← bits8_append]
      conv => lhs; rw [← hsp]
      simp [nats]
    rw [hsplit, ← hdl]
    have : 8 * seed.dropLast.length = (bits8 (nats seed.dropLast)).length := by rw [bits8_length, nats_length]
    rw [this, List.take_left]

/-- C30. Splitting into 11-bit indices and joining gives the bytes back whenever the number of surplus bits is 0, 8, 9 or 10. -/
theorem C30_roundtrip_partial (seed : Bytes) (hne : seed ≠ []) (h : 8 * seed.length % 11 = 0 ∨ 8 ≤ 8 * seed.length % 11) :
    indicesToBytes (bytesToIndices seed) = some seed := by
  have := (C30_exact seed hne).2
  rw [this, if_pos h]

example : ([1, 2, 3, 4, 5, 6, 7, 8, 9, 10, 11] : Bytes) ≠ [] ∧ 8 * ([1, 2, 3, 4, 5, 6, 7, 8, 9, 10, 11] : Bytes).length % 11 = 0 ∧
    (bytesToIndices [1, 2, 3, 4, 5, 6, 7, 8, 9, 10, 11]).length = 8 := by decide +kernel

/-- C30 fails for the other lengths: the last byte is lost. -/
theorem C30_false (seed : Bytes) (h0 : 8 * seed.length % 11 ≠ 0) (h : 8 * seed.length % 11 < 8) :
    indicesToBytes (bytesToIndices seed) = some seed.dropLast := by
  have hl : 2 ≤ seed.length := by
    rcases Nat.lt_or_ge seed.length 2 with h2 | h2
    · have : seed.length = 0 ∨ seed.length = 1 := by omega
      rcases this with e | e <;> rw [e] at h0 h <;> simp at h0 h
    · exact h2
  have := (C30_exact seed (by intro e; simp [e] at hl)).2
  rw [this, if_neg (by omega)]

example : indicesToBytes (bytesToIndices [1, 2]) = some [1] := by decide +kernel

/-- Consequence for word seeds (`to_seed_words` appends one checksum byte; restoring from words as indices reads the bytes back): a secret of
16, 20, 24 or 28 bytes comes back without the checksum byte, a secret of 32 bytes comes back with the checksum byte as a 33rd byte. -/
theorem C30_word_seed (secret : Bytes) (checksum : UInt8) :
    (secret.length ∈ [16, 20, 24, 28] → indicesToBytes (bytesToIndices (secret ++ [checksum])) = some secret) ∧
    (secret.length = 32 → indicesToBytes (bytesToIndices (secret ++ [checksum])) = some (secret ++ [checksum])) := by
  constructor
  · intro h
    have hl : (secret ++ [checksum]).length = secret.length + 1 := by simp
    have := C30_false (secret ++ [checksum]) (by rw [hl]; simp at h; omega) (by rw [hl]; simp at h; omega)
    rw [this]; simp
  · intro h
    exact C30_roundtrip_partial _ (by simp) (by simp [h])

/-! ## C31 -/

/-- The cache holds, under each key, the result of some call with that key that was made before. -/
def CacheOk {A R : Type} (f : Call A → Option R) (P : Call A → Prop) (cache : List ((List A × List String) × R)) : Prop :=
  ∀ e ∈ cache, ∃ c, P c ∧ e.1 = (c.pos, c.kw.map (·.1)) ∧ f c = some e.2

theorem memoRun_spec {A R : Type} [DecidableEq A] (f : Call A → Option R) (P : Call A → Prop)
    (hP : ∀ c c', P c → P c' → c.pos = c'.pos → c.kw.map (·.1) = c'.kw.map (·.1) → f c = f c') (cs : List (Call A)) (hcs : ∀ c ∈ cs, P c)
    (cache : List ((List A × List String) × R)) (hc : CacheOk f P cache) : memoRun f cache cs = cs.map f := by
  induction cs generalizing cache with
  | nil => rfl
  | cons c cs ih =>
    have hPc := hcs c (by simp)
    have hPcs := fun d hd => hcs d (List.mem_cons_of_mem _ hd)
    simp only [memoRun, memoCall, List.map_cons]
    cases hf : cache.find? (fun e => decide (e.1 = (c.pos, c.kw.map (·.1)))) with
    | some e =>
      simp only
      rw [ih hPcs cache hc]
      obtain ⟨c', h1, h2, h3⟩ := hc e (List.mem_of_find?_eq_some hf)
      have he := List.find?_some hf
      simp only [decide_eq_true_eq] at he
      rw [he] at h2
      simp only [Prod.mk.injEq] at h2
      rw [hP c c' hPc h1 h2.1 h2.2, h3]
    | none =>
      simp only
      cases hr : f c with
      | none => simp only; rw [ih hPcs cache hc]
      | some r =>
        simp only
        rw [ih hPcs _ ?_]
        intro e he
        rcases List.mem_cons.1 he with rfl | he
        · exact ⟨c, hPc, rfl, hr⟩
        · exact hc e he

/-- C31, partial: in a history where calls with the same positional arguments and the same keyword names also have the same keyword values,
every lookup returns what the function returns for the requested arguments. Missing: calls that differ only in the value of a keyword argument
(`C31_false`). -/
theorem C31_history_partial {A R : Type} [DecidableEq A] (f : Call A → Option R) (cs : List (Call A))
    (h : ∀ c ∈ cs, ∀ c' ∈ cs, c.pos = c'.pos → c.kw.map (·.1) = c'.kw.map (·.1) → c.kw = c'.kw) : memoRun f [] cs = cs.map f := by
  apply memoRun_spec f (· ∈ cs) _ cs (fun _ h => h) [] (by intro e he; simp at he)
  intro c c' hc hc' h1 h2
  have h3 := h c hc c' hc' h1 h2
  have : c = c' := by cases c; cases c'; simp_all
  rw [this]

/-- C31. Positional lookups (as path lookups do them) are always right. -/
theorem C31_positional {A R : Type} [DecidableEq A] (f : Call A → Option R) (cs : List (Call A)) (h : ∀ c ∈ cs, c.kw = []) :
    memoRun f [] cs = cs.map f :=
  C31_history_partial f cs (fun c hc c' hc' _ _ => by rw [h c hc, h c' hc'])

example : memoRun (fun c : Call Nat => some (c.pos.sum)) [] [⟨[1, 2], []⟩, ⟨[1, 3], []⟩, ⟨[1, 2], []⟩] = [some 3, some 4, some 3] := by
  decide +kernel

/-- Arguments of `get_child`: a wallet identity, a number or a flag. -/
inductive Arg | wallet (id : Nat) | num (i : Int) | flag (b : Bool)
deriving DecidableEq

/-- The result of `get_child`: the wallet, the derivation index and whether it holds the private key. Positional and keyword arguments are bound
as Python does (bip32.py 339: `child_number, is_prime=None, as_private=True`); the wallet has a private key. -/
def getChild (c : Call Arg) : Option (Nat × Nat × Bool) :=
  match c.pos with
  | .wallet w :: .num i :: ps =>
    let look (name : String) : Option Arg := (c.kw.find? (·.1 == name)).map (·.2)
    let prime : Option Arg := match ps with | p :: _ => some p | [] => look "is_prime"
    let priv : Option Arg := match ps with | _ :: p :: _ => some p | _ => look "as_private"
    let p : Option Bool := match prime with | some (.flag b) => some b | _ => none
    (childIndex true false i p).map fun ix => (w, ix.1, match priv with | some (.flag b) => b | _ => true)
  | _ => none

/-- C31 is false: asking for child 5 without hardening and then with hardening, by keyword, returns the child without hardening twice. -/
theorem C31_false : memoRun getChild [] [⟨[.wallet 1, .num 5], [("is_prime", .flag false)]⟩, ⟨[.wallet 1, .num 5], [("is_prime", .flag true)]⟩] =
    [some (1, 5, true), some (1, 5, true)] ∧
    getChild ⟨[.wallet 1, .num 5], [("is_prime", .flag true)]⟩ = some (1, 5 + 0x80000000, true) := by
  decide +kernel

/-- And asking for a child without private key returns the private key, if the child with private key was asked for before. -/
theorem C31_false_private : memoRun getChild [] [⟨[.wallet 1, .num 5], [("is_prime", .flag false), ("as_private", .flag true)]⟩,
      ⟨[.wallet 1, .num 5], [("is_prime", .flag false), ("as_private", .flag false)]⟩] = [some (1, 5, true), some (1, 5, true)] ∧
    getChild ⟨[.wallet 1, .num 5], [("is_prime", .flag false), ("as_private", .flag false)]⟩ = some (1, 5, false) := by
  decide +kernel

/-- Requests that are accepted: a number in range, non-negative if the hardening is given explicitly, and a private key for hardened children. -/
theorem C31_index (hasPrivate ed25519 : Bool) (number : Int) (isPrime : Option Bool) (ix : Nat) (h : Bool) :
    childIndex hasPrivate ed25519 number isPrime = some (ix, h) ↔
      number.natAbs < 0x80000000 ∧ h = isPrime.getD (decide (number < 0)) ∧ (isPrime.isSome → 0 ≤ number) ∧
      ix = number.natAbs + (if h then 0x80000000 else 0) ∧ (h = true → hasPrivate = true) ∧ (h = false → ed25519 = false) := by
  unfold childIndex
  by_cases hr : number.natAbs ≥ 0x80000000
  · simp only [hr, if_true]
    constructor
    · intro h; cases h
    · intro h; omega
  · simp only [if_neg hr]
    have hge : ¬ number ≥ ((0x80000000 : Nat) : Int) := by omega
    cases isPrime with
    | none =>
      simp only [Option.getD_none, Option.isSome_none]
      by_cases hn : number < 0
      · simp only [hn, if_true, decide_true]
        cases hasPrivate <;> cases ed25519 <;> cases h <;> simp <;> omega
      · simp only [hn, if_false, hge, decide_false]
        cases hasPrivate <;> cases ed25519 <;> cases h <;> simp <;> omega
    | some p =>
      simp only [Option.getD_some, Option.isSome_some, forall_true_left]
      by_cases hn : number < 0
      · simp only [hn, true_or, if_true]
        constructor
        · intro h; cases h
        · intro h; omega
      · simp only [hn, hge, or_self, if_false]
        cases hasPrivate <;> cases ed25519 <;> cases p <;> cases h <;> simp <;> omega

/-- Different requests give different derivation indices: the absolute number and the hardening are determined by the index. -/
theorem C31_index_injective (hp ed : Bool) (n n' : Int) (p p' : Option Bool) (ix : Nat) (h h' : Bool)
    (h1 : childIndex hp ed n p = some (ix, h)) (h2 : childIndex hp ed n' p' = some (ix, h')) : n.natAbs = n'.natAbs ∧ h = h' := by
  rw [C31_index] at h1 h2
  obtain ⟨a1, _, _, a4, _⟩ := h1
  obtain ⟨b1, _, _, b4, _⟩ := h2
  cases h <;> cases h' <;> simp at a4 b4 <;> refine ⟨?_, ?_⟩ <;> first | rfl | omega

example : childIndex true false (-3) none = some (0x80000003, true) ∧ childIndex true false 3 (some true) = some (0x80000003, true) := by decide

end Verif.Bip

import Verif.Lemmas.SignerBasic

set_option linter.unusedSectionVars false
set_option linter.unusedSimpArgs false

namespace Verif.Signer
open Verif
variable {S P : Type} [CommRing S] [AddCommGroup P] [Module S P] [DecidableEq S] [DecidableEq P]

/-- Session master key produced by an accepted init. -/
def masterKey (env : Env S P) (tsx : TsxData) (pid : Bytes) (rnd : Rand S) : Bytes :=
  env.keccak2 (env.keccak (env.pbTsx { tsx with paymentId := pid } ++ env.scEnc rnd.r) ++ env.scEnc rnd.master)

def bpVersionOf (tsx : TsxData) : Nat := if tsx.bpVersion = 0 then 1 else tsx.bpVersion

/-- The builder right after an accepted init message. -/
def initBuilder (env : Env S P) (tsx : TsxData) (rnd : Rand S) (rPub : P) (pid extra : Bytes) (ty : UInt8) :
    Builder S P where
  state := { s := .INP_CNT, inMem := false }
  keyMaster := masterKey env tsx pid rnd
  keyHmac := env.keccak2 (ascii "hmac" ++ masterKey env tsx pid rnd)
  keyEnc := env.keccak2 (ascii "enc" ++ masterKey env tsx pid rnd)
  r := rnd.r
  rPub := rPub
  needAdd := decide ((classify tsx.outputs (tsx.change.map (·.addr))).2.1 > 0) &&
    (decide ((classify tsx.outputs (tsx.change.map (·.addr))).1 > 0) ||
     decide ((classify tsx.outputs (tsx.change.map (·.addr))).2.1 > 1))
  useBp := decide (tsx.rsigType > 0)
  useSimple := decide (tsx.numInputs > 1) || decide (tsx.rsigType ≠ 0)
  inputCount := tsx.numInputs
  outputCount := tsx.outputs.length
  change := tsx.change
  mixin := tsx.mixin
  fee := tsx.fee
  account := tsx.account
  clientVersion := tsx.clientVersion
  bpVersion := bpVersionOf tsx
  rsigType := tsx.rsigType
  rsigGrp := tsx.grouping
  rsigOffload := decide (tsx.rsigType > 0) && decide (tsx.outputs.length > 2)
  sumout := 0
  sumpouts := 0
  subs := if tsx.minorIndices.isEmpty then some [] else some (env.subaddresses tsx.account tsx.minorIndices)
  tx := some { version := 2, unlockTime := tsx.unlockTime, extra := extra }
  prefixHasher := some (Varint.dumpNat 2 ++ Varint.dumpNat tsx.unlockTime ++ Varint.dumpNat tsx.numInputs)
  fullHasher := some { isSimple := some (decide (tsx.numInputs > 1) || decide (tsx.rsigType ≠ 0)), state := 2,
                       master := [], rsig := some [], rct := some ([ty] ++ Varint.dumpNat tsx.fee) }

/-- What an accepted init guarantees. -/
structure InitOk (env : Env S P) (tsx : TsxData) (rnd : Rand S) (rPub : P) (pid extra : Bytes) (ty : UInt8)
    (hmacs : List Bytes) : Prop where
  confirmed : rnd.confirm = true
  changeOk : checkChange tsx.outputs tsx.change (env.primaryAddr tsx.account) = .ok ()
  rPubOk : txPubKey env (classify tsx.outputs (tsx.change.map (·.addr))) rnd.r = some rPub
  pidOk : processPaymentId env tsx (tsx.change.map (·.addr)) rnd.r [] = some (pid, extra)
  tyOk : (bpVersionOf tsx = 1 ∧ ty = 3) ∨ (bpVersionOf tsx = 2 ∧ ty = 4)
  hmacsOk : hmacDsts env (env.keccak2 (ascii "hmac" ++ masterKey env tsx pid rnd)) tsx.outputs 0 = some hmacs

theorem init_eff {env : Env S P} {tsx : TsxData} {rnd : Rand S} {b' : Builder S P} {resp : Resp}
    (h : initTransaction env freshBuilder tsx rnd = .ok (b', resp)) :
    (rnd.confirm = false ∧ resp = .failure 4 ∧
      b' = { (freshBuilder : Builder S P) with
        r := rnd.r, rPub := rnd.r • env.G, state := { s := .INIT, inMem := false } }) ∨
    (∃ rPub pid extra ty hmacs, InitOk env tsx rnd rPub pid extra ty hmacs ∧
      b' = initBuilder env tsx rnd rPub pid extra ty ∧
      resp = .initAck hmacs (decide (tsx.rsigType > 0) && decide (tsx.outputs.length > 2))) := by
  simp only [initTransaction, bind_ok, pure_ok, ensure_ok, orFail_ok, exists_unit, TState.initTsx] at h
  obtain ⟨_, ⟨_, rfl⟩, _, h⟩ := h
  by_cases hc : rnd.confirm = true
  · right
    simp only [hc, Bool.not_true, Bool.false_eq_true, if_false] at h
    simp only [bind_ok, pure_ok, ensure_ok, orFail_ok, exists_unit, TState.inpCnt,
      Option.bind_eq_some_iff] at h
    obtain ⟨_, ⟨_, rfl⟩, h1, rPub, h2, ⟨pid, extra⟩, h3, ph, h4, fh, h5, ty, h6, fh2, ⟨fh1, h7, h8⟩, hm, h9, hr⟩ := h
    simp only [freshBuilder, Option.some.injEq] at h4 h5
    subst h4 h5
    simp only [PreMlsag.init, ne_eq, not_true_eq_false, if_false, Option.some.injEq] at h7
    subst h7
    simp only [PreMlsag.setTypeFee, ne_eq, not_true_eq_false, if_false, PreMlsag.feedRct, Option.map_some,
      Option.some.injEq, List.nil_append] at h8
    subst h8
    have hty : (bpVersionOf tsx = 1 ∧ ty = 3) ∨ (bpVersionOf tsx = 2 ∧ ty = 4) := by
      change (if bpVersionOf tsx = 1 then some (3 : UInt8) else if bpVersionOf tsx = 2 then some 4 else none)
        = some ty at h6
      split at h6
      · simp only [Option.some.injEq] at h6; exact Or.inl ⟨by assumption, h6.symm⟩
      · split at h6
        · simp only [Option.some.injEq] at h6; exact Or.inr ⟨by assumption, h6.symm⟩
        · simp at h6
    have hm' : hmacDsts env (env.keccak2 (ascii "hmac" ++ masterKey env tsx pid rnd)) tsx.outputs 0 = some hm := by
      split at h9 <;> exact h9
    refine ⟨rPub, pid, extra, ty, hm, ⟨hc, h1, h2, h3, hty, hm'⟩, ?_⟩
    by_cases hmi : tsx.minorIndices.isEmpty = true
    · simp only [hmi, if_true, Prod.mk.injEq] at hr
      obtain ⟨rfl, rfl⟩ := hr
      refine ⟨?_, rfl⟩
      simp only [initBuilder, hmi, if_true]
      rfl
    · simp only [hmi, if_false, Prod.mk.injEq] at hr
      obtain ⟨rfl, rfl⟩ := hr
      refine ⟨?_, rfl⟩
      simp only [initBuilder, hmi, if_false]
      rfl
  · left
    have hc' : rnd.confirm = false := by simpa using hc
    simp only [hc', Bool.not_false, if_true, pure_ok, Prod.mk.injEq] at h
    exact ⟨hc', h.2.symm, h.1.symm⟩

end Verif.Signer

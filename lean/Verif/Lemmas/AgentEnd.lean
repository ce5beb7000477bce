import Verif.Lemmas.AgentOutHost
import Verif.Props.SignerHash

/-! Closing the outputs, signing the inputs, the final message. -/

set_option linter.unusedSectionVars false
set_option linter.unusedSimpArgs false

namespace Verif.Agent
open Verif Verif.Signer Verif.Batches
variable {S P : Type} [CommRing S] [AddCommGroup P] [Module S P] [DecidableEq S] [DecidableEq P]

/-- The builder after closing the outputs. -/
def bEnd (b3 : Builder S P) (ph full : Bytes) : Builder S P :=
  { b3 with
    state := ⟨.FINAL_MESSAGE, false⟩, prefixHash := some ph, prefixHasher := none, fullHasher := none, tx := none, addPub := [],
    outIdx := -1, inpIdx := -1, fullMessage := some full }

/-- The extra field: payment id part, transaction key, additional keys. -/
def extraOf (env : Env S P) (b2 : Builder S P) (pre : Bytes) (os : List (OutV S P)) : Bytes :=
  pre ++ [1] ++ env.ptEnc b2.rPub ++
    (if b2.needAdd then [4] ++ Varint.dumpNat os.length ++ (os.map fun o => env.ptEnc o.addPub).flatten else [])

theorem allOut_call {env : Env S P} (hp : Passes env) {rnd : Nat → Rand S} {k : Nat} (hu : (rnd k).uiOk = true) {b2 : Builder S P} {ph : Bytes}
    {h0 : PreMlsag} {c0 : Bytes} (hm : Mid b2 ph h0 c0) (hmaster : h0.master = []) {os : List (OutV S P)} {ps : List Bp} {po : Bool}
    (hos : os ≠ []) (hlen : os.length = b2.outputCount) (hfee : b2.fee + (os.map (·.dst.amount)).sum = b2.sumIn) {tx : TxStub}
    (htx : b2.tx = some tx) {ty : UInt8} (hty : b2.rctType = some ty) (hexp : b2.expPrefix = none) {pfx : Bytes}
    (hpfx : pfx = env.keccak (ph ++ (Varint.dumpNat b2.outputCount ++ (os.map (·.txOut env)).flatten) ++
      Varint.dumpNat (extraOf env b2 tx.extra os).length ++ extraOf env b2 tx.extra os)) {full : Bytes}
    (hfull : full = env.keccak (pfx ++ env.keccak (c0 ++ (os.map (·.ecdh)).flatten ++ (os.map (·.comm env)).flatten) ++
      env.keccak (ps.map Bp.hashed).flatten)) :
    call env rnd (live (bOut env b2 os ps [] po true) k) .allOutSet =
      some (.allOutAck (extraOf env b2 tx.extra os) pfx b2.fee ty full, live (bEnd (bOut env b2 os ps [] po true) pfx full) (k + 1)) := by
  refine call_live hp rfl ?_ (by intro x; simp) (by simp [bEnd, TState.isTerminal])
  show allOutSet _ _ _ = _
  have hsum : (bOut env b2 os ps [] po true).sumOut = (os.map (·.dst.amount)).sum := rfl
  simp only [allOutSet, bind_ok, pure_ok, ensure_ok, orFail_ok, TState.setOutputDone, TState.setFinalMessageDone, exists_unit]
  refine ⟨_, ⟨by simp [bOut, hos], rfl⟩, hu, by simp [bOut]; omega, ?_, tx, htx, extraOf env b2 tx.extra os, ?_, ?_,
    ph ++ (Varint.dumpNat b2.outputCount ++ (os.map (·.txOut env)).flatten), by simp [bOut, hm.ph, hos],
    ⟨h0.isSimple, 4, pfx, some (ps.map Bp.hashed).flatten, some (c0 ++ (os.map (·.ecdh)).flatten)⟩, ?_, ?_, ty, hty, _, ⟨rfl, rfl⟩,
    by simp [bOut, hlen],
    ⟨h0.isSimple, 6, pfx ++ env.keccak (c0 ++ (os.map (·.ecdh)).flatten ++ (os.map (·.comm env)).flatten), some (ps.map Bp.hashed).flatten, none⟩, ?_,
    (⟨h0.isSimple, 8, pfx ++ env.keccak (c0 ++ (os.map (·.ecdh)).flatten ++ (os.map (·.comm env)).flatten) ++ env.keccak (ps.map Bp.hashed).flatten,
      none, none⟩, full), ?_, ?_⟩
  · rw [hsum]; simp [bOut]; omega
  · rw [txExtra]
    cases hn : b2.needAdd with
    | false =>
      rw [if_neg (by simp [bOut, hn])]
      simp [extraOf, hn, bOut]
    | true =>
      rw [if_pos (by simp [bOut, hn]), if_neg (by simp [bOut, hn, hos])]
      simp [extraOf, hn, bOut]
  · rw [hsum]; simp [bOut]; omega
  · rw [show (bOut env b2 os ps [] po true).fullHasher = bHash b2 os ps from rfl, bHash_eq hm, ← hpfx]
    simp [PreMlsag.setMessage, hos, hmaster]
  · rw [show (bOut env b2 os ps [] po true).expPrefix = none from hexp]; rfl
  · rw [show (bOut env b2 os ps [] po true).outputPk = os.map (·.comm env) from rfl, feedOutPks_eq _ _ _ rfl (Or.inl rfl)]
    simp [PreMlsag.rctsigBaseDone, hos]
  · simp [PreMlsag.getDigest, hfull]
  · rw [← hpfx]
    rfl

/-! ### Signatures -/

/-- The mask of the pseudo output that is signed: the last source takes up the difference. -/
def alphaOf (n : Nat) (diff : S) (x : Nat × In S P) : S := if x.1 + 1 = n then x.2.rnd.alpha + diff else x.2.rnd.alpha

/-- The builder after the signatures `pre`. -/
def bSign (b4 : Builder S P) (pre : List (Nat × In S P)) : Builder S P :=
  { b4 with
    state := ⟨if pre = [] then .FINAL_MESSAGE else if pre.length = b4.inputCount then .SIGNATURE_DONE else .SIGNATURE, false⟩
    inpIdx := (pre.length : Int) - 1
    sumpouts := if pre.any fun x => x.1 + 1 == b4.inputCount then b4.sumout else b4.sumpouts }

/-- The ring signature for `x` over `full`. -/
def Signed (env : Env S P) (full : Bytes) (n : Nat) (diff : S) (x : Nat × In S P) (r : Bytes × Bytes) : Prop :=
  r.1 = env.ptEnc (genC env (alphaOf n diff x) x.2.src.amount) ∧
    ∃ mr, env.mlsag full x.2.src.outputs x.2.x (env.scDec x.2.src.mask) (alphaOf n diff x) (genC env (alphaOf n diff x) x.2.src.amount)
      x.2.src.realOutput mr = some r.2

/-- The ring signature prover succeeds for a source that is owned. -/
def CanSign (env : Env S P) (i : In S P) : Prop :=
  ∀ msg alpha r, (env.mlsag msg i.src.outputs i.x (env.scDec i.src.mask) alpha (genC env alpha i.src.amount) i.src.realOutput r).isSome

/-- Laws of the ciphers and encodings used for signing. -/
structure SignLaws (env : Env S P) : Prop where
  pack : ∀ k m n, env.decPack k (env.encPack k m n) = some m
  len : ∀ p : P, (env.ptEnc p).length = 32
  pt : ∀ p : P, env.ptDec (env.ptEnc p) = some p
  sc : ∀ s : S, env.scDec (env.scEnc s) = s

/-- What is used of the builder when the signatures begin. -/
structure Sig0 (b4 : Builder S P) (full : Bytes) (L : List (Nat × In S P)) : Prop where
  s : b4.state = ⟨.FINAL_MESSAGE, false⟩
  inpIdx : b4.inpIdx = -1
  perm : b4.perm = L.map (·.1)
  n : L.length = b4.inputCount
  nodup : (L.map (·.1)).Nodup
  lastIn : ∃ x ∈ L, x.1 + 1 = b4.inputCount
  lastAmount : ∀ x ∈ L, x.1 + 1 = b4.inputCount → x.2.src.amount = b4.inputLastAmount
  hmac : b4.keyHmac.length = 32
  enc : b4.keyEnc.length = 32
  det : b4.isDetMask = true
  full : b4.fullMessage = some full
  small : ∀ x ∈ L, x.1 < 2 ^ 42

theorem sign_call {env : Env S P} (hp : Passes env) (hl : SignLaws env) {rnd : Nat → Rand S} {k : Nat} (hu : (rnd k).uiOk = true) {b4 : Builder S P}
    {full : Bytes} {L pre post : List (Nat × In S P)} (hs : Sig0 b4 full L) {x : Nat × In S P} (hL : L = pre ++ x :: post) {subs : SubTable}
    (ho : Owned env subs x.2) (hc : CanSign env x.2) :
    ∃ r, Signed env full b4.inputCount (b4.sumout - b4.sumpouts) x r ∧
      call env rnd (live (bSign b4 pre) k) (.signInput x.2.src (dumpVin env (vinOf env x.2)) (inRec env b4 x.1 x.2).hmac
        (inRec env b4 x.1 x.2).pseudoOut (inRec env b4 x.1 x.2).pseudoOutHmac (inRec env b4 x.1 x.2).alphaEnc (inRec env b4 x.1 x.2).spendEnc) =
      some (.signAck r.2 r.1, live (bSign b4 (pre ++ [x])) (k + 1)) := by
  obtain ⟨real, txKey, addKeys, o1, o2, o3, _⟩ := ho.real
  obtain ⟨sig, hsig⟩ := Option.isSome_iff_exists.1 (hc full (alphaOf b4.inputCount (b4.sumout - b4.sumpouts) x) (rnd k).mlsagRand)
  have hx : x ∈ L := by rw [hL]; simp
  have h42 := hs.small x hx
  have hpre : pre.length < b4.inputCount := by rw [← hs.n, hL]; simp
  have hne : pre.length ≠ b4.inputCount := by omega
  have hpos : b4.perm[pre.length]? = some x.1 := by rw [hs.perm, hL]; simp
  have hidx : (bSign b4 pre).inpIdx + 1 = pre.length := by simp [bSign]
  refine ⟨(env.ptEnc (genC env (alphaOf b4.inputCount (b4.sumout - b4.sumpouts) x) x.2.src.amount), sig), ⟨rfl, _, hsig⟩, ?_⟩
  have hany : x.1 + 1 = b4.inputCount → (pre.any fun y => y.1 + 1 == b4.inputCount) = false := by
    intro h
    rw [Bool.eq_false_iff]
    intro h1
    obtain ⟨y, hy, hy1⟩ := List.any_eq_true.1 h1
    have hnd := hs.nodup
    rw [hL, List.map_append, List.nodup_append] at hnd
    refine hnd.2.2 y.1 (List.mem_map_of_mem hy) x.1 (by simp) ?_
    have : y.1 + 1 = b4.inputCount := by simpa using hy1
    omega
  have hanyl : pre.length + 1 = b4.inputCount → x.1 + 1 ≠ b4.inputCount → (pre.any fun y => y.1 + 1 == b4.inputCount) = true := by
    intro h1 h2
    obtain ⟨y, hy, hy1⟩ := hs.lastIn
    have hpost : post = [] := by
      have := congrArg List.length hL
      rw [hs.n] at this
      simp at this
      exact List.length_eq_zero_iff.1 (by omega)
    rw [hL, hpost, List.mem_append, List.mem_singleton] at hy
    rcases hy with hy | rfl
    · exact List.any_eq_true.2 ⟨y, hy, by simpa using hy1⟩
    · exact absurd hy1 h2
  refine call_live hp rfl ?_ (by intro x; simp) (by simp only [bSign, TState.isTerminal]; split <;> [simp; split] <;> simp)
  show signInput _ _ _ _ _ _ _ _ _ _ = _
  simp only [signInput, bind_ok, pure_ok, ensure_ok, orFail_ok, TState.setSignature, exists_unit]
  refine ⟨_, ⟨?_, rfl⟩, hu, by simp [bSign]; omega, x.1, ?_, (inRec env b4 x.1 x.2).hmac, hmacVini_ok env hs.hmac _ _ h42, by simp,
    _, buildKey_ok env hs.enc .txinAlpha h42, env.scEnc x.2.rnd.alpha, hl.pack _ _ _,
    ({ bSign b4 pre with
        state := ⟨.SIGNATURE, false⟩, inpIdx := pre.length,
        sumpouts := if (pre ++ [x]).any fun y => y.1 + 1 == b4.inputCount then b4.sumout else b4.sumpouts },
      alphaOf b4.inputCount (b4.sumout - b4.sumpouts) x, genC env (alphaOf b4.inputCount (b4.sumout - b4.sumpouts) x) x.2.src.amount), ?_,
    _, buildKey_ok env hs.enc .spend h42, env.scEnc x.2.x, hl.pack _ _ _, real, o1, _, o2, ?_, _, o3, by simp, full, hs.full, sig, ?_,
    bSign b4 (pre ++ [x]), ?_, rfl⟩
  · by_cases h : pre = [] <;> simp [bSign, h, hne]
  · simp only [hidx, Int.toNat_natCast]; exact hpos
  · have hb : (bSign b4 pre).inputCount = b4.inputCount := rfl
    have hd : (bSign b4 pre).isDetMask = true := hs.det
    by_cases hl1 : x.1 + 1 = b4.inputCount
    · have hy : (bSign b4 pre).sumpouts = b4.sumpouts := by simp only [bSign]; rw [hany hl1]; simp
      unfold signPseudo
      rw [if_pos (by
        rw [Bool.and_eq_true]
        exact ⟨hs.det, by rw [hb]; simpa using hl1⟩)]
      simp only [bind_ok, pure_ok, ensure_ok, exists_unit, hl.sc]
      refine ⟨?_, ?_⟩
      · rw [hy]; simp [bSign]
      · simp only [Prod.mk.injEq]
        refine ⟨?_, ?_, ?_⟩
        · rw [hidx, hy]
          simp only [bSign, List.any_append, List.any_cons, hl1, beq_self_eq_true, List.any_nil, Bool.true_or, Bool.or_true, if_true, add_sub_cancel]
        · rw [hy, alphaOf, if_pos hl1]; rfl
        · rw [hy, alphaOf, if_pos hl1, hs.lastAmount x hx hl1]; rfl
    · unfold signPseudo
      rw [if_neg (by
        rw [Bool.and_eq_true]
        rintro ⟨_, h⟩
        rw [hb] at h
        exact hl1 (by simpa using h))]
      simp only [bind_ok, pure_ok, ensure_ok, orFail_ok, exists_unit, hl.sc]
      refine ⟨?_, _, tag_ok env hs.hmac .txinComm h42 _, by simp [inRec], genC env x.2.rnd.alpha x.2.src.amount, hl.pt _, ?_⟩
      · by_cases hlast : pre.length + 1 = b4.inputCount
        · have := hanyl hlast hl1
          simp only [bSign, this]
          simp
        · have : ¬ ((bSign b4 pre).inpIdx + 1 + 1 = (b4.inputCount : Int)) := by rw [hidx]; omega
          simp [this, hb]
      · simp only [Prod.mk.injEq, alphaOf, if_neg hl1, and_true]
        rw [hidx]
        simp only [bSign, List.any_append, List.any_cons, List.any_nil, Bool.or_false, beq_false_of_ne hl1]
  · rw [hl.sc]; simp
  · rw [hl.sc]; exact hsig
  · unfold signaturesDone
    by_cases hlast : pre.length + 1 = b4.inputCount
    · rw [if_pos (by show (pre.length : Int) + 1 = (b4.inputCount : Int); omega)]
      simp only [bind_ok, pure_ok, ensure_ok, TState.setSignatureDone, exists_unit]
      refine ⟨_, ⟨rfl, rfl⟩, ?_⟩
      simp only [bSign, List.length_append, List.length_singleton, hlast]
      simp
      omega
    · rw [if_neg (by show ¬ ((pre.length : Int) + 1 = (b4.inputCount : Int)); omega)]
      simp only [pure_ok]
      simp [bSign, hlast]

/-- All signatures, in the order of the inputs. -/
theorem signLoop_run {env : Env S P} (hp : Passes env) (hl : SignLaws env) {cfg : Config} (hcv : 1 ≤ cfg.clientVersion) {rnd : Nat → Rand S}
    (hu : ∀ k, (rnd k).uiOk = true) {b4 : Builder S P} {full : Bytes} {L : List (Nat × In S P)} (hs : Sig0 b4 full L) {subs : SubTable}
    (ho : ∀ x ∈ L, Owned env subs x.2) (hc : ∀ x ∈ L, CanSign env x.2) : ∀ (new pre : List (Nat × In S P)) (k : Nat), L = pre ++ new →
    ∃ rs, List.Forall₂ (Signed env full b4.inputCount (b4.sumout - b4.sumpouts)) new rs ∧
      signLoop env cfg rnd (new.map fun x => inRec env b4 x.1 x.2) (live (bSign b4 pre) k) =
        some (rs, live (bSign b4 L) (k + new.length)) := by
  intro new
  induction new with
  | nil =>
    intro pre k h
    rw [List.append_nil] at h
    exact ⟨[], .nil, by rw [← h]; rfl⟩
  | cons x new ih =>
    intro pre k h
    obtain ⟨r, h1, h2⟩ := sign_call hp hl (hu k) hs h (ho x (by rw [h]; simp)) (hc x (by rw [h]; simp))
    obtain ⟨rs, h3, h4⟩ := ih (pre ++ [x]) (k + 1) (by rw [h]; simp)
    refine ⟨r :: rs, .cons h1 h3, ?_⟩
    have hne : r.1 ≠ [] := by
      intro e
      have := hl.len (genC env (alphaOf b4.inputCount (b4.sumout - b4.sumpouts) x) x.2.src.amount)
      rw [← h1.1, e] at this
      simp at this
    rw [List.map_cons, signLoop]
    show (call env rnd (live (bSign b4 pre) k) (.signInput x.2.src (dumpVin env (vinOf env x.2)) (inRec env b4 x.1 x.2).hmac
        (inRec env b4 x.1 x.2).pseudoOut (inRec env b4 x.1 x.2).pseudoOutHmac (inRec env b4 x.1 x.2).alphaEnc (inRec env b4 x.1 x.2).spendEnc)).bind _ = _
    rw [h2, Option.bind_some]
    show (signLoop env cfg rnd _ _).map _ = _
    rw [h4, Option.map_some, if_pos ⟨by omega, hne⟩, List.length_cons]
    simp only [Nat.add_assoc, Nat.add_comm 1]

/-- The last message closes the session. -/
theorem final_call {env : Env S P} (hp : Passes env) {rnd : Nat → Rand S} {k : Nat} (hu : (rnd k).uiOk = true) {b4 : Builder S P}
    {L : List (Nat × In S P)} (hne : L ≠ []) (hn : L.length = b4.inputCount) {ph : Bytes} (hph : b4.prefixHash = some ph) :
    call env rnd (live (bSign b4 L) k) .final = some (.finalAck (rnd k).salt (env.scEnc (rnd k).randMult) (env.encPack (env.mac (rnd k).salt
      (env.keccak2 (env.scEnc (env.spendPriv + (rnd k).randMult) ++ ph))) (env.scEnc b4.r ++ (b4.addPriv.map env.scEnc).flatten)
      (rnd k).nonceFinal), ⟨⟨none⟩, k + 1⟩) := by
  have h1 : finalMsg env (bSign b4 L) (rnd k) = .ok ({ bSign b4 L with state := ⟨.FINAL, false⟩ }, .finalAck (rnd k).salt (env.scEnc (rnd k).randMult)
      (env.encPack (env.mac (rnd k).salt (env.keccak2 (env.scEnc (env.spendPriv + (rnd k).randMult) ++ ph)))
        (env.scEnc b4.r ++ (b4.addPriv.map env.scEnc).flatten) (rnd k).nonceFinal)) := by
    simp only [finalMsg, bind_ok, pure_ok, ensure_ok, orFail_ok, TState.setFinal, exists_unit]
    exact ⟨_, ⟨by simp [bSign, hne, hn], rfl⟩, ph, hph, hu, rfl⟩
  rw [call_ok hp.msg hp.resp (c := live (bSign b4 L) k) (m := .final) (by
    have : wakeUp (live (bSign b4 L) k).dev .final = bSign b4 L := by simp [wakeUp, live, Msg.isInit]
    rw [this]; exact h1) (by intro x; simp)]
  simp [TState.isTerminal, live]

/-! ### The host's checks when the outputs are closed -/

theorem dumpNat_zero : Varint.dumpNat 0 = [0] := by rw [Varint.dumpNat]; rfl

theorem dumpVout_key (k : Bytes) : dumpVout ⟨0, k⟩ = [0, 2] ++ k := by
  simp [dumpVout, dumpNat_zero]

theorem serEcdh_keep {cfg : Config} {ty : UInt8} {e : Bytes}
    (h : (10 ≤ cfg.hf ∧ ty = 4 ∧ e.length = 8) ∨ (cfg.hf = 9 ∧ ty = 3 ∧ e.length = 64)) :
    hostEcdh cfg e = some (keepEcdh cfg e) ∧ serEcdh ty (keepEcdh cfg e) = e := by
  rcases h with ⟨h1, rfl, h2⟩ | ⟨h1, rfl, h2⟩
  · have : hostEcdh cfg e = some ⟨nullKey, e ++ nullKey.drop 8⟩ := by unfold hostEcdh; rw [if_neg (by omega)]
    refine ⟨by rw [keepEcdh, this]; rfl, ?_⟩
    rw [keepEcdh, this]
    show (e ++ nullKey.drop 8).take 8 = e
    exact List.take_left' h2
  · have : hostEcdh cfg e = some ⟨e.take 32, (e.drop 32).take 32⟩ := by unfold hostEcdh; rw [if_pos h1, if_pos (by omega)]
    refine ⟨by rw [keepEcdh, this]; rfl, ?_⟩
    rw [keepEcdh, this]
    show e.take 32 ++ (e.drop 32).take 32 = e
    rw [List.take_of_length_le (l := e.drop 32) (by simp; omega), List.take_append_drop]

/-- The prefix and the message as the device hashes them are those of the transaction the host holds. -/
theorem allOutStep_run {env : Env S P} (hp : Passes env) {cfg : Config} {d : TxData} {rnd : Nat → Rand S} {k : Nat} (hu : (rnd k).uiOk = true)
    {b2 : Builder S P} {h0 : PreMlsag} {rs : List InRec} {ty : UInt8}
    (hm : Mid b2 (Varint.dumpNat 2 ++ Varint.dumpNat d.unlockTime ++ Varint.dumpNat rs.length ++ (rs.map fun r => dumpVin env r.vin).flatten) h0
      ([ty] ++ Varint.dumpNat b2.fee))
    (hmaster : h0.master = []) {os : List (OutV S P)} {ps : List Bp} {po off : Bool} {n : Nat} (hos : os ≠ []) (hlen : os.length = b2.outputCount)
    (hfee : b2.fee + (os.map (·.dst.amount)).sum = b2.sumIn) {tx : TxStub} (htx : b2.tx = some tx) (hty : b2.rctType = some ty)
    (hexp : b2.expPrefix = none) (he : ∀ o ∈ os, serEcdh ty (keepEcdh cfg o.ecdh) = o.ecdh) :
    ∃ t : Tx, t.unlockTime = d.unlockTime ∧ t.vin = rs.map (·.vin) ∧ t.vout = os.map (fun o => ⟨0, env.ptEnc o.key⟩) ∧
      t.extra = extraOf env b2 tx.extra os ∧
      t.rv = ⟨prefixHash env t.unlockTime t.vin t.vout t.extra, ty, b2.fee, os.map (·.ecdh), os.map (·.comm env), ps⟩ ∧
      allOutStep env d rnd rs (hostOut env cfg off os ps n) (live (bOut env b2 os ps [] po true) k) =
        some (t, live (bEnd (bOut env b2 os ps [] po true) t.rv.message (getPreMlsagHash env.keccak t.rv)) (k + 1)) := by
  have hpre : prefixHash env d.unlockTime (rs.map (·.vin)) (os.map fun o => ⟨0, env.ptEnc o.key⟩) (extraOf env b2 tx.extra os) =
      env.keccak (Varint.dumpNat 2 ++ Varint.dumpNat d.unlockTime ++ Varint.dumpNat rs.length ++ (rs.map fun r => dumpVin env r.vin).flatten ++
      (Varint.dumpNat b2.outputCount ++ (os.map (·.txOut env)).flatten) ++
      Varint.dumpNat (extraOf env b2 tx.extra os).length ++ extraOf env b2 tx.extra os) := by
    have e1 : (os.map fun o : OutV S P => (⟨0, env.ptEnc o.key⟩ : Vout)).map dumpVout = os.map (·.txOut env) := by
      rw [List.map_map]
      refine List.map_congr_left fun o _ => ?_
      exact dumpVout_key _
    unfold prefixHash TxPrefix.bytes
    rw [e1, List.map_map]
    simp only [List.length_map, hlen, List.append_assoc]
    rfl
  have hcall := allOut_call hp hu hm hmaster (ps := ps) (po := po) hos hlen hfee htx hty hexp hpre rfl
  refine ⟨⟨d.unlockTime, rs.map (·.vin), os.map (fun o => ⟨0, env.ptEnc o.key⟩), extraOf env b2 tx.extra os,
    ⟨prefixHash env d.unlockTime (rs.map (·.vin)) (os.map fun o => ⟨0, env.ptEnc o.key⟩) (extraOf env b2 tx.extra os), ty, b2.fee,
      os.map (·.ecdh), os.map (·.comm env), ps⟩, rs.map (·.pseudoOut), []⟩, rfl, rfl, rfl, rfl, rfl, ?_⟩
  unfold allOutStep
  rw [hcall, Option.bind_some]
  have e2 : (os.map fun o => keepEcdh cfg o.ecdh).map (serEcdh ty) = os.map (·.ecdh) := by
    rw [List.map_map]; exact List.map_congr_left fun o ho => he o ho
  have e3 : (os.map fun o => (env.ptEnc o.key, o.comm env)).map (·.2) = os.map (·.comm env) := by
    rw [List.map_map]; rfl
  simp only [hostOut, e2, e3]
  rw [if_pos trivial, if_pos (by simp [getPreMlsagHash, RctSig.base, List.append_assoc])]
  simp [getPreMlsagHash, RctSig.base, List.append_assoc]

end Verif.Agent

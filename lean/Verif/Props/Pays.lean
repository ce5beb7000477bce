import Verif.Lemmas.Pays
import Verif.Props.SignerPb
import Verif.Props.SignerHash
import Verif.Props.SignerValue

/-!
C109: what a host that may do anything can get out of the device. Every signature handed out fits one transaction only, and that transaction pays what the
user confirmed.
-/

set_option linter.unusedSectionVars false

namespace Verif.Signer
open Verif Agent
variable {S P : Type} [CommRing S] [AddCommGroup P] [Module S P] [DecidableEq S] [DecidableEq P]

theorem exists_table {α : Type} {Q : Nat → α → Prop} (n : Nat) (h : ∀ i, i < n → ∃ x, Q i x) :
    ∃ L : List α, L.length = n ∧ ∀ (i : Nat) (x : α), L[i]? = some x → Q i x := by
  induction n with
  | zero => exact ⟨[], rfl, by simp⟩
  | succ n ih =>
    obtain ⟨L, h1, h2⟩ := ih fun i hi => h i (by omega)
    obtain ⟨x, hx⟩ := h n (by omega)
    refine ⟨L ++ [x], by simp [h1], fun i y hy => ?_⟩
    rcases Nat.lt_trichotomy i L.length with hi | hi | hi
    · rw [List.getElem?_append_left hi] at hy; exact h2 i y hy
    · subst hi
      rw [List.getElem?_append_right (by omega), Nat.sub_self] at hy
      have : x = y := by simpa using hy
      rw [← this, h1]; exact hx
    · rw [List.getElem?_eq_none (by simp; omega)] at hy; cases hy

theorem map_eq_of_table {α β γ : Type} {L : List α} {K : List β} {f : α → γ} {f' : β → γ} (hl : L.length = K.length)
    (h : ∀ (i : Nat) (x : α), L[i]? = some x → ∃ y, K[i]? = some y ∧ f x = f' y) : L.map f = K.map f' := by
  apply List.ext_getElem?
  intro i
  rw [List.getElem?_map, List.getElem?_map]
  rcases Nat.lt_or_ge i L.length with hi | hi
  · obtain ⟨y, h1, h2⟩ := h i _ (List.getElem?_eq_getElem hi)
    rw [List.getElem?_eq_getElem hi, h1, Option.map_some, Option.map_some, h2]
  · rw [List.getElem?_eq_none hi, List.getElem?_eq_none (by omega), Option.map_none, Option.map_none]

/-- What the user confirmed is what the signature `v` pays: it was made over the message of a transaction `t` whose prefix and base are built from what the
user confirmed at the start of the session — one output for every confirmed destination, with its amount, the confirmed fee and unlock time, the inputs as
presented, and nothing else —; the registered inputs hold exactly the confirmed amounts and fee; the signature fits no other transaction, unless the two give
a hash collision; and the owner of every destination finds their output with a key in the extra field. -/
def ConfirmedPayment (env : Env S P) (log : List (Event S)) (v : SignRec) : Prop :=
  ∃ tsx rnd hmacs t type outs nonce txKey addKeys,
    initOf (session env log) = some (tsx, rnd, hmacs) ∧ rnd.confirm = true ∧
    Pays env tsx t type ((vinis (session env log)).map (·.vini)) outs nonce txKey addKeys ∧
    (∃ (secret alpha : S) (pOut : P) (rnd' : Bytes), env.mlsag (t.message env.keccak) v.src.outputs secret (env.scDec v.src.mask) alpha pOut
      v.src.realOutput rnd' = some v.signature) ∧
    ((inputs (session env log)).map (·.src.amount)).sum = (tsx.outputs.map (·.amount)).sum + tsx.fee ∧
    (∀ t' : Blobs, (∀ b, (env.keccak b).length = 32) → NoCollision env.keccak t' t → t'.message env.keccak = t.message env.keccak → t' = t) ∧
    ((∀ x ∈ tsx.outputs, ∀ y ∈ tsx.outputs, x.addr = y.addr → x.isSub = y.isSub) → ZeroChangeOk env tsx →
      ∀ (j : Nat) (o : Made S P), outs[j]? = some o → ∀ D w, Owner env o.dst D w → (o.dst.addr = env.primaryAddr tsx.account → w = env.viewPriv) →
        ∃ R, (R = txKey ∨ addKeys[j]? = some (env.ptEnc R)) ∧
          Recognises env type (2 ≤ tsx.bpVersion ∨ 0 < tsx.clientVersion) D w R j o)

theorem confirmed_payment {env : Env S P} (hr : ∀ r, env.respOk r = true)
    {log : List (Event S)} {d : Device S P} (h : Reach env log d)
    (hpin : ∀ tsx rnd hmacs, initOf (session env log) = some (tsx, rnd, hmacs) → .allOut ∈ kinds (session env log) →
      rnd.confirm = true ∧ (outputs (session env log)).map (·.dst) = tsx.outputs)
    {v : SignRec} (hv : v ∈ signs (session env log)) : ConfirmedPayment env log v := by
  rcases reach_obs hr h with h0 | ⟨hd, s, b, g, hI, e1, e2, e3, e4, e5, e6, e7⟩
  · rw [h0] at hv; simp [signs] at hv
  have hvs : v ∈ signs s := by rw [← e5]; exact hv
  have hcl : .allOut ∈ kinds s := hI.signStage hvs
  have hclosed : .allOut ∈ kinds (session env log) := by
    rcases e7 with ⟨e7, _⟩ | ⟨e7, _⟩ <;> rw [e7]
    · exact hcl
    · exact List.mem_append_left _ hcl
  obtain ⟨hconf, hdst⟩ := hpin _ _ _ e6 hclosed
  have hval := C07_value_conserved hr h e6 hclosed
  have hnh := hI.stage.notHashing hcl
  obtain ⟨-, -, hfull⟩ := hI.hashed hnh
  have holen : (outputs s).length = hd.tsx.outputs.length := by rw [← e4, ← hdst, List.length_map]
  have hne : outputs s ≠ [] := by
    intro e
    have hstage := hI.stage
    rw [e] at holen
    have : 0 < hd.tsx.outputs.length := by
      generalize b.state.s = st at hstage hnh
      cases st <;> simp only [Stage, St.hashing] at hstage hnh <;> first | exact absurd hnh (by decide) | omega | skip
      all_goals first | (obtain ⟨_, _, _, h, _⟩ := hstage; exact h) | (obtain ⟨_, _, _, _, h, _⟩ := hstage; exact h)
    simp at holen; omega
  have hst := hI.static
  have hst' := hst
  simp only [Builder.static, Prod.mk.injEq] at hst'
  obtain ⟨_, _, _, _, hna, _, hin, _, _, _, _, _, hbv, _⟩ := hst'
  obtain ⟨_, _, hdet⟩ := hI.modes
  have hv2 : b.isBpV2 = decide (hd.ty = 4) := by
    rw [Builder.isBpV2, hbv]
    rcases hI.initOk.tyOk with ⟨h1, h2⟩ | ⟨h1, h2⟩ <;> simp [Head.builder, initBuilder, h1, h2]
  -- the table of outputs
  obtain ⟨outs, hol, hov⟩ := exists_table (Q := fun i (o : Made S P) => ∃ r m rnd q, (outputs s)[i]? = some r ∧ g.masks[i]? = some m ∧
      o.dst = r.dst ∧ o.mask = m ∧ o.ecdh = r.ack.ecdh ∧ r.ack.txOut = [0, 2] ++ env.ptEnc o.key ∧ s6Derivation env b r.dst rnd = some q ∧
      ∃ sp, env.ptDec r.dst.addr.spend = some sp ∧ o.key = derivToScalar env q i • env.G + sp ∧
      (b.needAdd = true → g.addPub[i]? = some (env.ptEnc (rnd.addKey • (if r.dst.isSub then sp else env.G)))) ∧
      (b.isDetMask = true → m = env.hashToScalar (ascii "commitment_mask" ++ env.scEnc (derivToScalar env q i))) ∧
      env.ecdh m r.dst.amount (env.scEnc (derivToScalar env q i)) b.isBpV2 = some r.ack.ecdh) (outputs s).length (by
    intro i hi
    have hm : i < g.masks.length := by rw [hI.masksLen]; exact hi
    obtain ⟨_, _, rnd, q, sp, k1, k2, k3, k4, k5, _, k6⟩ := hI.outputsOk i _ _ (List.getElem?_eq_getElem hi) (List.getElem?_eq_getElem hm)
    exact ⟨⟨_, _, _, _⟩, _, _, rnd, q, List.getElem?_eq_getElem hi, List.getElem?_eq_getElem hm, rfl, rfl, rfl, k5, k1, sp, k2, rfl, k3, k4, k6⟩)
  have hdests : outs.map (·.dst) = hd.tsx.outputs := by
    rw [← hdst, e4]
    refine map_eq_of_table hol fun i x hx => ?_
    obtain ⟨r, m, _, _, k1, _, k2, _⟩ := hov i x hx
    exact ⟨r, k1, k2⟩
  have hvouts : (outs.map fun o => ([0, 2] ++ env.ptEnc o.key : Bytes)) = (outputs s).map (·.ack.txOut) := by
    refine map_eq_of_table hol fun i x hx => ?_
    obtain ⟨r, m, _, _, k1, _, _, _, _, k2, _⟩ := hov i x hx
    exact ⟨r, k1, k2.symm⟩
  have hecdh : outs.map (·.ecdh) = (outputs s).map (·.ack.ecdh) := by
    refine map_eq_of_table hol fun i x hx => ?_
    obtain ⟨r, m, _, _, k1, _, _, _, k2, _⟩ := hov i x hx
    exact ⟨r, k1, k2⟩
  have hcomm : (outs.map fun o => env.ptEnc (o.mask • env.G + (o.dst.amount : S) • env.H)) = commitments env s g := by
    have : commitments env s g = (List.zip g.masks (outputs s)).map fun p => env.ptEnc (genC env p.1 p.2.dst.amount) := by
      rw [commitments, List.map_zip_eq_zipWith]
      rfl
    rw [this]
    refine map_eq_of_table (by rw [List.length_zip, hI.masksLen, hol, Nat.min_self]) fun i x hx => ?_
    obtain ⟨r, m, _, _, k1, k2, k3, k4, _⟩ := hov i x hx
    refine ⟨(m, r), ?_, by dsimp only [genC]; rw [k3, k4]⟩
    rw [List.getElem?_zip_eq_some]
    exact ⟨k2, k1⟩
  have hvl : (vinis s).length = hd.tsx.numInputs := by
    rw [vinis_length]
    have hstage := hI.stage
    generalize b.state.s = st at hstage hnh
    cases st <;> simp only [Stage, St.hashing] at hstage hnh <;> first | exact absurd hnh (by decide) | skip
    · rw [hstage.2.2.2.2, preSign]; simp [preOut, preIn, List.count_replicate]
    · obtain ⟨k, _, _, _, _, hk⟩ := hstage
      rw [hk, preSign]; simp [preOut, preIn, List.count_replicate]
    · rw [hstage.2.2.2.2, preSign]; simp [preOut, preIn, List.count_replicate]
  obtain ⟨i, hi⟩ := List.mem_iff_getElem?.1 hvs
  obtain ⟨dd, u, _, _, pos, kA, aB, kS, sB, real, full, pOut, rnd', _, _, _, _, _, _, _, _, _, _, h4, h5, _⟩ := hI.signAt hi
  rw [hfull, Option.some_inj] at h4
  refine ⟨hd.tsx, hd.rnd, hd.hmacs, ⟨prefixBytes hd s ++ Varint.dumpNat (extraOf env hd g).length ++ extraOf env hd g,
      RctSig.base (rctOf env hd s g (prefixHashOf env hd s g)), ((g.batches.map (·.1)).map Bp.hashed).flatten⟩, hd.ty, outs, hd.extra, hd.rPub,
    if (hd.builder env).needAdd then g.addPub else [], e6, hconf, ⟨hdests, ?_, ?_⟩, ⟨env.scDec sB, u, pOut, rnd', ?_⟩, ?_, ?_, ?_⟩
  · have hx : extraOf env hd g = hd.extra ++ [1] ++ env.ptEnc hd.rPub ++ (if (if (hd.builder env).needAdd then g.addPub else []) = [] then [] else
        [4] ++ Varint.dumpNat (if (hd.builder env).needAdd then g.addPub else []).length ++ (if (hd.builder env).needAdd then g.addPub else []).flatten) := by
      rw [extraOf]
      cases hn : (hd.builder env).needAdd with
      | false => simp
      | true =>
        have hl := hI.addKeys (by rw [hna, hn])
        have hz : g.addPub ≠ [] := by
          intro e; rw [e] at hl
          exact hne (List.length_eq_zero_iff.1 hl.symm)
        simp [hz]
    dsimp only
    rw [← hx, hvouts]
    unfold TxPrefix.bytes
    dsimp only
    rw [prefixBytes, if_neg hne, e3]
    simp only [List.length_map, hvl, holen, List.append_assoc]
  · dsimp only
    rw [hecdh, hcomm]
    rfl
  · rw [← h4] at h5
    exact h5
  · rw [hval, ← hdst]
    simp only [List.map_map, Function.comp_def]
  · intro t' hlen hnc hmsg
    exact blobs_unique hlen hnc hmsg
  · intro hsub hz j o hj D w how hown
    obtain ⟨r, m, rnd, q, k1, k2, k3, k4, k5, k6, k7, sp, k8, k9, k10, k11, k12⟩ := hov j o hj
    have hmem : r.dst ∈ hd.tsx.outputs := by
      rw [← hdst, e4]; exact List.mem_map_of_mem (List.mem_of_getElem? k1)
    rw [k3] at how hown
    obtain rfl : sp = D := by have := how.spend; rw [k8] at this; simpa using this
    have hch : hd.tsx.change.map (·.addr) = some r.dst.addr → w = env.viewPriv := by
      intro hc
      obtain ⟨c, hc1, hc2⟩ := Option.map_eq_some_iff.1 hc
      apply hown
      rw [← hc2]
      have hck := hI.initOk.changeOk
      rw [hc1] at hck
      unfold checkChange at hck
      dsimp only at hck
      split at hck
      · rename_i hzz
        simp only [Bool.and_eq_true, beq_iff_eq] at hzz
        rcases hz c hc1 hzz.1.2 with h | h
        · exact h
        · exact absurd hc2.symm (h _ hmem)
      · simp only [bind_ok, ensure_ok, exists_unit] at hck
        exact ((addrEq_iff _ _).1 hck.2).symm
    obtain ⟨Q, hQ, hq⟩ := hI.found hsub hmem k7 k8 how hch
    have hak : derivToScalar env q j = shared env w Q j := by rw [derivToScalar, shared, hq]
    refine ⟨Q, ?_, ?_, ?_, ?_⟩
    · rcases hQ with h | ⟨h1, h2⟩
      · exact .inl h
      · right
        rw [if_pos h1, h2]
        exact k10 (by rw [hna, h1])
    · rw [k9, hak]
    · intro hd'
      rw [k4, ← hak]
      refine k11 ?_
      rw [hdet]
      simpa using hd'
    · rw [k4, k3, k5, ← hak, ← hv2]
      exact k12

/-- C109. Whatever messages the host sends, in whatever order, as long as it does not forge the device's tags on the destinations: a signature in the session
pays what the user confirmed. -/
theorem C109_confirmed_payment_partial {env : Env S P} (hB : Binding env) (hpb : env.pbDst = Dst.pb) (hr : ∀ r, env.respOk r = true)
    {log : List (Event S)} {d : Device S P} (h : Reach env log d) (hissued : ∀ o ∈ outputs (session env log), o.hmac ∈ issued (session env log))
    {v : SignRec} (hv : v ∈ signs (session env log)) : ConfirmedPayment env log v :=
  confirmed_payment hr h (fun _ _ _ e hc => C06_outputs_real hB hpb hr h e hissued hc) hv

/-- The premises are met: a complete session that pays two destinations. -/
example : Binding pbEnv ∧ ∃ (log : List (Event Int)) (d : Device Int Int), Reach pbEnv log d ∧
    (∀ o ∈ outputs (session pbEnv log), o.hmac ∈ issued (session pbEnv log)) ∧ (signs (session pbEnv log)).length = 2 ∧
    (initOf (session pbEnv log)).map (fun x => (x.1.outputs, x.1.change.isSome)) = some ([Demo.dst 1, Demo.dst2 3], false) ∧
    Owner pbEnv (Demo.dst 1) 4 4 ∧ Owner pbEnv (Demo.dst2 3) 6 6 := by
  refine ⟨pbEnv_binding, _, _, Demo.drive_reach (Demo.honest 2) .start, ?_, ?_, ?_, ⟨?_, ?_⟩, ?_, ?_⟩ <;> decide +kernel

/-! ### A confirmed payment its recipient cannot find -/

/-- The host declares a change of zero to the address of the first destination. -/
def burnHost : Demo.Host :=
  [Demo.mInit { Demo.tsx 1 [Demo.dst 1, Demo.dst2 3] [2] 2 with change := some ⟨0, (Demo.dst 1).addr, false⟩ }, Demo.mInput (Demo.src 5 7) 10,
   Demo.mPerm [0], Demo.mVini 0, Demo.mAllIn, Demo.mOut (Demo.dst 1) 0, Demo.mOut (Demo.dst2 3) 1, Demo.mAllOut, Demo.mSign 0, Demo.mFinal]

def burnLog : List (Event Int) := (Demo.drive pbEnv burnHost [] {}).1

/-- C109, disagreement: `ZeroChangeOk` is needed. A zero change is not compared with the wallet's address (tsx_sign_builder.py:208-210), and an output to the change address is made with
the wallet's own view key. A host that declares a zero change to the recipient gets a complete transaction signed whose output to the confirmed recipient is
not the one the recipient looks for, with the transaction key of the session, and there are no additional keys: the amount is lost. -/
theorem C109_false_lost : ∃ (log : List (Event Int)) (d : Device Int Int) (x p full : Bytes) (fee : Nat) (ty : UInt8) (e : Event Int) (o : OutputRec),
    Reach pbEnv log d ∧ kinds (session pbEnv log) = protocol 1 1 2 ∧ (∀ o ∈ outputs (session pbEnv log), o.hmac ∈ issued (session pbEnv log)) ∧
    (initOf (session pbEnv log)).map (fun t => (t.1.outputs, t.2.1.confirm)) = some ([Demo.dst 1, Demo.dst2 3], true) ∧
    e ∈ session pbEnv log ∧ e.resp = .allOutAck x p fee ty full ∧
    -- the extra field ends with the transaction key: there is no additional key
    (∃ nonce, x = nonce ++ [1] ++ pbEnv.ptEnc 1 ∧ nonce.take 2 = [2, 33]) ∧
    (outputs (session pbEnv log))[0]? = some o ∧ o.dst = Demo.dst 1 ∧ Owner pbEnv o.dst 4 4 ∧
    o.ack.txOut ≠ [0, 2] ++ pbEnv.ptEnc (shared pbEnv 4 1 0 • pbEnv.G + 4) := by
  have h1 : kinds (session pbEnv burnLog) = protocol 1 1 2 := by decide +kernel
  have h2 : ((session pbEnv burnLog).any fun e => match e.resp with
      | .allOutAck x _ _ _ _ => decide (x = x.take 35 ++ [1] ++ pbEnv.ptEnc 1) && decide ((x.take 35).take 2 = [2, 33])
      | _ => false) = true := by decide +kernel
  have h3 : ((outputs (session pbEnv burnLog))[0]?.any fun o => decide (o.dst = Demo.dst 1) &&
      decide (o.ack.txOut ≠ [0, 2] ++ pbEnv.ptEnc (shared pbEnv 4 1 0 • pbEnv.G + 4))) = true := by decide +kernel
  have h4 : ∀ o ∈ outputs (session pbEnv burnLog), o.hmac ∈ issued (session pbEnv burnLog) := by decide +kernel
  have h5 : (initOf (session pbEnv burnLog)).map (fun t => (t.1.outputs, t.2.1.confirm)) = some ([Demo.dst 1, Demo.dst2 3], true) := by decide +kernel
  have how : Owner pbEnv (Demo.dst 1) 4 4 := ⟨by decide +kernel, by decide +kernel⟩
  obtain ⟨e, he, h2⟩ := List.any_eq_true.1 h2
  obtain ⟨x, p, fee, ty, full, hx⟩ : ∃ x p fee ty full, e.resp = .allOutAck x p fee ty full := by
    split at h2
    · exact ⟨_, _, _, _, _, ‹_›⟩
    · cases h2
  rw [hx] at h2
  simp only [Bool.and_eq_true, decide_eq_true_eq] at h2
  cases ho : (outputs (session pbEnv burnLog))[0]? with
  | none => rw [ho] at h3; simp at h3
  | some o =>
    rw [ho] at h3
    simp only [Option.any_some, Bool.and_eq_true, decide_eq_true_eq] at h3
    exact ⟨burnLog, _, x, p, full, fee, ty, e, o, Demo.drive_reach burnHost .start, h1, h4, h5, he, hx, ⟨x.take 35, h2.1, h2.2⟩, ho, h3.1,
      by rw [h3.1]; exact how, h3.2⟩

end Verif.Signer

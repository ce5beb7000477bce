import Verif.Lemmas.SignerTags
import Verif.Lemmas.SignerDemo

/-!
C05, C06, C13: the device's tags pin inputs and outputs; key separation.

Unforgeability appears as the hypothesis that a presented tag is one of the tags the device issued in the
session (`issued`); collision freeness as `Binding env`.
-/

set_option linter.unusedSectionVars false

namespace Verif.Signer
open Verif
variable {S P : Type} [CommRing S] [AddCommGroup P] [Module S P] [DecidableEq S] [DecidableEq P]

/-! ### C05 -/

/-- C05 (partial): the `i`-th prefix input carries the tag of the input registered at the position the
permutation names, and source entry followed by prefix input are the registered bytes. Missing from the
full statement: that the two parts agree separately; it needs a serialiser of source entries that marks
its end (`C05_prefix_input_delimited`), which protobuf does not (`C05_bytes_can_move`). -/
theorem C05_prefix_input_partial {env : Env S P} (hB : Binding env) (hr : ∀ r, env.respOk r = true)
    {log : List (Event S)} {d : Device S P} (h : Reach env log d) {i : Nat} {v : ViniRec}
    (hv : (vinis (session env log))[i]? = some v) (hissued : v.hmac ∈ issued (session env log)) :
    ∃ p pos r, perms (session env log) = [p] ∧ p[i]? = some pos ∧ (inputs (session env log))[pos]? = some r ∧
      r.viniHmac = v.hmac ∧ env.pbSrc r.src ++ r.vini = env.pbSrc v.src ++ v.vini := by
  rcases reach_obs hr h with h0 | ⟨hd, s, b, g, hI, e1, e2, e3, e4, e5, e6, _⟩
  · rw [h0] at hv; simp [vinis] at hv
  · have hiss : issued (session env log) = issued s := by
      unfold issued; rw [e1, e4, e6, initOf_head hI.head]
    rw [hiss] at hissued
    rw [e3] at hv
    obtain ⟨pos, hp, hm⟩ := hI.vinisOk i v hv
    obtain ⟨r, h1, h2, h3⟩ := hI.viniTag hB hm hissued
    have hperm : b.state.s.permSet = true := by
      have hlen : 0 < (kinds s).count .vini := by
        rw [← vinis_length]
        exact List.length_pos_iff.2 (fun hc => by simp [hc] at hv)
      have hst := hI.stage
      cases hs : b.state.s <;> rw [hs] at hst <;> simp only [Stage] at hst <;> first | rfl | skip
      · rw [hst.2.2] at hlen; simp at hlen
      · obtain ⟨k, _, _, _, hk⟩ := hst; rw [hk] at hlen; simp [List.count_replicate] at hlen
      · rw [hst.2.2.2] at hlen; simp [List.count_replicate] at hlen
    rw [e2, hI.perm hperm, e1]
    exact ⟨b.perm, pos, r, rfl, hp, h1, h2, h3⟩

/-- C05 (partial), signing phase: same as `C05_prefix_input_partial` for the input of the `i`-th signature. -/
theorem C05_signed_input_partial {env : Env S P} (hB : Binding env) (hr : ∀ r, env.respOk r = true)
    {log : List (Event S)} {d : Device S P} (h : Reach env log d) {i : Nat} {v : SignRec}
    (hv : (signs (session env log))[i]? = some v) (hissued : v.viniHmac ∈ issued (session env log)) :
    ∃ p pos r, perms (session env log) = [p] ∧ p[i]? = some pos ∧ (inputs (session env log))[pos]? = some r ∧
      r.viniHmac = v.viniHmac ∧ env.pbSrc r.src ++ r.vini = env.pbSrc v.src ++ v.vini := by
  rcases reach_obs hr h with h0 | ⟨hd, s, b, g, hI, e1, e2, e3, e4, e5, e6, _⟩
  · rw [h0] at hv; simp [signs] at hv
  · have hiss : issued (session env log) = issued s := by
      unfold issued; rw [e1, e4, e6, initOf_head hI.head]
    rw [hiss] at hissued
    rw [e5] at hv
    have hi : i < (signs s).length := (List.getElem?_eq_some_iff.1 hv).1
    have hd1 : i < g.dec.length := by rw [hI.signLen.1]; exact hi
    have hd2 : i < g.used.length := by rw [hI.signLen.2]; exact hi
    obtain ⟨pos, kA, aB, kS, sB, real, full, pOut, rnd, hp, hm, _⟩ :=
      hI.signsOk i v _ _ hv (List.getElem?_eq_getElem hd1) (List.getElem?_eq_getElem hd2)
    obtain ⟨r, h1, h2, h3⟩ := hI.viniTag hB hm hissued
    have hperm : b.state.s.permSet = true := by
      have hlen : 0 < (kinds s).count .sign := by rw [← signs_length]; omega
      have hst := hI.stage
      cases hs : b.state.s <;> rw [hs] at hst <;> simp only [Stage] at hst <;> first | rfl | skip
      · rw [hst.2.2] at hlen; simp at hlen
      · obtain ⟨k, _, _, _, hk⟩ := hst; rw [hk] at hlen; simp [List.count_replicate] at hlen
      · rw [hst.2.2.2] at hlen; simp [List.count_replicate] at hlen
    rw [e2, hI.perm hperm, e1]
    exact ⟨b.perm, pos, r, rfl, hp, h1, h2, h3⟩

/-- C05 with a serialiser that marks its end: prefix inputs are the registered ones. -/
theorem C05_prefix_input_delimited {env : Env S P} (hB : Binding env)
    (hpb : ∀ a b x y, env.pbSrc a ++ x = env.pbSrc b ++ y → a = b ∧ x = y) (hr : ∀ r, env.respOk r = true)
    {log : List (Event S)} {d : Device S P} (h : Reach env log d) {i : Nat} {v : ViniRec}
    (hv : (vinis (session env log))[i]? = some v) (hissued : v.hmac ∈ issued (session env log)) :
    ∃ p pos r, perms (session env log) = [p] ∧ p[i]? = some pos ∧ (inputs (session env log))[pos]? = some r ∧
      v = ⟨r.src, r.vini, r.viniHmac⟩ := by
  obtain ⟨p, pos, r, h1, h2, h3, h4, h5⟩ := C05_prefix_input_partial hB hr h hv hissued
  obtain ⟨h6, h7⟩ := hpb _ _ _ _ h5
  exact ⟨p, pos, r, h1, h2, h3, by rw [h4, h6, h7]⟩

/-- C05 with a serialiser that marks its end: signed inputs are the registered ones. -/
theorem C05_signed_input_delimited {env : Env S P} (hB : Binding env)
    (hpb : ∀ a b x y, env.pbSrc a ++ x = env.pbSrc b ++ y → a = b ∧ x = y) (hr : ∀ r, env.respOk r = true)
    {log : List (Event S)} {d : Device S P} (h : Reach env log d) {i : Nat} {v : SignRec}
    (hv : (signs (session env log))[i]? = some v) (hissued : v.viniHmac ∈ issued (session env log)) :
    ∃ p pos r, perms (session env log) = [p] ∧ p[i]? = some pos ∧ (inputs (session env log))[pos]? = some r ∧
      v.src = r.src ∧ v.vini = r.vini := by
  obtain ⟨p, pos, r, h1, h2, h3, h4, h5⟩ := C05_signed_input_partial hB hr h hv hissued
  obtain ⟨h6, h7⟩ := hpb _ _ _ _ h5
  exact ⟨p, pos, r, h1, h2, h3, h6.symm, h7.symm⟩

/-- Demo primitives with a serialiser that marks its end satisfy the hypotheses. -/
def markedEnv : Env Int Int := { Demo.env with pbSrc := Demo.encSrcMarked }

example : Binding markedEnv ∧ (∀ a b x y, markedEnv.pbSrc a ++ x = markedEnv.pbSrc b ++ y → a = b ∧ x = y) :=
  ⟨⟨Demo.binding.keyLen, Demo.binding.keyInj, Demo.binding.macInj, Demo.binding.hashInj⟩, Demo.pf_src⟩

example : ∃ (log : List (Event Int)) (d : Device Int Int), Reach markedEnv log d ∧
    (signs (session markedEnv log)).length = 2 ∧ (vinis (session markedEnv log)).length = 2 ∧
    (∀ v ∈ signs (session markedEnv log), v.viniHmac ∈ issued (session markedEnv log)) ∧
    (∀ v ∈ vinis (session markedEnv log), v.hmac ∈ issued (session markedEnv log)) := by
  refine ⟨_, _, Demo.drive_reach (Demo.honest 2) .start, ?_, ?_, ?_, ?_⟩ <;> decide +kernel

/-- A source entry whose last optional field is present. -/
def srcMinor : Src := { Demo.src 7 7 with subaddrMinor := some 3 }

/-- The prefix input is presented with the bytes of that field moved from the entry in front of it. -/
def movingHost : Demo.Host :=
  [Demo.mInit (Demo.tsx 1 [Demo.dst 1, Demo.dst2 5] [2] 2), Demo.mInput srcMinor 10, Demo.mPerm [0],
   fun log => match (inputs log)[0]? with
     | some r => (.inputVini (Demo.src 7 7) (Demo.encNat 3 ++ r.vini) r.viniHmac, Demo.rnd 0)
     | none => (.malformed, Demo.rnd 0),
   Demo.mAllIn, Demo.mOut (Demo.dst 1) 0, Demo.mOut (Demo.dst2 5) 1, Demo.mAllOut, Demo.mSign 0, Demo.mFinal]

/-- C05, disagreement: if the serialiser writes nothing for an absent optional last field (as protobuf
does), a host that only replays issued tags gets a prefix input accepted, and the transaction signed, that
the device never produced. -/
theorem C05_bytes_can_move : ∃ (log : List (Event Int)) (d : Device Int Int),
    Reach Demo.env log d ∧ Binding Demo.env ∧ (∀ r, Demo.env.respOk r = true) ∧
    kinds (session Demo.env log) = protocol 1 1 2 ∧
    ∃ v, (vinis (session Demo.env log))[0]? = some v ∧ v.hmac ∈ issued (session Demo.env log) ∧
      ∀ r ∈ inputs (session Demo.env log), r.vini ≠ v.vini ∧ r.src ≠ v.src := by
  have h1 : kinds (session Demo.env (Demo.demoLog movingHost)) = protocol 1 1 2 := by decide +kernel
  have h2 : ((vinis (session Demo.env (Demo.demoLog movingHost)))[0]?.any fun v =>
      decide (v.hmac ∈ issued (session Demo.env (Demo.demoLog movingHost))) &&
      (inputs (session Demo.env (Demo.demoLog movingHost))).all fun r =>
        decide (r.vini ≠ v.vini) && decide (r.src ≠ v.src)) = true := by decide +kernel
  refine ⟨_, _, Demo.demo_reach movingHost, Demo.binding, fun _ => rfl, h1, ?_⟩
  cases hv : (vinis (session Demo.env (Demo.demoLog movingHost)))[0]? with
  | none => rw [hv] at h2; simp at h2
  | some v =>
    rw [hv] at h2
    simp only [Option.any_some, Bool.and_eq_true, decide_eq_true_eq, List.all_eq_true] at h2
    exact ⟨v, rfl, h2.1, h2.2⟩

/-! ### C06 -/

/-- C06: the destination accepted as output `i` is the confirmed destination `i`. -/
theorem C06_output_confirmed {env : Env S P} (hB : Binding env) (hpb : ∀ x y, env.pbDst x = env.pbDst y → x = y)
    (hr : ∀ r, env.respOk r = true) {log : List (Event S)} {d : Device S P} (h : Reach env log d)
    {tsx : TsxData} {rnd : Rand S} {hmacs : List Bytes} (hinit : initOf (session env log) = some (tsx, rnd, hmacs))
    {i : Nat} {o : OutputRec} (ho : (outputs (session env log))[i]? = some o)
    (hissued : o.hmac ∈ issued (session env log)) : rnd.confirm = true ∧ tsx.outputs[i]? = some o.dst := by
  rcases reach_obs hr h with h0 | ⟨hd, s, b, g, hI, e1, e2, e3, e4, e5, e6, _⟩
  · rw [h0] at ho; simp [outputs] at ho
  · have hiss : issued (session env log) = issued s := by
      unfold issued; rw [e1, e4, e6, initOf_head hI.head]
    rw [hiss] at hissued
    rw [e4] at ho
    rw [e6] at hinit
    simp only [Option.some.injEq, Prod.mk.injEq] at hinit
    obtain ⟨rfl, rfl, rfl⟩ := hinit
    have hi : i < g.masks.length := by rw [hI.masksLen]; exact (List.getElem?_eq_some_iff.1 ho).1
    have hok := hI.outputsOk i o _ ho (List.getElem?_eq_getElem hi)
    exact ⟨hI.initOk.confirmed, hI.dstTag hB hpb hok.1 hissued⟩

/-- C06: once the outputs are closed (so whenever something is signed) the accepted destinations are exactly
the confirmed list, in order. -/
theorem C06_outputs_confirmed {env : Env S P} (hB : Binding env) (hpb : ∀ x y, env.pbDst x = env.pbDst y → x = y)
    (hr : ∀ r, env.respOk r = true) {log : List (Event S)} {d : Device S P} (h : Reach env log d)
    {tsx : TsxData} {rnd : Rand S} {hmacs : List Bytes} (hinit : initOf (session env log) = some (tsx, rnd, hmacs))
    (hissued : ∀ o ∈ outputs (session env log), o.hmac ∈ issued (session env log))
    (hclosed : .allOut ∈ kinds (session env log)) :
    rnd.confirm = true ∧ (outputs (session env log)).map (·.dst) = tsx.outputs := by
  have hlen : (outputs (session env log)).length = tsx.outputs.length ∧ rnd.confirm = true := by
    rcases reach_obs hr h with h0 | ⟨hd, s, b, g, hI, e1, e2, e3, e4, e5, e6, e7⟩
    · rw [h0] at hclosed; simp [kinds] at hclosed
    · rw [e6] at hinit
      simp only [Option.some.injEq, Prod.mk.injEq] at hinit
      obtain ⟨rfl, rfl, rfl⟩ := hinit
      refine ⟨?_, hI.initOk.confirmed⟩
      have hc : .allOut ∈ kinds s := by
        rcases e7 with ⟨e7, _⟩ | ⟨e7, _⟩ <;> rw [e7] at hclosed
        · exact hclosed
        · simpa using hclosed
      rw [e4, outputs_length]
      obtain ⟨k, hp, _, _, hpre⟩ := hI.stage.prefix
      have a1 := (hpre hc).sublist.count_le Kind.output
      have a2 := hp.sublist.count_le Kind.output
      rw [count_preSign] at a1
      simp [protocol, List.count_append, List.count_replicate] at a1 a2
      omega
  refine ⟨hlen.2, ?_⟩
  apply List.ext_getElem?
  intro i
  rw [List.getElem?_map]
  cases ho : (outputs (session env log))[i]? with
  | none =>
    have := List.getElem?_eq_none_iff.1 ho
    simp only [Option.map_none]
    exact (List.getElem?_eq_none_iff.2 (by omega)).symm
  | some o =>
    have hmem : o ∈ outputs (session env log) := List.mem_of_getElem? ho
    rw [(C06_output_confirmed hB hpb hr h hinit ho (hissued o hmem)).2]
    rfl

/-- The hypotheses of the C06 theorems are met by the honest session. -/
example : Binding Demo.env ∧ (∀ x y, Demo.env.pbDst x = Demo.env.pbDst y → x = y) ∧
    (∀ o ∈ outputs (session Demo.env (Demo.demoLog (Demo.honest 2))),
      o.hmac ∈ issued (session Demo.env (Demo.demoLog (Demo.honest 2)))) ∧
    (outputs (session Demo.env (Demo.demoLog (Demo.honest 2)))).length = 2 ∧
    .allOut ∈ kinds (session Demo.env (Demo.demoLog (Demo.honest 2))) := by
  refine ⟨Demo.binding, fun x y h => ?_, ?_, ?_, ?_⟩
  · exact (Demo.pf_dst x y [] [] (congrArg (· ++ []) h)).1
  all_goals decide +kernel

/-- C06, rejection: a tag the device did not compute for that position is refused, whatever it is. (No
assumption on the primitives.) -/
theorem C06_wrong_tag_rejected {env : Env S P} (hr : ∀ r, env.respOk r = true) {log : List (Event S)}
    {d : Device S P} (h : Reach env log d) {i : Nat} {o : OutputRec}
    (ho : (outputs (session env log))[i]? = some o) :
    ∃ key, hmacDst env key o.dst i = some o.hmac ∧
      ∀ {tsx rnd hmacs}, initOf (session env log) = some (tsx, rnd, hmacs) →
        hmacDsts env key tsx.outputs 0 = some hmacs := by
  rcases reach_obs hr h with h0 | ⟨hd, s, b, g, hI, e1, e2, e3, e4, e5, e6, _⟩
  · rw [h0] at ho; simp [outputs] at ho
  · rw [e4] at ho
    have hi : i < g.masks.length := by rw [hI.masksLen]; exact (List.getElem?_eq_some_iff.1 ho).1
    refine ⟨b.keyHmac, (hI.outputsOk i o _ ho (List.getElem?_eq_getElem hi)).1, ?_⟩
    intro tsx rnd hmacs hinit
    rw [e6] at hinit
    simp only [Option.some.injEq, Prod.mk.injEq] at hinit
    obtain ⟨rfl, rfl, rfl⟩ := hinit
    rw [hI.keyHmac]
    exact hI.initOk.hmacsOk

/-! ### C13 -/

/-- C13: with a 32-byte secret, different (purpose, index) pairs give different buffers. -/
theorem C13_buffers_separate {secret buf : Bytes} (hs : secret.length = 32) {p q : Purpose} {i j : Nat}
    (h1 : keyBuf secret p.label (some i) = some buf) (h2 : keyBuf secret q.label (some j) = some buf) :
    p = q ∧ i = j := by
  obtain ⟨r1, _⟩ := keyBuf_some hs h1
  obtain ⟨r2, _⟩ := keyBuf_some hs h2
  rw [r1] at r2
  exact keyTail_inj (List.append_cancel_left r2)

/-- C13: different 32-byte secrets give different buffers. -/
theorem C13_secrets_separate {s1 s2 buf : Bytes} (h1 : s1.length = 32) (h2 : s2.length = 32) {p q : Purpose}
    {i j : Nat} (e1 : keyBuf s1 p.label (some i) = some buf) (e2 : keyBuf s2 q.label (some j) = some buf) :
    s1 = s2 := by
  obtain ⟨r1, _⟩ := keyBuf_some h1 e1
  obtain ⟨r2, _⟩ := keyBuf_some h2 e2
  rw [r1] at r2
  exact (List.append_inj r2 (by omega)).1

theorem keyFor_of {env : Env S P} {secret k : Bytes} {p : Purpose} {i : Nat} (h : buildKey env secret p.label (some i) = some k) :
    KeyFor env secret p i k := by
  obtain ⟨buf, h1, h2⟩ := Option.map_eq_some_iff.1 h
  exact ⟨buf, h1, h2.symm⟩

theorem tagFor_of {env : Env S P} {secret data t : Bytes} {p : Purpose} {i : Nat} (h : tag env secret p.label i data = some t) :
    ∃ k, KeyFor env secret p i k ∧ t = env.mac k data := by
  obtain ⟨k, h1, h2⟩ := Option.map_eq_some_iff.1 h
  exact ⟨k, keyFor_of h1, h2.symm⟩

/-- C13: what is handed out for the `i`-th input of a session is protected by four different keys: prefix input and pseudo output are
tagged, pseudo output mask and spend secret encrypted, each under the key of its own purpose at position `i`; the two secrets are those of
the session. -/
theorem C13_input_keys {env : Env S P} (hr : ∀ r, env.respOk r = true) {log : List (Event S)} {d : Device S P} (h : Reach env log d) :
    ∃ hmac enc : Bytes, ∀ (i : Nat) (r : InputRec S), (inputs (session env log))[i]? = some r →
      (∃ k, KeyFor env hmac .txin i k ∧ r.viniHmac = env.mac k (env.keccak (env.pbSrc r.src ++ r.vini))) ∧
      (∃ k, KeyFor env hmac .txinComm i k ∧ r.pseudoOutHmac = env.mac k r.pseudoOut) ∧
      (∃ k, KeyFor env enc .txinAlpha i k ∧ r.alphaEnc = env.encPack k (env.scEnc r.rnd.alpha) r.rnd.nonceAlpha) ∧
      ∃ k x, KeyFor env enc .spend i k ∧ r.spendEnc = env.encPack k (env.scEnc x) r.rnd.nonceSpend := by
  rcases reach_obs hr h with h0 | ⟨hd, s, b, g, hI, e1, e2, e3, e4, e5, e6, _⟩
  · exact ⟨[], [], fun i r hi => by rw [h0] at hi; simp [inputs] at hi⟩
  · refine ⟨b.keyHmac, b.keyEnc, fun i r hi => ?_⟩
    rw [e1] at hi
    obtain ⟨h1, _, h3, ⟨k, h4, h5⟩, ⟨_, _, _, _, _, xi, _, k', _, _, _, _, _, _, h6, h7⟩⟩ := hI.inputsOk i r hi
    exact ⟨tagFor_of (p := .txin) h1, tagFor_of (p := .txinComm) h3, ⟨k, keyFor_of (p := .txinAlpha) h4, h5⟩,
      ⟨k', xi, keyFor_of (p := .spend) h6, h7⟩⟩

/-- C13: the same for the outputs: destination and prefix output are tagged under keys of their own. -/
theorem C13_output_keys {env : Env S P} (hr : ∀ r, env.respOk r = true) {log : List (Event S)} {d : Device S P} (h : Reach env log d) :
    ∃ hmac : Bytes, ∀ (i : Nat) (r : OutputRec), (outputs (session env log))[i]? = some r →
      (∃ k, KeyFor env hmac .txdst i k ∧ r.hmac = env.mac k (env.keccak (env.pbDst r.dst))) ∧
      ∃ k, KeyFor env hmac .txout i k ∧ r.ack.voutiHmac = env.mac k (env.keccak (env.pbDst r.dst ++ r.ack.txOut)) := by
  rcases reach_obs hr h with h0 | ⟨hd, s, b, g, hI, e1, e2, e3, e4, e5, e6, _⟩
  · exact ⟨[], fun i r hi => by rw [h0] at hi; simp [outputs] at hi⟩
  · refine ⟨b.keyHmac, fun i r hi => ?_⟩
    rw [e4] at hi
    obtain ⟨m, hm⟩ : ∃ m, g.masks[i]? = some m := by
      have hi' : i < (outputs s).length := (List.getElem?_eq_some_iff.1 hi).1
      have : i < g.masks.length := by rw [hI.masksLen]; exact hi'
      exact ⟨g.masks[i], List.getElem?_eq_getElem this⟩
    obtain ⟨h1, h2, _⟩ := hI.outputsOk i r m hi hm
    exact ⟨tagFor_of (p := .txdst) h1, tagFor_of (p := .txout) h2⟩

/-- Labels as used with an index: the buffer has 48 bytes, and an index that does not fit raises instead of
being truncated. -/
theorem C13_no_truncation {secret : Bytes} (hs : secret.length = 32) (p : Purpose) (i : Nat) :
    (keyBuf secret p.label (some i) = none ↔ 16 < p.label.length + (Varint.dumpNat i).length) ∧
    ∀ buf, keyBuf secret p.label (some i) = some buf → buf.length = 48 ∧
      ∃ pad, buf = secret ++ p.label ++ Varint.dumpNat i ++ pad ∧ ∀ x ∈ pad, x = 0 := by
  constructor
  · unfold keyBuf
    simp only [List.length_append]
    split <;> rename_i hc
    · simp; omega
    · simp; omega
  · intro buf h
    obtain ⟨h1, h2⟩ := keyBuf_some hs h
    refine ⟨by rw [h1]; simp; omega, List.replicate (16 - (p.label ++ Varint.dumpNat i).length) 0, ?_, ?_⟩
    · rw [h1, keyTail]; simp
    · intro x hx; exact (List.mem_replicate.1 hx).2

/-- Every purpose accepts every index below 2^42. -/
theorem C13_room (secret : Bytes) (hs : secret.length = 32) (p : Purpose) (i : Nat) (hi : i < 2 ^ 42) :
    ∃ buf, keyBuf secret p.label (some i) = some buf := by
  have hl : p.label.length ≤ 10 := by cases p <;> decide +kernel
  have h6 : (Varint.dumpNat i).length ≤ 6 := by
    have step : ∀ n k, n < 2 ^ (7 * (k + 1)) → (Varint.dumpNat n).length ≤ k + 1 := by
      intro n k
      induction k generalizing n with
      | zero => intro h; rw [Varint.dumpNat_length, if_pos (by omega)]
      | succ k ih =>
        intro h
        rw [Varint.dumpNat_length]
        split
        · omega
        · have := ih (n / 128) (by
            apply Nat.div_lt_of_lt_mul
            calc n < 2 ^ (7 * (k + 1 + 1)) := h
              _ = 128 * 2 ^ (7 * (k + 1)) := by rw [show 7 * (k + 1 + 1) = 7 * (k + 1) + 7 by ring, pow_add]; ring)
          omega
    exact step i 5 hi
  have : keyBuf secret p.label (some i) ≠ none := by
    rw [Ne, (C13_no_truncation hs p i).1]; omega
  exact Option.ne_none_iff_exists'.1 this

/-- C13, disagreement: a key derived without an index equals the key for index 0. (The signer uses the
`cout` purpose only without index, the others only with one.) -/
theorem C13_no_index_is_index_zero (secret : Bytes) (hs : secret.length = 32) (p : Purpose) :
    keyBuf secret p.label none = keyBuf secret p.label (some 0) := by
  have hl : p.label.length ≤ 10 := by cases p <;> decide +kernel
  have h0 : Varint.dumpNat 0 = [0] := by rw [Varint.dumpNat_eq]; rfl
  have h1 : ((secret ++ List.replicate 48 0).take 48) = secret ++ List.replicate 16 (0 : UInt8) := by
    rw [List.take_append, hs, List.take_of_length_le (by omega)]
    simp
  unfold keyBuf
  simp only [h0, List.append_nil, List.length_append, List.length_singleton]
  rw [if_pos (by omega), if_pos (by omega), h1, List.take_append, hs, List.take_of_length_le (by omega),
    List.drop_append, hs, List.drop_append, hs, List.drop_eq_nil_of_le (as := secret) (by omega),
    List.drop_eq_nil_of_le (as := secret) (by omega), List.drop_replicate, List.drop_replicate]
  have : 16 - (32 + p.label.length - 32) = (16 - (32 + (p.label.length + 1) - 32)) + 1 := by omega
  rw [this, List.replicate_succ]
  simp [List.replicate_succ]

/-- The premises are met: two purposes, a real secret. -/
example : (∃ b, keyBuf (List.replicate 32 7) Purpose.txin.label (some 45) = some b) ∧
    ∃ b, keyBuf (List.replicate 32 7) Purpose.txinComm.label (some 3) = some b :=
  ⟨C13_room _ rfl _ _ (by decide), C13_room _ rfl _ _ (by decide)⟩

end Verif.Signer

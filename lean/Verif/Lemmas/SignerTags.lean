import Verif.Lemmas.SignerTrace
import Verif.Lemmas.Varint
import Verif.Spec.SignerCrypto

/-! Key separation and consequences for tags. -/

set_option linter.unusedSectionVars false

namespace Verif.Signer
open Verif

theorem dumpNat_pad {i k : Nat} {a c : UInt8} {r : Bytes}
    (h : Varint.dumpNat i ++ List.replicate k 0 = a :: c :: r) (ha : a.toNat < 128) : c = 0 := by
  rw [Varint.dumpNat_eq] at h
  split at h
  · cases k with
    | zero => simp at h
    | succ k => simp [List.replicate_succ] at h; exact h.2.1.symm
  · simp only [List.cons_append, List.cons.injEq] at h
    obtain ⟨h1, _⟩ := h
    subst h1
    simp at ha
    omega

/-- The part of the key buffer behind the secret. -/
def keyTail (disc : Bytes) (i : Nat) : Bytes :=
  disc ++ Varint.dumpNat i ++ List.replicate (16 - (disc ++ Varint.dumpNat i).length) 0

theorem keyBuf_some {secret disc : Bytes} {i : Nat} {buf : Bytes} (hs : secret.length = 32)
    (h : keyBuf secret disc (some i) = some buf) : buf = secret ++ keyTail disc i ∧ (keyTail disc i).length = 16 := by
  unfold keyBuf at h
  simp only at h
  split at h
  · rename_i hc
    simp only [Option.some.injEq] at h
    subst h
    constructor
    · have h1 : ((secret ++ List.replicate 48 0).take 48) = secret ++ List.replicate 16 (0 : UInt8) := by
        rw [List.take_append, hs, List.take_of_length_le (by omega)]
        simp
      rw [h1, List.take_append, hs, List.take_of_length_le (by omega)]
      rw [List.drop_append, hs, List.drop_eq_nil_of_le (by omega), List.drop_replicate]
      simp only [keyTail, List.take_replicate, List.nil_append, List.append_assoc]
      simp
    · simp only [keyTail, List.length_append, List.length_replicate] at hc ⊢
      omega
  · simp at h

theorem keyTail_inj {p q : Purpose} {i j : Nat} (h : keyTail p.label i = keyTail q.label j) : p = q ∧ i = j := by
  unfold keyTail at h
  generalize hz : (16 - (p.label ++ Varint.dumpNat i).length) = z at h
  generalize hw : (16 - (q.label ++ Varint.dumpNat j).length) = w at h
  clear hz hw
  rw [List.append_assoc, List.append_assoc] at h
  have hl : Purpose.txin.label = [116, 120, 105, 110] ∧
      Purpose.txinComm.label = [116, 120, 105, 110, 45, 99, 111, 109, 109] ∧
      Purpose.txdst.label = [116, 120, 100, 101, 115, 116] ∧
      Purpose.txout.label = [116, 120, 111, 117, 116] ∧
      Purpose.txoutAsig.label = [116, 120, 111, 117, 116, 45, 97, 115, 105, 103] ∧
      Purpose.txinAlpha.label = [116, 120, 105, 110, 45, 97, 108, 112, 104, 97] ∧
      Purpose.spend.label = [116, 120, 105, 110, 45, 115, 112, 101, 110, 100] ∧
      Purpose.cout.label = [99, 111, 117, 116] ∧
      Purpose.outMask.label = [111, 117, 116, 45, 109, 97, 115, 107] := by decide +kernel
  obtain ⟨l1, l2, l3, l4, l5, l6, l7, l8, l9⟩ := hl
  by_cases hpq : p = q
  · subst hpq
    exact ⟨rfl, (Varint.dumpNat_append_inj (List.append_cancel_left h)).1⟩
  · exfalso
    cases p <;> cases q <;> first | exact hpq rfl | skip
    all_goals
      simp only [l1, l2, l3, l4, l5, l6, l7, l8, l9, List.cons_append, List.nil_append, List.cons.injEq] at h
      first
      | (revert h; simp; done)
      | (obtain ⟨_, _, _, _, h⟩ := h
         first
         | (have := dumpNat_pad h (by decide); revert this; decide)
         | (have := dumpNat_pad h.symm (by decide); revert this; decide)
         | (obtain ⟨_, h⟩ := h
            first
            | (have := dumpNat_pad h (by decide); revert this; decide)
            | (have := dumpNat_pad h.symm (by decide); revert this; decide)))

variable {S P : Type} [CommRing S] [AddCommGroup P] [Module S P] [DecidableEq S] [DecidableEq P]

theorem buildKey_inj {env : Env S P} (hB : Binding env) {key : Bytes} (hk : key.length = 32) {p q : Purpose} {i j : Nat}
    {k : Bytes} (h1 : buildKey env key p.label (some i) = some k) (h2 : buildKey env key q.label (some j) = some k) :
    p = q ∧ i = j := by
  simp only [buildKey, Option.map_eq_some_iff] at h1 h2
  obtain ⟨b1, h1, e1⟩ := h1
  obtain ⟨b2, h2, e2⟩ := h2
  obtain ⟨r1, t1⟩ := keyBuf_some hk h1
  obtain ⟨r2, t2⟩ := keyBuf_some hk h2
  rw [r1] at e1
  rw [r2, ← e1] at e2
  exact keyTail_inj (hB.keyInj key _ _ hk t1 t2 e2.symm)

theorem tag_inj {env : Env S P} (hB : Binding env) {key : Bytes} (hk : key.length = 32) {p q : Purpose} {i j : Nat}
    {m n t : Bytes} (h1 : tag env key p.label i m = some t) (h2 : tag env key q.label j n = some t) :
    p = q ∧ i = j ∧ m = n := by
  simp only [tag, Option.map_eq_some_iff] at h1 h2
  obtain ⟨k1, h1, e1⟩ := h1
  obtain ⟨k2, h2, e2⟩ := h2
  rw [← e1] at e2
  obtain ⟨rfl, rfl⟩ := hB.macInj _ _ _ _ e2
  obtain ⟨rfl, rfl⟩ := buildKey_inj hB hk h1 h2
  exact ⟨rfl, rfl, rfl⟩

theorem hmacDsts_get {env : Env S P} {key : Bytes} : ∀ {ds : List Dst} {k : Nat} {hs : List Bytes},
    hmacDsts env key ds k = some hs → hs.length = ds.length ∧
      ∀ (j : Nat) (t : Bytes), hs[j]? = some t → ∃ d, ds[j]? = some d ∧ hmacDst env key d (k + j) = some t := by
  intro ds
  induction ds with
  | nil =>
    intro k hs h
    simp [hmacDsts] at h
    subst h
    simp
  | cons d ds ih =>
    intro k hs h
    simp only [hmacDsts, Option.bind_eq_bind, Option.bind_eq_some_iff, pure, Option.some.injEq] at h
    obtain ⟨x, h1, t, h2, rfl⟩ := h
    obtain ⟨hl, hj⟩ := ih h2
    refine ⟨by simp [hl], ?_⟩
    intro j t' hj'
    cases j with
    | zero => simp at hj'; subst hj'; exact ⟨d, rfl, h1⟩
    | succ j =>
      obtain ⟨d', e1, e2⟩ := hj j t' (by simpa using hj')
      exact ⟨d', by simpa using e1, by rw [← e2]; congr 1; omega⟩

/-- What a session shows, in terms of the invariant. -/
theorem reach_obs {env : Env S P} (hr : ∀ r, env.respOk r = true) {log : List (Event S)} {d : Device S P}
    (h : Reach env log d) : session env log = [] ∨ ∃ hd s b g, Inv env hd s b g ∧
      inputs (session env log) = inputs s ∧ perms (session env log) = perms s ∧
      vinis (session env log) = vinis s ∧ outputs (session env log) = outputs s ∧
      signs (session env log) = signs s ∧ initOf (session env log) = some (hd.tsx, hd.rnd, hd.hmacs) ∧
      ((kinds (session env log) = kinds s ∧ .final ∉ kinds s) ∨
        (kinds (session env log) = kinds s ++ [.final] ∧ b.state.s = .SIGNATURE_DONE)) := by
  rcases reach_session hr h with h0 | ⟨hd, s, b, g, hI, hs | ⟨hst, rnd, x, y, z, hs⟩⟩
  · exact Or.inl h0
  · right
    rw [hs]
    exact ⟨hd, s, b, g, hI, rfl, rfl, rfl, rfl, rfl, initOf_head hI.head, Or.inl ⟨rfl, hI.stage.noFinal⟩⟩
  · right
    rw [hs]
    refine ⟨hd, s, b, g, hI, ?_, ?_, ?_, ?_, ?_, initOf_snoc (initOf_head hI.head), Or.inr ⟨?_, hst⟩⟩
    · rw [inputs_snoc]; simp [Event.input?]
    · rw [perms_snoc]; simp [Event.perm?]
    · rw [vinis_snoc]; simp [Event.vini?]
    · rw [outputs_snoc]; simp [Event.output?]
    · rw [signs_snoc]; simp [Event.sign?]
    · rw [kinds_snoc]; rfl

theorem Inv.keyHmac {env : Env S P} {hd : Head S P} {s : List (Event S)} {b : Builder S P} {g : Ghost S}
    (hI : Inv env hd s b g) : b.keyHmac = env.keccak2 (ascii "hmac" ++ masterKey env hd.tsx hd.pid hd.rnd) := by
  have := hI.static
  simp only [Builder.static, Prod.mk.injEq] at this
  rw [this.1]; rfl

/-- Every issued tag says what it was issued for. -/
theorem Inv.issuedFor {env : Env S P} {hd : Head S P} {s : List (Event S)} {b : Builder S P} {g : Ghost S}
    (hI : Inv env hd s b g) {t : Bytes} (ht : t ∈ issued s) :
    (∃ (j : Nat) (dst : Dst), hd.tsx.outputs[j]? = some dst ∧ hmacDst env b.keyHmac dst j = some t) ∨
    (∃ (j : Nat) (r : InputRec S), (inputs s)[j]? = some r ∧ r.viniHmac = t ∧ hmacVini env b.keyHmac r.src r.vini j = some t) ∨
    (∃ (j : Nat) (r : InputRec S), (inputs s)[j]? = some r ∧ r.pseudoOutHmac = t ∧ tag env b.keyHmac dTxinComm j r.pseudoOut = some t) ∨
    (∃ (j : Nat) (r : OutputRec), (outputs s)[j]? = some r ∧ hmacVouti env b.keyHmac r.dst r.ack.txOut j = some t) := by
  unfold Signer.issued at ht
  rw [initOf_head hI.head] at ht
  simp only [List.mem_append, List.mem_map] at ht
  rcases ht with ((ht | ⟨r, hr, rfl⟩) | ⟨r, hr, rfl⟩) | ⟨r, hr, rfl⟩
  · left
    obtain ⟨j, hj, hjt⟩ := List.mem_iff_getElem.1 ht
    have hm := hI.initOk.hmacsOk
    rw [← hI.keyHmac] at hm
    obtain ⟨d, h1, h2⟩ := (hmacDsts_get hm).2 j t (by rw [List.getElem?_eq_getElem hj, hjt])
    exact ⟨j, d, h1, by simpa using h2⟩
  · right; left
    obtain ⟨j, hj, hjt⟩ := List.mem_iff_getElem.1 hr
    have hg : (inputs s)[j]? = some r := by rw [List.getElem?_eq_getElem hj, hjt]
    exact ⟨j, r, hg, rfl, (hI.inputsOk j r hg).1⟩
  · right; right; left
    obtain ⟨j, hj, hjt⟩ := List.mem_iff_getElem.1 hr
    have hg : (inputs s)[j]? = some r := by rw [List.getElem?_eq_getElem hj, hjt]
    exact ⟨j, r, hg, rfl, (hI.inputsOk j r hg).2.2.1⟩
  · right; right; right
    obtain ⟨j, hj, hjt⟩ := List.mem_iff_getElem.1 hr
    have hg : (outputs s)[j]? = some r := by rw [List.getElem?_eq_getElem hj, hjt]
    have hjm : j < g.masks.length := by rw [hI.masksLen]; exact hj
    exact ⟨j, r, hg, (hI.outputsOk j r _ hg (List.getElem?_eq_getElem hjm)).2.1⟩

/-- A tag over a prefix input that was issued in this session was issued for the input registered there. -/
theorem Inv.viniTag {env : Env S P} {hd : Head S P} {s : List (Event S)} {b : Builder S P} {g : Ghost S}
    (hI : Inv env hd s b g) (hB : Binding env) {src : Src} {vini t : Bytes} {pos : Nat}
    (h : hmacVini env b.keyHmac src vini pos = some t) (ht : t ∈ issued s) :
    ∃ r, (inputs s)[pos]? = some r ∧ r.viniHmac = t ∧ env.pbSrc r.src ++ r.vini = env.pbSrc src ++ vini := by
  have hk : b.keyHmac.length = 32 := by rw [hI.keyHmac]; exact hB.keyLen _
  unfold hmacVini at h
  rcases hI.issuedFor ht with ⟨j, d, _, h2⟩ | ⟨j, r, h1, h2, h3⟩ | ⟨j, r, _, _, h3⟩ | ⟨j, r, _, h3⟩
  · exact absurd (tag_inj hB hk (p := .txin) (q := .txdst) h h2).1 (by decide)
  · obtain ⟨_, rfl, h5⟩ := tag_inj hB hk (p := .txin) (q := .txin) h h3
    exact ⟨r, h1, h2, (hB.hashInj _ _ h5).symm⟩
  · exact absurd (tag_inj hB hk (p := .txin) (q := .txinComm) h h3).1 (by decide)
  · exact absurd (tag_inj hB hk (p := .txin) (q := .txout) h h3).1 (by decide)

theorem Inv.commTag {env : Env S P} {hd : Head S P} {s : List (Event S)} {b : Builder S P} {g : Ghost S}
    (hI : Inv env hd s b g) (hB : Binding env) {po t : Bytes} {pos : Nat}
    (h : tag env b.keyHmac dTxinComm pos po = some t) (ht : t ∈ issued s) :
    ∃ r, (inputs s)[pos]? = some r ∧ r.pseudoOut = po := by
  have hk : b.keyHmac.length = 32 := by rw [hI.keyHmac]; exact hB.keyLen _
  rcases hI.issuedFor ht with ⟨j, d, _, h2⟩ | ⟨j, r, h1, h2, h3⟩ | ⟨j, r, h1, _, h3⟩ | ⟨j, r, _, h3⟩
  · exact absurd (tag_inj hB hk (p := .txinComm) (q := .txdst) h h2).1 (by decide)
  · exact absurd (tag_inj hB hk (p := .txinComm) (q := .txin) h h3).1 (by decide)
  · obtain ⟨_, rfl, h5⟩ := tag_inj hB hk (p := .txinComm) (q := .txinComm) h h3
    exact ⟨r, h1, h5.symm⟩
  · exact absurd (tag_inj hB hk (p := .txinComm) (q := .txout) h h3).1 (by decide)

theorem Inv.dstTag {env : Env S P} {hd : Head S P} {s : List (Event S)} {b : Builder S P} {g : Ghost S}
    (hI : Inv env hd s b g) (hB : Binding env) (hpb : ∀ x y, env.pbDst x = env.pbDst y → x = y)
    {dst : Dst} {t : Bytes} {pos : Nat}
    (h : hmacDst env b.keyHmac dst pos = some t) (ht : t ∈ issued s) : hd.tsx.outputs[pos]? = some dst := by
  have hk : b.keyHmac.length = 32 := by rw [hI.keyHmac]; exact hB.keyLen _
  unfold hmacDst at h
  rcases hI.issuedFor ht with ⟨j, d, h1, h2⟩ | ⟨j, r, h1, h2, h3⟩ | ⟨j, r, h1, _, h3⟩ | ⟨j, r, _, h3⟩
  · obtain ⟨_, rfl, h5⟩ := tag_inj hB hk (p := .txdst) (q := .txdst) h h2
    rw [h1, hpb _ _ (hB.hashInj _ _ h5)]
  · exact absurd (tag_inj hB hk (p := .txdst) (q := .txin) h h3).1 (by decide)
  · exact absurd (tag_inj hB hk (p := .txdst) (q := .txinComm) h h3).1 (by decide)
  · exact absurd (tag_inj hB hk (p := .txdst) (q := .txout) h h3).1 (by decide)

end Verif.Signer

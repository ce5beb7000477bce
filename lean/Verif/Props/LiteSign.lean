import Verif.Props.LiteBlind
import Verif.Lemmas.SigRings
import Verif.Lemmas.BpGens

/-! C63-C67: what the lite device validates, shows and signs. -/

namespace Verif.Lite
open Verif Ed Key Sig Edwards

theorem seen_some {x : Option ℕ × St} {sw : ℕ} {r : Bytes} {s' : St} (h : seen x = (some (sw, r), s')) : x = (some sw, s') ∧ r = s'.resp := by
  obtain ⟨o, t⟩ := x
  cases o with
  | none => exact absurd (congrArg Prod.fst h) (by simp [seen])
  | some w =>
    simp only [seen, Prod.mk.injEq, Option.some.injEq] at h
    obtain ⟨⟨rfl, rfl⟩, rfl⟩ := h
    exact ⟨rfl, rfl⟩

theorem dispatch_some {e : Env} {s s' : St} {ins p1 p2 : ℕ} {input : Bytes} {sw : ℕ} {r : Bytes}
    (h : dispatch e s ⟨ins, p1, p2, input⟩ = (some (sw, r), s')) :
    ∃ o rest, input = o :: rest ∧ (subDispatch e ins p1).run (s.begin p1 p2 o rest) = (some sw, s') ∧ r = s'.resp := by
  cases input with
  | nil => exact absurd (dispatch_nil e s ins p1 p2) (by rw [h]; simp)
  | cons o y =>
    rw [dispatch_cons] at h
    obtain ⟨h1, h2⟩ := seen_some h
    exact ⟨o, y, rfl, h1, h2⟩

theorem lift_some {α : Type} {o : Option α} {s t : St} {a : α} (h : (lift o).run s = (some a, t)) : o = some a ∧ t = s := by
  rw [run_lift] at h
  exact ⟨congrArg Prod.fst h, (congrArg Prod.snd h).symm⟩

theorem u8_some {s t : St} {n : ℕ} (h : fetchU8.run s = (some n, t)) : ∃ o y, rest s = o :: y ∧ n = o.toNat ∧ t = s.adv 1 := by
  unfold fetchU8 at h
  obtain ⟨x, s1, h1, h2⟩ := run_bind_eq_some.mp h
  obtain ⟨y, hy, hl, rfl⟩ := fetch_some h1
  match x, hl with
  | [o], _ =>
    rw [run_pure] at h2
    refine ⟨o, y, hy, ?_, (congrArg Prod.snd h2).symm⟩
    exact (Option.some.inj (congrArg Prod.fst h2)).symm

theorem point_some {s t : St} {P : Ext} (h : (fetch 32 >>= point).run s = (some P, t)) :
    ∃ x y, rest s = x ++ y ∧ x.length = 32 ∧ decodePoint x = some P ∧ t = s.adv 32 := by
  obtain ⟨x, s1, h1, h2⟩ := run_bind_eq_some.mp h
  obtain ⟨y, hy, hl, rfl⟩ := fetch_some h1
  obtain ⟨h3, rfl⟩ := lift_some h2
  exact ⟨x, y, hy, hl, h3, rfl⟩

theorem decrypt_some {e : Env} {s t : St} {n : ℕ} {d : Bytes} (h : (fetchDecrypt e n).run s = (some d, t)) :
    ∃ x y, rest s = x ++ y ∧ x.length = n ∧ d = e.dec x ∧ t = s.adv n := by
  unfold fetchDecrypt at h
  obtain ⟨x, s1, h1, h2⟩ := run_bind_eq_some.mp h
  obtain ⟨y, hy, hl, rfl⟩ := fetch_some h1
  rw [run_pure] at h2
  exact ⟨x, y, hy, hl, (Option.some.inj (congrArg Prod.fst h2)).symm, (congrArg Prod.snd h2).symm⟩

theorem unblind_some {e : Env} {s t : St} {v k ak : Bytes} {vk : ℤ × ℤ} (h : (unblindInt e v k ak).run s = (some vk, t)) :
    ∃ kn vn, decodeScalar k = some kn ∧ decodeScalar v = some vn ∧ vk = (scSub vn (maskV e ak), scSub kn (maskK e ak)) ∧ t = s := by
  unfold unblindInt scalar at h
  obtain ⟨kn, s1, h1, h2⟩ := run_bind_eq_some.mp h
  obtain ⟨hk, rfl⟩ := lift_some h1
  obtain ⟨vn, s2, h3, h4⟩ := run_bind_eq_some.mp h2
  obtain ⟨hv, rfl⟩ := lift_some h3
  rw [run_pure] at h4
  exact ⟨kn, vn, hk, hv, (Option.some.inj (congrArg Prod.fst h4)).symm, (congrArg Prod.snd h4).symm⟩

theorem change_some {s t : St} {Aout Bout : Ext} {c : Bool} (h : (isChange Aout Bout).run s = (some c, t)) :
    t = s ∧ (c = true → pointEqual Aout s.A = true ∧ pointEqual Bout s.B = true) := by
  unfold isChange at h
  rw [run_bind_some (run_get s)] at h
  have key : ∀ P Q : Ext, pointEq P Q = some true → pointEqual P Q = true := by
    intro P Q h
    unfold pointEq at h
    split at h
    · exact Option.some.inj h
    · cases h
  split at h
  · obtain ⟨x, s1, h1, h2⟩ := run_bind_eq_some.mp h
    obtain ⟨hx, rfl⟩ := lift_some h1
    cases x with
    | false =>
      rw [if_neg (by decide), run_pure] at h2
      exact ⟨(congrArg Prod.snd h2).symm, fun hc => by subst hc; exact absurd (Option.some.inj (congrArg Prod.fst h2)) (by decide)⟩
    | true =>
      rw [if_pos rfl] at h2
      obtain ⟨hb, rfl⟩ := lift_some h2
      exact ⟨rfl, fun hc => by subst hc; exact ⟨key _ _ hx, key _ _ hb⟩⟩
  · rw [run_pure] at h
    exact ⟨(congrArg Prod.snd h).symm, fun hc => by subst hc; exact absurd (Option.some.inj (congrArg Prod.fst h)) (by decide)⟩

theorem close_some {e : Env} {s t : St} (h : (closeAmounts e).run s = (some (), t)) :
    t.sigMode = s.sigMode ∧ t.asked = s.asked ∧ t.KV = s.KV ∧ t.ctxAmount = s.ctxAmount ∧
      (s.options / 0x80 % 2 = 0 → some (e.sha s.ctxAmount) = s.KV) := by
  unfold closeAmounts at h
  rw [run_bind_some (run_get s)] at h
  split at h
  · rename_i h0
    split at h
    · rename_i hk
      rw [run_modify] at h
      obtain rfl := (congrArg Prod.snd h).symm
      exact ⟨rfl, rfl, rfl, rfl, fun _ => hk⟩
    · cases congrArg Prod.fst h
  · rename_i h0
    rw [run_pure] at h
    obtain rfl := (congrArg Prod.snd h).symm
    exact ⟨rfl, rfl, rfl, rfl, fun h1 => absurd h1 h0⟩

theorem ask_some {e : Env} {s t : St} {A B : Ext} {v : ℤ} {sub c : Bool} (h : (askUser e A B v sub c).run s = (some (), t)) :
    t.sigMode = s.sigMode ∧ t.KV = s.KV ∧ t.ctxAmount = s.ctxAmount ∧
    (s.sigMode = createReal → (c = true ∧ t.asked = s.asked) ∨ (c = false ∧ e.confirm A B v sub = true ∧ t.asked = s.asked ++ [(A, B, v, sub)])) := by
  unfold askUser at h
  rw [run_bind_some (run_get s)] at h
  split at h
  · rename_i hc
    split at h
    · rename_i hk
      rw [run_modify] at h
      obtain rfl := (congrArg Prod.snd h).symm
      exact ⟨rfl, rfl, rfl, fun _ => Or.inr ⟨hc.2, hk, rfl⟩⟩
    · cases congrArg Prod.fst h
  · rename_i hc
    rw [run_pure] at h
    obtain rfl := (congrArg Prod.snd h).symm
    refine ⟨rfl, rfl, rfl, fun hm => Or.inl ⟨?_, rfl⟩⟩
    cases c with
    | true => rfl
    | false => exact absurd ⟨hm, rfl⟩ hc

theorem close_hash {e : Env} {s t : St} (h : (closeAmounts e).run s = (some (), t)) :
    t.ctxH = s.ctxH ∧ (s.options / 0x80 % 2 = 0 → t.ctxCommitment = [] ∧ t.C = some (e.sha s.ctxCommitment)) ∧
      (s.options / 0x80 % 2 ≠ 0 → t.ctxCommitment = s.ctxCommitment) := by
  unfold closeAmounts at h
  rw [run_bind_some (run_get s)] at h
  split at h
  · rename_i h0
    split at h
    · rw [run_modify] at h
      obtain rfl := (congrArg Prod.snd h).symm
      exact ⟨rfl, fun _ => ⟨rfl, rfl⟩, fun h1 => absurd h0 h1⟩
    · cases congrArg Prod.fst h
  · rename_i h0
    rw [run_pure] at h
    obtain rfl := (congrArg Prod.snd h).symm
    exact ⟨rfl, fun h1 => absurd h1 h0, fun _ => rfl⟩

theorem ask_hash {e : Env} {s t : St} {A B : Ext} {v : ℤ} {sub c : Bool} (h : (askUser e A B v sub c).run s = (some (), t)) :
    t.ctxH = s.ctxH ∧ t.ctxCommitment = s.ctxCommitment ∧ t.C = s.C := by
  unfold askUser at h
  rw [run_bind_some (run_get s)] at h
  split at h
  · split at h
    · rw [run_modify] at h
      obtain rfl := (congrArg Prod.snd h).symm
      exact ⟨rfl, rfl, rfl⟩
    · cases congrArg Prod.fst h
  · rw [run_pure] at h
    obtain rfl := (congrArg Prod.snd h).symm
    exact ⟨rfl, rfl, rfl⟩

theorem genC_opens {C : Bytes} {Cp : Ext} {m a : ℤ} (hC : decodePoint C = some Cp) (h : pointEq (genC m a) Cp = some true) :
    Rep Cp (m • base + a • hBase) := by
  obtain ⟨p, hp⟩ := decodePoint_rep hC
  have hg := rep_genC m a
  generalize m • base + a • hBase = g at hg ⊢
  generalize genC m a = G at hg h
  unfold pointEq at h
  split at h
  · rw [(pointEqual_iff hg hp).mp (Option.some.inj h)]; exact hp
  · cases h

/-- The arguments of the command that validates an output. -/
structure Output where
  sub : UInt8
  A : Bytes
  B : Bytes
  eak : Bytes
  C : Bytes
  k : Bytes
  v : Bytes
  lA : A.length = 32
  lB : B.length = 32
  leak : eak.length = 32
  lC : C.length = 32
  lk : k.length = 32
  lv : v.length = 32

/-- Its message, without the options. -/
def Output.bytes (x : Output) (more : Bytes) : Bytes := x.sub :: (x.A ++ (x.B ++ (x.eak ++ (x.C ++ (x.k ++ (x.v ++ more))))))

/-- Mask and amount obtained by unblinding; -1 when the bytes are not scalars. -/
def Output.mask (e : Env) (x : Output) : ℤ := scSub ((decodeScalar x.k).getD (-1)) (maskK e (e.dec x.eak))
def Output.amount (e : Env) (x : Output) : ℤ := scSub ((decodeScalar x.v).getD (-1)) (maskV e (e.dec x.eak))

/-- The record of an output in the chain of amounts. -/
def Output.record (e : Env) (x : Output) : Bytes := e.dec x.eak ++ (encodeInt (x.mask e) ++ encodeInt (x.amount e))

theorem update_some (e : Env) (s s' : St) (p2 sw : ℕ) (input resp : Bytes)
    (h : dispatch e s ⟨0x7C, 2, p2, input⟩ = (some (sw, resp), s')) :
    ∃ (o : UInt8) (x : Output) (more : Bytes) (Ap Bp Cp : Ext) (ch : Bool),
      input = o :: x.bytes more ∧ decodePoint x.A = some Ap ∧ decodePoint x.B = some Bp ∧ decodePoint x.C = some Cp ∧
      Rep Cp (x.mask e • base + x.amount e • hBase) ∧
      (ch = true → pointEqual Ap s.A = true ∧ pointEqual Bp s.B = true) ∧
      (s.sigMode = createReal → (ch = true ∧ s'.asked = s.asked) ∨
        (ch = false ∧ e.confirm Ap Bp (x.amount e) (decide (x.sub ≠ 0)) = true ∧
          s'.asked = s.asked ++ [(Ap, Bp, x.amount e, decide (x.sub ≠ 0))])) ∧
      s'.sigMode = s.sigMode ∧ s'.KV = s.KV ∧ s'.ctxAmount = s.ctxAmount ++ x.record e ∧
      (o.toNat / 0x80 % 2 = 0 → some (e.sha (s.ctxAmount ++ x.record e)) = s.KV) ∧
      s'.ctxH = s.ctxH ++ (x.k ++ x.v) ∧
      (o.toNat / 0x80 % 2 = 0 → s'.ctxCommitment = [] ∧ s'.C = some (e.sha (s.ctxCommitment ++ x.C))) ∧
      (o.toNat / 0x80 % 2 ≠ 0 → s'.ctxCommitment = s.ctxCommitment ++ x.C) := by
  obtain ⟨o, y, rfl, h, -⟩ := dispatch_some h
  rw [show subDispatch e 0x7C 2 = prehashUpdate e from rfl] at h
  have h0 := rest_begin s 2 p2 o y
  have hm : (s.begin 2 p2 o y).sigMode = s.sigMode := rfl
  have hA : (s.begin 2 p2 o y).A = s.A := rfl
  have hB : (s.begin 2 p2 o y).B = s.B := rfl
  have ha : (s.begin 2 p2 o y).asked = s.asked := rfl
  have hK : (s.begin 2 p2 o y).KV = s.KV := rfl
  have hc : (s.begin 2 p2 o y).ctxAmount = s.ctxAmount := rfl
  have ho : (s.begin 2 p2 o y).options = o.toNat := rfl
  have hH : (s.begin 2 p2 o y).ctxH = s.ctxH := rfl
  have hcc : (s.begin 2 p2 o y).ctxCommitment = s.ctxCommitment := rfl
  generalize s.begin 2 p2 o y = t at h h0 hm hA hB ha hK hc ho hH hcc
  unfold prehashUpdate at h
  obtain ⟨subN, s1, h1, h⟩ := run_bind_eq_some.mp h
  obtain ⟨sub, y1, e1, rfl, rfl⟩ := u8_some h1
  obtain ⟨Ap, s2, h2, h⟩ := run_bind_eq_some.mp h
  obtain ⟨A, y2, e2, lA, dA, rfl⟩ := point_some h2
  obtain ⟨Bp, s3, h3, h⟩ := run_bind_eq_some.mp h
  obtain ⟨B, y3, e3, lB, dB, rfl⟩ := point_some h3
  obtain ⟨ch, s4, h4, h⟩ := run_bind_eq_some.mp h
  obtain ⟨rfl, hch⟩ := change_some h4
  obtain ⟨ak, s5, h5, h⟩ := run_bind_eq_some.mp h
  obtain ⟨eak, y5, e5, leak, rfl, rfl⟩ := decrypt_some h5
  obtain ⟨C, s6, h6, h⟩ := run_bind_eq_some.mp h
  obtain ⟨y6, e6, lC, rfl⟩ := fetch_some h6
  obtain ⟨k, s7, h7, h⟩ := run_bind_eq_some.mp h
  obtain ⟨y7, e7, lk, rfl⟩ := fetch_some h7
  obtain ⟨v, s8, h8, h⟩ := run_bind_eq_some.mp h
  obtain ⟨y8, e8, lv, rfl⟩ := fetch_some h8
  rw [run_bind_some (run_modify _ _)] at h
  obtain ⟨vk, s9, h9, h⟩ := run_bind_eq_some.mp h
  obtain ⟨kn, vn, hk, hv, rfl, rfl⟩ := unblind_some h9
  rw [run_bind_some (run_modify _ _)] at h
  obtain ⟨Cp, s10, h10, h⟩ := run_bind_eq_some.mp h
  obtain ⟨hC, rfl⟩ := lift_some h10
  obtain ⟨ok, s11, h11, h⟩ := run_bind_eq_some.mp h
  obtain ⟨hok, rfl⟩ := lift_some h11
  have b1 : y = sub :: y1 := h0.symm.trans e1
  have b2 : y1 = A ++ y2 := (rest_u8 e1).symm.trans e2
  have b3 : y2 = B ++ y3 := (rest_adv e2 lA).symm.trans e3
  have b5 : y3 = eak ++ y5 := (rest_adv e3 lB).symm.trans e5
  have b6 : y5 = C ++ y6 := (rest_adv e5 leak).symm.trans e6
  have b7 : y6 = k ++ y7 := (rest_adv e6 lC).symm.trans e7
  have b8 : y7 = v ++ y8 := (rest_adv e7 lk).symm.trans e8
  cases ok with
  | false => rw [if_pos (show (!false) = true from rfl), run_fail] at h; cases congrArg Prod.fst h
  | true =>
    rw [if_neg (show ¬ (!true) = true by decide), run_bind_some (run_modify _ _)] at h
    obtain ⟨_, s12, h12, h⟩ := run_bind_eq_some.mp h
    obtain ⟨hm12, ha12, hK12, hc12, hcl⟩ := close_some h12
    obtain ⟨hH12, hy12, hn12⟩ := close_hash h12
    obtain ⟨_, s13, h13, h⟩ := run_bind_eq_some.mp h
    obtain ⟨hm13, hK13, hc13, hask⟩ := ask_some h13
    obtain ⟨hH13, hcc13, hC13⟩ := ask_hash h13
    rw [run_pure] at h
    have es : s13 = s' := congrArg Prod.snd h
    have hdec : decide (sub.toNat ≠ 0) = decide (sub ≠ 0) := by
      have : sub.toNat = 0 ↔ sub = 0 := ⟨fun h => by simpa using congrArg UInt8.ofNat h, fun h => by rw [h]; rfl⟩
      simp [this]
    simp only [adv_sigMode, addH_sigMode, addAmount_sigMode, addCommitment_sigMode, hm] at hm12
    simp only [adv_asked, addH_asked, addAmount_asked, addCommitment_asked, ha] at ha12
    simp only [adv_KV, addH_KV, addAmount_KV, addCommitment_KV, hK] at hK12
    simp only [adv_ctxAmount, addH_ctxAmount, addAmount_ctxAmount, addCommitment_ctxAmount, hc] at hc12
    simp only [adv_ctxAmount, addH_ctxAmount, addAmount_ctxAmount, addCommitment_ctxAmount, adv_options, addH_options, addAmount_options,
      addCommitment_options, adv_KV, addH_KV, addAmount_KV, addCommitment_KV, hc, hK, ho] at hcl
    simp only [adv_ctxH, addH_ctxH, addAmount_ctxH, addCommitment_ctxH, hH] at hH12
    simp only [adv_ctxCommitment, addH_ctxCommitment, addAmount_ctxCommitment, addCommitment_ctxCommitment, hcc, adv_options, addH_options,
      addAmount_options, addCommitment_options, ho] at hy12 hn12
    simp only [adv_A, adv_B, hA, hB] at hch
    rw [List.append_assoc] at hc12 hcl
    let x : Output := ⟨sub, A, B, eak, C, k, v, lA, lB, leak, lC, lk, lv⟩
    have hkm : x.mask e = scSub kn (maskK e (e.dec eak)) := by unfold Output.mask; rw [show decodeScalar x.k = some kn from hk]; rfl
    have hvm : x.amount e = scSub vn (maskV e (e.dec eak)) := by unfold Output.amount; rw [show decodeScalar x.v = some vn from hv]; rfl
    have hrec : x.record e = e.dec eak ++ (encodeInt (scSub kn (maskK e (e.dec eak))) ++ encodeInt (scSub vn (maskV e (e.dec eak)))) := by
      unfold Output.record; rw [hkm, hvm]
    refine ⟨o, x, y8, Ap, Bp, Cp, ch, by rw [b1, b2, b3, b5, b6, b7, b8]; rfl, dA, dB, hC, ?_, hch, ?_, ?_, ?_, ?_, ?_, ?_, ?_, ?_⟩
    · rw [hkm, hvm]; exact genC_opens hC hok
    · intro hr
      rw [hvm, ← es]
      rw [hm12, ha12, hdec] at hask
      exact hask hr
    · rw [← es, hm13, hm12]
    · rw [← es, hK13, hK12]
    · rw [← es, hc13, hc12, hrec]
    · rw [hrec]; exact hcl
    · rw [← es, hH13, hH12]
    · rw [← es, hcc13, hC13]; exact hy12
    · rw [← es, hcc13]; exact hn12

/-- C63. In real mode an output passes validation only if the commitment sent with it opens to the amount and mask obtained by unblinding, and only if it
goes to the main address of the device or the user confirmed its destination with that very amount. -/
theorem C63_output (e : Env) (s s' : St) (p2 sw : ℕ) (input resp : Bytes) (hreal : s.sigMode = createReal)
    (h : dispatch e s ⟨0x7C, 2, p2, input⟩ = (some (sw, resp), s')) :
    ∃ (o : UInt8) (x : Output) (more : Bytes) (Ap Bp Cp : Ext), input = o :: x.bytes more ∧
      decodePoint x.A = some Ap ∧ decodePoint x.B = some Bp ∧ decodePoint x.C = some Cp ∧
      Rep Cp (x.mask e • base + x.amount e • hBase) ∧
      ((pointEqual Ap s.A = true ∧ pointEqual Bp s.B = true ∧ s'.asked = s.asked) ∨
       (e.confirm Ap Bp (x.amount e) (decide (x.sub ≠ 0)) = true ∧ s'.asked = s.asked ++ [(Ap, Bp, x.amount e, decide (x.sub ≠ 0))])) := by
  obtain ⟨o, x, more, Ap, Bp, Cp, ch, h1, h2, h3, h4, h5, h6, h7, -⟩ := update_some e s s' p2 sw input resp h
  refine ⟨o, x, more, Ap, Bp, Cp, h1, h2, h3, h4, h5, ?_⟩
  rcases h7 hreal with ⟨hc, ha⟩ | ⟨-, hc, ha⟩
  · exact Or.inl ⟨(h6 hc).1, (h6 hc).2, ha⟩
  · exact Or.inr ⟨hc, ha⟩

/-! The chain of amounts. -/

/-- What the command `blind` adds to the chain: amount key, mask and amount of its message. -/
def blindRecord (e : Env) (c : Cmd) : Bytes := e.dec ((c.input.drop 1).take 32) ++ ((c.input.drop 33).take 32 ++ (c.input.drop 65).take 32)

/-- The mask and the amount an output to be validated is sent with, unblinded with the amount key sent with it. -/
def sentMask (e : Env) (c : Cmd) : ℤ :=
  scSub ((decodeScalar ((c.input.drop 130).take 32)).getD (-1)) (maskK e (e.dec ((c.input.drop 66).take 32)))
def sentAmount (e : Env) (c : Cmd) : ℤ :=
  scSub ((decodeScalar ((c.input.drop 162).take 32)).getD (-1)) (maskV e (e.dec ((c.input.drop 66).take 32)))
def outputRecord (e : Env) (c : Cmd) : Bytes := e.dec ((c.input.drop 66).take 32) ++ (encodeInt (sentMask e c) ++ encodeInt (sentAmount e c))

theorem output_fields (o : UInt8) (x : Output) (more : Bytes) :
    ((o :: x.bytes more).drop 66).take 32 = x.eak ∧ ((o :: x.bytes more).drop 130).take 32 = x.k ∧ ((o :: x.bytes more).drop 162).take 32 = x.v := by
  have g : ∀ (n : ℕ) (l y z : Bytes), l.length = n → y.length = 32 → ((l ++ (y ++ z)).drop n).take 32 = y := by
    intro n l y z hl hy
    rw [List.drop_left' hl, List.take_left' hy]
  refine ⟨?_, ?_, ?_⟩
  · have := g 66 (o :: x.sub :: (x.A ++ x.B)) x.eak (x.C ++ (x.k ++ (x.v ++ more))) (by simp [x.lA, x.lB]) x.leak
    simpa [Output.bytes] using this
  · have := g 130 (o :: x.sub :: (x.A ++ (x.B ++ (x.eak ++ x.C)))) x.k (x.v ++ more) (by simp [x.lA, x.lB, x.leak, x.lC]) x.lk
    simpa [Output.bytes] using this
  · have := g 162 (o :: x.sub :: (x.A ++ (x.B ++ (x.eak ++ (x.C ++ x.k))))) x.v more (by simp [x.lA, x.lB, x.leak, x.lC, x.lk]) x.lv
    simpa [Output.bytes] using this

theorem blind_some (e : Env) (s : St) (c : Cmd) (hc : c.ins = 0x78) (h : (dispatch e s c).1 ≠ none) :
    (dispatch e s c).2.ctxAmount = s.ctxAmount ++ blindRecord e c ∧ 97 ≤ c.input.length := by
  obtain ⟨ins, p1, p2, input⟩ := c
  obtain rfl : ins = 0x78 := hc
  generalize hd : dispatch e s ⟨0x78, p1, p2, input⟩ = r at h
  obtain ⟨rr, s'⟩ := r
  match rr, h with
  | some (sw, resp), _ =>
    obtain ⟨o, y, rfl, h, -⟩ := dispatch_some hd
    rw [show subDispatch e 0x78 p1 = blind e from rfl] at h
    have h0 := rest_begin s p1 p2 o y
    have hc : (s.begin p1 p2 o y).ctxAmount = s.ctxAmount := rfl
    generalize s.begin p1 p2 o y = t at h h0 hc
    unfold blind at h
    obtain ⟨ak, s1, h1, h⟩ := run_bind_eq_some.mp h
    obtain ⟨eak, y1, e1, leak, rfl, rfl⟩ := decrypt_some h1
    obtain ⟨k, s2, h2, h⟩ := run_bind_eq_some.mp h
    obtain ⟨y2, e2, lk, rfl⟩ := fetch_some h2
    obtain ⟨v, s3, h3, h⟩ := run_bind_eq_some.mp h
    obtain ⟨y3, e3, lv, rfl⟩ := fetch_some h3
    rw [run_bind_some (run_modify _ _)] at h
    obtain ⟨kn, s4, h4, h⟩ := run_bind_eq_some.mp h
    unfold scalar at h4
    obtain ⟨-, rfl⟩ := lift_some h4
    obtain ⟨vn, s5, h5, h⟩ := run_bind_eq_some.mp h
    unfold scalar at h5
    obtain ⟨-, rfl⟩ := lift_some h5
    rw [run_bind_some (run_insert _ _), run_bind_some (run_insert _ _), run_pure] at h
    have es := congrArg (fun x => x.2.ctxAmount) h
    simp only [put_ctxAmount, addAmount_ctxAmount, adv_ctxAmount, hc] at es
    have b1 : y = eak ++ y1 := h0.symm.trans e1
    have b2 : y1 = k ++ y2 := (rest_adv e1 leak).symm.trans e2
    have b3 : y2 = v ++ y3 := (rest_adv e2 lk).symm.trans e3
    have hrec : blindRecord e ⟨0x78, p1, p2, o :: y⟩ = e.dec eak ++ (k ++ v) := by
      unfold blindRecord
      rw [b1, b2, b3]
      have q1 : ((o :: (eak ++ (k ++ (v ++ y3)))).drop 1).take 32 = eak := by simp [leak]
      have q2 : ((o :: (eak ++ (k ++ (v ++ y3)))).drop 33).take 32 = k := by
        rw [List.drop_succ_cons, List.drop_left' leak, List.take_left' lk]
      have q3 : ((o :: (eak ++ (k ++ (v ++ y3)))).drop 65).take 32 = v := by
        rw [List.drop_succ_cons, show eak ++ (k ++ (v ++ y3)) = (eak ++ k) ++ (v ++ y3) by simp, List.drop_left' (by simp [leak, lk]), List.take_left' lv]
      rw [q1, q2, q3]
    refine ⟨?_, ?_⟩
    · rw [← es, hrec, List.append_assoc]
    · rw [b1, b2, b3]; simp only [List.length_cons, List.length_append, leak, lk, lv]; omega

theorem init_some (e : Env) (s : St) (c : Cmd) (hc : c.ins = 0x7C ∧ c.p1 = 1 ∧ c.p2 = 1) (h : (dispatch e s c).1 ≠ none) :
    (dispatch e s c).2.ctxAmount = [] ∧ (dispatch e s c).2.KV = some (e.sha s.ctxAmount) := by
  obtain ⟨ins, p1, p2, input⟩ := c
  obtain ⟨rfl, rfl, rfl⟩ : ins = 0x7C ∧ p1 = 1 ∧ p2 = 1 := hc
  generalize hd : dispatch e s ⟨0x7C, 1, 1, input⟩ = r at h
  obtain ⟨rr, s'⟩ := r
  match rr, h with
  | some (sw, resp), _ =>
    obtain ⟨o, y, rfl, h, -⟩ := dispatch_some hd
    rw [show subDispatch e 0x7C 1 = prehashInit e from rfl] at h
    have hp : (s.begin 1 1 o y).p2 = 1 := rfl
    have hc : (s.begin 1 1 o y).ctxAmount = s.ctxAmount := rfl
    generalize s.begin 1 1 o y = t at h hp hc
    unfold prehashInit at h
    rw [run_bind_some (run_get t), if_pos hp, run_bind_some (run_modify _ _), run_bind_some (run_modify _ _)] at h
    have key : ∀ u : St, u.ctxAmount = [] ∧ u.KV = some (e.sha s.ctxAmount) →
        (if t.sigMode = createReal then (do
          let _ ← fetchU8
          let s ← get
          if e.fee (s.msg.drop s.off) then pure swOk else fail) else pure swOk : LM ℕ).run u = (some sw, s') →
        s'.ctxAmount = [] ∧ s'.KV = some (e.sha s.ctxAmount) := by
      intro u hu h
      split at h
      · obtain ⟨n, s1, h1, h⟩ := run_bind_eq_some.mp h
        obtain ⟨_, _, _, _, rfl⟩ := u8_some h1
        rw [run_bind_some (run_get _)] at h
        split at h
        · rw [run_pure] at h
          have es : u.adv 1 = s' := congrArg Prod.snd h
          rw [← es]; exact hu
        · cases congrArg Prod.fst h
      · rw [run_pure] at h
        have es : u = s' := congrArg Prod.snd h
        rw [← es]; exact hu
    exact key _ ⟨rfl, by rw [← hc]; rfl⟩ h

theorem output_some (e : Env) (s : St) (c : Cmd) (hc : c.ins = 0x7C ∧ c.p1 = 2) (h : (dispatch e s c).1 ≠ none) :
    (dispatch e s c).2.ctxAmount = s.ctxAmount ++ outputRecord e c ∧ (dispatch e s c).2.KV = s.KV ∧ 194 ≤ c.input.length ∧
      ((c.input.headD 0).toNat / 0x80 % 2 = 0 → some (e.sha (s.ctxAmount ++ outputRecord e c)) = s.KV) := by
  obtain ⟨ins, p1, p2, input⟩ := c
  obtain ⟨rfl, rfl⟩ : ins = 0x7C ∧ p1 = 2 := hc
  generalize hd : dispatch e s ⟨0x7C, 2, p2, input⟩ = r at h
  obtain ⟨rr, s'⟩ := r
  match rr, h with
  | some (sw, resp), _ =>
    obtain ⟨o, x, more, Ap, Bp, Cp, ch, h1, -, -, -, -, -, -, -, h2, h3, h4, -⟩ := update_some e s s' p2 sw input resp hd
    have hrec : outputRecord e ⟨0x7C, 2, p2, input⟩ = x.record e := by
      obtain ⟨f1, f2, f3⟩ := output_fields o x more
      unfold outputRecord sentMask sentAmount Output.record Output.mask Output.amount
      rw [h1, f1, f2, f3]
    rw [hrec]
    refine ⟨h3, h2, ?_, ?_⟩
    · rw [h1]; simp only [Output.bytes, List.length_cons, List.length_append, x.lA, x.lB, x.leak, x.lC, x.lk, x.lv]; omega
    · rw [h1]; exact h4

theorem session_append (e : Env) (s : St) (xs ys : List Cmd) :
    session e s (xs ++ ys) = ((session e s xs).1 ++ (session e (session e s xs).2 ys).1, (session e (session e s xs).2 ys).2) := by
  induction xs generalizing s with
  | nil => rfl
  | cons c cs ih =>
    show ((dispatch e s c).1 :: (session e (dispatch e s c).2 (cs ++ ys)).1, (session e (dispatch e s c).2 (cs ++ ys)).2) = _
    rw [ih]; rfl

theorem blinds_chain (e : Env) (s : St) (cs : List Cmd) (hc : ∀ c ∈ cs, c.ins = 0x78) (h : ∀ r ∈ (session e s cs).1, r ≠ none) :
    (session e s cs).2.ctxAmount = s.ctxAmount ++ (cs.map (blindRecord e)).flatten ∧ ∀ c ∈ cs, 97 ≤ c.input.length := by
  induction cs generalizing s with
  | nil => exact ⟨by simp [session], by simp⟩
  | cons c cs ih =>
    have hh : (session e s (c :: cs)).1 = (dispatch e s c).1 :: (session e (dispatch e s c).2 cs).1 := rfl
    rw [hh] at h
    obtain ⟨a, b⟩ := blind_some e s c (hc c List.mem_cons_self) (h _ List.mem_cons_self)
    obtain ⟨a', b'⟩ := ih (dispatch e s c).2 (fun c h => hc c (List.mem_cons_of_mem _ h)) (fun r hr => h r (List.mem_cons_of_mem _ hr))
    refine ⟨?_, ?_⟩
    · show (session e (dispatch e s c).2 cs).2.ctxAmount = _
      rw [a', a, List.map_cons, List.flatten_cons, List.append_assoc]
    · intro d hd
      rcases List.mem_cons.mp hd with rfl | hd
      · exact b
      · exact b' d hd

theorem outputs_chain (e : Env) (s : St) (cs : List Cmd) (hc : ∀ c ∈ cs, c.ins = 0x7C ∧ c.p1 = 2) (h : ∀ r ∈ (session e s cs).1, r ≠ none)
    (c : Cmd) (hl : cs.getLast? = some c) (ho : (c.input.headD 0).toNat / 0x80 % 2 = 0) :
    some (e.sha (s.ctxAmount ++ (cs.map (outputRecord e)).flatten)) = s.KV ∧ ∀ c ∈ cs, 194 ≤ c.input.length := by
  induction cs generalizing s with
  | nil => cases hl
  | cons d cs ih =>
    have hh : (session e s (d :: cs)).1 = (dispatch e s d).1 :: (session e (dispatch e s d).2 cs).1 := rfl
    rw [hh] at h
    obtain ⟨a, b, b', f⟩ := output_some e s d (hc d List.mem_cons_self) (h _ List.mem_cons_self)
    match cs, ih, hl, hc, h with
    | [], _, hl, _, _ =>
      obtain rfl : d = c := Option.some.inj hl
      refine ⟨?_, ?_⟩
      · simpa using f ho
      · intro x hx; rw [List.mem_singleton] at hx; rw [hx]; exact b'
    | d' :: cs, ih, hl, hc, h =>
      obtain ⟨g, g'⟩ := ih (dispatch e s d).2 (fun c h => hc c (List.mem_cons_of_mem _ h)) (fun r hr => h r (List.mem_cons_of_mem _ hr))
        (by rw [List.getLast?_cons_cons] at hl; exact hl)
      refine ⟨?_, ?_⟩
      · rw [a, b, List.append_assoc] at g
        rw [List.map_cons, List.flatten_cons]; exact g
      · intro x hx
        rcases List.mem_cons.mp hx with rfl | hx
        · exact b'
        · exact g' x hx

theorem flatten_inj {n : ℕ} (hn : 0 < n) (xs ys : List Bytes) (hx : ∀ x ∈ xs, x.length = n) (hy : ∀ y ∈ ys, y.length = n)
    (h : xs.flatten = ys.flatten) : xs = ys := by
  induction xs generalizing ys with
  | nil =>
    cases ys with
    | nil => rfl
    | cons y ys =>
      have := congrArg List.length h
      simp [hy y List.mem_cons_self] at this
      omega
  | cons x xs ih =>
    cases ys with
    | nil =>
      have := congrArg List.length h
      simp [hx x List.mem_cons_self] at this
      omega
    | cons y ys =>
      rw [List.flatten_cons, List.flatten_cons] at h
      obtain ⟨h1, h2⟩ := List.append_inj h (by rw [hx x List.mem_cons_self, hy y List.mem_cons_self])
      rw [h1, ih ys (fun x h => hx x (List.mem_cons_of_mem _ h)) (fun x h => hy x (List.mem_cons_of_mem _ h)) h2]

/-- C63. A host that blinds a list of amounts, starts the prehash and then does nothing but validate outputs up to the last one gets through only if the
outputs are exactly the blinded ones, in that order: same amount keys, same masks, same amounts. `sha` stands for SHA-256: the records of the outputs and
those of the blinded amounts are not a collision of it. Partial: it is for hosts that send nothing else in between (see C63_false_bypass). -/
theorem C63_chain_partial (e : Env) (hdec : ∀ x, x.length = 32 → (e.dec x).length = 32) (s : St)
    (hs : s.ctxAmount = []) (blinds outputs : List Cmd) (init last : Cmd)
    (hsha : e.sha (outputs.map (outputRecord e)).flatten = e.sha (blinds.map (blindRecord e)).flatten →
      (outputs.map (outputRecord e)).flatten = (blinds.map (blindRecord e)).flatten) (hb : ∀ c ∈ blinds, c.ins = 0x78)
    (hi : init.ins = 0x7C ∧ init.p1 = 1 ∧ init.p2 = 1) (hu : ∀ c ∈ outputs, c.ins = 0x7C ∧ c.p1 = 2)
    (hl : outputs.getLast? = some last) (ho : (last.input.headD 0).toNat / 0x80 % 2 = 0)
    (hok : ∀ r ∈ (session e s (blinds ++ init :: outputs)).1, r ≠ none) :
    outputs.map (outputRecord e) = blinds.map (blindRecord e) := by
  rw [session_append] at hok
  obtain ⟨a, la⟩ := blinds_chain e s blinds hb (fun r hr => hok r (List.mem_append_left _ hr))
  have h2 : ∀ r ∈ (session e (session e s blinds).2 (init :: outputs)).1, r ≠ none := fun r hr => hok r (List.mem_append_right _ hr)
  generalize (session e s blinds).2 = t at a h2
  have hh : (session e t (init :: outputs)).1 = (dispatch e t init).1 :: (session e (dispatch e t init).2 outputs).1 := rfl
  rw [hh] at h2
  obtain ⟨b, k⟩ := init_some e t init hi (h2 _ List.mem_cons_self)
  obtain ⟨f, lf⟩ := outputs_chain e _ outputs hu (fun r hr => h2 r (List.mem_cons_of_mem _ hr)) last hl ho
  rw [b, k, a, hs, List.nil_append, List.nil_append] at f
  refine flatten_inj (n := 96) (by decide) _ _ ?_ ?_ (hsha (Option.some.inj f))
  · intro x hx
    obtain ⟨c, hc, rfl⟩ := List.mem_map.mp hx
    have := lf c hc
    unfold outputRecord
    rw [List.length_append, List.length_append, encodeInt_length, encodeInt_length, hdec _ (by rw [List.length_take, List.length_drop]; omega)]
  · intro x hx
    obtain ⟨c, hc, rfl⟩ := List.mem_map.mp hx
    have := la c hc
    unfold blindRecord
    rw [List.length_append, List.length_append, hdec _ (by rw [List.length_take, List.length_drop]; omega), List.length_take, List.length_drop,
      List.length_take, List.length_drop]
    omega

/-! A device and outputs to try: the amount key is 32 ones, mask 1 and amount 0 are sent as 34 and 34, the commitment is the base point, which is also
both keys of the destination. -/

def g32 : Bytes := 0x58 :: List.replicate 31 0x66
def small (n : UInt8) : Bytes := n :: List.replicate 31 0
def ones : Bytes := List.replicate 32 1
def device : St := { a := 5, b := 7, A := ident, B := ident, sigMode := createReal }
def blindCmd (k v : UInt8) : Cmd := ⟨0x78, 0, 0, 0 :: (ones ++ (small k ++ small v))⟩
def outCmd (o : UInt8) : Cmd := ⟨0x7C, 2, 0, o :: 0 :: (g32 ++ (g32 ++ (ones ++ (g32 ++ (small 34 ++ small 34)))))⟩
def initCmd : Cmd := ⟨0x7C, 1, 1, [0, 0]⟩

/-- A session that meets the hypotheses: one amount blinded, one output validated, one question to the user. -/
example : (session demo device [blindCmd 1 0, initCmd, outCmd 0]).1.all Option.isSome = true ∧
    (session demo device [blindCmd 1 0, initCmd, outCmd 0]).2.asked.length = 1 := by decide +kernel

/-- With another amount blinded before, the output is refused. -/
example : (session demo device [blindCmd 2 0, initCmd, outCmd 0]).1.getLast? = some none := by decide +kernel

/-- C63 is false of hosts in general: an amount blinded again after the start of the prehash counts like a validated output. Two amounts are blinded, the
chain is accepted, and the user saw one output only. -/
theorem C63_false_bypass : ∃ (e : Env) (s : St) (cs : List Cmd), Function.Injective e.sha ∧ s.ctxAmount = [] ∧ s.sigMode = createReal ∧
    (∀ r ∈ (session e s cs).1, r ≠ none) ∧ ((cs.filter (fun c => c.ins = 0x78)).length = 3 ∧ (session e s cs).2.asked.length = 1) ∧
    (session e s cs).2.KV = some (e.sha ((cs.take 2).map (blindRecord e)).flatten) ∧
    some (e.sha (session e s cs).2.ctxAmount) = (session e s cs).2.KV :=
  ⟨demo, device, [blindCmd 3 9, blindCmd 1 0, initCmd, blindCmd 3 9, outCmd 0], fun _ _ h => h, rfl, rfl, by decide +kernel, by decide +kernel,
    by decide +kernel, by decide +kernel⟩

end Verif.Lite

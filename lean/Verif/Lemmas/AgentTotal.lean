import Verif.Lemmas.AgentBack

/-! A run that succeeded also succeeds when the ring signature prover never fails and nothing is aborted on the device. -/

set_option linter.unusedSectionVars false

namespace Verif.Agent
open Verif Verif.Signer Verif.Batches
variable {S P : Type} [CommRing S] [AddCommGroup P] [Module S P] [DecidableEq S] [DecidableEq P]

/-- The same parts, but where ring signing fails it gives `z`. -/
def total (env : Env S P) (z : Bytes) : Env S P :=
  { env with mlsag := fun a b c d e p i r => some ((env.mlsag a b c d e p i r).getD z) }

/-- The same choices, without aborts. -/
def patient (rnd : Rand S) : Rand S := { rnd with uiOk := true }

theorem patient_eq {rnd : Rand S} (h : rnd.uiOk = true) : patient rnd = rnd := by
  cases rnd
  simp only at h
  subst h
  rfl

section
variable (env : Env S P) (z : Bytes) (b : Builder S P) (rnd : Rand S)

theorem hmacDsts_total (key : Bytes) : ∀ (ds : List Dst) (k : Nat), hmacDsts (total env z) key ds k = hmacDsts env key ds k := by
  intro ds
  induction ds with
  | nil => intro k; rfl
  | cons d ds ih => intro k; simp only [hmacDsts, ih]; rfl

theorem computeMasksAux_total (key : Bytes) (s : S) (n : Nat) : ∀ (m k : Nat) (a : S),
    computeMasksAux (total env z) key s n m k a = computeMasksAux env key s n m k a := by
  intro m
  induction m with
  | zero => intro k a; rfl
  | succ m ih => intro k a; simp only [computeMasksAux, ih]; rfl

theorem init_total (tsx : TsxData) : initTransaction (total env z) b tsx rnd = initTransaction env b tsx rnd := by
  unfold initTransaction
  simp only [hmacDsts_total]
  rfl

theorem setInput_total (src : Src) : setInput (total env z) b src rnd = setInput env b src rnd := rfl
theorem inputVini_total (src : Src) (v h : Bytes) : inputVini (total env z) b src v h rnd = inputVini env b src v h rnd := rfl
theorem allInSet_total : allInSet (total env z) b rnd = allInSet env b rnd := by
  unfold allInSet
  simp only [computeMasksAux_total]
  rfl

theorem setOutput_total (dst : Dst) (h r : Bytes) (off : Bool) : setOutput (total env z) b dst h r off rnd = setOutput env b dst h r off rnd := rfl
theorem allOutSet_total : allOutSet (total env z) b rnd = allOutSet env b rnd := rfl
theorem final_total : finalMsg (total env z) b rnd = finalMsg env b rnd := rfl
end

theorem signInput_total {env : Env S P} {z : Bytes} {b : Builder S P} {src : Src} {v1 v2 v3 v4 v5 v6 : Bytes} {rnd : Rand S} {x : Builder S P × Resp}
    (h : signInput env b src v1 v2 v3 v4 v5 v6 rnd = .ok x) : signInput (total env z) b src v1 v2 v3 v4 v5 v6 rnd = .ok x := by
  simp only [signInput, bind_ok, orFail_ok] at h ⊢
  obtain ⟨a1, h1, a2, h2, a3, h3, a4, h4, a5, h5, a6, h6, a7, h7, a8, h8, a9, h9, a10, h10, a11, h11, a12, h12, a13, h13, a14, h14, a15, h15, a16, h16,
    a17, h17, a18, h18, a19, h19, h20⟩ := h
  refine ⟨a1, h1, a2, h2, a3, h3, a4, h4, a5, h5, a6, h6, a7, h7, a8, h8, a9, h9, a10, h10, a11, h11, a12, h12, a13, h13, a14, h14, a15, h15, a16, h16,
    a17, h17, a18, ?_, a19, h19, h20⟩
  exact congrArg (fun o : Option Bytes => some (o.getD z)) h18

theorem sign_total {env : Env S P} (z : Bytes) {b : Builder S P} {m : Msg} {rnd : Rand S} {x : Builder S P × Resp} (h : sign env b m rnd = .ok x) :
    sign (total env z) b m (patient rnd) = .ok x := by
  rcases hu : rnd.uiOk with _ | _
  · cases m with
    | setOutput dst hmac rsig off =>
      cases off with
      | true =>
        simp only [sign] at h ⊢
        rw [setOutput_total]
        exact h
      | false =>
        exfalso
        simp only [sign, setOutput, hu, bind_ok, ensure_ok] at h
        simp at h
    | malformed => cases h
    | _ =>
      exfalso
      simp only [sign, initTransaction, setInput, setPermutation, inputVini, allInSet, allOutSet, signInput, finalMsg, hu, bind_ok, ensure_ok] at h
      simp at h
  · rw [patient_eq hu]
    cases m with
    | signInput src v1 v2 v3 v4 v5 v6 => exact signInput_total h
    | _ => simpa only [sign, init_total, setInput_total, inputVini_total, allInSet_total, setOutput_total, allOutSet_total, final_total] using h

section
variable {env : Env S P} (z : Bytes) {rnd : Nat → Rand S}

theorem call_total {c : Conn S P} {m : Msg} {x : Resp × Conn S P} (h : call env rnd c m = some x) :
    call (total env z) (fun k => patient (rnd k)) c m = some x := by
  have hm : env.msgOk m = true := by
    by_contra hm
    unfold call tsxSign at h
    rw [Bool.not_eq_true] at hm
    rw [hm] at h
    simp at h
  obtain ⟨r, c'⟩ := x
  obtain ⟨b', h1, rfl⟩ := call_some h
  have hr : env.respOk r = true := by
    by_contra hr
    unfold call tsxSign at h
    rw [hm, h1] at h
    simp [hr] at h
  have hnf : ∀ k, r ≠ .failure k := by
    rintro k rfl
    unfold call tsxSign at h
    rw [hm, h1] at h
    simp [hr] at h
  unfold call tsxSign
  have hm' : (total env z).msgOk m = true := hm
  have hr' : (total env z).respOk r = true := hr
  rw [hm', sign_total z h1]
  dsimp only
  rw [hr']
  cases r <;> first | rfl | exact absurd rfl (hnf _)

theorem inputLoop_total {cdc : Codec} : ∀ (srcs : List Src) {c : Conn S P} {x : List InRec × Conn S P}, inputLoop env cdc rnd srcs c = some x →
    inputLoop (total env z) cdc (fun k => patient (rnd k)) srcs c = some x := by
  intro srcs
  induction srcs with
  | nil => intro c x h; exact h
  | cons s srcs ih =>
    intro c x h
    rw [inputLoop] at h ⊢
    obtain ⟨y, h1, h2⟩ := Option.bind_eq_some_iff.1 h
    obtain ⟨q, h3, h4⟩ := Option.map_eq_some_iff.1 h2
    refine Option.bind_eq_some_iff.2 ⟨y, ?_, Option.map_eq_some_iff.2 ⟨q, ih h3, h4⟩⟩
    unfold inputStep at h1 ⊢
    obtain ⟨r, h5, h6⟩ := Option.bind_eq_some_iff.1 h1
    exact Option.bind_eq_some_iff.2 ⟨r, call_total z h5, h6⟩

theorem viniLoop_total : ∀ (rs : List InRec) {c : Conn S P} {x : Conn S P}, viniLoop env rnd rs c = some x →
    viniLoop (total env z) (fun k => patient (rnd k)) rs c = some x := by
  intro rs
  induction rs with
  | nil => intro c x h; exact h
  | cons s rs ih =>
    intro c x h
    rw [viniLoop] at h ⊢
    obtain ⟨y, h1, h2⟩ := Option.bind_eq_some_iff.1 h
    exact Option.bind_eq_some_iff.2 ⟨y, call_total z h1, ih h2⟩

theorem outputStep_total {cfg : Config} {cdc : Codec} {d : TxData} {hrnd : Nat → Bytes} {bs : List Nat} {off : Bool} {idx : Nat} {dst : Dst} {hmac : Bytes}
    {st : OutSt} {c : Conn S P} {x : OutSt × Conn S P} (h : outputStep env cfg cdc d rnd hrnd bs off idx dst hmac st c = some x) :
    outputStep (total env z) cfg cdc d (fun k => patient (rnd k)) hrnd bs off idx dst hmac st c = some x := by
  unfold outputStep at h ⊢
  obtain ⟨a, h1, h2⟩ := Option.bind_eq_some_iff.1 h
  obtain ⟨r, h3, h4⟩ := Option.bind_eq_some_iff.1 h2
  refine Option.bind_eq_some_iff.2 ⟨a, h1, Option.bind_eq_some_iff.2 ⟨r, call_total z h3, ?_⟩⟩
  obtain ⟨r, c1⟩ := r
  dsimp only at h4 ⊢
  split at h4
  · obtain ⟨st2, h5, h6⟩ := Option.bind_eq_some_iff.1 h4
    refine Option.bind_eq_some_iff.2 ⟨st2, h5, ?_⟩
    split at h6
    · rename_i hc
      rw [if_pos hc]
      unfold upload at h6 ⊢
      obtain ⟨o, h7, h8⟩ := Option.bind_eq_some_iff.1 h6
      refine Option.bind_eq_some_iff.2 ⟨o, h7, ?_⟩
      cases o with
      | none => exact h8
      | some y =>
        dsimp only at h8 ⊢
        obtain ⟨r2, h9, h10⟩ := Option.map_eq_some_iff.1 h8
        exact Option.map_eq_some_iff.2 ⟨r2, call_total z h9, h10⟩
    · rename_i hc
      rw [if_neg hc]
      exact h6
  · cases h4

theorem outputLoop_total {cfg : Config} {cdc : Codec} {d : TxData} {hrnd : Nat → Bytes} {bs : List Nat} {off : Bool} {hmacs : List Bytes} :
    ∀ (dsts : List Dst) {idx : Nat} {st : OutSt} {c : Conn S P} {x : OutSt × Conn S P},
    outputLoop env cfg cdc d rnd hrnd bs off hmacs idx dsts st c = some x →
    outputLoop (total env z) cfg cdc d (fun k => patient (rnd k)) hrnd bs off hmacs idx dsts st c = some x := by
  intro dsts
  induction dsts with
  | nil => intro idx st c x h; exact h
  | cons s dsts ih =>
    intro idx st c x h
    rw [outputLoop] at h ⊢
    obtain ⟨hm, h1, h2⟩ := Option.bind_eq_some_iff.1 h
    obtain ⟨y, h3, h4⟩ := Option.bind_eq_some_iff.1 h2
    exact Option.bind_eq_some_iff.2 ⟨hm, h1, Option.bind_eq_some_iff.2 ⟨y, outputStep_total z h3, ih h4⟩⟩

theorem signLoop_total {cfg : Config} : ∀ (rs : List InRec) {c : Conn S P} {x : List (Bytes × Bytes) × Conn S P},
    signLoop env cfg rnd rs c = some x → signLoop (total env z) cfg (fun k => patient (rnd k)) rs c = some x := by
  intro rs
  induction rs with
  | nil => intro c x h; exact h
  | cons s rs ih =>
    intro c x h
    rw [signLoop] at h ⊢
    obtain ⟨⟨r, c1⟩, h1, h2⟩ := Option.bind_eq_some_iff.1 h
    refine Option.bind_eq_some_iff.2 ⟨(r, c1), call_total z h1, ?_⟩
    dsimp only at h2 ⊢
    split at h2
    · obtain ⟨q, h3, h4⟩ := Option.map_eq_some_iff.1 h2
      exact Option.map_eq_some_iff.2 ⟨q, ih h3, h4⟩
    · cases h2

theorem run_total_all {cfg : Config} {cdc : Codec} {d : TxData} {hrnd : Nat → Bytes} {c : Conn S P} {x : Tx × Resp × Conn S P}
    (h : signAll env cfg cdc rnd hrnd d c = some x) :
    signAll (total env z) cfg cdc (fun k => patient (rnd k)) hrnd d c = some x := by
  simp only [signAll, Option.bind_eq_some_iff, Option.map_eq_some_iff] at h ⊢
  obtain ⟨tsx, e0, r0, e1, r1, e2, r2, e3, c3, e4, r4, e5, r5, e6, r6, e7, r7, e8, r8, e9, e10⟩ := h
  refine ⟨tsx, e0, r0, ?_, r1, inputLoop_total z _ e2, r2, ?_, c3, viniLoop_total z _ e4, r4, ?_, r5, outputLoop_total z _ e6, r6, ?_, r7,
    signLoop_total z _ e8, r8, call_total z e9, e10⟩
  · unfold initStep at e1 ⊢
    obtain ⟨y, h1, h2⟩ := Option.bind_eq_some_iff.1 e1
    exact Option.bind_eq_some_iff.2 ⟨y, call_total z h1, h2⟩
  · unfold permStep at e3 ⊢
    obtain ⟨y, h1, h2⟩ := Option.bind_eq_some_iff.1 e3
    obtain ⟨q, h3, h4⟩ := Option.map_eq_some_iff.1 h2
    exact Option.bind_eq_some_iff.2 ⟨y, h1, Option.map_eq_some_iff.2 ⟨q, call_total z h3, h4⟩⟩
  · unfold allInStep at e5 ⊢
    obtain ⟨y, h1, h2⟩ := Option.bind_eq_some_iff.1 e5
    exact Option.bind_eq_some_iff.2 ⟨y, call_total z h1, h2⟩
  · unfold allOutStep at e7 ⊢
    obtain ⟨y, h1, h2⟩ := Option.bind_eq_some_iff.1 e7
    exact Option.bind_eq_some_iff.2 ⟨y, call_total z h1, h2⟩

theorem run_total {cfg : Config} {cdc : Codec} {d : TxData} {hrnd : Nat → Bytes} {c : Conn S P} {x : Tx × Conn S P}
    (h : signTransaction env cfg cdc rnd hrnd d c = some x) :
    signTransaction (total env z) cfg cdc (fun k => patient (rnd k)) hrnd d c = some x := by
  obtain ⟨y, h1, h2⟩ := Option.map_eq_some_iff.1 h
  exact Option.map_eq_some_iff.2 ⟨y, run_total_all z h1, h2⟩
end

theorem forall₂_mem {α β : Type} {R R' : α → β → Prop} {l : List α} {m : List β} (h : List.Forall₂ R l m) :
    (∀ a, ∀ b ∈ m, R a b → R' a b) → List.Forall₂ R' l m := by
  induction h with
  | nil => intro _; exact .nil
  | cons h1 _ ih => intro hi; exact .cons (hi _ _ (by simp) h1) (ih fun a b hb => hi a b (by simp [hb]))

/-- The signatures that a run gave are those of the prover, not the substitute, if that is not among them. -/
theorem TxOk.real {env : Env S P} {z : Bytes} {cfg : Config} {d : TxData} {tx : Tx} {ins : List (Spent S P)} {outs : List (Made S P)}
    {groups : List (Bp × List (Made S P))} {nonce : Bytes} {txKey : P} {addKeys : List P}
    (h : TxOk (total env z) cfg d tx ins outs groups nonce txKey addKeys) (hz : z ∉ tx.mgs) :
    TxOk env cfg d tx ins outs groups nonce txKey addKeys where
  sources := h.sources
  mine i hi := ⟨(h.mine i hi).real⟩
  vin := h.vin
  sorted := h.sorted
  dests := h.dests
  vout := h.vout
  commitments := h.commitments
  encrypted := h.encrypted
  time := h.time
  extra := h.extra
  payment := h.payment
  additional := h.additional
  type := h.type
  fee := h.fee
  pseudo := h.pseudo
  balance := h.balance
  message := h.message
  signed := by
    refine forall₂_mem h.signed ?_
    rintro i sig hsig ⟨r, hr⟩
    refine ⟨r, ?_⟩
    have hr' : some ((env.mlsag (getPreMlsagHash env.keccak tx.rv) i.src.outputs i.x (env.scDec i.src.mask) i.mask
      (genC env i.mask i.src.amount) i.src.realOutput r).getD z) = some sig := hr
    generalize env.mlsag (getPreMlsagHash env.keccak tx.rv) i.src.outputs i.x (env.scDec i.src.mask) i.mask
      (genC env i.mask i.src.amount) i.src.realOutput r = o at hr' ⊢
    cases o with
    | some _ => exact hr'
    | none =>
      simp only [Option.getD_none, Option.some.injEq] at hr'
      exact absurd (hr' ▸ hsig) hz
  proofs := h.proofs
  covered := h.covered
  valid := h.valid

theorem Lawful.total {env : Env S P} {cdc : Codec} (h : Lawful env cdc) (z : Bytes) : Lawful (total env z) cdc :=
  ⟨h.msgOk, h.respOk, h.keyLen, h.hashLen, h.ptLen, h.ptRound, h.scRound, h.scLen, h.openSeal, h.vin, h.vout, h.ecdh, h.bp⟩

theorem long_not_mem {l : List Bytes} : l.flatten ++ [0] ∉ l := by
  intro h
  have : (l.flatten ++ [0]).length ≤ l.flatten.length := by
    rw [List.length_flatten]
    exact List.le_sum_of_mem (List.mem_map.2 ⟨_, h, rfl⟩)
  simp at this

end Verif.Agent

import Verif.Lemmas.SignerAllOut
import Verif.Lemmas.SignerBalance
import Verif.Lemmas.SignerDemo
import Mathlib.Algebra.BigOperators.Group.List.Basic
import Mathlib.Algebra.Order.BigOperators.Group.List
import Mathlib.Data.List.Range
import Mathlib.Tactic.Abel
import Mathlib.Data.List.Perm.Subperm

/-! C07, C08, C09, C11: amounts, masks, one signature per input, change. -/

set_option linter.unusedSectionVars false

namespace Verif.Signer
open Verif
variable {S P : Type} [CommRing S] [AddCommGroup P] [Module S P] [DecidableEq S] [DecidableEq P]

/-! ### C07 -/

/-- C07: once the outputs are closed — so before anything is signed — the amounts of the registered inputs
are the amounts of the accepted outputs plus the fee of the (confirmed) init message. -/
theorem C07_value_conserved {env : Env S P} (hr : ∀ r, env.respOk r = true) {log : List (Event S)} {d : Device S P}
    (h : Reach env log d) {tsx : TsxData} {rnd : Rand S} {hmacs : List Bytes}
    (hinit : initOf (session env log) = some (tsx, rnd, hmacs)) (hclosed : .allOut ∈ kinds (session env log)) :
    ((inputs (session env log)).map (·.src.amount)).sum =
      ((outputs (session env log)).map (·.dst.amount)).sum + tsx.fee := by
  rcases reach_obs hr h with h0 | ⟨hd, s, b, g, hI, e1, e2, e3, e4, e5, e6, e7⟩
  · rw [h0] at hclosed; simp [kinds] at hclosed
  · rw [e6] at hinit
    simp only [Option.some.injEq, Prod.mk.injEq] at hinit
    obtain ⟨rfl, rfl, rfl⟩ := hinit
    have hc : .allOut ∈ kinds s := by
      rcases e7 with ⟨e7, _⟩ | ⟨e7, _⟩ <;> rw [e7] at hclosed
      · exact hclosed
      · simpa using hclosed
    have := hI.balance (hI.stage.notHashing hc)
    rw [hI.sumIn, hI.sumOut, hI.counts.2.2.1] at this
    rw [e1, e4]; exact this

/-- The device tells the host the fee that was confirmed. -/
theorem C07_fee_reported {env : Env S P} (hr : ∀ r, env.respOk r = true) {log pre post : List (Event S)} {e : Event S}
    {d : Device S P} (h : Reach env log d) (hlog : log = pre ++ e :: post) {x p : Bytes} {fee : Nat} {ty : UInt8}
    {full : Bytes} (hm : e.msg = .allOutSet) (hresp : e.resp = .allOutAck x p fee ty full) {tsx : TsxData}
    {rnd : Rand S} {hmacs : List Bytes} (hinit : initOf (session env pre) = some (tsx, rnd, hmacs)) :
    fee = tsx.fee ∧ rnd.confirm = true := by
  obtain ⟨hd, b, g, b', hI, hs⟩ := allOut_step hr h hlog (by simp [Event.kind?, hm, hresp])
  obtain ⟨_, _, h3⟩ := hI.allOutSet hs
  rw [initOf_head hI.head] at hinit
  simp only [Option.some.injEq, Prod.mk.injEq] at hinit
  obtain ⟨rfl, rfl, rfl⟩ := hinit
  rw [hresp] at h3
  simp only [Resp.allOutAck.injEq] at h3
  exact ⟨h3.2.2.1, hI.initOk.confirmed⟩

example : .allOut ∈ kinds (session Demo.env (Demo.demoLog (Demo.honest 1))) ∧
    ((inputs (session Demo.env (Demo.demoLog (Demo.honest 1)))).map (·.src.amount)).sum = 5 := by decide +kernel

/-! ### C09 -/

def twiceHost : Demo.Host :=
  [Demo.mInit (Demo.tsx 2 [Demo.dst 1, Demo.dst2 3] [2] 2), Demo.mInput (Demo.src 2 7) 10,
   Demo.mInput (Demo.src 3 8) 20, Demo.mPerm [1, 1], Demo.mVini 1, Demo.mVini 1,
   Demo.mAllIn, Demo.mOut (Demo.dst 1) 0, Demo.mOut (Demo.dst2 3) 1, Demo.mAllOut, Demo.mSign 1, Demo.mSign 1,
   Demo.mFinal]

/-- C09 is false: the permutation is stored unchecked, so a host that sends `[1, 1]` completes a session (using
only issued tags) in which registered input 1 is signed twice and registered input 0 never. -/
theorem C09_false : ∃ (log : List (Event Int)) (d : Device Int Int), Reach Demo.env log d ∧
    kinds (session Demo.env log) = protocol 2 2 2 ∧
    ((signs (session Demo.env log)).all fun v => v.viniHmac ∈ issued (session Demo.env log)) = true ∧
    ∃ r0 r1, inputs (session Demo.env log) = [r0, r1] ∧ r0.viniHmac ≠ r1.viniHmac ∧
      (signs (session Demo.env log)).map (·.viniHmac) = [r1.viniHmac, r1.viniHmac] := by
  have h1 : kinds (session Demo.env (Demo.demoLog twiceHost)) = protocol 2 2 2 := by decide +kernel
  have h2 : ((signs (session Demo.env (Demo.demoLog twiceHost))).all fun v =>
    v.viniHmac ∈ issued (session Demo.env (Demo.demoLog twiceHost))) = true := by decide +kernel
  have h3 : (match inputs (session Demo.env (Demo.demoLog twiceHost)) with
    | [r0, r1] => decide (r0.viniHmac ≠ r1.viniHmac) && decide
      ((signs (session Demo.env (Demo.demoLog twiceHost))).map (·.viniHmac) = [r1.viniHmac, r1.viniHmac])
    | _ => false) = true := by decide +kernel
  refine ⟨_, _, Demo.demo_reach twiceHost, h1, h2, ?_⟩
  split at h3
  · rename_i r0 r1 he
    simp only [Bool.and_eq_true, decide_eq_true_eq] at h3
    exact ⟨r0, r1, he, h3.1, h3.2⟩
  · simp at h3

/-- C09 (partial): if the permutation the host sent has no repetition and it presents only issued tags, then
in a completed session every registered input is signed exactly once. What is missing: the device does not
check the permutation (`C09_false`). -/
theorem C09_signed_once_partial {env : Env S P} (hB : Binding env) (hr : ∀ r, env.respOk r = true)
    {log : List (Event S)} {d : Device S P} (h : Reach env log d) (hfinal : .final ∈ kinds (session env log))
    {p : List Nat} (hp : perms (session env log) = [p]) (hnd : p.Nodup)
    (hissued : ∀ v ∈ signs (session env log), v.viniHmac ∈ issued (session env log))
    {j : Nat} {r : InputRec S} (hj : (inputs (session env log))[j]? = some r) :
    ∃! i : Nat, ∃ v : SignRec, (signs (session env log))[i]? = some v ∧ v.viniHmac = r.viniHmac := by
  rcases reach_obs hr h with h0 | ⟨hd, s, b, g, hI, e1, e2, e3, e4, e5, e6, e7⟩
  · rw [h0] at hfinal; simp [kinds] at hfinal
  · have hst : b.state.s = .SIGNATURE_DONE := by
      rcases e7 with ⟨e7, e8⟩ | ⟨_, e8⟩
      · rw [e7] at hfinal; exact absurd hfinal e8
      · exact e8
    have hiss : issued (session env log) = issued s := by
      unfold issued; rw [e1, e4, e6, initOf_head hI.head]
    rw [hiss, e5] at hissued
    rw [e1] at hj
    rw [e5]
    have hpb : p = b.perm := by
      rw [e2, hI.perm (by rw [hst]; rfl)] at hp
      simpa using hp.symm
    subst hpb
    obtain ⟨hperm, hpos⟩ := hI.signPositions hB hst hissued hnd
    have hjn : j < hd.tsx.numInputs := by
      have := (List.getElem?_eq_some_iff.1 hj).1
      rwa [hI.inputsLen hst] at this
    obtain ⟨i, hi⟩ := List.mem_iff_getElem?.1 (hperm.mem_iff.2 (List.mem_range.2 hjn))
    have hil : i < (signs s).length := by
      rw [hI.signsLen hst, ← List.length_range (n := hd.tsx.numInputs), ← hperm.length_eq]
      exact (List.getElem?_eq_some_iff.1 hi).1
    rw [List.getElem?_take_of_lt (by rwa [hI.signsLen hst] at hil)] at hi
    obtain ⟨pos, r', hp', hr', ht'⟩ := hpos i _ (List.getElem?_eq_getElem hil)
    rw [hi] at hp'
    simp only [Option.some.injEq] at hp'
    subst hp'
    rw [hj] at hr'
    simp only [Option.some.injEq] at hr'
    subst hr'
    refine ⟨i, ⟨_, List.getElem?_eq_getElem hil, ht'.symm⟩, ?_⟩
    rintro i2 ⟨v2, hv2, ht2⟩
    obtain ⟨pos2, r2, hp2, hr2, ht3⟩ := hpos i2 v2 hv2
    -- same tag, so same position, so same index
    have : pos2 = j := hI.viniHmac_inj hB hr2 hj (by rw [ht3, ht2])
    subst this
    have hlt2 := (List.getElem?_eq_some_iff.1 hp2).1
    have hlt := (List.getElem?_eq_some_iff.1 hi).1
    exact (hnd.getElem_inj_iff (hi := hlt2) (hj := hlt)).1 (by
      rw [List.getElem?_eq_getElem hlt2] at hp2
      rw [List.getElem?_eq_getElem hlt] at hi
      simp only [Option.some.injEq] at hp2 hi
      rw [hp2, hi])

/-- The premises of `C09_signed_once_partial` are met. -/
example : Binding Demo.env ∧ perms (session Demo.env (Demo.demoLog (Demo.honest 2))) = [[1, 0]] ∧
    .final ∈ kinds (session Demo.env (Demo.demoLog (Demo.honest 2))) ∧
    ((signs (session Demo.env (Demo.demoLog (Demo.honest 2)))).all fun v =>
      v.viniHmac ∈ issued (session Demo.env (Demo.demoLog (Demo.honest 2)))) = true := by
  refine ⟨Demo.binding, ?_, ?_, ?_⟩ <;> decide +kernel

/-! ### C08 -/

/-- C08: if the permutation names every input once, and the host presents only tags and sealed masks that the
device handed out in the session, then in a completed session the pseudo-output masks add up to the output
masks, and the pseudo-output commitments returned with the signatures add up to the output commitments plus
`fee·H`. Both mask modes. -/
theorem C08_masks_balance_partial {env : Env S P} (hB : Binding env) (hS : Sealing env) (hr : ∀ r, env.respOk r = true)
    {log : List (Event S)} {d : Device S P} (h : Reach env log d) (hfinal : .final ∈ kinds (session env log))
    {tsx : TsxData} {rnd : Rand S} {hmacs : List Bytes} (hinit : initOf (session env log) = some (tsx, rnd, hmacs))
    {p : List Nat} (hp : perms (session env log) = [p]) (hnd : p.Nodup)
    (hissued : ∀ v ∈ signs (session env log), v.viniHmac ∈ issued (session env log) ∧
      v.pseudoOutHmac ∈ issued (session env log) ∧
      v.alphaEnc ∈ (inputs (session env log)).map (·.alphaEnc)) :
    ∃ (inMasks outMasks : List S) (inAmounts : List Nat),
      inMasks.length = tsx.numInputs ∧ outMasks.length = tsx.outputs.length ∧
      inAmounts.Perm ((inputs (session env log)).map (·.src.amount)) ∧
      (signs (session env log)).map (·.resultPseudoOut) =
        List.zipWith (fun m a => env.ptEnc (genC env m a)) inMasks inAmounts ∧
      (∀ (i : Nat) (o : OutputRec) (m : S), (outputs (session env log))[i]? = some o → outMasks[i]? = some m →
        ∃ key, o.ack.outPk = key ++ env.ptEnc (genC env m o.dst.amount)) ∧
      inMasks.sum = outMasks.sum ∧
      (List.zipWith (genC env) inMasks inAmounts).sum =
        (List.zipWith (genC env) outMasks ((outputs (session env log)).map (·.dst.amount))).sum +
          (tsx.fee : S) • env.H := by
  have hval := C07_value_conserved hr h hinit
  rcases reach_obs hr h with h0 | ⟨hd, s, b, g, hI, e1, e2, e3, e4, e5, e6, e7⟩
  · rw [h0] at hfinal; simp [kinds] at hfinal
  · have hst : b.state.s = .SIGNATURE_DONE := by
      rcases e7 with ⟨e7, e8⟩ | ⟨_, e8⟩
      · rw [e7] at hfinal; exact absurd hfinal e8
      · exact e8
    have hiss : issued (session env log) = issued s := by
      unfold issued; rw [e1, e4, e6, initOf_head hI.head]
    rw [hiss, e5, e1] at hissued
    rw [e6] at hinit
    simp only [Option.some.injEq, Prod.mk.injEq] at hinit
    obtain ⟨rfl, rfl, rfl⟩ := hinit
    have hpbm : p = b.perm := by
      rw [e2, hI.perm (by rw [hst]; rfl)] at hp
      simpa using hp.symm
    subst hpbm
    have hks : kinds (session env log) = kinds s ++ [.final] := by
      rcases e7 with ⟨e7, e8⟩ | ⟨e7, _⟩
      · rw [e7] at hfinal; exact absurd hfinal e8
      · exact e7
    have hval := hval (by
      rw [hks]
      have := hI.stage
      rw [hst] at this
      rw [this.2.2.2.2]
      simp [preSign])
    rw [e1, e4] at hval
    rw [e1, e4, e5]
    obtain ⟨hperm, _⟩ := hI.signPositions hB hst (fun v hv => (hissued v hv).1) hnd
    obtain ⟨hsum, hpo⟩ := hI.masksBalance hB hS hst hissued hnd
    have hgl : (g.used).length = hd.tsx.numInputs := by rw [hI.signLen.2, hI.signsLen hst]
    have hol : (outputs s).length = hd.tsx.outputs.length := hI.outputsLen hst
    refine ⟨g.used, g.masks, (b.perm.take hd.tsx.numInputs).map fun q => (((inputs s)[q]?).map (·.src.amount)).getD 0, hgl,
      by rw [hI.masksLen, hol], ?_, hpo, ?_, hsum, ?_⟩
    · have h1 := hperm.map fun q => (((inputs s)[q]?).map (·.src.amount)).getD 0
      refine h1.trans (List.Perm.of_eq ?_)
      rw [← hI.inputsLen hst]
      exact getD_range_map _ _ _
    · intro i o m ho hm
      obtain ⟨_, _, _, d', sp, _, _, _, _, _, hpk, _⟩ := hI.outputsOk i o m ho hm
      exact ⟨_, hpk⟩
    · have hz : ∀ (ms : List S) (as : List Nat), ms.length = as.length →
          (List.zipWith (genC env) ms as).sum = ms.sum • env.G + ((as.sum : Nat) : S) • env.H := by
        intro ms
        induction ms with
        | nil => intro as hl; have : as = [] := List.length_eq_zero_iff.1 hl.symm; simp [this]
        | cons m ms ih =>
          intro as hl
          cases as with
          | nil => simp at hl
          | cons a as =>
            simp only [List.zipWith_cons_cons, List.sum_cons, ih as (by simpa using hl), genC, add_smul,
              Nat.cast_add]
            abel
      have hpl : (b.perm.take hd.tsx.numInputs).length = hd.tsx.numInputs := by rw [hperm.length_eq, List.length_range]
      rw [hz _ _ (by rw [List.length_map, hgl, hpl]), hz _ _ (by simp [hI.masksLen]), hsum]
      have h1 : ((b.perm.take hd.tsx.numInputs).map fun q => (((inputs s)[q]?).map (·.src.amount)).getD 0).sum =
          ((inputs s).map (·.src.amount)).sum := by
        have h1 := hperm.map fun q => (((inputs s)[q]?).map (·.src.amount)).getD 0
        rw [h1.sum_eq]
        congr 1
        rw [← hI.inputsLen hst]
        exact getD_range_map _ _ _
      rw [h1, hval]
      push_cast
      rw [add_smul]
      abel

/-- The premises of `C08_masks_balance_partial` are met in both mask modes. -/
example : Binding Demo.env ∧ Sealing Demo.env ∧ ∀ bpv ∈ [1, 2],
    .final ∈ kinds (session Demo.env (Demo.demoLog (Demo.honest bpv))) ∧
    perms (session Demo.env (Demo.demoLog (Demo.honest bpv))) = [[1, 0]] ∧
    ∀ v ∈ signs (session Demo.env (Demo.demoLog (Demo.honest bpv))),
      v.viniHmac ∈ issued (session Demo.env (Demo.demoLog (Demo.honest bpv))) ∧
      v.pseudoOutHmac ∈ issued (session Demo.env (Demo.demoLog (Demo.honest bpv))) ∧
      v.alphaEnc ∈ (inputs (session Demo.env (Demo.demoLog (Demo.honest bpv)))).map (·.alphaEnc) := by
  refine ⟨Demo.binding, Demo.sealing, ?_⟩
  decide +kernel

/-- The premise on the permutation is needed: with the permutation `[1, 1]` the session completes, every tag
and sealed mask presented was issued, and the pseudo outputs do not add up to outputs plus fee. -/
theorem C08_false_for_repeated_input : ∃ (log : List (Event Int)) (d : Device Int Int), Reach Demo.env log d ∧
    kinds (session Demo.env log) = protocol 2 2 2 ∧
    (∀ v ∈ signs (session Demo.env log), v.viniHmac ∈ issued (session Demo.env log) ∧
      v.pseudoOutHmac ∈ issued (session Demo.env log) ∧
      v.alphaEnc ∈ (inputs (session Demo.env log)).map (·.alphaEnc)) ∧
    (initOf (session Demo.env log)).map (·.1.fee) = some 1 ∧
    ∃ p1 p2 k1 c1 k2 c2 : Int,
      (signs (session Demo.env log)).map (·.resultPseudoOut) = [Demo.env.ptEnc p1, Demo.env.ptEnc p2] ∧
      (outputs (session Demo.env log)).map (·.ack.outPk) =
        [Demo.env.ptEnc k1 ++ Demo.env.ptEnc c1, Demo.env.ptEnc k2 ++ Demo.env.ptEnc c2] ∧
      p1 + p2 ≠ c1 + c2 + (1 : Int) • Demo.env.H := by
  refine ⟨_, _, Demo.demo_reach twiceHost, ?_, ?_, ?_, 119, 29, 39, 55, 57, 77, ?_, ?_, ?_⟩
  all_goals decide +kernel

/-! ### C11 -/

/-- C11: an accepted init has no change, or its change address is an output address and the wallet's own
primary address, or it is the zero change of a two-output transaction. -/
theorem C11_change_owned {env : Env S P} (hr : ∀ r, env.respOk r = true) {log pre post : List (Event S)} {e : Event S}
    {d : Device S P} (h : Reach env log d) (hlog : log = pre ++ e :: post) {tsx : TsxData} {hm : List Bytes}
    {off : Bool} (hmsg : e.msg = .init tsx) (hresp : e.resp = .initAck hm off) :
    match tsx.change with
    | none => True
    | some c => (c.amount = 0 ∧ tsx.outputs.length = 2) ∨
        ((∃ o ∈ tsx.outputs, o.addr = c.addr) ∧ c.addr = env.primaryAddr tsx.account) := by
  obtain ⟨d0, hr0, hresp', _⟩ := h.split hlog
  rw [hresp, hmsg] at hresp'
  unfold tsxSign at hresp'
  split at hresp'
  · simp at hresp'
  · rw [show wakeUp d0 (.init tsx) = freshBuilder from rfl] at hresp'
    cases hs : Signer.sign env freshBuilder (.init tsx) e.rnd with
    | error er => rw [hs] at hresp'; cases er <;> simp at hresp'
    | ok y =>
      obtain ⟨b, resp⟩ := y
      rw [hs] at hresp'
      simp only [hr, if_true] at hresp'
      rcases init_eff hs with ⟨_, rfl, _⟩ | ⟨_, _, _, _, _, hok, _, _⟩
      · simp at hresp'
      · have hc := hok.changeOk
        cases hch : tsx.change with
        | none => trivial
        | some c =>
          have addr_ext : ∀ a a' : Addr, addrEq a a' = true → a = a' := by
            intro a a' hh
            simp only [addrEq, Bool.and_eq_true, beq_iff_eq] at hh
            cases a; cases a'; simp_all
          rw [hch] at hc
          simp only [checkChange] at hc
          split at hc
          · rename_i hz
            simp only [Bool.and_eq_true, beq_iff_eq] at hz
            exact Or.inl ⟨hz.1.2, hz.2⟩
          · simp only [bind_ok, ensure_ok, exists_unit] at hc
            obtain ⟨h1, h2⟩ := hc
            right
            simp only [List.any_eq_true] at h1
            obtain ⟨o, ho, hoe⟩ := h1
            exact ⟨⟨o, ho, addr_ext _ _ hoe⟩, (addr_ext _ _ h2).symm⟩

/-- An accepted init with change. -/
example : ∃ (log pre post : List (Event Int)) (d : Device Int Int) (e : Event Int), Reach Demo.env log d ∧
    log = pre ++ e :: post ∧ e.resp.isFailure = false ∧ e.kind? = some .init ∧
    (match e.msg with | .init t => t.change.isSome | _ => false) = true := by
  let t : TsxData := { Demo.tsx 1 [Demo.dst 1, ⟨2, ⟨Demo.encInt 5, Demo.encInt 5⟩, false⟩] [2] 2 with
    change := some ⟨2, ⟨Demo.encInt 5, Demo.encInt 5⟩, false⟩ }
  refine ⟨_, [], [], _, (Demo.demoLog [Demo.mInit t])[0]'(by decide +kernel), Demo.demo_reach [Demo.mInit t], rfl, ?_, ?_, ?_⟩
  all_goals decide +kernel

end Verif.Signer

import Verif.Lemmas.AgentOut

/-! The outputs on the host. -/

set_option linter.unusedSectionVars false
set_option linter.unusedSimpArgs false

namespace Verif.Agent
open Verif Verif.Signer Verif.Batches
variable {S P : Type} [CommRing S] [AddCommGroup P] [Module S P] [DecidableEq S] [DecidableEq P]

/-- What the host keeps of the encrypted amount. -/
def keepEcdh (cfg : Config) (b : Bytes) : Ecdh := (hostEcdh cfg b).getD ⟨[], []⟩

/-- The host's lists after outputs `os` with proofs `ps` and `n` outputs waiting. -/
def hostOut (env : Env S P) (cfg : Config) (off : Bool) (os : List (OutV S P)) (ps : List Bp) (n : Nat) : OutSt where
  vout := os.map fun o => ⟨0, env.ptEnc o.key⟩
  outPk := os.map fun o => (env.ptEnc o.key, o.comm env)
  ecdh := os.map fun o => keepEcdh cfg o.ecdh
  gamma := if off then os.map fun o => env.scEnc o.mask else []
  rsigs := ps
  batch := ps.length
  inBatch := n

/-- Encodings the host relies on. -/
structure HostLaws (env : Env S P) (cfg : Config) (cdc : Codec) : Prop where
  len : ∀ p : P, (env.ptEnc p).length = 32
  pt : ∀ p : P, env.ptDec (env.ptEnc p) = some p
  sc : ∀ s : S, env.scDec (env.scEnc s) = s
  scne : ∀ s : S, env.scEnc s ≠ []
  vout : ∀ k : Bytes, k.length = 32 → cdc.parseVout ([0, 2] ++ k) = some ⟨0, k⟩
  cv : 1 ≤ cfg.clientVersion

theorem recordAck_run {env : Env S P} {cfg : Config} {cdc : Codec} (hl : HostLaws env cfg cdc) {b2 : Builder S P} {os : List (OutV S P)}
    {ps : List Bp} {n : Nat} {o : OutV S P} {rs : Option Bytes} (he : hostEcdh cfg o.ecdh = some (keepEcdh cfg o.ecdh)) :
    recordAck cfg cdc { hostOut env cfg b2.rsigOffload os ps n with inBatch := n + 1 } (ackOf env b2 os.length o rs) =
      some (hostOut env cfg b2.rsigOffload (os ++ [o]) ps (n + 1)) := by
  have h1 := hl.len o.key
  have h2 : (o.comm env).length = 32 := hl.len _
  simp only [recordAck, ackOf, OutV.txOut]
  rw [hl.vout _ h1]
  simp only [Option.bind_some, parseCtKey, List.length_append, h1, h2, Nat.reduceAdd, Nat.le_refl, if_true, he, Option.map_some]
  rw [List.take_left' h1, List.drop_left' h1, List.take_of_length_le (Nat.le_of_eq h2)]
  cases ho : b2.rsigOffload with
  | false => simp [hostOut]
  | true => simp [hostOut, hl.cv, hl.scne]

/-- How far the outputs are: `groups` closed by a proof, `part` waiting. -/
structure Prog (grp : List Nat) (os : List (OutV S P)) (groups : List (Bp × List (OutV S P))) (part : List (OutV S P)) : Prop where
  split : os = (groups.map (·.2)).flatten ++ part
  sizes : groups.map (·.2.length) = grp.take groups.length
  room : ∀ hb : groups.length < grp.length, part.length < grp[groups.length]

theorem Prog.le {grp : List Nat} {os : List (OutV S P)} {groups : List (Bp × List (OutV S P))} {part : List (OutV S P)} (h : Prog grp os groups part) :
    groups.length ≤ grp.length := by
  have := congrArg List.length h.sizes
  simp at this; omega

theorem Prog.start {grp : List Nat} {os : List (OutV S P)} {groups : List (Bp × List (OutV S P))} {part : List (OutV S P)} (h : Prog grp os groups part) :
    start grp groups.length + part.length = os.length := by
  have h1 : (groups.map (·.2)).flatten.length = Batches.start grp groups.length := by
    rw [List.length_flatten, List.map_map]
    show (groups.map (·.2.length)).sum = _
    rw [h.sizes]; rfl
  rw [h.split, List.length_append, h1]

theorem Prog.lt {grp : List Nat} {os : List (OutV S P)} {groups : List (Bp × List (OutV S P))} {part : List (OutV S P)} (h : Prog grp os groups part)
    (hn : os.length < grp.sum) : groups.length < grp.length := by
  rcases Nat.lt_or_ge groups.length grp.length with h1 | h1
  · exact h1
  · have h2 := h.start
    rw [show Batches.start grp groups.length = grp.sum by unfold Batches.start; rw [List.take_of_length_le h1]] at h2
    omega

/-- Whether the next output closes its batch. -/
theorem Prog.last {grp : List Nat} {os : List (OutV S P)} {groups : List (Bp × List (OutV S P))} {part : List (OutV S P)} (h : Prog grp os groups part)
    (hn : os.length < grp.sum) : lastInBatch grp (os.length : Int) = some (decide (part.length + 1 = grp[groups.length]'(h.lt hn))) := by
  have hg := h.lt hn
  have h1 := h.start
  have h2 := h.room hg
  have h3 := start_succ hg
  rw [(C18_device (idx := os.length) hg (by omega) (by omega)).2, h3]
  congr 2
  rw [eq_iff_iff]
  omega

theorem last_none {grp : List Nat} (h0 : grp ≠ []) (hpos : ∀ g ∈ grp, 0 < g) : lastInBatch grp (-1) = some false := by
  cases grp with
  | nil => exact absurd rfl h0
  | cons g gs =>
    have hb : rsigBatch (g :: gs) (-1) = some (-1) := by simp [rsigBatch, rsigBatchAux]
    unfold lastInBatch
    rw [hb, Option.bind_some, isLastInBatch, if_neg (by omega), if_pos (by simp)]
    have hlt : (-1 + ((g :: gs).length : Int)).toNat < (g :: gs).length := by simp
    rw [List.getElem?_eq_getElem hlt]
    have := hpos _ (List.getElem_mem hlt)
    show some (_ == _) = _
    congr 1
    rw [beq_eq_false_iff_ne]
    omega

/-- Whether the previous output closed its batch. -/
theorem Prog.prev {grp : List Nat} {os : List (OutV S P)} {groups : List (Bp × List (OutV S P))} {part : List (OutV S P)} (h : Prog grp os groups part)
    (hpos : ∀ g ∈ grp, 0 < g) (hn : os.length < grp.sum) :
    lastInBatch grp ((os.length : Int) - 1) = some (decide (os ≠ [] ∧ part = [])) := by
  have hg := h.lt hn
  have h1 := h.start
  have h2 := h.room hg
  have h3 := start_succ hg
  by_cases ho : os = []
  · subst ho
    have hne : grp ≠ [] := by intro e; subst e; simp at hg
    simpa using last_none hne hpos
  · have hol : 0 < os.length := List.length_pos_iff.2 ho
    have hidx : ((os.length : Int) - 1) = ((os.length - 1 : Nat) : Int) := by omega
    rw [hidx]
    by_cases hp : part = []
    · have hp0 : part.length = 0 := by rw [hp]; rfl
      obtain ⟨q, hq⟩ : ∃ q, groups.length = q + 1 := by
        refine ⟨groups.length - 1, ?_⟩
        rcases Nat.eq_zero_or_pos groups.length with e | e
        · rw [e] at h1; simp [Batches.start] at h1; omega
        · omega
      have hql : q < grp.length := by omega
      have h4 := start_succ hql
      have h5 := hpos _ (List.getElem_mem hql)
      rw [hq] at h1
      rw [(C18_device (idx := os.length - 1) hql (by omega) (by omega)).2]
      simp only [ho, hp, ne_eq, not_false_eq_true, and_self, decide_true, Option.some.injEq, decide_eq_true_eq]
      omega
    · have hp0 : 0 < part.length := List.length_pos_iff.2 hp
      rw [(C18_device (idx := os.length - 1) hg (by omega) (by omega)).2]
      simp only [ho, hp, ne_eq, not_false_eq_true, and_false, decide_false, Option.some.injEq, decide_eq_false_iff_not]
      omega

theorem Prog.push {grp : List Nat} {os : List (OutV S P)} {groups : List (Bp × List (OutV S P))} {part : List (OutV S P)} (h : Prog grp os groups part)
    (hn : os.length < grp.sum) (o : OutV S P) (hc : part.length + 1 ≠ grp[groups.length]'(h.lt hn)) :
    Prog grp (os ++ [o]) groups (part ++ [o]) := by
  have := h.room (h.lt hn)
  refine ⟨by rw [h.split]; simp, h.sizes, fun hb => ?_⟩
  rw [List.length_append, List.length_singleton]
  omega

theorem Prog.close {grp : List Nat} {os : List (OutV S P)} {groups : List (Bp × List (OutV S P))} {part : List (OutV S P)} (h : Prog grp os groups part)
    (hpos : ∀ g ∈ grp, 0 < g) (hn : os.length < grp.sum) (o : OutV S P) (hc : part.length + 1 = grp[groups.length]'(h.lt hn)) (bp : Bp) :
    Prog grp (os ++ [o]) (groups ++ [(bp, part ++ [o])]) [] := by
  have hg := h.lt hn
  refine ⟨by rw [h.split]; simp, ?_, fun hb => hpos _ (List.getElem_mem _)⟩
  rw [List.map_append, h.sizes, List.length_append, List.length_singleton, List.take_succ_eq_append_getElem hg]
  simp [hc]

/-! ### One output, host and device together -/

/-- What a signing run needs for its outputs. -/
structure OutEnv (env : Env S P) (cfg : Config) (cdc : Codec) (d : TxData) (rnd : Nat → Rand S) (b2 : Builder S P) (grp : List Nat) : Prop where
  passes : Passes env
  laws : HostLaws env cfg cdc
  layout : b2.rsigGrp = grp
  sum : grp.sum = b2.outputCount
  pos : ∀ g ∈ grp, 0 < g ∧ g ≤ 16
  ty : rsigType d.useBp d.dsts.length ≠ 0
  ui : ∀ k, (rnd k).uiOk = true
  outs : ∀ j k dst, dst ∈ d.dsts → ∃ o : OutV S P, o.dst = dst ∧ OutOk env b2 j (rnd k) o ∧ hostEcdh cfg o.ecdh = some (keepEcdh cfg o.ecdh)
  small : ∀ dst ∈ d.dsts, dst.amount < 2 ^ 64
  bp : ∀ (os : List (OutV S P)) (r : Bytes), os ≠ [] → os.length ≤ 16 → (∀ o ∈ os, o.dst.amount < 2 ^ 64) → ∃ bp bin, ProofOk env r os bp bin

/-- Outcome of one output. -/
structure StepOk (env : Env S P) (b2 : Builder S P) (grp : List Nat) (groups : List (Bp × List (OutV S P))) (os : List (OutV S P))
    (part : List (OutV S P)) (po fin : Bool) : Prop where
  prog : Prog grp os groups part
  proofs : ∀ g ∈ groups, env.bpVerify g.1 (g.2.map (·.dst.amount)) (g.2.map (·.mask)) = true
  waits : b2.rsigOffload = true → part = [] → os ≠ [] → po = true
  plain : b2.rsigOffload = false → po = false
  done : fin = decide (os.length = b2.outputCount)

theorem mem_slice {d : List Dst} {os : List (OutV S P)} {o : OutV S P} (h : ∀ x ∈ os, x.dst ∈ d) (ho : o.dst ∈ d) {x : OutV S P} (hx : x ∈ os ++ [o]) : x.dst ∈ d := by
  rcases List.mem_append.1 hx with h1 | h1
  · exact h _ h1
  · rw [List.mem_singleton] at h1; rw [h1]; exact ho

theorem suffix_slice {α β : Type} (f : α → β) {os pre part : List α} (h : os = pre ++ part) {l rest : List β} (hl : os.map f ++ rest = l) :
    (l.drop (os.length - part.length)).take part.length = part.map f := by
  subst h
  have : (pre ++ part).length - part.length = pre.length := by simp
  rw [this, ← hl, List.map_append, List.append_assoc, List.drop_left' (by simp), List.take_left' (by simp)]

theorem outputStep_run {env : Env S P} {cfg : Config} {cdc : Codec} {d : TxData} {rnd : Nat → Rand S} {hrnd : Nat → Bytes} {b2 : Builder S P}
    {grp : List Nat} (he : OutEnv env cfg cdc d rnd b2 grp) {ph : Bytes} {h0 : PreMlsag} {c0 : Bytes} (hm : Mid b2 ph h0 c0)
    {os part : List (OutV S P)} {groups : List (Bp × List (OutV S P))} {po : Bool} {dst : Dst} {dsts : List Dst} {k : Nat}
    (hs : StepOk env b2 grp groups os part po false) (hd : os.map (·.dst) ++ dst :: dsts = d.dsts) (hn : os.length < b2.outputCount) :
    ∃ o groups' part' po' fin' k' n, o.dst = dst ∧ OutOk env b2 os.length (rnd n) o ∧ StepOk env b2 grp groups' (os ++ [o]) part' po' fin' ∧
      outputStep env cfg cdc d rnd hrnd grp b2.rsigOffload os.length dst (dstTag env b2.keyHmac dst os.length)
        (hostOut env cfg b2.rsigOffload os (groups.map (·.1)) part.length) (live (bOut env b2 os (groups.map (·.1)) part po false) k) =
      some (hostOut env cfg b2.rsigOffload (os ++ [o]) (groups'.map (·.1)) part'.length,
        live (bOut env b2 (os ++ [o]) (groups'.map (·.1)) part' po' fin') k') := by
  have hmem : dst ∈ d.dsts := by rw [← hd]; simp
  obtain ⟨o, rfl, ho, hec⟩ := he.outs os.length k dst hmem
  have hnsum : os.length < grp.sum := by rw [he.sum]; exact hn
  have hg := hs.prog.lt hnsum
  have hroom := hs.prog.room hg
  have hlast := hs.prog.last hnsum
  have hprev := hs.prog.prev (fun g h => (he.pos g h).1) hnsum
  have hstart := hs.prog.start
  have hposg := he.pos _ (List.getElem_mem hg)
  have hsplit : os ++ [o] = (groups.map (·.2)).flatten ++ (part ++ [o]) := by rw [← List.append_assoc, ← hs.prog.split]
  have hosm : ∀ x ∈ os, x.dst ∈ d.dsts := by
    intro x hx; rw [← hd]; exact List.mem_append_left _ (List.mem_map_of_mem hx)
  have hpartm : ∀ x ∈ part ++ [o], x.dst.amount < 2 ^ 64 := by
    intro x hx
    refine he.small _ (mem_slice hosm hmem ?_)
    rw [hsplit]; exact List.mem_append_right _ hx
  have hd' : (os ++ [o]).map (·.dst) ++ dsts = d.dsts := by rw [← hd]; simp
  have hcnt : os.length + 1 = d.dsts.length - dsts.length := by
    have := congrArg List.length hd; simp at this; omega
  have hoff : b2.rsigOffload = true → ∃ l0, lastInBatch b2.rsigGrp ((os.length : Int) - 1) = some l0 ∧ (l0 = true → po = true) := by
    intro hb
    rw [he.layout]
    refine ⟨_, hprev, fun hl => ?_⟩
    simp only [decide_eq_true_eq] at hl
    exact hs.waits hb hl.2 hl.1
  have hat : attached env cfg d hrnd grp b2.rsigOffload os.length
      { hostOut env cfg b2.rsigOffload os (groups.map (·.1)) part.length with inBatch := part.length + 1 } =
      some ([], { hostOut env cfg b2.rsigOffload os (groups.map (·.1)) part.length with inBatch := part.length + 1 }) := by
    have := he.laws.cv
    unfold attached
    rw [if_neg (by omega)]
  unfold outputStep
  rw [show ({ hostOut env cfg b2.rsigOffload os (groups.map (·.1)) part.length with
    inBatch := (hostOut env cfg b2.rsigOffload os (groups.map (·.1)) part.length).inBatch + 1 } : OutSt) =
    { hostOut env cfg b2.rsigOffload os (groups.map (·.1)) part.length with inBatch := part.length + 1 } from rfl, hat, Option.bind_some]
  have hterm : ∀ (os : List (OutV S P)) ps part po fin, (bOut env b2 os ps part po fin).state.isTerminal = false := by
    intro os ps part po fin
    simp only [bOut, TState.isTerminal]
    split <;> rfl
  cases hof : b2.rsigOffload with
  | false =>
    have hpo : po = false := hs.plain hof
    subst hpo
    by_cases hc : part.length + 1 = grp[groups.length]
    · -- the device proves
      obtain ⟨bp, bin, hp⟩ := he.bp (part ++ [o]) (rnd k).bpRand (by simp) (by simp; omega) hpartm
      have hrun := output_made hm (ps := groups.map (·.1)) hn (he.ui k) hof ho (by rw [he.layout, hlast]; simp [hc]) hp
      refine ⟨o, groups ++ [(bp, part ++ [o])], [], false, decide (os.length + 1 = b2.outputCount), k + 1, k, rfl, ho, ⟨?_, ?_, ?_, ?_, ?_⟩, ?_⟩
      · exact hs.prog.close (fun g h => (he.pos g h).1) hnsum o hc bp
      · intro g hgm
        rcases List.mem_append.1 hgm with h1 | h1
        · exact hs.proofs g h1
        · rw [List.mem_singleton] at h1; subst h1; exact hp.verify
      · rw [hof]; intro h; cases h
      · intro _; rfl
      · simp
      · rw [call_live he.passes (m := .setOutput o.dst (dstTag env b2.keyHmac o.dst os.length) [] false) rfl hrun (by intro x; simp) (hterm _ _ _ _ _),
          Option.bind_some]
        show (recordAck cfg cdc _ _).bind _ = _
        have hra := recordAck_run he.laws (b2 := b2) (os := os) (ps := groups.map (·.1)) (n := part.length) (o := o) (rs := some bin) hec
        rw [hof] at hra
        rw [hra, Option.bind_some, if_neg (by simp)]
        simp only [ackOf, recordProof, if_neg hp.ne, hp.parse, Option.bind_some]
        rw [show (hostOut env cfg false (os ++ [o]) (groups.map (·.1)) (part.length + 1)).batch = groups.length by simp [hostOut],
          List.getElem?_eq_getElem hg, Option.bind_some]
        have hdec : ∀ l : List (OutV S P), ∃ r, (l.map fun o => (env.ptEnc o.key, o.comm env)).mapM (fun pk => env.ptDec pk.2) = some r := by
          intro l
          refine ⟨l.map fun o => genC env o.mask o.dst.amount, ?_⟩
          induction l with
          | nil => rfl
          | cons x l ih => simp [List.mapM_cons, OutV.comm, he.laws.pt, ih] at ih ⊢; simp [ih]
        obtain ⟨r, hr⟩ := hdec (((os ++ [o]).drop (os.length + 1 - grp[groups.length])).take grp[groups.length])
        rw [show (((hostOut env cfg false (os ++ [o]) (groups.map (·.1)) (part.length + 1)).outPk.drop (os.length + 1 - grp[groups.length])).take
          grp[groups.length]) = (((os ++ [o]).drop (os.length + 1 - grp[groups.length])).take grp[groups.length]).map
            fun o => (env.ptEnc o.key, o.comm env) by simp only [hostOut, List.map_take, List.map_drop], hr]
        simp [advance, hostOut]
    · -- nothing to prove yet
      have hrun := output_wait hm (ps := groups.map (·.1)) (part := part) hn (he.ui k) hoff (fun _ => rfl) ho (by rw [he.layout, hlast]) (Or.inl (by simpa using hc))
      have hne : os.length + 1 ≠ b2.outputCount := by
        intro h
        have h1 := start_succ hg
        have h2 : Batches.start grp (groups.length + 1) ≤ grp.sum := by
          unfold Batches.start
          conv_rhs => rw [← List.take_append_drop (groups.length + 1) grp, List.sum_append]
          omega
        rw [he.sum] at h2
        omega
      refine ⟨o, groups, part ++ [o], false, false, k + 1, k, rfl, ho, ⟨hs.prog.push hnsum o hc, hs.proofs, ?_, ?_, ?_⟩, ?_⟩
      · rw [hof]; intro h; cases h
      · intro _; rfl
      · simp [hne]
      · rw [call_live he.passes (m := .setOutput o.dst (dstTag env b2.keyHmac o.dst os.length) [] false) rfl hrun (by intro x; simp) (hterm _ _ _ _ _),
          Option.bind_some]
        show (recordAck cfg cdc _ _).bind _ = _
        have hra := recordAck_run he.laws (b2 := b2) (os := os) (ps := groups.map (·.1)) (n := part.length) (o := o) (rs := none) hec
        rw [hof] at hra
        rw [hra, Option.bind_some, if_neg (by simp)]
        simp [ackOf, recordProof]
  | true =>
    have hrun := output_wait hm (ps := groups.map (·.1)) (part := part) hn (he.ui k) hoff (by rw [hof]; intro h; cases h) ho (by rw [he.layout, hlast]) (Or.inr hof)
    have hra := recordAck_run he.laws (b2 := b2) (os := os) (ps := groups.map (·.1)) (n := part.length) (o := o) (rs := none) hec
    rw [hof] at hra
    have hb : (hostOut env cfg true (os ++ [o]) (groups.map (·.1)) (part.length + 1)).batch = groups.length := by simp [hostOut]
    have hgam : (hostOut env cfg true (os ++ [o]) (groups.map (·.1)) (part.length + 1)).gamma = (os ++ [o]).map fun o => env.scEnc o.mask := by
      simp [hostOut]
    by_cases hc : part.length + 1 = grp[groups.length]
    · obtain ⟨bp, bin, hp⟩ := he.bp (part ++ [o]) (hrnd os.length) (by simp) (by simp; omega) hpartm
      have hle : (os ++ [o]).length ≤ b2.outputCount := by simp; omega
      have hup := upload_run hm (os := os ++ [o]) (ps := groups.map (·.1)) (rnd := rnd (k + 1)) (dst := noDst) (hm := []) hle (by simp) hof
        (by rw [he.layout]; have : ((os ++ [o]).length : Int) - 1 = os.length := by simp
            rw [this, hlast]; simp [hc]) hp
      refine ⟨o, groups ++ [(bp, part ++ [o])], [], true, decide ((os ++ [o]).length = b2.outputCount), k + 1 + 1, k, rfl, ho, ⟨?_, ?_, ?_, ?_, rfl⟩, ?_⟩
      · exact hs.prog.close (fun g h => (he.pos g h).1) hnsum o hc bp
      · intro g hgm
        rcases List.mem_append.1 hgm with h1 | h1
        · exact hs.proofs g h1
        · rw [List.mem_singleton] at h1; subst h1; exact hp.verify
      · intro _ _ _; rfl
      · rw [hof]; intro h; cases h
      · rw [call_live he.passes (m := .setOutput o.dst (dstTag env b2.keyHmac o.dst os.length) [] false) rfl hrun (by intro x; simp) (hterm _ _ _ _ _),
          Option.bind_some]
        show (recordAck cfg cdc _ _).bind _ = _
        rw [hra, Option.bind_some, if_pos ⟨he.laws.cv, rfl⟩]
        have hslice : os.length + 1 - grp[groups.length] = (os ++ [o]).length - (part ++ [o]).length := by simp; omega
        have hlen : grp[groups.length] = (part ++ [o]).length := by simp; omega
        have hoffl : rctOffload env d grp (hrnd os.length) os.length (hostOut env cfg true (os ++ [o]) (groups.map (·.1)) (part.length + 1)) =
            some (some (bin, { hostOut env cfg true (os ++ [o]) (groups.map (·.1)) (part.length + 1) with rsigs := groups.map (·.1) ++ [bp] })) := by
          unfold rctOffload
          rw [hb, List.getElem?_eq_getElem hg, Option.bind_some, if_neg (by show ¬ (_ > part.length + 1); omega), if_neg he.ty]
          simp only [hslice, hgam]
          rw [hlen, suffix_slice (·.dst) hsplit hd', suffix_slice (fun o => env.scEnc o.mask) hsplit (rest := []) (by rw [List.append_nil])]
          simp only [List.length_map, and_self, if_true, List.map_map]
          rw [show ((fun x : Dst => x.amount) ∘ fun x : OutV S P => x.dst) = fun x => x.dst.amount from rfl,
            show (env.scDec ∘ fun o : OutV S P => env.scEnc o.mask) = fun o => o.mask by funext o; exact he.laws.sc _, hp.prove, Option.bind_some, hp.dump]
          simp [hostOut]
        unfold upload
        rw [hoffl, Option.bind_some]
        show (call env rnd (live _ (k + 1)) _).map _ = _
        rw [call_live he.passes (m := .setOutput noDst [] bin true) rfl hup (by intro x; simp) (hterm _ _ _ _ _), Option.map_some]
        simp [advance, hostOut]
    · have hne : os.length + 1 ≠ b2.outputCount := by
        intro h
        have h1 := start_succ hg
        have h2 : Batches.start grp (groups.length + 1) ≤ grp.sum := by
          unfold Batches.start
          conv_rhs => rw [← List.take_append_drop (groups.length + 1) grp, List.sum_append]
          omega
        rw [he.sum] at h2
        omega
      refine ⟨o, groups, part ++ [o], false, false, k + 1, k, rfl, ho, ⟨hs.prog.push hnsum o hc, hs.proofs, ?_, ?_, ?_⟩, ?_⟩
      · intro _ h; simp at h
      · rw [hof]; intro h; cases h
      · simp [hne]
      · rw [call_live he.passes (m := .setOutput o.dst (dstTag env b2.keyHmac o.dst os.length) [] false) rfl hrun (by intro x; simp) (hterm _ _ _ _ _),
          Option.bind_some]
        show (recordAck cfg cdc _ _).bind _ = _
        rw [hra, Option.bind_some, if_pos ⟨he.laws.cv, rfl⟩]
        unfold upload rctOffload
        rw [hb, List.getElem?_eq_getElem hg, Option.bind_some, if_pos (by show _ > part.length + 1; omega)]
        simp

/-- All outputs. -/
theorem outputLoop_run {env : Env S P} {cfg : Config} {cdc : Codec} {d : TxData} {rnd : Nat → Rand S} {hrnd : Nat → Bytes} {b2 : Builder S P}
    {grp : List Nat} (he : OutEnv env cfg cdc d rnd b2 grp) (hcnt : d.dsts.length = b2.outputCount) {ph : Bytes} {h0 : PreMlsag} {c0 : Bytes}
    (hm : Mid b2 ph h0 c0) {hmacs : List Bytes} (hh : ∀ j dst, d.dsts[j]? = some dst → hmacs[j]? = some (dstTag env b2.keyHmac dst j)) :
    ∀ (dsts : List Dst) (os part : List (OutV S P)) (groups : List (Bp × List (OutV S P))) (po fin : Bool) (k : Nat),
    (∀ j o, os[j]? = some o → ∃ n, OutOk env b2 j (rnd n) o) → StepOk env b2 grp groups os part po fin → os.map (·.dst) ++ dsts = d.dsts →
    ∃ os' groups' part' po' fin' k', (∀ j o, os'[j]? = some o → ∃ n, OutOk env b2 j (rnd n) o) ∧ os'.map (·.dst) = d.dsts ∧
      StepOk env b2 grp groups' os' part' po' fin' ∧
      outputLoop env cfg cdc d rnd hrnd grp b2.rsigOffload hmacs os.length dsts
        (hostOut env cfg b2.rsigOffload os (groups.map (·.1)) part.length) (live (bOut env b2 os (groups.map (·.1)) part po fin) k) =
      some (hostOut env cfg b2.rsigOffload os' (groups'.map (·.1)) part'.length,
        live (bOut env b2 os' (groups'.map (·.1)) part' po' fin') k') := by
  intro dsts
  induction dsts with
  | nil =>
    intro os part groups po fin k hos hs hd
    exact ⟨os, groups, part, po, fin, k, hos, by simpa using hd, hs, rfl⟩
  | cons dst dsts ih =>
    intro os part groups po fin k hos hs hd
    have hlen := congrArg List.length hd
    simp only [List.length_append, List.length_map, List.length_cons] at hlen
    have hn : os.length < b2.outputCount := by omega
    have hf : fin = false := by rw [hs.done]; simp; omega
    subst hf
    obtain ⟨o, groups', part', po', fin', k', n, e1, e2, e3, e4⟩ := outputStep_run (hrnd := hrnd) he hm (k := k) hs hd hn
    obtain ⟨os'', gs, p, q, f, k'', a1, a2, a3, a4⟩ := ih (os ++ [o]) part' groups' po' fin' k' (by
      intro j x hx
      rcases Nat.lt_or_ge j os.length with h1 | h1
      · rw [List.getElem?_append_left h1] at hx; exact hos j x hx
      · rw [List.getElem?_append_right h1] at hx
        have : j = os.length := by
          have := (List.getElem?_eq_some_iff.1 hx).1; simp at this; omega
        subst this
        simp at hx; subst hx
        exact ⟨n, e2⟩) e3 (by rw [← hd, List.map_append, List.append_assoc]; simp [e1])
    refine ⟨os'', gs, p, q, f, k'', a1, a2, a3, ?_⟩
    have hget : d.dsts[os.length]? = some dst := by
      rw [← hd, List.getElem?_append_right (by simp)]; simp
    rw [outputLoop, hh _ _ hget, Option.bind_some, e4, Option.bind_some]
    rw [List.length_append, List.length_singleton] at a4
    exact a4

/-- At the end every output is covered by a proof. -/
theorem StepOk.complete {env : Env S P} {b2 : Builder S P} {grp : List Nat} {groups : List (Bp × List (OutV S P))} {os part : List (OutV S P)}
    {po fin : Bool} (h : StepOk env b2 grp groups os part po fin) (hl : os.length = grp.sum) (hpos : ∀ g ∈ grp, 0 < g) :
    part = [] ∧ os = (groups.map (·.2)).flatten ∧ groups.map (·.2.length) = grp := by
  have h1 := h.prog.start
  have h2 : groups.length = grp.length := by
    rcases Nat.lt_or_ge groups.length grp.length with hg | hg
    · have h3 := h.prog.room hg
      have h4 := start_succ hg
      have h5 : Batches.start grp (groups.length + 1) ≤ grp.sum := by
        unfold Batches.start
        conv_rhs => rw [← List.take_append_drop (groups.length + 1) grp, List.sum_append]
        omega
      omega
    · have := h.prog.le; omega
  have h3 : Batches.start grp groups.length = grp.sum := by unfold Batches.start; rw [h2, List.take_length]
  have h4 : part = [] := List.length_eq_zero_iff.1 (by omega)
  refine ⟨h4, ?_, ?_⟩
  · have := h.prog.split; rw [h4, List.append_nil] at this; exact this
  · rw [h.prog.sizes, h2, List.take_length]

end Verif.Agent

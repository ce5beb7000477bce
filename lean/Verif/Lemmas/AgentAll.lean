import Verif.Lemmas.AgentInit
import Verif.Props.Offsets
import Mathlib.Tactic.Abel

/-! The whole run of an honest request. -/

set_option linter.unusedSectionVars false
set_option linter.unusedSimpArgs false

namespace Verif.Agent
open Verif Verif.Signer Verif.Batches
variable {S P : Type} [CommRing S] [AddCommGroup P] [Module S P] [DecidableEq S] [DecidableEq P]

theorem exists_ins {env : Env S P} {table : SubTable} (rnd : Nat → Rand S) : ∀ (srcs : List Src) (k : Nat),
    (∀ s ∈ srcs, ∃ x ki, Mine env table s x ki) →
    ∃ ins : List (In S P), ins.map (·.src) = srcs ∧ (∀ j i, ins[j]? = some i → i.rnd = rnd (k + j)) ∧
      ∀ i ∈ ins, Mine env table i.src i.x i.ki := by
  intro srcs
  induction srcs with
  | nil => intro k _; exact ⟨[], rfl, by simp, by simp⟩
  | cons s srcs ih =>
    intro k h
    obtain ⟨x, ki, hm⟩ := h s (by simp)
    obtain ⟨ins, h1, h2, h3⟩ := ih (k + 1) fun t ht => h t (by simp [ht])
    refine ⟨⟨s, rnd k, x, ki⟩ :: ins, by simp [h1], ?_, ?_⟩
    · intro j i hj
      cases j with
      | zero => simp at hj; subst hj; rfl
      | succ j =>
        rw [List.getElem?_cons_succ] at hj
        rw [h2 j i hj]; congr 1; omega
    · intro i hi
      rcases List.mem_cons.1 hi with rfl | hi
      · exact hm
      · exact h3 i hi

/-- Everything is permuted alike. -/
theorem perm_glue (ins : List (In S P)) (f : Nat → In S P → InRec) :
    ∃ (calls : List (Nat × Nat)) (L : List (Nat × In S P)),
      Common.applyPermutation ((Common.sortPermutation ((ins.mapIdx f).map (·.vin.ki))).length + 1)
        (Common.sortPermutation ((ins.mapIdx f).map (·.vin.ki))) = some calls ∧
      Common.doSwaps calls (ins.mapIdx f) = L.map (fun x => f x.1 x.2) ∧
      L.map (·.1) = Common.sortPermutation ((ins.mapIdx f).map (·.vin.ki)) ∧ L.Perm (ins.mapIdx fun j i => (j, i)) ∧
      (Common.sortPermutation ((ins.mapIdx f).map (·.vin.ki))).Perm (List.range ins.length) ∧
      ((L.map fun x => f x.1 x.2).map (·.vin.ki)).Pairwise (fun a b => b ≤ a) := by
  have hlen : (Common.sortPermutation ((ins.mapIdx f).map (·.vin.ki))).length = ins.length := by simp [Common.sortPermutation]
  obtain ⟨hp, c1, s1, s2, _, _⟩ := Common.C33_sorted ((ins.mapIdx f).map (·.vin.ki))
  obtain ⟨calls, a1, a2⟩ := Common.C33_apply hp
  have hc : c1 = calls := by
    have e1 := s1 (ins.length + 1) (by simp)
    have e2 := a1 (ins.length + 1) (by omega)
    rw [e1] at e2; simpa using e2
  subst hc
  generalize hq : Common.sortPermutation ((ins.mapIdx f).map (·.vin.ki)) = p at *
  have nat : ∀ {α β : Type} (g : α → β) (l : List α), l.length = p.length → (Common.doSwaps c1 l).map g = Common.doSwaps c1 (l.map g) := by
    intro α β g l hl
    obtain ⟨l1, l2, _⟩ := a2 α l hl
    obtain ⟨m1, m2, _⟩ := a2 β (l.map g) (by simpa using hl)
    refine List.ext_getElem? fun j => ?_
    rcases Nat.lt_or_ge j p.length with hj | hj
    · rw [List.getElem?_map, l2 j hj, m2 j hj]
      cases p[j]? with
      | none => rfl
      | some o => simp
    · rw [List.getElem?_eq_none (by rw [List.length_map, l1, hl]; exact hj), List.getElem?_eq_none (by rw [m1, List.length_map, hl]; exact hj)]
  have hL := a2 _ (ins.mapIdx fun j i => (j, i)) (by simp [hlen])
  have hmap : (ins.mapIdx fun j i => (j, i)).map (fun x => f x.1 x.2) = ins.mapIdx f := by
    refine List.ext_getElem? fun j => ?_
    simp [List.getElem?_map, List.getElem?_mapIdx]
    cases ins[j]? <;> rfl
  refine ⟨c1, Common.doSwaps c1 (ins.mapIdx fun j i => (j, i)), a1 _ (Nat.lt_succ_self _), ?_, ?_, hL.2.2, ?_, ?_⟩
  · rw [nat _ _ (by simp [hlen]), hmap]
  · refine List.ext_getElem? fun j => ?_
    rcases Nat.lt_or_ge j p.length with hj | hj
    · rw [List.getElem?_map, hL.2.1 j hj, List.getElem?_eq_getElem hj]
      have hlt : p[j] < ins.length := by
        have := hp.subset (List.getElem_mem hj)
        rw [hlen] at this
        simpa using this
      simp [List.getElem?_mapIdx, List.getElem?_eq_getElem hlt]
    · rw [List.getElem?_eq_none (by rw [List.length_map, hL.1]; simp; omega), List.getElem?_eq_none hj]
  · rw [hlen] at hp; exact hp
  · rw [nat _ _ (by simp [hlen]), hmap, nat _ _ (by simp [hlen])]
    exact s2

theorem count_last {n : Nat} (hn : 0 < n) {p : List Nat} (hp : p.Perm (List.range n)) : p.countP (fun o => o + 1 == n) = 1 := by
  rw [hp.countP_eq]
  obtain ⟨m, rfl⟩ : ∃ m, n = m + 1 := ⟨n - 1, by omega⟩
  rw [List.range_succ, List.countP_append, List.countP_eq_zero.2 (by
    intro a ha
    rw [List.mem_range] at ha
    simp; omega)]
  simp

theorem sum_alpha (n : Nat) (diff : S) : ∀ L : List (Nat × In S P),
    (L.map (alphaOf n diff)).sum = (L.map (·.2.rnd.alpha)).sum + ((L.map (·.1)).countP fun o => o + 1 == n) • diff := by
  intro L
  induction L with
  | nil => simp
  | cons x L ih =>
    rw [List.map_cons, List.sum_cons, ih, List.map_cons, List.map_cons, List.sum_cons, List.countP_cons, alphaOf]
    by_cases h : x.1 + 1 = n
    · rw [if_pos h, if_pos (by simpa using h), add_smul, one_smul]; abel
    · rw [if_neg h, if_neg (by simpa using h), Nat.add_zero, add_assoc]

theorem sum_genC (env : Env S P) {α : Type} (m : α → S) (a : α → Nat) : ∀ l : List α,
    (l.map fun x => genC env (m x) (a x)).sum = (l.map m).sum • env.G + (((l.map a).sum : Nat) : S) • env.H := by
  intro l
  induction l with
  | nil => simp
  | cons x l ih =>
    rw [List.map_cons, List.sum_cons, ih, List.map_cons, List.sum_cons, List.map_cons, List.sum_cons, genC, Nat.cast_add, add_smul, add_smul]
    abel

/-- The transaction data sent with the init message. -/
def tsxOf (cfg : Config) (d : TxData) (s0 : Src) (grp : List Nat) : TsxData where
  numInputs := d.sources.length
  outputs := d.dsts
  change := some d.change
  mixin := s0.outputs.length
  fee := (d.sources.map (·.amount)).sum - (d.dsts.map (·.amount)).sum
  clientVersion := cfg.clientVersion
  account := d.account
  minorIndices := d.indices
  rsigType := rsigType d.useBp d.dsts.length
  grouping := grp
  bpVersion := if 10 ≤ cfg.hf then 2 else 0
  unlockTime := d.unlockTime
  paymentId := d.paymentId

def tyOf (cfg : Config) : UInt8 := if 10 ≤ cfg.hf then 4 else 3

/-- The outputs that a builder makes. -/
theorem outs_exist {env : Env S P} {cdc : Codec} {cfg : Config} {d : TxData} (hl : Lawful env cdc) {r0 : S} (hh : Ready env cfg d r0) {b : Builder S P}
    (hch : b.changeAddr = some d.change.addr) (hv : b.isBpV2 = decide (10 ≤ cfg.hf)) (j : Nat) (r : Rand S) (dst : Dst) (hd : dst ∈ d.dsts) :
    ∃ o : OutV S P, o.dst = dst ∧ OutOk env b j r o ∧ hostEcdh cfg o.ecdh = some (keepEcdh cfg o.ecdh) := by
  obtain ⟨spend, h1⟩ := hh.spend dst hd
  have hder : ∃ q, s6Derivation env b dst r = some q := by
    unfold s6Derivation
    rw [hch]
    by_cases hc : addrEq dst.addr d.change.addr = true
    · simp [hc]
    · obtain ⟨view, h2⟩ := hh.view dst hd fun e => hc ((addrEq_iff _ _).2 e)
      simp [hc, h2]
  obtain ⟨q, hq⟩ := hder
  obtain ⟨e, h3, h4⟩ := hl.ecdh (env.hashToScalar (ascii "commitment_mask" ++ env.scEnc (derivToScalar env q j))) dst.amount
    (env.scEnc (derivToScalar env q j)) b.isBpV2 (hh.amounts dst hd)
  refine ⟨⟨dst, r.addKey, if dst.isSub then r.addKey • spend else r.addKey • env.G, derivToScalar env q j,
    env.hashToScalar (ascii "commitment_mask" ++ env.scEnc (derivToScalar env q j)), derivToScalar env q j • env.G + spend, e⟩, rfl,
    ⟨⟨spend, q, h1, hq, rfl, rfl, rfl⟩, rfl, rfl, h3⟩, ?_⟩
  refine (serEcdh_keep (cfg := cfg) (ty := tyOf cfg) ?_).1
  rw [hv] at h4
  have := hh.hf
  by_cases h10 : 10 ≤ cfg.hf
  · left; exact ⟨h10, by simp [tyOf, h10], by simpa [h10] using h4⟩
  · right; exact ⟨by omega, by simp [tyOf, h10], by simpa [h10] using h4⟩

theorem mine_owned {env : Env S P} {table : SubTable} {i : In S P} (h : Mine env table i.src i.x i.ki) : Owned env table i := ⟨h.toOwns.real⟩

/-- The output a device made, as the specification sees it. -/
def OutV.made (o : OutV S P) : Made S P := ⟨o.dst, o.key, o.mask, o.ecdh⟩

theorem map_made_sum (os : List (OutV S P)) : ((os.map OutV.made).map (·.mask)) = os.map (·.mask) := by
  rw [List.map_map]; rfl

/-! ### Phases -/

/-- The builder after the init message. -/
structure F0 (cfg : Config) (d : TxData) (grp : List Nat) (R : P) (ex : Bytes) (b0 : Builder S P) : Prop where
  inputCount : b0.inputCount = d.sources.length
  outputCount : b0.outputCount = d.dsts.length
  pk : b0.outputPk = []
  addPub : b0.addPub = []
  addPriv : b0.addPriv = []
  am : b0.outputAmounts = some []
  ms : b0.outputMasks = some []
  po : b0.procOff = false
  exp : b0.expPrefix = none
  tx : b0.tx = some ⟨2, d.unlockTime, ex⟩
  ph : b0.prefixHasher = some (Varint.dumpNat 2 ++ Varint.dumpNat d.unlockTime ++ Varint.dumpNat d.sources.length)
  fh : b0.fullHasher = some ⟨some (decide (d.sources.length > 1) || decide (rsigType d.useBp d.dsts.length ≠ 0)), 2, [], some [],
    some ([tyOf cfg] ++ Varint.dumpNat b0.fee)⟩
  fee : b0.fee = (d.sources.map (·.amount)).sum - (d.dsts.map (·.amount)).sum
  layout : b0.rsigGrp = grp
  v2 : b0.isBpV2 = decide (10 ≤ cfg.hf)
  ty : b0.rctType = some (tyOf cfg)
  rPub : b0.rPub = R
  change : b0.changeAddr = some d.change.addr

theorem init_phase {env : Env S P} {cdc : Codec} {cfg : Config} {d : TxData} (hl : Lawful env cdc) {rnd : Nat → Rand S}
    {c : Conn S P} (hh : Ready env cfg d (rnd c.n).r) (ha : Agrees rnd c.n) :
    ∃ (R : P) (pid ex : Bytes) (s0 : Src) (grp : List Nat) (b0 : Builder S P),
      initBuilder env (tsxOf cfg d s0 grp) (rnd c.n) R pid ex (tyOf cfg) = b0 ∧
      tsxData cfg d = some (tsxOf cfg d s0 grp) ∧ grp.sum = d.dsts.length ∧ (∀ g ∈ grp, 0 < g ∧ g ≤ 16) ∧
      txPubKey env (classify d.dsts (some d.change.addr)) (rnd c.n).r = some R ∧
      initStep env rnd (tsxOf cfg d s0 grp) c =
        some ((d.dsts.mapIdx fun j x => dstTag env b0.keyHmac x (0 + j), b0.rsigOffload), live b0 (c.n + 1)) ∧
      Start b0 (tableOf env d) ∧ F0 cfg d grp R ex b0 ∧
      processPaymentId env (tsxOf cfg d s0 grp) (some d.change.addr) (rnd c.n).r [] = some (pid, ex) := by
  have hnd : 0 < d.dsts.length := List.length_pos_iff.2 hh.dsts
  have hns : 0 < d.sources.length := List.length_pos_iff.2 hh.sources
  obtain ⟨grp, g1, g2, g3, _⟩ := C17_batches d.useBp d.dsts.length hnd
  obtain ⟨s0, hs0⟩ : ∃ s0, d.sources[0]? = some s0 := ⟨_, List.getElem?_eq_getElem hns⟩
  have htsx : tsxData cfg d = some (tsxOf cfg d s0 grp) := by
    unfold tsxData
    rw [hs0, Option.bind_some]
    dsimp only
    rw [g1, Option.bind_some, if_pos hh.enough]
    rfl
  obtain ⟨R, hR⟩ := txPubKey_some env d.dsts d.change.addr (rnd c.n).r hh.spend
  obtain ⟨pid, ex, hpid⟩ := hh.paymentId (tsxOf cfg d s0 grp) rfl rfl
  have hver : bpVersionOf (tsxOf cfg d s0 grp) = if 10 ≤ cfg.hf then 2 else 1 := by
    by_cases h : 10 ≤ cfg.hf <;> simp [bpVersionOf, tsxOf, h]
  have hkh : (initBuilder env (tsxOf cfg d s0 grp) (rnd c.n) R pid ex (tyOf cfg)).keyHmac.length = 32 := hl.keyLen _
  have hke : (initBuilder env (tsxOf cfg d s0 grp) (rnd c.n) R pid ex (tyOf cfg)).keyEnc.length = 32 := hl.keyLen _
  have hrt : 0 < rsigType d.useBp d.dsts.length := by
    rw [hh.useBp]; unfold rsigType; simp; split <;> omega
  have hdet : (initBuilder env (tsxOf cfg d s0 grp) (rnd c.n) R pid ex (tyOf cfg)).isDetMask = true := by
    have := hh.version
    show (decide _ || decide (cfg.clientVersion > 0)) = true
    rw [Bool.or_eq_true]; right; exact decide_eq_true this
  have hinit : InitOk env (tsxOf cfg d s0 grp) (rnd c.n) R pid ex (tyOf cfg) (d.dsts.mapIdx fun j x => dstTag env
      (initBuilder env (tsxOf cfg d s0 grp) (rnd c.n) R pid ex (tyOf cfg)).keyHmac x (0 + j)) := by
    refine ⟨ha.confirm, hh.change, hR, hpid, ?_, ?_⟩
    · rw [hver]
      by_cases h : 10 ≤ cfg.hf
      · right; simp [h, tyOf]
      · left; simp [h, tyOf]
    · exact hmacDsts_ok env hkh d.dsts 0 (by have := hh.fewDsts; omega)
  refine ⟨R, pid, ex, s0, grp, _, rfl, htsx, g2, g3, hR, ?_, ?_, ?_, hpid⟩
  · unfold initStep
    have hrun := init_run hinit (ha.ui c.n)
    rw [call_ok hl.msgOk hl.respOk (c := c) (m := .init (tsxOf cfg d s0 grp)) (by
      show initTransaction env (wakeUp c.dev _) _ _ = _
      exact hrun) (by intro x; simp), Option.bind_some]
    rfl
  · refine ⟨rfl, rfl, rfl, rfl, rfl, rfl, ?_, hns, hh.fewSources, hkh, hke, ?_, hdet⟩
    · show (if d.indices.isEmpty then some [] else some (env.subaddresses d.account d.indices)) = some (if d.indices.isEmpty then [] else _)
      split <;> rfl
    · show decide (rsigType d.useBp d.dsts.length > 0) = true
      simpa using hrt
  · refine ⟨rfl, rfl, rfl, rfl, rfl, rfl, rfl, rfl, rfl, rfl, rfl, rfl, rfl, rfl, ?_, ?_, rfl, rfl⟩
    · show decide (bpVersionOf (tsxOf cfg d s0 grp) ≥ 2) = _
      rw [hver]
      by_cases h : 10 ≤ cfg.hf <;> simp [h]
    · show (if bpVersionOf (tsxOf cfg d s0 grp) = 1 then some (3 : UInt8) else if bpVersionOf (tsxOf cfg d s0 grp) = 2 then some 4 else none) = _
      rw [hver]
      by_cases h : 10 ≤ cfg.hf <;> simp [h, tyOf]

/-- The builder when the outputs begin. -/
structure F2 (env : Env S P) (cfg : Config) (d : TxData) (b0 : Builder S P) (ins : List (In S P)) (L : List (Nat × In S P)) (b2 : Builder S P) : Prop where
  mid : Mid b2 (Varint.dumpNat 2 ++ Varint.dumpNat d.unlockTime ++ Varint.dumpNat (L.map fun x => inRec env b0 x.1 x.2).length ++
      ((L.map fun x => inRec env b0 x.1 x.2).map fun r => dumpVin env r.vin).flatten)
      ⟨some (decide (d.sources.length > 1) || decide (rsigType d.useBp d.dsts.length ≠ 0)), 2, [], some [], some ([tyOf cfg] ++ Varint.dumpNat b2.fee)⟩
      ([tyOf cfg] ++ Varint.dumpNat b2.fee)
  inputCount : b2.inputCount = d.sources.length
  outputCount : b2.outputCount = d.dsts.length
  off : b2.rsigOffload = b0.rsigOffload
  hmac : b2.keyHmac = b0.keyHmac
  enc : b2.keyEnc = b0.keyEnc
  fee : b2.fee = b0.fee
  exp : b2.expPrefix = b0.expPrefix
  tx : b2.tx = b0.tx
  sumIn : b2.sumIn = (d.sources.map (·.amount)).sum
  sumpouts : b2.sumpouts = (ins.map (·.rnd.alpha)).sum
  perm : b2.perm = L.map (·.1)
  lastAmount : b2.inputLastAmount = (ins.map (·.src.amount)).getLast?.getD 0
  layout : b2.rsigGrp = b0.rsigGrp
  v2 : b2.isBpV2 = b0.isBpV2
  ty : b2.rctType = b0.rctType
  rPub : b2.rPub = b0.rPub
  r : b2.r = b0.r
  change : b2.changeAddr = b0.changeAddr
  need : b2.needAdd = b0.needAdd
  deriv : ∀ (dst : Dst) (r : Rand S), s6Derivation env b2 dst r = s6Derivation env b0 dst r

/-- The inputs and their order. -/
structure Ordered (env : Env S P) (d : TxData) (b0 : Builder S P) (ins : List (In S P)) (L : List (Nat × In S P)) : Prop where
  srcs : ins.map (·.src) = d.sources
  mine : ∀ i ∈ ins, Mine env (tableOf env d) i.src i.x i.ki
  perm : L.Perm (ins.mapIdx fun j i => (j, i))
  pos : (L.map (·.1)).Perm (List.range ins.length)
  sorted : ((L.map fun x => inRec env b0 x.1 x.2).map (·.vin.ki)).Pairwise (fun a b => b ≤ a)

theorem Ordered.len {env : Env S P} {d : TxData} {b0 : Builder S P} {ins : List (In S P)} {L : List (Nat × In S P)} (h : Ordered env d b0 ins L) :
    ins.length = d.sources.length ∧ L.length = ins.length :=
  ⟨by rw [← h.srcs, List.length_map], by rw [h.perm.length_eq, List.length_mapIdx]⟩

theorem Ordered.mem {env : Env S P} {d : TxData} {b0 : Builder S P} {ins : List (In S P)} {L : List (Nat × In S P)} (h : Ordered env d b0 ins L)
    {x : Nat × In S P} (hx : x ∈ L) : ins[x.1]? = some x.2 := by
  obtain ⟨j, hj, he⟩ := List.mem_iff_getElem.1 (h.perm.subset hx)
  rw [List.getElem_mapIdx] at he
  rw [← he]
  simp at hj
  exact List.getElem?_eq_getElem hj

theorem Ordered.small {env : Env S P} {cfg : Config} {d : TxData} {b0 : Builder S P} {ins : List (In S P)} {L : List (Nat × In S P)}
    (h : Ordered env d b0 ins L) {r0 : S} (hh : Ready env cfg d r0) {x : Nat × In S P} (hx : x ∈ L) : x.1 < 2 ^ 42 := by
  have := (List.getElem?_eq_some_iff.1 (h.mem hx)).1
  have := hh.fewSources
  have := h.len.1
  omega

theorem mid_facts {env : Env S P} {cfg : Config} {d : TxData} {r0 : S} (hh : Ready env cfg d r0) {b0 : Builder S P} {grp : List Nat} {R : P} {ex : Bytes}
    (hs : Start b0 (tableOf env d)) (hf : F0 cfg d grp R ex b0) {ins : List (In S P)} {L : List (Nat × In S P)} (ho : Ordered env d b0 ins L) :
    F2 env cfg d b0 ins L (bOut0 (bIn b0 ins) (L.map (·.1)) ins.length ((L.map fun x => inRec env b0 x.1 x.2).map fun r => dumpVin env r.vin).flatten) := by
  have hl := ho.len
  have hc := hf.inputCount
  refine ⟨⟨rfl, ?_, hs.outIdx, ?_, hf.fh, rfl, rfl, rfl, hs.sumOut, rfl, hf.pk, hf.addPub, hf.addPriv, hf.am, hf.ms, hf.po, hs.hmac, hs.det, ?_⟩, hf.inputCount,
    hf.outputCount, rfl, rfl, rfl, rfl, rfl, rfl, ?_, rfl, rfl, ?_, rfl, rfl, rfl, rfl, rfl, rfl, rfl, fun _ _ => rfl⟩
  · show ((ins.length : Int) - 1) + 1 = (b0.inputCount : Int)
    omega
  · show b0.prefixHasher.map _ = _
    rw [hf.ph, List.length_map, hl.2, hl.1]; rfl
  · show b0.outputCount ≤ _
    rw [hf.outputCount]; exact hh.fewDsts
  · show (ins.map (·.src.amount)).sum = _
    rw [← ho.srcs, List.map_map]; rfl
  · show (if ins.length = b0.inputCount then _ else _) = _
    rw [if_pos (by omega)]

theorem input_phase {env : Env S P} {cdc : Codec} {cfg : Config} {d : TxData} (hl : Lawful env cdc) {r0 : S} (hh : Ready env cfg d r0) {rnd : Nat → Rand S}
    (hu : ∀ k, (rnd k).uiOk = true) {b0 : Builder S P} {grp : List Nat} {R : P} {ex : Bytes}
    (hs : Start b0 (tableOf env d)) (hf : F0 cfg d grp R ex b0) (k : Nat) :
    ∃ (ins : List (In S P)) (L : List (Nat × In S P)) (b2 : Builder S P) (rs : List InRec) (c1 c2 c3 : Conn S P) (k4 : Nat),
      inputLoop env cdc rnd d.sources (live b0 k) = some (rs, c1) ∧ permStep env rnd rs c1 = some (L.map fun x => inRec env b0 x.1 x.2, c2) ∧
      viniLoop env rnd (L.map fun x => inRec env b0 x.1 x.2) c2 = some c3 ∧
      allInStep env cfg rnd b0.rsigOffload d.dsts.length c3 = some ([], live b2 k4) ∧
      Ordered env d b0 ins L ∧ F2 env cfg d b0 ins L b2 := by
  have hp : Passes env := ⟨hl.msgOk, hl.respOk⟩
  have hns : 0 < d.sources.length := List.length_pos_iff.2 hh.sources
  have hvin : ∀ i, cdc.parseVin (dumpVin env (vinOf env i)) = some (vinOf env i) := fun i =>
    hl.vin _ (hl.ptLen _) (Offsets.C32_nonneg _ (by intro o ho; obtain ⟨m, _, rfl⟩ := List.mem_map.1 ho; exact Int.natCast_nonneg _)).1
  have hic := hf.inputCount
  obtain ⟨ins, i1, i2, i3⟩ := exists_ins (env := env) (table := tableOf env d) rnd d.sources k hh.mine
  have hilen : ins.length = d.sources.length := by rw [← i1, List.length_map]
  have hloop := inputLoop_run hp hvin hs hu ins [] k i2 (fun i hi => mine_owned (i3 i hi)) (by simp; omega)
  rw [i1, bIn_nil hs, List.nil_append] at hloop
  simp only [List.length_nil, Nat.zero_add] at hloop
  obtain ⟨calls, L, p1, p2, p3, p4, p5, p6⟩ := perm_glue ins (fun j i => inRec env b0 j i)
  have ho : Ordered env d b0 ins L := ⟨i1, i3, p4, by rw [p3]; exact p5, p6⟩
  have hins : ins ≠ [] := by intro e; rw [e] at hilen; simp at hilen; omega
  have hb1s : (bIn b0 ins).state = ⟨.INPUT_DONE, false⟩ := by
    rw [bIn]
    rw [if_neg hins, if_pos (by omega), hs.s]
  have hperm : permStep env rnd (ins.mapIdx fun j i => inRec env b0 j i) (live (bIn b0 ins) (k + ins.length)) =
      some (L.map fun x => inRec env b0 x.1 x.2, live (bPerm (bIn b0 ins) (L.map (·.1)) 0 []) (k + ins.length + 1)) := by
    unfold permStep
    dsimp only
    rw [p1, Option.bind_some, ← p3, permutation_call hp (hu _) hb1s, Option.map_some, p2]
  have hph : (bIn b0 ins).prefixHasher = some (Varint.dumpNat 2 ++ Varint.dumpNat d.unlockTime ++ Varint.dumpNat d.sources.length) := hf.ph
  have hvini := viniLoop_run hp hu (b1 := bIn b0 ins) hs.hmac hs.useBp (p := L.map (·.1)) hph
    (by intro x hx; obtain ⟨y, hy, rfl⟩ := List.mem_map.1 hx; exact ho.small hh hy) (L.map fun x => inRec env b0 x.1 x.2) 0
    (k + ins.length + 1) [] (by show 0 + (L.map _).length ≤ b0.inputCount; rw [List.length_map, ho.len.2]; omega) (by
      intro j r hj
      rw [List.getElem?_map] at hj
      obtain ⟨x, hx, rfl⟩ := Option.map_eq_some_iff.1 hj
      exact ⟨x.1, by rw [Nat.zero_add, List.getElem?_map, hx]; rfl, rfl⟩)
  rw [List.nil_append, Nat.zero_add, List.length_map, ho.len.2] at hvini
  have hallin := allIn_call hp (rnd := rnd) (b1 := bIn b0 ins) (p := L.map (·.1)) (n := ins.length) (k := k + ins.length + 1 + ins.length)
    (fed := ((L.map fun x => inRec env b0 x.1 x.2).map fun r => dumpVin env r.vin).flatten) (hu _) (by omega) hs.det
  refine ⟨ins, L, _, _, _, _, _, k + ins.length + 1 + ins.length + 1, hloop, hperm, hvini, ?_, ho, mid_facts hh hs hf ho⟩
  · unfold allInStep
    rw [hallin, Option.bind_some]
    have := hh.version
    dsimp only
    rw [if_pos (by rw [Bool.or_eq_true]; right; exact decide_eq_true this)]

/-- What is known about the outputs. -/
structure Outs (env : Env S P) (d : TxData) (rnd : Nat → Rand S) (b2 : Builder S P) (grp : List Nat) (os : List (OutV S P))
    (groups : List (Bp × List (OutV S P))) : Prop where
  dst : os.map (·.dst) = d.dsts
  ok : ∀ j o, os[j]? = some o → ∃ n, OutOk env b2 j (rnd n) o
  all : os = (groups.map (·.2)).flatten
  sizes : groups.map (·.2.length) = grp
  proofs : ∀ g ∈ groups, env.bpVerify g.1 (g.2.map (·.dst.amount)) (g.2.map (·.mask)) = true

theorem output_phase {env : Env S P} {cdc : Codec} {cfg : Config} {d : TxData} (hl : Lawful env cdc) {r0 : S} (hh : Ready env cfg d r0) {rnd : Nat → Rand S}
    (hrnd : Nat → Bytes) (hu : ∀ k, (rnd k).uiOk = true) {b0 b2 : Builder S P} {grp : List Nat} {R : P} {ex : Bytes} {ins : List (In S P)}
    {L : List (Nat × In S P)} (hkh : b0.keyHmac.length = 32) (hf : F0 cfg d grp R ex b0) (h2 : F2 env cfg d b0 ins L b2) (hsum : grp.sum = d.dsts.length)
    (hpos : ∀ g ∈ grp, 0 < g ∧ g ≤ 16) (k4 : Nat) :
    ∃ (os : List (OutV S P)) (groups : List (Bp × List (OutV S P))) (st : OutSt) (po : Bool) (k5 : Nat) (c5 : Conn S P) (t : Tx),
      outputLoop env cfg cdc d rnd hrnd grp b0.rsigOffload (d.dsts.mapIdx fun j x => dstTag env b0.keyHmac x (0 + j)) 0 d.dsts
        { gamma := [] } (live b2 k4) = some (st, c5) ∧
      t.unlockTime = d.unlockTime ∧ t.vin = (L.map fun x => inRec env b0 x.1 x.2).map (·.vin) ∧ t.vout = os.map (fun o => ⟨0, env.ptEnc o.key⟩) ∧
      t.extra = extraOf env b2 ex os ∧
      t.rv = ⟨prefixHash env t.unlockTime t.vin t.vout t.extra, tyOf cfg, b2.fee, os.map (·.ecdh), os.map (·.comm env), groups.map (·.1)⟩ ∧
      allOutStep env d rnd (L.map fun x => inRec env b0 x.1 x.2) st c5 =
        some (t, live (bEnd (bOut env b2 os (groups.map (·.1)) [] po true) t.rv.message (getPreMlsagHash env.keccak t.rv)) k5) ∧
      Outs env d rnd b2 grp os groups := by
  have hp : Passes env := ⟨hl.msgOk, hl.respOk⟩
  have hnd : 0 < d.dsts.length := List.length_pos_iff.2 hh.dsts
  have hrt : rsigType d.useBp d.dsts.length ≠ 0 := by
    rw [hh.useBp]; unfold rsigType; simp; split <;> omega
  have hv2 : b2.isBpV2 = decide (10 ≤ cfg.hf) := by rw [h2.v2, hf.v2]
  have houtenv : OutEnv env cfg cdc d rnd b2 grp := by
    refine ⟨hp, ⟨hl.ptLen, hl.ptRound, hl.scRound, hl.scLen, hl.vout, hh.version⟩, by rw [h2.layout, hf.layout], by rw [hsum, h2.outputCount], hpos, hrt, hu,
      fun j k dst hd => outs_exist hl hh (by rw [h2.change, hf.change]) hv2 j (rnd k) dst hd, hh.amounts, ?_⟩
    intro os r hne hle hsm
    obtain ⟨bp, bin, q1, q2, q3, q4, q5⟩ := hl.bp (os.map fun o => (o.dst.amount, o.mask)) r (by simpa using hne) (by simpa using hle)
      (by intro x hx; obtain ⟨o, ho, rfl⟩ := List.mem_map.1 hx; exact hsm o ho)
    rw [List.map_map, List.map_map] at q1 q2
    exact ⟨bp, bin, q1, q2, q3, q4, q5⟩
  have hstep0 : StepOk env b2 grp [] [] [] false false := by
    refine ⟨⟨rfl, rfl, fun hb => (hpos _ (List.getElem_mem hb)).1⟩, by simp, by intro _ _ h; exact absurd rfl h, fun _ => rfl, ?_⟩
    rw [h2.outputCount]; simp; omega
  obtain ⟨os, groups, part, po, fin, k5, o1, o2, o3, o4⟩ := outputLoop_run (hrnd := hrnd) houtenv h2.outputCount.symm h2.mid
    (hmacs := d.dsts.mapIdx fun j x => dstTag env b0.keyHmac x (0 + j)) (by
      intro j dst hj
      rw [h2.hmac, List.getElem?_mapIdx, hj]
      simp) d.dsts [] [] [] false false k4 (by simp) hstep0 rfl
  have hoslen : os.length = d.dsts.length := by rw [← o2, List.length_map]
  obtain ⟨c1, c2, c3⟩ := o3.complete (by rw [hsum]; exact hoslen) fun g hg => (hpos g hg).1
  have hfin : fin = true := by rw [o3.done, hoslen, h2.outputCount]; simp
  subst hfin
  subst c1
  have ho4 : outputLoop env cfg cdc d rnd hrnd grp b0.rsigOffload (d.dsts.mapIdx fun j x => dstTag env b0.keyHmac x (0 + j)) 0 d.dsts
      { gamma := [] } (live b2 k4) = some (hostOut env cfg b2.rsigOffload os (groups.map (·.1)) 0,
        live (bOut env b2 os (groups.map (·.1)) [] po true) k5) := by
    have e1 : hostOut env cfg b2.rsigOffload [] (([] : List (Bp × List (OutV S P))).map (·.1)) ([] : List (OutV S P)).length = { gamma := [] } := by
      cases b2.rsigOffload <;> rfl
    have e2 := bOut_nil env h2.mid
    rw [e1] at o4
    refine Eq.trans ?_ o4
    show _ = outputLoop env cfg cdc d rnd hrnd grp b2.rsigOffload _ 0 d.dsts _ (live (bOut env b2 [] [] [] false false) k4)
    rw [e2, h2.off]
  have hosne : os ≠ [] := by intro e; rw [e] at hoslen; simp at hoslen; omega
  have hamt : (os.map (·.dst.amount)).sum = (d.dsts.map (·.amount)).sum := by rw [← o2, List.map_map]; rfl
  have hek : ∀ o ∈ os, serEcdh (tyOf cfg) (keepEcdh cfg o.ecdh) = o.ecdh := by
    intro o ho
    obtain ⟨j, hj, he⟩ := List.mem_iff_getElem.1 ho
    obtain ⟨n, hok⟩ := o1 j o (by rw [← he]; exact List.getElem?_eq_getElem hj)
    have hdst : o.dst ∈ d.dsts := by rw [← o2]; exact List.mem_map_of_mem ho
    obtain ⟨e, q1, q2⟩ := hl.ecdh o.mask o.dst.amount (env.scEnc o.ak) b2.isBpV2 (hh.amounts _ hdst)
    rw [hok.ecdh] at q1
    simp at q1
    subst q1
    rw [hv2] at q2
    have := hh.hf
    refine (serEcdh_keep ?_).2
    by_cases h10 : 10 ≤ cfg.hf
    · left; exact ⟨h10, by simp [tyOf, h10], by simpa [h10] using q2⟩
    · right; exact ⟨by omega, by simp [tyOf, h10], by simpa [h10] using q2⟩
  obtain ⟨t, t1, t2, t3, t4, t5, t6⟩ := allOutStep_run hp (cfg := cfg) (d := d) (k := k5) (hu k5) h2.mid rfl (ps := groups.map (·.1)) (po := po)
    (off := b2.rsigOffload) (n := 0) hosne (by rw [hoslen, h2.outputCount]) (by rw [hamt, h2.fee, hf.fee, h2.sumIn]; have := hh.enough; omega)
    (tx := ⟨2, d.unlockTime, ex⟩) (by rw [h2.tx, hf.tx]) (by rw [h2.ty, hf.ty]) (by rw [h2.exp, hf.exp]) hek
  exact ⟨os, groups, _, po, k5 + 1, _, t, ho4, t1, t2, t3, t4, t5, t6, ⟨o2, o1, c2, c3, o3.proofs⟩⟩

/-- Masks of the pseudo outputs: the last source balances. -/
def maskOf (ins : List (In S P)) (os : List (OutV S P)) (x : Nat × In S P) : S :=
  alphaOf ins.length ((os.map (·.mask)).sum - (ins.map (·.rnd.alpha)).sum) x

/-- The last answer of the device. -/
def keysAck (env : Env S P) (rnd : Rand S) (ph : Bytes) (r : S) (adds : List S) : Resp :=
  .finalAck rnd.salt (env.scEnc rnd.randMult) (env.encPack (env.mac rnd.salt (env.keccak2 (env.scEnc (env.spendPriv + rnd.randMult) ++ ph)))
    (env.scEnc r ++ (adds.map env.scEnc).flatten) rnd.nonceFinal)

theorem sign_phase {env : Env S P} {cdc : Codec} {cfg : Config} {d : TxData} (hl : Lawful env cdc) {r0 : S} (hh : Ready env cfg d r0) {rnd : Nat → Rand S}
    (hu : ∀ k, (rnd k).uiOk = true) {b0 b2 : Builder S P} {ins : List (In S P)} {L : List (Nat × In S P)} (hs : Start b0 (tableOf env d))
    (ho : Ordered env d b0 ins L) (h2 : F2 env cfg d b0 ins L b2) (os : List (OutV S P)) (ps : List Bp) (po : Bool) (ph full : Bytes) (k : Nat) :
    ∃ rs c7 k8, List.Forall₂ (fun (x : Nat × In S P) (r : Bytes × Bytes) => r.1 = env.ptEnc (genC env (maskOf ins os x) x.2.src.amount) ∧
        ∃ mr, env.mlsag full x.2.src.outputs x.2.x (env.scDec x.2.src.mask) (maskOf ins os x) (genC env (maskOf ins os x) x.2.src.amount)
          x.2.src.realOutput mr = some r.2) L rs ∧
      signLoop env cfg rnd (L.map fun x => inRec env b0 x.1 x.2) (live (bEnd (bOut env b2 os ps [] po true) ph full) k) = some (rs, c7) ∧
      call env rnd c7 .final = some (keysAck env (rnd (k + L.length)) ph b2.r (if b2.needAdd then os.map (·.addKey) else []), ⟨⟨none⟩, k8⟩) := by
  have hp : Passes env := ⟨hl.msgOk, hl.respOk⟩
  have hns : 0 < d.sources.length := List.length_pos_iff.2 hh.sources
  have hlen := ho.len
  have hic := h2.inputCount
  generalize hb4 : bEnd (bOut env b2 os ps [] po true) ph full = b4
  have hic4 : b4.inputCount = ins.length := by rw [← hb4]; show b2.inputCount = _; omega
  have e1 : b4.keyHmac = b0.keyHmac := by rw [← hb4]; exact h2.hmac
  have e2 : b4.keyEnc = b0.keyEnc := by rw [← hb4]; exact h2.enc
  have e3 : b4.inputLastAmount = b2.inputLastAmount := by rw [← hb4]; rfl
  have e4 : b4.prefixHash = some ph := by rw [← hb4]; rfl
  have e5 : b4.r = b2.r := by rw [← hb4]; rfl
  have e6 : b4.addPriv = if b2.needAdd then os.map (·.addKey) else [] := by rw [← hb4]; rfl
  have hsig : Sig0 b4 full L := by
    refine ⟨by rw [← hb4]; rfl, by rw [← hb4]; rfl, by rw [← hb4]; exact h2.perm, by omega, ho.pos.nodup_iff.2 List.nodup_range, ?_, ?_,
      by rw [e1]; exact hs.hmac, by rw [e2]; exact hs.enc, by rw [← hb4]; exact h2.mid.det, by rw [← hb4]; rfl, fun x hx => ho.small hh hx⟩
    · have : ins.length - 1 ∈ L.map (·.1) := ho.pos.mem_iff.2 (by rw [List.mem_range]; omega)
      obtain ⟨x, hx, he⟩ := List.mem_map.1 this
      exact ⟨x, hx, by omega⟩
    · intro x hx hxe
      have hx1 := ho.mem hx
      rw [e3, h2.lastAmount, List.getLast?_eq_getElem?, List.length_map, List.getElem?_map, show ins.length - 1 = x.1 by omega, hx1]
      rfl
  have hrec : (fun x : Nat × In S P => inRec env b4 x.1 x.2) = fun x => inRec env b0 x.1 x.2 := by
    funext x
    unfold inRec
    rw [e1, e2]
  have hdiff : b4.sumout - b4.sumpouts = (os.map (·.mask)).sum - (ins.map (·.rnd.alpha)).sum := by
    rw [← hb4]; show (os.map (·.mask)).sum - b2.sumpouts = _; rw [h2.sumpouts]
  clear hb4
  have hL0 : bSign b4 [] = b4 := by
    have e1 := hsig.s
    have e2 := hsig.inpIdx
    cases b4
    simp_all [bSign]
  have hmem : ∀ x ∈ L, Mine env (tableOf env d) x.2.src x.2.x x.2.ki := fun x hx => ho.mine _ (List.mem_of_getElem? (ho.mem hx))
  obtain ⟨rs, r1, r2⟩ := signLoop_run hp ⟨hl.openSeal, hl.ptLen, hl.ptRound, hl.scRound⟩ hh.version hu hsig (subs := tableOf env d)
    (fun x hx => mine_owned (hmem x hx)) (fun x hx => (hmem x hx).prover) L [] k rfl
  rw [hL0, hrec] at r2
  have hLne : L ≠ [] := by intro e; rw [e] at hlen; simp at hlen; omega
  have hfinal := final_call hp (rnd := rnd) (k := k + L.length) (hu _) (b4 := b4) (L := L) hLne (by omega) e4
  rw [hic4, hdiff] at r1
  rw [e5, e6] at hfinal
  exact ⟨rs, _, _, r1, r2, hfinal⟩

theorem mask_sum {env : Env S P} {d : TxData} {b0 : Builder S P} {ins : List (In S P)} {L : List (Nat × In S P)} (ho : Ordered env d b0 ins L)
    (hne : 0 < ins.length) (os : List (OutV S P)) : (L.map (maskOf ins os)).sum = (os.map (·.mask)).sum := by
  have e1 : (L.map fun x => x.2.rnd.alpha).sum = (ins.map (·.rnd.alpha)).sum := by
    rw [(ho.perm.map (fun x => x.2.rnd.alpha)).sum_eq]
    congr 1
    refine List.ext_getElem? fun j => ?_
    simp [List.getElem?_map, List.getElem?_mapIdx]
    cases ins[j]? <;> rfl
  have e2 := sum_alpha ins.length ((os.map (·.mask)).sum - (ins.map (·.rnd.alpha)).sum) L
  rw [count_last hne ho.pos, one_smul, e1] at e2
  show (L.map fun x => alphaOf ins.length _ x).sum = _
  rw [e2]
  abel

theorem amount_sum {env : Env S P} {d : TxData} {b0 : Builder S P} {ins : List (In S P)} {L : List (Nat × In S P)} (ho : Ordered env d b0 ins L) :
    (L.map fun x => x.2.src.amount).sum = (d.sources.map (·.amount)).sum := by
  rw [← ho.srcs, List.map_map]
  have e1 : (ins.mapIdx fun j i => (j, i)).map (·.2.src.amount) = ins.map (·.src.amount) := by
    refine List.ext_getElem? fun j => ?_
    simp [List.getElem?_map, List.getElem?_mapIdx]
    cases ins[j]? <;> rfl
  show _ = (ins.map fun i => i.src.amount).sum
  rw [← e1]
  exact (ho.perm.map _).sum_eq

theorem pseudo_list {α β γ : Type} {f : α → β} {Q : α → β × γ → Prop} {l : List α} {rs : List (β × γ)}
    (h : List.Forall₂ (fun x r => r.1 = f x ∧ Q x r) l rs) : rs.map (·.1) = l.map f := by
  induction h with
  | nil => rfl
  | cons h _ ih => rw [List.map_cons, List.map_cons, ih, h.1]

/-- The spent source, as the specification sees it. -/
def spent (ins : List (In S P)) (os : List (OutV S P)) (x : Nat × In S P) : Spent S P := ⟨x.2.src, x.2.x, x.2.ki, maskOf ins os x⟩

theorem tx_ok {env : Env S P} {cfg : Config} {d : TxData} {r0 : S} (hh : Ready env cfg d r0) {rnd : Nat → Rand S} {b0 b2 : Builder S P} {grp : List Nat} {R : P} {ex : Bytes}
    (hex : NonceOk d ex) (hf : F0 cfg d grp R ex b0) {ins : List (In S P)} {L : List (Nat × In S P)} (ho : Ordered env d b0 ins L)
    (h2 : F2 env cfg d b0 ins L b2) (hpos : ∀ g ∈ grp, 0 < g ∧ g ≤ 16) {os : List (OutV S P)} {groups : List (Bp × List (OutV S P))} (hos : Outs env d rnd b2 grp os groups) {t : Tx}
    (t1 : t.unlockTime = d.unlockTime) (t2 : t.vin = (L.map fun x => inRec env b0 x.1 x.2).map (·.vin))
    (t3 : t.vout = os.map (fun o => ⟨0, env.ptEnc o.key⟩)) (t4 : t.extra = extraOf env b2 ex os)
    (t5 : t.rv = ⟨prefixHash env t.unlockTime t.vin t.vout t.extra, tyOf cfg, b2.fee, os.map (·.ecdh), os.map (·.comm env), groups.map (·.1)⟩)
    {rs : List (Bytes × Bytes)}
    (r1 : List.Forall₂ (fun (x : Nat × In S P) (r : Bytes × Bytes) => r.1 = env.ptEnc (genC env (maskOf ins os x) x.2.src.amount) ∧
        ∃ mr, env.mlsag (getPreMlsagHash env.keccak t.rv) x.2.src.outputs x.2.x (env.scDec x.2.src.mask) (maskOf ins os x)
          (genC env (maskOf ins os x) x.2.src.amount) x.2.src.realOutput mr = some r.2) L rs) :
    TxOk env cfg d { t with pseudoOuts := rs.map (·.1), mgs := rs.map (·.2) } (L.map (spent ins os)) (os.map OutV.made)
      (groups.map fun g => (g.1, g.2.map OutV.made)) ex R (if b0.needAdd then os.map (·.addPub) else []) := by
  have hns : 0 < d.sources.length := List.length_pos_iff.2 hh.sources
  have hlen := ho.len
  have hoslen : os.length = d.dsts.length := by rw [← hos.dst, List.length_map]
  have hosne : os ≠ [] := by intro e; rw [e] at hoslen; have := List.length_pos_iff.2 hh.dsts; simp at hoslen; omega
  have hfee : b2.fee = (d.sources.map (·.amount)).sum - (d.dsts.map (·.amount)).sum := by rw [h2.fee, hf.fee]
  have henough := hh.enough
  refine ⟨?_, ?_, ?_, ?_, ?_, ?_, ?_, ?_, t1, ?_, hex, ?_, ?_, ?_, ?_, ?_, ?_, ?_, ?_, ?_, ?_⟩
  · rw [List.map_map, ← ho.srcs]
    have e1 : (ins.mapIdx fun j i => (j, i)).map (·.2.src) = ins.map (·.src) := by
      refine List.ext_getElem? fun j => ?_
      simp [List.getElem?_map, List.getElem?_mapIdx]
      cases ins[j]? <;> rfl
    rw [← e1]
    exact ho.perm.map _
  · intro i hi
    obtain ⟨x, hx, rfl⟩ := List.mem_map.1 hi
    exact (ho.mine _ (List.mem_of_getElem? (ho.mem hx))).toOwns
  · show t.vin = _
    rw [t2, List.map_map, List.map_map]; rfl
  · show (t.vin.map (·.ki)).Pairwise _
    rw [t2, List.map_map]
    exact ho.sorted
  · rw [List.map_map]; exact hos.dst
  · show t.vout = _
    rw [t3, List.map_map]; rfl
  · show t.rv.outPk = _
    rw [t5, List.map_map]; rfl
  · show t.rv.ecdhInfo = _
    rw [t5, List.map_map]; rfl
  · show t.extra = _
    rw [t4, extraOf, h2.need, h2.rPub, hf.rPub]
    cases hna : b0.needAdd with
    | false => simp
    | true =>
      have : os.map (·.addPub) ≠ [] := by simpa using hosne
      simp only [if_true, if_neg this, List.length_map, List.map_map]
      rfl
  · cases b0.needAdd with
    | false => exact .inl rfl
    | true => exact .inr (by simp)
  · show t.rv.type = _
    rw [t5]; rfl
  · show t.rv.txnFee + _ = _
    rw [t5, hfee]
    dsimp only
    omega
  · show rs.map (·.1) = _
    rw [pseudo_list r1, List.map_map]; rfl
  · have em : ((L.map (spent ins os)).map (·.mask)).sum = ((os.map OutV.made).map (·.mask)).sum := by
      rw [List.map_map, map_made_sum]
      exact mask_sum ho (by omega) os
    have ea : ((L.map (spent ins os)).map (·.src.amount)).sum = (d.sources.map (·.amount)).sum := by
      rw [List.map_map]; exact amount_sum ho
    have eb : ((os.map OutV.made).map (·.dst.amount)).sum = (d.dsts.map (·.amount)).sum := by
      rw [List.map_map, ← hos.dst, List.map_map]; rfl
    rw [sum_genC env (fun i : Spent S P => i.mask) (fun i => i.src.amount), sum_genC env (fun o : Made S P => o.mask) (fun o => o.dst.amount), em, ea, eb]
    show _ = _ + (t.rv.txnFee : S) • env.H
    rw [t5, hfee]
    dsimp only
    rw [add_assoc, ← add_smul, ← Nat.cast_add, Nat.add_sub_cancel' henough]
  · show t.rv.message = _
    rw [t5]; rfl
  · show List.Forall₂ _ _ (rs.map (·.2))
    rw [List.forall₂_map_left_iff, List.forall₂_map_right_iff]
    exact r1.imp fun x r h => h.2
  · show t.rv.bulletproofs = _
    rw [t5, List.map_map]; rfl
  · rw [hos.all, List.map_flatten, List.map_map, List.map_map]; rfl
  · intro g hg
    obtain ⟨g0, hg0, rfl⟩ := List.mem_map.1 hg
    have hlen : g0.2.length ∈ grp := by rw [← hos.sizes]; exact List.mem_map_of_mem (f := fun g => g.2.length) hg0
    refine ⟨by simpa using (hpos _ hlen).1, by simpa using (hpos _ hlen).2, ?_⟩
    have := hos.proofs g0 hg0
    simp only [List.map_map]
    exact this

/-- The whole run. -/
theorem run_keys {env : Env S P} {cdc : Codec} {cfg : Config} {d : TxData} (hl : Lawful env cdc) {rnd : Nat → Rand S}
    (hrnd : Nat → Bytes) {c : Conn S P} (hh : Ready env cfg d (rnd c.n).r) (ha : Agrees rnd c.n) :
    ∃ (tx : Tx) (k : Nat) (ins : List (Spent S P)) (os : List (OutV S P)) (groups : List (Bp × List (Made S P))) (s0 : Src) (grp : List Nat)
      (R : P) (pid ex : Bytes) (b0 : Builder S P), initBuilder env (tsxOf cfg d s0 grp) (rnd c.n) R pid ex (tyOf cfg) = b0 ∧
      (∃ n, signAll env cfg cdc rnd hrnd d c =
        some (tx, keysAck env (rnd n) tx.rv.message (rnd c.n).r (if b0.needAdd then os.map (·.addKey) else []), ⟨⟨none⟩, k⟩)) ∧
      txPubKey env (classify d.dsts (some d.change.addr)) (rnd c.n).r = some R ∧
      TxOk env cfg d tx ins (os.map OutV.made) groups ex R (if b0.needAdd then os.map (·.addPub) else []) ∧
      b0.isBpV2 = decide (10 ≤ cfg.hf) ∧
      processPaymentId env (tsxOf cfg d s0 grp) (some d.change.addr) (rnd c.n).r [] = some (pid, ex) ∧ ∀ j o, os[j]? = some o → ∃ n, OutOk env b0 j (rnd n) o := by
  obtain ⟨R, pid, ex, s0, grp, b0, hb0, htsx, g2, g3, hR, hcall0, hstart, hf, hpid⟩ := init_phase (cdc := cdc) hl hh ha
  obtain ⟨ins, L, b2, rs0, c1, c2, c3, k4, q1, q2, q3, q4, ho, h2⟩ := input_phase (cdc := cdc) hl hh ha.ui hstart hf (c.n + 1)
  obtain ⟨os, groups, st, po, k5, c5, t, w1, t1, t2, t3, t4, t5, w2, hos⟩ := output_phase (cdc := cdc) hl hh hrnd ha.ui hstart.hmac hf h2 g2 g3 k4
  obtain ⟨rs, c7, k8, r1, r2, r3⟩ := sign_phase hl hh ha.ui hstart ho h2 os (groups.map (·.1)) po t.rv.message (getPreMlsagHash env.keccak t.rv) k5
  refine ⟨_, k8, _, os, _, s0, grp, R, pid, ex, b0, hb0, ?_, hR, tx_ok hh (nonce_ok hl.hashLen rfl hpid) hf ho h2 g3 hos t1 t2 t3 t4 t5 r1, hf.v2, hpid, ?_⟩
  · refine ⟨k5 + L.length, ?_⟩
    have hr0 : b2.r = (rnd c.n).r := by rw [h2.r, ← hb0]; rfl
    rw [hr0, h2.need] at r3
    unfold signAll
    rw [htsx, Option.bind_some, hcall0, Option.bind_some]
    dsimp only
    rw [q1, Option.bind_some]
    dsimp only
    rw [q2, Option.bind_some]
    dsimp only
    rw [q3, Option.bind_some, q4, Option.bind_some]
    dsimp only
    rw [show (tsxOf cfg d s0 grp).grouping = grp from rfl, w1, Option.bind_some]
    dsimp only
    rw [w2, Option.bind_some]
    dsimp only
    rw [r2, Option.bind_some]
    dsimp only
    rw [r3, Option.map_some]
  · intro j o hj
    obtain ⟨n, hok⟩ := hos.ok j o hj
    obtain ⟨sp, q, k1, k2, k3⟩ := hok.keys
    exact ⟨n, ⟨sp, q, k1, by rw [← h2.deriv]; exact k2, k3⟩, hok.add, hok.mask, by rw [← h2.v2]; exact hok.ecdh⟩

theorem run_all {env : Env S P} {cdc : Codec} {cfg : Config} {d : TxData} (hl : Lawful env cdc) {rnd : Nat → Rand S}
    (hrnd : Nat → Bytes) {c : Conn S P} (hh : Ready env cfg d (rnd c.n).r) (ha : Agrees rnd c.n) :
    ∃ (tx : Tx) (k : Nat) (ins : List (Spent S P)) (os : List (OutV S P)) (groups : List (Bp × List (Made S P))) (s0 : Src) (grp : List Nat)
      (R : P) (pid ex : Bytes) (b0 : Builder S P), initBuilder env (tsxOf cfg d s0 grp) (rnd c.n) R pid ex (tyOf cfg) = b0 ∧
      signTransaction env cfg cdc rnd hrnd d c = some (tx, ⟨⟨none⟩, k⟩) ∧
      txPubKey env (classify d.dsts (some d.change.addr)) (rnd c.n).r = some R ∧
      TxOk env cfg d tx ins (os.map OutV.made) groups ex R (if b0.needAdd then os.map (·.addPub) else []) ∧
      b0.isBpV2 = decide (10 ≤ cfg.hf) ∧
      processPaymentId env (tsxOf cfg d s0 grp) (some d.change.addr) (rnd c.n).r [] = some (pid, ex) ∧ ∀ j o, os[j]? = some o → ∃ n, OutOk env b0 j (rnd n) o := by
  obtain ⟨tx, k, ins, os, groups, s0, grp, R, pid, ex, b0, h1, ⟨n, h2⟩, h3⟩ := run_keys hl hrnd hh ha
  exact ⟨tx, k, ins, os, groups, s0, grp, R, pid, ex, b0, h1, signTransaction_some.2 ⟨_, h2⟩, h3⟩

end Verif.Agent

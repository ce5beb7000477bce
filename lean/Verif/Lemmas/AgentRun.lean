import Verif.Lemmas.AgentSteps
import Verif.Lemmas.SignerInit
import Verif.Lemmas.Permutation
import Verif.Props.SignerTags
import Verif.Props.Batches

/-! Forward execution of the device's handlers. -/

set_option linter.unusedSectionVars false
set_option linter.unusedSimpArgs false

namespace Verif.Agent
open Verif Verif.Signer Verif.Batches
variable {S P : Type} [CommRing S] [AddCommGroup P] [Module S P] [DecidableEq S] [DecidableEq P]

/-- The key for a purpose and a position. -/
def keyOf (env : Env S P) (secret : Bytes) (p : Purpose) (i : Nat) : Bytes := (buildKey env secret p.label (some i)).getD []

/-- The tag for a purpose and a position. -/
def tagOf (env : Env S P) (key : Bytes) (p : Purpose) (i : Nat) (data : Bytes) : Bytes := env.mac (keyOf env key p i) data

theorem buildKey_ok (env : Env S P) {secret : Bytes} (hs : secret.length = 32) (p : Purpose) {i : Nat} (hi : i < 2 ^ 42) :
    buildKey env secret p.label (some i) = some (keyOf env secret p i) := by
  obtain ⟨buf, h⟩ := C13_room secret hs p i hi
  simp [keyOf, buildKey, h]

theorem tag_ok (env : Env S P) {secret : Bytes} (hs : secret.length = 32) (p : Purpose) {i : Nat} (hi : i < 2 ^ 42) (data : Bytes) :
    tag env secret p.label i data = some (tagOf env secret p i data) := by
  simp [tag, buildKey_ok env hs p hi, tagOf]

/-- The tag of a serialised input. -/
def viniTag (env : Env S P) (key : Bytes) (src : Src) (vini : Bytes) (i : Nat) : Bytes :=
  tagOf env key .txin i (env.keccak (env.pbSrc src ++ vini))

theorem hmacVini_ok (env : Env S P) {key : Bytes} (hs : key.length = 32) (src : Src) (vini : Bytes) {i : Nat} (hi : i < 2 ^ 42) :
    hmacVini env key src vini i = some (viniTag env key src vini i) := tag_ok env hs .txin hi _

theorem hmacVouti_ok (env : Env S P) {key : Bytes} (hs : key.length = 32) (dst : Dst) (out : Bytes) {i : Nat} (hi : i < 2 ^ 42) :
    hmacVouti env key dst out i = some (tagOf env key .txout i (env.keccak (env.pbDst dst ++ out))) := tag_ok env hs .txout hi _

/-- The tag of a destination. -/
def dstTag (env : Env S P) (key : Bytes) (dst : Dst) (i : Nat) : Bytes := tagOf env key .txdst i (env.keccak (env.pbDst dst))

theorem hmacDst_ok (env : Env S P) {key : Bytes} (hs : key.length = 32) (dst : Dst) {i : Nat} (hi : i < 2 ^ 42) :
    hmacDst env key dst i = some (dstTag env key dst i) := tag_ok env hs .txdst hi _

theorem hmacDsts_ok (env : Env S P) {key : Bytes} (hs : key.length = 32) : ∀ (ds : List Dst) (i : Nat), i + ds.length ≤ 2 ^ 42 →
    hmacDsts env key ds i = some (ds.mapIdx fun j d => dstTag env key d (i + j)) := by
  intro ds
  induction ds with
  | nil => intro i _; rfl
  | cons d ds ih =>
    intro i h
    rw [List.length_cons] at h
    rw [hmacDsts, hmacDst_ok env hs d (by omega), ih (i + 1) (by omega)]
    show some (dstTag env key d i :: _) = _
    rw [List.mapIdx_cons]
    simp only [Nat.add_assoc, Nat.add_comm 1, Nat.add_zero]

theorem call_ok {env : Env S P} (hm : ∀ m, m ≠ .malformed → env.msgOk m = true) (hr : ∀ r, env.respOk r = true) {rnd : Nat → Rand S} {c : Conn S P} {m : Msg}
    {b' : Builder S P} {resp : Resp} (h : sign env (wakeUp c.dev m) m (rnd c.n) = .ok (b', resp)) (hf : ∀ x, resp ≠ .failure x) :
    call env rnd c m = some (resp, ⟨⟨if b'.state.isTerminal then none else some b'⟩, c.n + 1⟩) := by
  unfold call tsxSign
  rw [hm m (by rintro rfl; simp [sign] at h)]
  simp only [Bool.not_true, Bool.false_eq_true, if_false, h, hr, if_true]

/-- Initialisation succeeds and ends in the known builder. -/
theorem init_run {env : Env S P} {tsx : TsxData} {rnd : Rand S} {rPub : P} {pid extra : Bytes} {ty : UInt8} {hmacs : List Bytes}
    (h : InitOk env tsx rnd rPub pid extra ty hmacs) (hu : rnd.uiOk = true) :
    initTransaction env freshBuilder tsx rnd = .ok (initBuilder env tsx rnd rPub pid extra ty,
      .initAck hmacs (decide (tsx.rsigType > 0) && decide (tsx.outputs.length > 2))) := by
  have hty : (if bpVersionOf tsx = 1 then some (3 : UInt8) else if bpVersionOf tsx = 2 then some 4 else none) = some ty := by
    rcases h.tyOk with ⟨e, rfl⟩ | ⟨e, rfl⟩ <;> simp [e]
  simp only [initTransaction, bind_ok, pure_ok, ensure_ok, orFail_ok, exists_unit, TState.initTsx]
  refine ⟨_, ⟨rfl, rfl⟩, hu, ?_⟩
  simp only [h.confirmed, Bool.not_true, Bool.false_eq_true, if_false]
  simp only [bind_ok, pure_ok, ensure_ok, orFail_ok, exists_unit, TState.inpCnt, Option.bind_eq_some_iff]
  refine ⟨_, ⟨rfl, rfl⟩, h.changeOk, rPub, h.rPubOk, (pid, extra), h.pidOk, _, rfl, _, rfl, ty, hty, _, ⟨_, rfl, rfl⟩, hmacs, ?_, ?_⟩
  · split <;> exact h.hmacsOk
  · by_cases hmi : tsx.minorIndices.isEmpty = true
    · simp only [hmi, if_true, initBuilder]
      rfl
    · simp only [hmi, if_false, initBuilder]
      rfl

/-! ### Inputs -/

/-- An input as the device knows it: the source, what was drawn, its secret and its key image. -/
structure In (S P : Type) where
  src : Src
  rnd : Rand S
  x : S
  ki : P

/-- The source belongs to the wallet: the one-time key of the real ring member is `x·G` and its commitment opens to the amount. -/
structure Owned (env : Env S P) (subs : SubTable) (i : In S P) : Prop where
  real : ∃ real txKey addKeys, i.src.outputs[i.src.realOutput]? = some real ∧ env.ptDec real.dest = some (i.x • env.G) ∧
    env.ptDec real.commitment = some (genC env (env.scDec i.src.mask) i.src.amount) ∧ env.ptDec i.src.txKey = some txKey ∧
    i.src.addKeys.mapM env.ptDec = some addKeys ∧ env.keyImage subs (i.x • env.G) txKey addKeys i.src.inTxIndex = some (i.x, i.ki)

/-- The pseudo output handed out for an input. -/
def pseudoOf (env : Env S P) (i : In S P) : Bytes := env.ptEnc (genC env i.rnd.alpha i.src.amount)

/-- The input of the transaction prefix. -/
def vinOf (env : Env S P) (i : In S P) : Vin :=
  ⟨if i.src.rct then 0 else i.src.amount, env.ptEnc i.ki, Offsets.toRelative (i.src.outputs.map fun x => (x.idx : Int))⟩

/-- What the host keeps of input number `j`. -/
def inRec (env : Env S P) (b : Builder S P) (j : Nat) (i : In S P) : InRec where
  src := i.src
  vin := vinOf env i
  hmac := viniTag env b.keyHmac i.src (viniOf env i.src i.ki) j
  pseudoOut := pseudoOf env i
  pseudoOutHmac := tagOf env b.keyHmac .txinComm j (pseudoOf env i)
  alphaEnc := env.encPack (keyOf env b.keyEnc .txinAlpha j) (env.scEnc i.rnd.alpha) i.rnd.nonceAlpha
  spendEnc := env.encPack (keyOf env b.keyEnc .spend j) (env.scEnc i.x) i.rnd.nonceSpend

theorem dumpVin_vinOf (env : Env S P) (i : In S P) : dumpVin env (vinOf env i) = viniOf env i.src i.ki := rfl

theorem setInput_run {env : Env S P} {b : Builder S P} {subs : SubTable} {i : In S P} {j : Nat}
    (hst : b.state.s = .INP_CNT ∨ b.state.s = .INPUT) (hj : b.inpIdx + 1 = j) (hn : j < b.inputCount) (h42 : j < 2 ^ 42)
    (hk : b.keyHmac.length = 32) (he : b.keyEnc.length = 32) (hu : i.rnd.uiOk = true) (hs : b.subs = some subs) (ho : Owned env subs i) :
    setInput env b i.src i.rnd = .ok ({ b with
        state := { b.state with s := if j + 1 = b.inputCount then .INPUT_DONE else .INPUT },
        inpIdx := j, sumIn := b.sumIn + i.src.amount, sumpouts := b.sumpouts + i.rnd.alpha,
        inputLastAmount := if j + 1 = b.inputCount then i.src.amount else b.inputLastAmount,
        subs := if j + 1 = b.inputCount then none else b.subs },
      .inputAck (dumpVin env (vinOf env i)) (inRec env b j i).hmac (inRec env b j i).pseudoOut (inRec env b j i).pseudoOutHmac
        (inRec env b j i).alphaEnc (inRec env b j i).spendEnc) := by
  obtain ⟨real, txKey, addKeys, h1, h2, _, h3, h4, h5⟩ := ho.real
  have hj' : (b.inpIdx + 1).toNat = j := by omega
  simp only [setInput, bind_ok, pure_ok, ensure_ok, orFail_ok, TState.input, exists_unit]
  refine ⟨_, ⟨by rcases hst with h | h <;> simp [h], rfl⟩, hu, by simp; omega, real, h1, _, h2, txKey, h3, addKeys, h4, subs, hs, (i.x, i.ki), h5,
    _, hmacVini_ok env hk _ _ (by show (b.inpIdx + 1).toNat < _; omega), _, tag_ok env hk .txinComm (by show (b.inpIdx + 1).toNat < _; omega) _,
    _, buildKey_ok env he .txinAlpha (by show (b.inpIdx + 1).toNat < _; omega), _, buildKey_ok env he .spend (by show (b.inpIdx + 1).toNat < _; omega), ?_⟩
  by_cases hl : j + 1 = b.inputCount
  · have hl' : b.inpIdx + 1 + 1 = (b.inputCount : Int) := by omega
    refine ⟨_, by simp only [inputsDone, TState.inputDone]; rw [if_pos hl']; rfl, ?_⟩
    simp only [if_pos hl, hj, Int.toNat_natCast]
    rfl
  · have hl' : ¬ b.inpIdx + 1 + 1 = (b.inputCount : Int) := by omega
    refine ⟨_, by simp only [inputsDone, TState.inputDone]; rw [if_neg hl']; rfl, ?_⟩
    simp only [if_neg hl, hj, Int.toNat_natCast]
    rfl

end Verif.Agent

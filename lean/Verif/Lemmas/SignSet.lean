import Verif.Model.SignSet
import Verif.Lemmas.AgentSteps

/-! The number of messages the device got never goes down. -/

namespace Verif.Agent
open Verif Verif.Signer
variable {S P : Type} [CommRing S] [AddCommGroup P] [Module S P] [DecidableEq S] [DecidableEq P]

theorem call_n {env : Env S P} {rnd : Nat → Rand S} {c : Conn S P} {m : Msg} {r : Resp × Conn S P} (h : call env rnd c m = some r) : r.2.n = c.n + 1 := by
  unfold call at h
  dsimp only at h
  split at h
  · cases h
  · cases h; rfl

theorem initStep_n {env : Env S P} {rnd : Nat → Rand S} {c : Conn S P} {tsx : TsxData} {r : (List Bytes × Bool) × Conn S P}
    (h : initStep env rnd tsx c = some r) : r.2.n = c.n + 1 := by
  obtain ⟨a, h1, h2⟩ := Option.bind_eq_some_iff.1 h
  split at h2
  · cases h2; exact call_n h1
  · cases h2

theorem inputLoop_n {env : Env S P} {cdc : Codec} {rnd : Nat → Rand S} : ∀ {srcs : List Src} {c : Conn S P} {r : List InRec × Conn S P},
    inputLoop env cdc rnd srcs c = some r → c.n ≤ r.2.n := by
  intro srcs
  induction srcs with
  | nil => intro c r h; cases h; exact le_refl _
  | cons s srcs ih =>
    intro c r h
    obtain ⟨a, h1, h2⟩ := Option.bind_eq_some_iff.1 h
    obtain ⟨q, h3, rfl⟩ := Option.map_eq_some_iff.1 h2
    obtain ⟨b, h4, h5⟩ := Option.bind_eq_some_iff.1 h1
    have := ih h3
    have hb := call_n h4
    split at h5
    · obtain ⟨v, -, rfl⟩ := Option.map_eq_some_iff.1 h5
      dsimp only at this ⊢
      omega
    · cases h5

theorem permStep_n {env : Env S P} {rnd : Nat → Rand S} {ins : List InRec} {c : Conn S P} {r : List InRec × Conn S P}
    (h : permStep env rnd ins c = some r) : c.n ≤ r.2.n := by
  obtain ⟨a, -, h2⟩ := Option.bind_eq_some_iff.1 h
  obtain ⟨b, h3, rfl⟩ := Option.map_eq_some_iff.1 h2
  have := call_n h3
  dsimp only
  omega

theorem viniLoop_n {env : Env S P} {rnd : Nat → Rand S} : ∀ {ins : List InRec} {c c' : Conn S P}, viniLoop env rnd ins c = some c' → c.n ≤ c'.n := by
  intro ins
  induction ins with
  | nil => intro c c' h; cases h; exact le_refl _
  | cons i ins ih =>
    intro c c' h
    obtain ⟨a, h1, h2⟩ := Option.bind_eq_some_iff.1 h
    have := call_n h1
    have := ih h2
    omega

theorem allInStep_n {env : Env S P} {cfg : Config} {rnd : Nat → Rand S} {o : Bool} {m : Nat} {c : Conn S P} {r : List Bytes × Conn S P}
    (h : allInStep env cfg rnd o m c = some r) : c.n ≤ r.2.n := by
  obtain ⟨a, h1, h2⟩ := Option.bind_eq_some_iff.1 h
  have := call_n h1
  split at h2
  · split at h2
    · cases h2; dsimp only; omega
    · split at h2
      · cases h2; dsimp only; omega
      · cases h2
  · cases h2

theorem upload_n {env : Env S P} {d : TxData} {rnd : Nat → Rand S} {hrnd : Nat → Bytes} {batches : List Nat} {idx : Nat} {st : OutSt}
    {c : Conn S P} {r : OutSt × Conn S P} (h : upload env d rnd hrnd batches idx st c = some r) : c.n ≤ r.2.n := by
  obtain ⟨a, -, h2⟩ := Option.bind_eq_some_iff.1 h
  split at h2
  · cases h2; exact le_refl _
  · obtain ⟨b, h3, rfl⟩ := Option.map_eq_some_iff.1 h2
    have := call_n h3
    dsimp only
    omega

theorem outputStep_n {env : Env S P} {cfg : Config} {cdc : Codec} {d : TxData} {rnd : Nat → Rand S} {hrnd : Nat → Bytes} {batches : List Nat}
    {offload : Bool} {idx : Nat} {dst : Dst} {hmac : Bytes} {st : OutSt} {c : Conn S P} {r : OutSt × Conn S P}
    (h : outputStep env cfg cdc d rnd hrnd batches offload idx dst hmac st c = some r) : c.n ≤ r.2.n := by
  obtain ⟨a, -, h2⟩ := Option.bind_eq_some_iff.1 h
  obtain ⟨b, h3, h4⟩ := Option.bind_eq_some_iff.1 h2
  have := call_n h3
  split at h4
  · obtain ⟨st', -, h5⟩ := Option.bind_eq_some_iff.1 h4
    split at h5
    · have := upload_n h5; omega
    · obtain ⟨q, -, rfl⟩ := Option.map_eq_some_iff.1 h5
      dsimp only; omega
  · cases h4

theorem outputLoop_n {env : Env S P} {cfg : Config} {cdc : Codec} {d : TxData} {rnd : Nat → Rand S} {hrnd : Nat → Bytes} {batches : List Nat}
    {offload : Bool} {hmacs : List Bytes} : ∀ {dsts : List Dst} {idx : Nat} {st : OutSt} {c : Conn S P} {r : OutSt × Conn S P},
    outputLoop env cfg cdc d rnd hrnd batches offload hmacs idx dsts st c = some r → c.n ≤ r.2.n := by
  intro dsts
  induction dsts with
  | nil => intro idx st c r h; rw [outputLoop] at h; cases h; exact le_refl _
  | cons x dsts ih =>
    intro idx st c r h
    rw [outputLoop] at h
    obtain ⟨a, -, h2⟩ := Option.bind_eq_some_iff.1 h
    obtain ⟨b, h3, h4⟩ := Option.bind_eq_some_iff.1 h2
    exact (outputStep_n h3).trans (ih h4)

theorem allOutStep_n {env : Env S P} {d : TxData} {rnd : Nat → Rand S} {ins : List InRec} {st : OutSt} {c : Conn S P} {r : Tx × Conn S P}
    (h : allOutStep env d rnd ins st c = some r) : c.n ≤ r.2.n := by
  obtain ⟨a, h1, h2⟩ := Option.bind_eq_some_iff.1 h
  have := call_n h1
  split at h2
  · dsimp only at h2
    split at h2
    · split at h2
      · cases h2; dsimp only; omega
      · cases h2
    · cases h2
  · cases h2

theorem signLoop_n {env : Env S P} {cfg : Config} {rnd : Nat → Rand S} : ∀ {ins : List InRec} {c : Conn S P} {r : List (Bytes × Bytes) × Conn S P},
    signLoop env cfg rnd ins c = some r → c.n ≤ r.2.n := by
  intro ins
  induction ins with
  | nil => intro c r h; cases h; exact le_refl _
  | cons i ins ih =>
    intro c r h
    obtain ⟨a, h1, h2⟩ := Option.bind_eq_some_iff.1 h
    have := call_n h1
    split at h2
    · obtain ⟨q, h3, rfl⟩ := Option.map_eq_some_iff.1 h2
      have := ih h3
      dsimp only
      omega
    · cases h2

theorem signTransaction_n {env : Env S P} {cfg : Config} {cdc : Codec} {rnd : Nat → Rand S} {hrnd : Nat → Bytes} {d : TxData} {c c' : Conn S P} {tx : Tx}
    (h : signTransaction env cfg cdc rnd hrnd d c = some (tx, c')) : c.n < c'.n := by
  simp only [signTransaction_eq, Option.bind_eq_some_iff, Option.map_eq_some_iff] at h
  obtain ⟨tsx, -, r0, e0, r1, e1, r2, e2, c3, e3, r4, e4, r5, e5, r6, e6, r7, e7, r8, e8, he⟩ := h
  cases he
  have := initStep_n e0
  have := inputLoop_n e1
  have := permStep_n e2
  have := viniLoop_n e3
  have := allInStep_n e4
  have := outputLoop_n e5
  have := allOutStep_n e6
  have := signLoop_n e7
  have := call_n e8
  omega

end Verif.Agent

import Verif.Lemmas.TestGenChange

/-!
C112: what the tool that rewrites unsigned transactions keeps: amounts, commitments, ownership; and where the change gets lost.
-/

namespace Verif.TestGen
open Verif Ed
open Verif.Key hiding Dst rep_smul
open Verif.Builder (Creds checkInput)
open Verif.Signer (Src Dst Addr RingMember addrEq)

/-- The stages of a successful run. -/
theorem rekey_inv {H : Bytes → Bytes} {cur dst : Creds} {curT dstT : Table} {a : Args} {w : Rnd} {tx tx' : Tx}
    (h : rekey H cur curT dst dstT a w tx = some tx') :
    ∃ (S1 S2 : List Src) (K : Ext × Ext) (t1 t2 t3 : Tx) (i1 i2 i3 : Option ℕ) (e : Bytes),
      (if a.inputs = 0 then some tx.sources else amplifyInputs H dst dstT a.inputs w.decoys tx.sources) = some S1 ∧
      S1.zipIdx.mapM (fun s => rekeyInput H cur curT dst dstT a (w.draws s.2) s.1) = some S2 ∧
      subAddressKeys H dst.view (scalarmultB dst.spend) a.major 0 = some K ∧
      adjustChange a.outsSubs ⟨encodePoint K.1, encodePoint K.2⟩ { tx with sources := S2 } = some (t1, i1) ∧
      (match a.outs with
        | none => t2 = { t1 with account := a.major, indices := a.minors } ∧ i2 = i1
        | some n => ∃ t i, reduceOuts n w.perm1 { t1 with account := a.major, indices := a.minors } i1 = some (t, i) ∧ amplifyOuts n w.perm2 t i = some (t2, i2)) ∧
      (if a.outsSubs then subOuts H cur curT dst dstT a.major t2 i2 else some (t2, i2)) = some (t3, i3) ∧ tx' = { t3 with extra := e } := by
  unfold rekey at h
  obtain ⟨S1, h1, h⟩ := Option.bind_eq_some_iff.mp h
  obtain ⟨S2, h2, h⟩ := Option.bind_eq_some_iff.mp h
  obtain ⟨K, h3, h⟩ := Option.bind_eq_some_iff.mp h
  obtain ⟨⟨t1, i1⟩, h4, h⟩ := Option.bind_eq_some_iff.mp h
  dsimp only at h
  obtain ⟨⟨t2, i2⟩, h5, h⟩ := Option.bind_eq_some_iff.mp h
  obtain ⟨⟨t3, i3⟩, h6, h⟩ := Option.bind_eq_some_iff.mp h
  obtain ⟨e1, -, h⟩ := Option.bind_eq_some_iff.mp h
  obtain ⟨e, -, rfl⟩ := Option.map_eq_some_iff.mp h
  refine ⟨S1, S2, K, t1, t2, t3, i1, i2, i3, e, h1, h2, h3, h4, ?_, h6, rfl⟩
  cases ho : a.outs with
  | none =>
    rw [ho] at h5
    simp only [Option.some.injEq, Prod.mk.injEq] at h5
    exact ⟨h5.1.symm, h5.2.symm⟩
  | some n =>
    rw [ho] at h5
    obtain ⟨⟨t, i⟩, h7, h8⟩ := Option.bind_eq_some_iff.mp h5
    exact ⟨t, i, h7, h8⟩

/-- What the shuffles must be: arrangements of the indices of the outputs. -/
def Shuffles (a : Args) (w : Rnd) : Prop := ∀ n, a.outs = some n → w.perm1.Perm (List.range n) ∧ w.perm2.Perm (List.range n)

/-- C112: a transaction that comes out of the tool spends and pays the same totals (so the fee is the same), has as many more inputs as asked for and
exactly as many outputs as asked for. -/
theorem C112_totals {H : Bytes → Bytes} {cur dst : Creds} {curT dstT : Table} {a : Args} {w : Rnd} {tx tx' : Tx} (hw : Shuffles a w)
    (h : rekey H cur curT dst dstT a w tx = some tx') :
    (tx'.sources.map (·.amount)).sum = (tx.sources.map (·.amount)).sum ∧ (tx'.dsts.map (·.amount)).sum = (tx.dsts.map (·.amount)).sum ∧
    tx'.sources.length = tx.sources.length + a.inputs ∧ tx'.dsts.length = a.outs.getD tx.dsts.length := by
  obtain ⟨S1, S2, K, t1, t2, t3, i1, i2, i3, e, h1, h2, -, h4, h5, h6, rfl⟩ := rekey_inv h
  obtain ⟨a1, a2, -⟩ := adjust_amounts h4
  have hS1 : spent S1 = spent tx.sources ∧ S1.length = tx.sources.length + a.inputs := by
    split at h1
    · rename_i h0
      cases h1
      exact ⟨rfl, by omega⟩
    · rename_i h0
      obtain ⟨ys, lst, m, news, e1, e2, e3, e4, -⟩ := inputs_spec h0 h1
      rw [e1, e2]
      refine ⟨by rw [spent_append, spent_append, e4, spent_cons]; simp [spent], ?_⟩
      rw [List.length_append, List.length_append, e3, List.length_singleton]
      omega
  have hF := mapM_forall h2
  have hS2 : S2.map (·.amount) = S1.map (·.amount) := by
    rw [forall_amounts (fun d : Src × ℕ => d.1.amount) (·.amount) (fun a b hab => (rekey_spec hab).1) hF, zipIdx_fst_map (fun d : Src => d.amount)]
  have h6' : t3.dsts.map (·.amount) = t2.dsts.map (·.amount) ∧ t3.sources = t2.sources := by
    split at h6
    · obtain ⟨b1, b2, -⟩ := sub_spec h6
      exact ⟨b1, b2⟩
    · simp only [Option.some.injEq, Prod.mk.injEq] at h6
      obtain ⟨rfl, -⟩ := h6
      exact ⟨rfl, rfl⟩
  have hl1 : t1.dsts.length = tx.dsts.length := by simpa using congrArg List.length a1
  have h5' : paid t2.dsts = paid t1.dsts ∧ t2.dsts.length = a.outs.getD tx.dsts.length ∧ t2.sources = t1.sources := by
    cases ho : a.outs with
    | none =>
      rw [ho] at h5
      obtain ⟨rfl, -⟩ := h5
      exact ⟨rfl, hl1, rfl⟩
    | some n =>
      rw [ho] at h5
      obtain ⟨t, i, h7, h8⟩ := h5
      obtain ⟨p1, p2⟩ := hw n ho
      obtain ⟨c1, c2, c3, -⟩ := reduce_spec p1 h7
      obtain ⟨d1, d2, d3, -⟩ := amplify_spec p2 h8
      dsimp only at c1 c2 c3
      exact ⟨d1.trans c1, by rw [d2, c2, Option.getD_some]; omega, d3.trans c3⟩
  dsimp only
  refine ⟨?_, ?_, ?_, ?_⟩
  · rw [h6'.2, h5'.2.2, a2]
    exact (congrArg List.sum hS2).trans hS1.1
  · rw [h6'.1]
    exact h5'.1.trans (congrArg List.sum a1)
  · rw [h6'.2, h5'.2.2, a2, ← hS1.2]
    have := congrArg List.length hS2
    simpa using this
  · have := congrArg List.length h6'.1
    rw [← h5'.2.1]
    simpa using this

/-- C112: every input of the result belongs to the new wallet: its keys find a secret whose public key is the key in the ring, and that secret gives
the key image. -/
theorem C112_owned {H : Bytes → Bytes} {cur dst : Creds} {curT dstT : Table} {a : Args} {w : Rnd} {tx tx' : Tx}
    (hw : Shuffles a w) (h : rekey H cur curT dst dstT a w tx = some tx') : ∀ s ∈ tx'.sources, ∃ e out x I recv, s.outputs[s.realOutput]? = some e ∧
      decodePoint e.dest = some out ∧ checkInput H dst dstT s = some (x, I, recv) ∧ (0 ≤ x ∧ x < l) ∧ Spec.times (affine B) x.toNat = affine out ∧
      affine I = Spec.times (affine (hp H (encodePoint out))) x.toNat := by
  obtain ⟨S1, S2, K, t1, t2, t3, i1, i2, i3, e, h1, h2, -, h4, h5, h6, rfl⟩ := rekey_inv h
  have h6' : t3.sources = t2.sources := by
    split at h6
    · exact (sub_spec h6).2.1
    · simp only [Option.some.injEq, Prod.mk.injEq] at h6
      exact h6.1 ▸ rfl
  have h5' : t2.sources = t1.sources := by
    cases ho : a.outs with
    | none => rw [ho] at h5; obtain ⟨rfl, -⟩ := h5; rfl
    | some n =>
      rw [ho] at h5
      obtain ⟨t, i, h7, h8⟩ := h5
      exact (amplify_spec (hw n ho).2 h8).2.2.1.trans (reduce_spec (hw n ho).1 h7).2.2.1
  have hs : t3.sources = S2 := by rw [h6', h5', (adjust_amounts h4).2.1]
  intro s hm
  dsimp only at hm
  rw [hs] at hm
  obtain ⟨b, -, hb⟩ : ∃ b ∈ S1.zipIdx, rekeyInput H cur curT dst dstT a (w.draws b.2) b.1 = some s := by
    have hF := mapM_forall h2
    clear hs h2 h4
    generalize S1.zipIdx = Z at hF ⊢
    induction hF with
    | nil => simp at hm
    | cons hr _ ih =>
      rcases List.mem_cons.mp hm with rfl | hm
      · exact ⟨_, List.mem_cons_self, hr⟩
      · obtain ⟨b, hb, hr⟩ := ih hm
        exact ⟨b, List.mem_cons_of_mem _ hb, hr⟩
  obtain ⟨-, -, -, -, ⟨x, I, recv⟩, hck⟩ := rekey_spec hb
  have hck0 := hck
  unfold checkInput at hck
  obtain ⟨e, he, hck⟩ := Option.bind_eq_some_iff.mp hck
  obtain ⟨R, -, hck⟩ := Option.bind_eq_some_iff.mp hck
  obtain ⟨adds, -, hck⟩ := Option.bind_eq_some_iff.mp hck
  obtain ⟨out, ho, hck⟩ := Option.bind_eq_some_iff.mp hck
  obtain ⟨q1, q2, -, q4⟩ := C39_secret_and_image H _ _ _ _ _ _ _ _ _ _ _ ho hck
  exact ⟨e, out, x, I, recv, he, ho, hck0, q1, q2, q4⟩

/-- C112: splitting the last input into several divides its amount among the copies, each with a commitment to its own share under the mask of the
original, and leaves the other inputs alone. -/
theorem C112_split {H : Bytes → Bytes} {c : Creds} {t : Table} {n : ℕ} {rnd : ℕ → Decoys} {L L' : List Src} (hn : n ≠ 0)
    (h : amplifyInputs H c t n rnd L = some L') :
    ∃ (ys : List Src) (lst : Src) (m : ℤ) (news : List Src), L = ys ++ [lst] ∧ L' = ys ++ news ∧ news.length = n + 1 ∧
      (news.map (·.amount)).sum = lst.amount ∧ decodeScalar lst.mask = some m ∧
      ∀ s ∈ news, s.mask = lst.mask ∧ ∃ e, s.outputs[s.realOutput]? = some e ∧ e.commitment = encPt (m • base + (s.amount : ℤ) • Sig.hBase) := by
  obtain ⟨ys, lst, m, news, e1, e2, e3, e4, e5, e6, -⟩ := inputs_spec hn h
  exact ⟨ys, lst, m, news, e1, e2, e3, e4, e5, e6⟩

/-- C112 is false as documented for `--inputs` with new keys: the copies are checked against the keys of the new wallet before they are rewritten for it,
so unless the new wallet can already spend the last input (here one without additional keys), nothing comes out. -/
theorem C112_false_inputs {H : Bytes → Bytes} {cur dst : Creds} {curT dstT : Table} {a : Args} {w : Rnd} {tx : Tx} {lst : Src} (hn : a.inputs ≠ 0)
    (hl : tx.sources.getLast? = some lst) (ha : lst.addKeys = []) (hc : checkInput H dst dstT lst = none) : rekey H cur curT dst dstT a w tx = none := by
  cases h : rekey H cur curT dst dstT a w tx with
  | none => rfl
  | some tx' =>
    obtain ⟨S1, S2, K, t1, t2, t3, i1, i2, i3, e, h1, -⟩ := rekey_inv h
    rw [if_neg hn] at h1
    obtain ⟨ys, lst', m, news, e1, -, -, -, -, -, a1, e7, e8⟩ := inputs_spec hn h1
    obtain rfl : lst' = lst := by
      rw [e1, List.getLast?_concat] at hl
      exact Option.some.inj hl
    rw [ha, newAdds, if_pos rfl] at e7
    obtain rfl := Option.some.inj e7
    have : ({ lst' with addKeys := [] } : Src) = lst' := by rw [← ha]
    rw [this, hc] at e8
    simp at e8

/-- C112 is false for transactions without change: they make the tool fail. -/
theorem C112_false_no_change {H : Bytes → Bytes} {cur dst : Creds} {curT dstT : Table} {a : Args} {w : Rnd} {tx : Tx} (hc : tx.change = none)
    (hd : tx.dsts ≠ []) : rekey H cur curT dst dstT a w tx = none := by
  cases h : rekey H cur curT dst dstT a w tx with
  | none => rfl
  | some tx' =>
    obtain ⟨S1, S2, K, t1, t2, t3, i1, i2, i3, e, -, -, -, h4, -⟩ := rekey_inv h
    unfold adjustChange at h4
    dsimp only at h4
    rw [hc, if_neg hd] at h4
    simp [changeIdx] at h4

/-- C112, the part about the change that holds: if the change is output `i`, and outputs are removed only when it is the first one, and added only when it
is not the last of several, then the result has an output with the amount of the change to the first address of the new account, and that is the declared
change. -/
theorem C112_change_partial {H : Bytes → Bytes} {cur dst : Creds} {curT dstT : Table} {a : Args} {w : Rnd} {tx tx' : Tx} (hw : Shuffles a w)
    (h : rekey H cur curT dst dstT a w tx = some tx') {i : ℕ} (hi : changeIdx tx.dsts tx.change = some i)
    (hr : ∀ n, a.outs = some n → tx.dsts.length ≤ n ∨ i = 0) (ha : ∀ n, a.outs = some n → n ≤ tx.dsts.length ∨ i + 1 ≠ tx.dsts.length ∨ tx.dsts.length = 1) :
    ∃ K c d, subAddressKeys H dst.view (scalarmultB dst.spend) a.major 0 = some K ∧ tx'.change = some c ∧ d ∈ tx'.dsts ∧ d.amount = c.amount ∧
      d.addr = c.addr ∧ c.addr = ⟨encodePoint K.1, encodePoint K.2⟩ := by
  obtain ⟨S1, S2, K, t1, t2, t3, i1, i2, i3, e, h1, h2, h3, h4, h5, h6, rfl⟩ := rekey_inv h
  obtain ⟨k, rfl⟩ : ∃ k, i1 = some k := by
    obtain ⟨c, d, hc, -⟩ := changeIdx_some hi
    unfold adjustChange at h4
    dsimp only at h4
    rw [hi, hc] at h4
    simp only [Option.map_some, Option.some.injEq, Prod.mk.injEq] at h4
    exact ⟨_, h4.2.symm⟩
  obtain ⟨g1, g2, g3, g4⟩ := adjust_at h4
  obtain rfl := g4 i hi
  have at1 : AtChange { t1 with account := a.major, indices := a.minors } (some k) := g1
  have at2 : AtChange t2 i2 ∧ t2.change.map (·.addr) = t1.change.map (·.addr) := by
    cases ho : a.outs with
    | none => rw [ho] at h5; obtain ⟨rfl, rfl⟩ := h5; exact ⟨at1, rfl⟩
    | some n =>
      rw [ho] at h5
      obtain ⟨t, i, h7, h8⟩ := h5
      dsimp only at g3
      obtain ⟨c1, c2, c3⟩ := reduce_at (hw n ho).1 at1 (by
        dsimp only; rw [g3]; exact (hr n ho).imp id (congrArg some)) h7
      have hlen := (reduce_spec (hw n ho).1 h7).2.1
      dsimp only at hlen c3
      obtain ⟨d1, d2⟩ := amplify_at (hw n ho).2 c1 (by
        by_cases hle : tx.dsts.length ≤ n
        · rw [c3 (by omega), hlen]
          rcases ha n ho with h | h | h
          · left; omega
          · right; left
            intro hc
            have := Option.some.inj hc
            have hk : k < t1.dsts.length := by
              obtain ⟨k', c', d', hk', -, hd', -⟩ := g1
              obtain rfl := Option.some.inj hk'
              exact (List.getElem?_eq_some_iff.mp hd').1
            omega
          · right; right; omega
        · left; omega) h8
      exact ⟨d1, d2.trans c2⟩
  have at3 : AtChange t3 i3 ∧ t3.change.map (·.addr) = t1.change.map (·.addr) := by
    split at h6
    · obtain ⟨c1, c2⟩ := sub_at at2.1 h6
      exact ⟨c1, by rw [c2]; exact at2.2⟩
    · simp only [Option.some.injEq, Prod.mk.injEq] at h6
      obtain ⟨rfl, rfl⟩ := h6
      exact at2
  obtain ⟨⟨k', c, d, -, f1, f2, f3, f4⟩, f5⟩ := at3
  refine ⟨K, c, d, h3, f1, List.mem_of_getElem? f2, f4, f3, ?_⟩
  rw [g2, f1] at f5
  exact Option.some.inj f5

/-! ## A run -/

namespace Demo

def hash : Bytes → Bytes := fun _ => 1 :: List.replicate 31 0
def cur : Creds := ⟨1, 2⟩
def dst : Creds := ⟨1, 4⟩
def curT : Table := [(encodePoint (scalarmultB 2), (0, 0))]
def dstT : Table := [(encodePoint (scalarmultB 4), (0, 0))]

/-- An input of 17 with commitment `5·G + 17·H`. -/
def src : Src := ⟨[⟨0, encodePoint (scalarmultB 3), encodePoint (genC 5 17)⟩], 0, encodePoint (scalarmultB 1), [], 0, 17, true, encodeInt 5, none⟩

/-- Change of 7 and a payment of 9: a fee of 1. -/
def tx : Tx := ⟨[src], [⟨7, ⟨[2], [2]⟩, false⟩, ⟨9, ⟨[1], [1]⟩, false⟩], some ⟨7, ⟨[2], [2]⟩, false⟩, 0, [0], []⟩

def draw : Draws := ⟨1, 1, 0, [], []⟩
def args : Args := { outs := some 3, outsSubs := true }
def rnd : Rnd := ⟨fun _ _ => ([], [], []), fun _ => draw, [2, 0, 1], [2, 0, 1]⟩

/-- The rewritten transaction: amounts of inputs and outputs, which outputs are at sub-addresses, and the declared change. -/
def out (a : Args) (d : Creds) (t : Table) : Option (List ℕ × List (ℕ × Bool) × Option ℕ) :=
  (rekey hash cur curT d t a rnd tx).map fun x => (x.sources.map (·.amount), x.dsts.map (fun d => (d.amount, d.isSub)), x.change.map (·.amount))

end Demo

/-- Three outputs for another wallet, and two inputs for the same wallet: both work; two inputs for the other wallet do not. -/
example : Shuffles Demo.args Demo.rnd ∧ Demo.out Demo.args Demo.dst Demo.dstT = some ([17], [(5, true), (7, false), (4, true)], some 7) := by
  refine ⟨?_, by decide +kernel⟩
  intro n hn
  obtain rfl : n = 3 := (Option.some.inj hn).symm
  exact ⟨by decide, by decide⟩
example : Demo.out { inputs := 1 } Demo.cur Demo.curT = some ([8, 9], [(7, false), (9, false)], some 7) := by decide +kernel
example : Demo.out { inputs := 1 } Demo.dst Demo.dstT = none := by decide +kernel

/-- C112 is false for sub-addresses of the first account: `--minors 3` (account 0) declares that the inputs are at minor index 3, but they are made for
the main address, (0, 0), the only one in the table: the secret is the hash 1 plus the spend key 4. -/
theorem C112_false_minor : ((rekey Demo.hash Demo.cur Demo.curT Demo.dst Demo.dstT { minors := [3] } Demo.rnd Demo.tx).map fun x =>
    (x.account, x.indices, x.sources.map fun s => (checkInput Demo.hash Demo.dst Demo.dstT s).map fun r => r.1)) =
      some (0, [3], [some 5]) := by decide +kernel

/-! ## Where the change gets lost -/

/-- Three outputs, the second of them the change. -/
def three : Tx := ⟨[], [⟨10, ⟨[1], [1]⟩, false⟩, ⟨7, ⟨[2], [2]⟩, false⟩, ⟨5, ⟨[3], [3]⟩, false⟩], some ⟨7, ⟨[2], [2]⟩, false⟩, 0, [0], []⟩

/-- C112 is false in general: when outputs are removed, the change moves to the front but its index is not updated.  For three outputs with the change in
the middle and `--outs 2` (no reordering by the shuffle) the reported index is that of a payment. -/
theorem C112_false_index : changeIdx three.dsts three.change = some 1 ∧
    ∃ tx', reduceOuts 2 [0, 1] three (some 1) = some (tx', some 1) ∧ tx'.change = some ⟨7, ⟨[2], [2]⟩, false⟩ ∧
      tx'.dsts = [⟨7, ⟨[2], [2]⟩, false⟩, ⟨15, ⟨[1], [1]⟩, false⟩] :=
  ⟨by decide, ⟨_, rfl, rfl, rfl⟩⟩

/-- C112 is false in general: with `--outs-subs` the change, which is not at the reported index, is then marked as a payment to a sub-address, and the
payment at that index is not. -/
theorem C112_false_subs {H : Bytes → Bytes} {cur dst : Creds} {curT dstT : Table} {major : ℕ} {tx' : Tx} {j : Option ℕ}
    (h : ((reduceOuts 2 [0, 1] three (some 1)).bind fun s => subOuts H cur curT dst dstT major s.1 s.2) = some (tx', j)) :
    (∃ d, tx'.dsts[0]? = some d ∧ d.amount = 7 ∧ d.isSub = true) ∧ tx'.dsts[1]? = some ⟨15, ⟨[1], [1]⟩, false⟩ := by
  obtain ⟨tx1, h1, -, h3⟩ := C112_false_index.2
  rw [h1, Option.bind_some] at h
  obtain ⟨b1, -, -, -, -, b6⟩ := sub_spec h
  have hf : findChangeIdx tx1 (some 1) = some 1 := rfl
  dsimp only at b1 b6
  rw [hf] at b6
  obtain ⟨d0, e0, f0⟩ := b6 0 ⟨7, ⟨[2], [2]⟩, false⟩ (by rw [h3]; rfl)
  obtain ⟨d1, e1, f1⟩ := b6 1 ⟨15, ⟨[1], [1]⟩, false⟩ (by rw [h3]; rfl)
  rw [if_neg (by decide)] at f0
  rw [if_pos rfl] at f1
  refine ⟨⟨d0, e0, ?_, f0⟩, by rw [e1, f1]⟩
  have := congrArg (·[0]?) b1
  simp only [List.getElem?_map, e0, h3] at this
  simpa using this

/-- C112 is false in general: the change fails to be found at all, and the tool fails, if its index is not below the new number of outputs. -/
theorem C112_false_fails : reduceOuts 1 [0] three (some 1) = none := by decide

/-- C112 is false in general: when the change is the last of several outputs and outputs are added, the declared change gets the amount of the first
output: here 10, while the change was split into two outputs of 3 and 4. -/
theorem C112_false_amount : ∃ tx', amplifyOuts 3 [0, 1, 2] ⟨[], [⟨10, ⟨[1], [1]⟩, false⟩, ⟨7, ⟨[2], [2]⟩, false⟩], some ⟨7, ⟨[2], [2]⟩, false⟩, 0, [0], []⟩ (some 1) =
      some (tx', some 1) ∧ tx'.change = some ⟨10, ⟨[2], [2]⟩, false⟩ ∧
      tx'.dsts = [⟨10, ⟨[1], [1]⟩, false⟩, ⟨3, ⟨[2], [2]⟩, false⟩, ⟨4, ⟨[2], [2]⟩, false⟩] :=
  ⟨_, rfl, rfl, rfl⟩

end Verif.TestGen

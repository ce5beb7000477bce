import Verif.Lemmas.TxBuilder
import Verif.Lemmas.RealDemo
import Verif.Props.EndToEnd

/-! C86: unsigned transactions made by the builder. -/

namespace Verif.Builder
open Verif Ed Edwards Key Agent Real
open Verif.Signer (Src RingMember)

/-- C86. Every input that the builder generates for an address of the wallet can be spent by the wallet, in every request whose table has that address;
generating it never fails. (The spend key of the sub-address must not be zero.) -/
theorem C86_input {o : Outside} (ho : o.Ok) {i j : ℕ} (hi : i < 2 ^ 32) (hj : j < 2 ^ 32) {w : Draws} (hw : w.Ok) {value : ℕ} (hval : value < 2 ^ 64)
    (additionals : Bool)
    (hns : ∀ sec, ¬ (i = 0 ∧ j = 0) → subSecret o.hash (Bp.num o.view) i j = some sec → (sec : Fl) + o.spend ≠ 0) :
    ∃ src, genInput o.hash (creds o) w value i j additionals = some src ∧ src.amount = value ∧
      ∀ d : TxData, d.account = i → j ∈ d.indices → (∀ m ∈ d.indices, m < 2 ^ 32) → Spendable o (tableOf (env o) d) src := by
  obtain ⟨src, h1, h2, -⟩ := genInput_ok ho.view ho.spend hi hj hw hval additionals hns
  exact ⟨src, h1, h2.amount, fun d hd hm hall => h2.spendable ho.view ho.spend hw hd hi hm hall⟩

/-- C86. With change, what comes in goes out; change is refused exactly if there is not enough. -/
theorem C86_balance {H : Bytes → Bytes} {c : Creds} {s : State} (ha : s.account < 2 ^ 32) :
    ((s.outputs.map (·.amount)).sum + s.fee ≤ (s.sources.map (·.amount)).sum ↔ s.addChange H c none ≠ none) ∧
    ∀ s', s.addChange H c none = some s' →
      s'.sources = s.sources ∧ (∃ d, s'.outputs = s.outputs ++ [d] ∧ s'.changeIdx = some s.outputs.length ∧
        ∃ K, subAddressKeys H c.view (scalarmultB c.spend) s.account 0 = some K ∧ d.addr = ⟨encodePoint K.1, encodePoint K.2⟩) ∧
      (s'.sources.map (·.amount)).sum = (s'.outputs.map (·.amount)).sum + s'.fee := by
  obtain ⟨K, hK⟩ : ∃ K, subAddressKeys H c.view (scalarmultB c.spend) s.account 0 = some K := by
    unfold subAddressKeys
    split
    · exact ⟨_, rfl⟩
    · rename_i hz
      rw [subSecret, if_neg hz, subSecretCore, if_pos ⟨ha, by norm_num⟩]; exact ⟨_, rfl⟩
  have hg : ∀ v, genOutput H c v s.account 0 false = some ⟨v, ⟨encodePoint K.1, encodePoint K.2⟩, !decide (s.account = 0 ∧ 0 = 0)⟩ := by
    intro v
    rw [genOutput, Bool.and_false, Bool.not_false, guard_true, hK, Option.map_some]
  unfold State.addChange
  dsimp only
  by_cases hlt : (((s.sources.map (·.amount)).sum : ℕ) : ℤ) - (((s.outputs.map (·.amount)).sum : ℕ) : ℤ) - (s.fee : ℤ) < 0
  · rw [if_pos hlt]
    refine ⟨⟨fun h => ?_, fun h => absurd rfl h⟩, fun s' h => by cases h⟩
    omega
  · rw [if_neg hlt, State.addOutput, hg]
    refine ⟨⟨fun _ => by simp, fun _ => by omega⟩, fun s' h => ?_⟩
    simp only [Option.map_some, Option.some.injEq] at h
    subst h
    refine ⟨rfl, ⟨_, rfl, ?_, K, hK, rfl⟩, ?_⟩
    · simp
    · dsimp only
      rw [List.map_append, List.sum_append, List.map_singleton, List.sum_singleton]
      dsimp only
      omega

theorem paid_small {o : Outside} {outs : List Out} (hp : ∀ p ∈ outs, p.Ok) {ds : List Signer.Dst} (h : List.Forall₂ (Paid o) outs ds) :
    ∀ d ∈ ds, d.amount < 2 ^ 64 := fun d hd => by
  obtain ⟨p, hp', h1⟩ := forall_mem h d hd
  rw [h1.amount]; exact (hp p hp').value

/-- C86. A transaction that is built from inputs at the sub-address `(account, account)` — for account 0, the wallet's main address — pays somebody and
is different from a double spend, is signed by the wallet, and the network accepts it with the fee that was asked for. (For other sub-addresses see
`C86_false_subaddress`.) -/
theorem C86_signed_partial {o : Outside} (ho : o.Ok) {cfg : Agent.Config} (hver : 1 ≤ cfg.clientVersion) (hhf : 9 ≤ cfg.hf) {account fee : ℕ} {ins : List In}
    {outs : List Out} (hs : Sensible o account fee ins outs) (hsub : ∀ i ∈ ins, i.major.getD account = account ∧ i.minor = account)
    (hpay : ∃ p ∈ outs, p.value ≠ 0 ∧ p.addr o.hash ≠ address o account 0) :
    ∃ d, transaction o.hash (creds o) account fee ins outs = some d ∧
      (Distinct o d → ∀ (rnd : Nat → Signer.Rand Fl) (hrnd : Nat → Bytes) (c : Conn Fl Sub), Agrees rnd c.n →
        ∃ tx c' rings, signTransaction (env o) cfg Wire.codec rnd hrnd d c = some (tx, c') ∧ rings.Perm (d.sources.map (·.outputs)) ∧
          Accepted o.hash tx rings ∧ tx.rv.txnFee = fee) := by
  obtain ⟨srcs, ds, change, h1, h2, h3, h4⟩ := transaction_ok ho.view ho.spend hs.small32 hs.inputs hs.outputs hs.enough hs.small
  refine ⟨_, h1, ?_⟩
  have hidx : (ins.map fun i => i.major.getD account).eraseDups = [account] := by
    refine eraseDups_same (by simpa using hs.some) fun x hx => ?_
    obtain ⟨i, hi, rfl⟩ := List.mem_map.1 hx
    exact (hsub i hi).1
  rw [hidx]
  intro hdist rnd hrnd c hag
  have hlen := List.Forall₂.length_eq h2
  have hlen' := List.Forall₂.length_eq h3
  have hch : change.amount = (ins.map (·.value)).sum - (outs.map (·.value)).sum - fee := h4.amount
  have hsm : change.amount < 2 ^ 64 := by rw [hch]; have := hs.small; omega
  have hprim : (env o).primaryAddr account = change.addr := by
    have := h4.addr
    rw [Out.addr] at this
    obtain ⟨K, hK1, hK2⟩ := Option.map_eq_some_iff.1 this
    show Real.primaryAddr o account = _
    rw [Real.primaryAddr]
    have hK1' : subAddressKeys o.hash (Bp.num o.view) (scalarmultB (Bp.num o.spend)) account 0 = some (K.1, K.2) := hK1
    rw [hK1']
    exact hK2
  have hreq : Request o cfg { sources := srcs, dsts := ds ++ [change], change := change, paymentId := [], unlockTime := 0, account := account
                              indices := [account], useBp := true } :=
    { version := hver
      hf := hhf
      useBp := rfl
      sources := by
        intro h0
        have h0' : srcs = [] := h0
        rw [h0', List.length_nil, List.length_eq_zero_iff] at hlen
        exact hs.some hlen
      dsts := by simp
      fewSources := by show srcs.length ≤ _; rw [← hlen]; exact hs.few.1
      fewDsts := by
        show (ds ++ [change]).length ≤ _
        rw [List.length_append, List.length_singleton, ← hlen']; exact hs.few.2
      enough := by
        show ((ds ++ [change]).map (·.amount)).sum ≤ (srcs.map (·.amount)).sum
        rw [List.map_append, List.sum_append, List.map_singleton, List.sum_singleton, sum_built h2, sum_paid h3, hch]
        have := hs.enough
        omega
      amounts := by
        intro d hd
        rcases List.mem_append.1 (show d ∈ ds ++ [change] from hd) with hd | hd
        · exact paid_small hs.outputs h3 d hd
        · rw [List.mem_singleton.1 hd]; exact hsm
      mine := by
        intro src hsrc
        obtain ⟨i, hi, hb, -⟩ := forall_mem h2 src hsrc
        have hi' := hsub i hi
        rw [hi'.1, hi'.2] at hb
        exact hb.spendable ho.view ho.spend (hs.inputs i hi).draws rfl hs.small32 (by simp) (by simpa using hs.small32)
      distinct := hdist
      addrs := by
        intro d hd
        have key : ∀ p : Out, Paid o p d →
            (∃ p, ptDec d.addr.spend = some p) ∧ (∃ p, ptDec d.addr.view = some p) ∧ d.addr.view ≠ Signer.nullKey := by
          intro p hp
          obtain ⟨⟨q, hq⟩, ⟨q', hq'⟩⟩ := hp.points
          exact ⟨⟨q, by rw [hq, ptDec_enc]⟩, ⟨q', by rw [hq', ptDec_enc]⟩, by rw [hq']; exact enc_ne_null q'⟩
        rcases List.mem_append.1 (show d ∈ ds ++ [change] from hd) with hd | hd
        · obtain ⟨p, -, hp⟩ := forall_mem h3 d hd
          exact key p hp
        · rw [List.mem_singleton.1 hd] at key ⊢
          exact key _ h4
      change := .inr ⟨⟨change, by simp, rfl⟩, hprim⟩
      paymentId := by
        obtain ⟨p, hp, hp0, hpa⟩ := hpay
        obtain ⟨d, hd, hpd⟩ := forall_mem' h3 p hp
        refine .inr (.inl ⟨rfl, d, List.mem_append_left _ hd, by rw [hpd.amount]; exact hp0, fun he => hpa ?_⟩)
        rw [hpd.addr, he]
        have := h4.addr
        rw [Out.addr] at this
        exact this.symm }
  obtain ⟨tx, c', rings, g1, g2, g3⟩ := C75_honest_is_accepted ho hreq rnd hrnd c hag
  obtain ⟨-, g4, -⟩ := C75_obtained_is_accepted_partial ho
    ⟨hreq.version, hreq.hf, hreq.fewSources, hreq.fewDsts, hreq.amounts⟩ hdist g1
  refine ⟨tx, c', rings, g1, g2, g3, ?_⟩
  have g4' : tx.rv.txnFee + ((ds ++ [change]).map (·.amount)).sum = (srcs.map (·.amount)).sum := g4
  rw [List.map_append, List.sum_append, List.map_singleton, List.sum_singleton, sum_built h2, sum_paid h3, hch] at g4'
  have := hs.enough
  omega

/-- The table of a request for account 0 with index 0 holds the main address only. -/
theorem table_main {o : Outside} {d : TxData} (ha : d.account = 0) (hi : d.indices = [0]) :
    tableOf (env o) d = [(encodePoint (scalarmultB (Bp.num o.spend)), (0, 0))] := by
  unfold tableOf
  rw [ha, hi, if_neg (by simp)]
  rfl

/-- An output that a table with one entry finds was sent to that entry. -/
theorem found_main {o : Outside} {k : Bytes} {v : ℕ × ℕ} {R D : Sub} {n : ℕ} {x : Fl} {ki out : Sub}
    (hout : out = shared (env o) o.view R n • baseS + D) (h : Real.keyImage o [(k, v)] out R [] n = some (x, ki)) : k = Bp.enc D := by
  rw [Real.keyImage] at h
  obtain ⟨r, hr, -⟩ := Option.bind_eq_some_iff.1 h
  rw [List.map_nil] at hr
  unfold kiHelper at hr
  split at hr
  · cases hr
  rename_i recv hrecv
  have hd : derivations (Bp.num o.view) [] = some [] := rfl
  rw [hd] at hr
  dsimp only at hr
  have hrep : Rep recv ((8 : ℤ) • Bp.num o.view • (R : Point)) := by
    have hsc : scCheck (Bp.num o.view) = 0 := by
      by_contra hc
      rw [keyDerivation, if_pos hc] at hrecv
      cases hrecv
    obtain ⟨s1, s2⟩ := scCheck_zero hsc
    obtain ⟨recv', q1, q2⟩ := keyDerivation_rep (Bp.rep_sub_canon R) s1 s2
    rw [q1, Option.some.injEq] at hrecv
    rw [← hrecv]; exact q2
  have hk : ∃ K, deriveSubPublic o.hash (canon (out : Point)) recv n = some K ∧ Rep K (D : Point) := by
    refine ⟨_, by rw [deriveSubPublic, if_pos (rep_on (Bp.rep_sub_canon out)), toScalar_rep o.hash hrep, Option.map_some], ?_⟩
    have : (D : Point) = (out : Point) - sh o.hash ((8 : ℤ) • Bp.num o.view • (R : Point)) n • base := by
      rw [hout, AddSubgroup.coe_add, shared_eq, Bp.coe_smul]
      exact (add_sub_cancel_left _ _).symm
    rw [this]
    exact rep_sub (Bp.rep_sub_canon out) (rep_B _)
  obtain ⟨K, hK1, hK2⟩ := hk
  rw [isOutToAcc, hK1] at hr
  dsimp only at hr
  rw [Bp.encode_rep hK2] at hr
  by_contra hne
  have hget : Table.get [(k, v)] (Bp.enc D) = none := by
    rw [Table.get, List.find?_cons, show ((k, v).1 == Bp.enc D) = false from beq_eq_false_iff_ne.2 hne]; rfl
  rw [hget] at hr
  simp at hr

/-- C86. The property is false for inputs at other sub-addresses: the builder puts the first indices of the sub-addresses where the second ones belong.
A transaction of account 0 with an input at `(0, minor)`, `minor ≠ 0` (received without additional keys), is built but the wallet never signs it,
whatever happens on the device. -/
theorem C86_false_subaddress {o : Outside} (ho : o.Ok) {cfg : Agent.Config} (hver : 1 ≤ cfg.clientVersion) (hhf : 9 ≤ cfg.hf) {fee : ℕ} {ins : List In}
    {outs : List Out} (hs : Sensible o 0 fee ins outs) (hmaj : ∀ i ∈ ins, i.major.getD 0 = 0)
    (hsub : ∃ i ∈ ins, i.minor ≠ 0 ∧ i.additionals = false) :
    ∃ d, transaction o.hash (creds o) 0 fee ins outs = some d ∧
      ∀ (rnd : Nat → Signer.Rand Fl) (hrnd : Nat → Bytes) (c : Conn Fl Sub), signTransaction (env o) cfg Wire.codec rnd hrnd d c = none := by
  obtain ⟨srcs, ds, change, h1, h2, h3, h4⟩ := transaction_ok ho.view ho.spend hs.small32 hs.inputs hs.outputs hs.enough hs.small
  refine ⟨_, h1, ?_⟩
  have hidx : (ins.map fun i => i.major.getD 0).eraseDups = [0] := by
    refine eraseDups_same (by simpa using hs.some) fun x hx => ?_
    obtain ⟨i, hi, rfl⟩ := List.mem_map.1 hx
    exact hmaj i hi
  rw [hidx]
  intro rnd hrnd c
  have hlen := List.Forall₂.length_eq h2
  have hlen' := List.Forall₂.length_eq h3
  have hch : change.amount = (ins.map (·.value)).sum - (outs.map (·.value)).sum - fee := h4.amount
  have hsm : change.amount < 2 ^ 64 := by rw [hch]; have := hs.small; omega
  have hfit : Fits cfg { sources := srcs, dsts := ds ++ [change], change := change, paymentId := [], unlockTime := 0, account := 0
                         indices := [0], useBp := true } :=
    { version := hver
      hf := hhf
      fewSources := by show srcs.length ≤ _; rw [← hlen]; exact hs.few.1
      fewDsts := by
        show (ds ++ [change]).length ≤ _
        rw [List.length_append, List.length_singleton, ← hlen']; exact hs.few.2
      amounts := by
        intro d hd
        rcases List.mem_append.1 (show d ∈ ds ++ [change] from hd) with hd | hd
        · exact paid_small hs.outputs h3 d hd
        · rw [List.mem_singleton.1 hd]; exact hsm }
  by_contra hne
  obtain ⟨⟨tx, c'⟩, hrun⟩ := Option.ne_none_iff_exists'.1 hne
  obtain ⟨-, -, -, inps, _, _, _, _, _, hok⟩ := C74_result_is_right_partial (lawful ho) hfit hrun
  obtain ⟨i, hi, hmin, hadd⟩ := hsub
  obtain ⟨src, hsrc, hb, hnil⟩ := forall_mem' h2 i hi
  have hmem : src ∈ inps.map (·.src) := (hok.sources.mem_iff).2 hsrc
  obtain ⟨sp, hsp, hspsrc⟩ := List.mem_map.1 hmem
  have hown := hok.mine sp hsp
  rw [hspsrc, table_main rfl rfl] at hown
  obtain ⟨real, tk, ak, q1, q2, -, q4, q5, q6⟩ := hown.real
  obtain ⟨D, R, txKey, addKeys, P, m, b1, b2, -, -, b5, b6, b7, -, b8, b9⟩ := hb.real
  have hak : addKeys = [] := by
    rw [hnil hadd] at b9
    exact List.map_eq_nil_iff.1 b9.symm
  have hR := b5 hak
  rw [b6, Option.some.injEq] at q1
  subst q1
  rw [env_ptDec, b7, ptDec_enc, Option.some.injEq] at q2
  rw [env_ptDec, b8, ptDec_enc, Option.some.injEq, ← hR] at q4
  rw [env_ptDec, b9, hak] at q5
  have q5' : ([] : List Sub) = ak := by simpa using q5
  rw [← q4, ← q5', hb.index, ← q2] at q6
  have hkey := found_main rfl q6
  -- so the spend key of the sub-address would be the main one
  have rb : Rep (scalarmultB (Bp.num o.spend)) ((o.spend • baseS : Sub) : Point) := by rw [coe_smul']; exact rep_B _
  rw [Bp.encode_rep rb] at hkey
  have hD := Bp.enc_injective hkey
  obtain ⟨sec, K₁, K₂, s, k1, -, k3, k4, k5, -⟩ := sub_keys o (hs.inputs i hi).major (hs.inputs i hi).minor
  rw [hmaj i hi] at k1 k3 k4 b1
  rw [k3, Option.some.injEq] at b1
  subst b1
  have hDs : D = s • baseS := Subtype.ext (rep_unique b2 k5)
  rw [if_neg (fun h => hmin h.2)] at k4
  rw [hDs, k4, add_smul] at hD
  have hz : (sec : Fl) • baseS = 0 := by
    have : (0 : Sub) + o.spend • baseS = (sec : Fl) • baseS + o.spend • baseS := by rw [zero_add]; exact hD
    exact (add_right_cancel this).symm
  rw [subSecret, if_neg (fun h => hmin h.2), subSecretCore, if_pos ⟨by norm_num, (hs.inputs i hi).minor⟩, Option.some.injEq] at k1
  have hr : 0 ≤ sec ∧ sec < l := by rw [← k1]; exact hs_range _ _
  have h0 : sec • base = (0 : ℤ) • base := by
    rw [zero_smul]
    have := congrArg Subtype.val hz
    rwa [Bp.coe_smul] at this
  have h0' : sec = 0 := scalar_unique hr ⟨le_refl _, by decide +kernel⟩ h0
  rw [h0'] at k1
  exact ho.hashNonzero _ k1

/-! ## A wallet, inputs and outputs that meet the hypotheses -/

namespace Demo

/-- Random numbers for a ring of two. -/
def draws : Draws := ⟨1, 0, 1, [(1, 1)], 1, [1], [5, 8]⟩

theorem draws_ok : draws.Ok where
  r := by decide +kernel
  mask := by decide +kernel
  ring := by simp [draws]
  index := by simp [draws]
  idxs := rfl
  adds := by simp [draws]

/-- An input of 10 at `(0, minor)`, and 3 for somebody else. -/
def input (minor : ℕ) : In := ⟨draws, 10, none, minor, false⟩
def output : Out := ⟨⟨1, 1⟩, 3, 0, 0⟩

theorem three_ne : (1 : Fl) + 2 ≠ 0 := by
  have : ((3 : ℕ) : Fl) ≠ 0 := by
    rw [Ne, ZMod.natCast_eq_zero_iff]
    decide +kernel
  have h : (1 : Fl) + 2 = ((3 : ℕ) : Fl) := by push_cast; ring
  rw [h]; exact this

theorem hash_one (b : Bytes) : hs Real.Demo.parts.hash b = 1 := by
  show (bitSum (1 :: List.replicate 31 0) 256 : ℤ) % l = 1
  decide +kernel

theorem sensible {minor : ℕ} (hm : minor < 2 ^ 32) : Sensible Real.Demo.parts 0 1 [input minor] [output] where
  small32 := by norm_num
  some := by simp
  inputs := by
    intro i hi
    rw [List.mem_singleton.1 hi]
    refine ⟨draws_ok, by simp [input], by simp [input], hm, fun sec hz hsec => ?_⟩
    rw [subSecret, if_neg hz, subSecretCore, if_pos ⟨by simp [input], hm⟩, Option.some.injEq, hash_one] at hsec
    rw [← hsec, Int.cast_one]
    exact three_ne
  outputs := by
    intro p hp
    rw [List.mem_singleton.1 hp]
    exact ⟨by simp [output], by simp [output], by simp [output], by simp [output]⟩
  few := by simp
  enough := by simp [input, output]
  small := by simp [input, output]

theorem output_addr : output.addr Real.Demo.parts.hash ≠ address Real.Demo.parts 0 0 := by
  rw [Real.Demo.address_own, Out.addr, subAddressKeys_zero (i := output.major) (j := output.minor) ⟨rfl, rfl⟩, Option.map_some]
  intro h
  have h1 := congrArg Signer.Addr.spend (Option.some.inj h)
  have h2 : encodePoint (scalarmultB 1) = Bp.enc ((1 : Fl) • baseS) := by
    have := Bp.encode_rep (Bp.rep_BS 1)
    rwa [Int.cast_one] at this
  have h3 : Bp.enc ((1 : Fl) • baseS) = Bp.enc ((2 : Fl) • baseS) := h2.symm.trans h1
  have h4 := Bp.enc_injective h3
  rw [two_smul, one_smul] at h4
  have h5 : (0 : Sub) = baseS := add_right_cancel ((zero_add baseS).trans h4)
  exact base_ne (congrArg Subtype.val h5).symm

end Demo

/-- An input at the main address and one at `(0, 7)` are generated. -/
example : (∃ src, genInput Real.Demo.parts.hash (creds Real.Demo.parts) Demo.draws 10 0 0 false = some src) ∧
    ∃ src, genInput Real.Demo.parts.hash (creds Real.Demo.parts) Demo.draws 10 0 7 true = some src := by
  have h := fun m (hm : m < 2 ^ 32) => (Demo.sensible hm).inputs (Demo.input m) (by simp)
  obtain ⟨s, h1, -⟩ := C86_input Real.Demo.ok (h 0 (by norm_num)).major (h 0 (by norm_num)).minor Demo.draws_ok (h 0 (by norm_num)).value false
    (h 0 (by norm_num)).key
  obtain ⟨s', h2, -⟩ := C86_input Real.Demo.ok (h 7 (by norm_num)).major (h 7 (by norm_num)).minor Demo.draws_ok (h 7 (by norm_num)).value true
    (h 7 (by norm_num)).key
  exact ⟨⟨s, h1⟩, ⟨s', h2⟩⟩

/-- With nothing to pay and no fee, change can be added; with a fee and no input it cannot. -/
example : State.addChange (fun _ => []) ⟨1, 1⟩ ⟨0, 0, [], [], [], none⟩ none ≠ none ∧ State.addChange (fun _ => []) ⟨1, 1⟩ ⟨0, 1, [], [], [], none⟩ none = none := by
  refine ⟨((C86_balance (s := ⟨0, 0, [], [], [], none⟩) (by simp)).1).1 (by simp), ?_⟩
  by_contra h
  have := ((C86_balance (s := ⟨0, 1, [], [], [], none⟩) (by simp)).1).2 h
  simp at this

/-- A payment of 3 from the main address is signed. -/
example : ∃ d tx c', transaction Real.Demo.parts.hash (creds Real.Demo.parts) 0 1 [Demo.input 0] [Demo.output] = some d ∧
    signTransaction (env Real.Demo.parts) ⟨10, 1⟩ Wire.codec Real.Demo.draws (fun _ => []) d ⟨{}, 0⟩ = some (tx, c') ∧ tx.rv.txnFee = 1 := by
  obtain ⟨d, h1, h2⟩ := C86_signed_partial Real.Demo.ok (cfg := ⟨10, 1⟩) (by norm_num) (by norm_num) (Demo.sensible (minor := 0) (by norm_num))
    (by intro i hi; rw [List.mem_singleton.1 hi]; exact ⟨rfl, rfl⟩) ⟨Demo.output, by simp, by simp [Demo.output], Demo.output_addr⟩
  obtain ⟨srcs, ds, change, g1, g2, -, -⟩ := transaction_ok Real.Demo.ok.view Real.Demo.ok.spend (Demo.sensible (minor := 0) (by norm_num)).small32
    (Demo.sensible (minor := 0) (by norm_num)).inputs (Demo.sensible (minor := 0) (by norm_num)).outputs
    (Demo.sensible (minor := 0) (by norm_num)).enough (Demo.sensible (minor := 0) (by norm_num)).small
  have hd : Distinct Real.Demo.parts d := by
    rw [g1, Option.some.injEq] at h1
    rw [← h1, Distinct]
    have := List.Forall₂.length_eq g2
    match srcs, this with
    | [s], _ => exact List.pairwise_singleton _ _
  obtain ⟨tx, c', _, h3, -, -, h4⟩ := h2 hd Real.Demo.draws (fun _ => []) ⟨{}, 0⟩ Real.Demo.agrees
  exact ⟨d, tx, c', h1, h3, h4⟩

/-- The same payment from `(0, 7)` is never signed. -/
example : ∃ d, transaction Real.Demo.parts.hash (creds Real.Demo.parts) 0 1 [Demo.input 7] [Demo.output] = some d ∧ ∀ rnd hrnd c,
    signTransaction (env Real.Demo.parts) ⟨10, 1⟩ Wire.codec rnd hrnd d c = none :=
  C86_false_subaddress Real.Demo.ok (by norm_num) (by norm_num) (Demo.sensible (by norm_num)) (by intro i hi; rw [List.mem_singleton.1 hi]; rfl)
    ⟨Demo.input 7, by simp, by simp [Demo.input], rfl⟩

end Verif.Builder

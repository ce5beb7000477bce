import Verif.Model.Creds
import Verif.Props.Addr
import Verif.Props.CurveCodec
import Verif.Props.SubDistinct
import Verif.Lemmas.HdHex

/-!
C119: the credentials and addresses that the command line tools print belong together.
-/

namespace Verif.Creds
open Verif Ed Addr
open Verif.Key (scalar_unique hs subText Coincide Collision rep_B hs_range)

/-- The text is an address without payment id of the network, a sub-address or not, with these public spend and view keys. -/
def Names (H : Bytes → Bytes) (t : Bytes) (net : ℕ) (sub : Bool) (spend view : Point) : Prop :=
  ∃ info, decodeAddr H t = some info ∧ info.addr = t ∧ info.parts = ⟨encPt spend, encPt view, net, sub, false, none⟩

/-- The number that a hexadecimal text of a private key stands for. -/
def readKey (t : Bytes) : Option ℤ := (Hd.unhexText t).bind decodeScalar

theorem readKey_hex {v : ℤ} (h : 0 ≤ v ∧ v < l) : readKey (hexText (encodeInt v)) = some v := by
  rw [readKey, hexText, Hd.unhexText_text, Option.bind_some, C35_scalar_roundtrip v h.1 h.2]

theorem names_unique {H : Bytes → Bytes} {t : Bytes} {net net' : ℕ} {sub sub' : Bool} {s v s' v' : Point} (h : Names H t net sub s v)
    (h' : Names H t net' sub' s' v') : net = net' ∧ sub = sub' ∧ s = s' ∧ v = v' := by
  obtain ⟨i, h1, -, h2⟩ := h
  obtain ⟨j, g1, -, g2⟩ := h'
  obtain rfl : i = j := Option.some.inj (h1.symm.trans g1)
  rw [h2] at g2
  injection g2 with e1 e2 e3 e4
  exact ⟨e3, e4, encPt_injective e1, encPt_injective e2⟩

theorem address_names {H : Bytes → Bytes} (hH : ∀ x, 4 ≤ (H x).length) {S V : Ext} {s v : Point} (hS : Rep S s) (hV : Rep V v) {net : ℕ} (hn : net < 3)
    (sub : Bool) : ∃ ver, netVersion (some net) sub false = some ver ∧ Names H (encodeAddr H ver (encodePoint S) (encodePoint V) none) net sub s v := by
  obtain ⟨t, info, h1, h2, h3, h4⟩ := C25_roundtrip H hH (encPt s) (encPt v) (encPt_length _) (encPt_length _) net hn sub none (by simp) (by simp)
  unfold publicAddrEncode at h1
  rw [if_neg (by simp)] at h1
  cases hv : netVersion (some net) sub false with
  | none =>
    simp only [Option.isSome_none, hv, Option.map_none] at h1
    cases h1
  | some ver =>
    refine ⟨ver, rfl, info, ?_⟩
    simp only [Option.isSome_none, hv, Option.map_some, Option.some.injEq] at h1
    rw [encodePoint_rep hS, encodePoint_rep hV, h1]
    exact ⟨h2, h4, by simpa using h3⟩

theorem newWallet_ok {H : Bytes → Bytes} (hH : ∀ x, 4 ≤ (H x).length) (view spend : ℤ) {net : ℕ} (hn : net < 3) :
    ∃ w, newWallet H view spend net = some w ∧ w.view = view ∧ w.spend = spend ∧ Rep w.viewPub (view • base) ∧ Rep w.spendPub (spend • base) ∧
      w.net = net ∧ Names H w.address net false (spend • base) (view • base) := by
  have hS := rep_B spend
  have hV := rep_B view
  unfold newWallet
  generalize scalarmultB view = V at hV ⊢
  generalize scalarmultB spend = S at hS ⊢
  obtain ⟨ver, h1, h2⟩ := address_names hH hS hV hn false
  dsimp only
  rw [h1, Option.map_some]
  exact ⟨_, rfl, rfl, rfl, hV, hS, rfl, h2⟩

theorem network_lt (t s : Bool) : network t s < 3 := by cases t <;> cases s <;> decide

theorem mod_l (n : ℕ) : 0 ≤ (n : ℤ) % l ∧ (n : ℤ) % l < l :=
  ⟨Int.emod_nonneg _ (by decide +kernel), Int.emod_lt_of_pos _ (by decide +kernel)⟩

/-- C119: the generator always prints an address of the network asked for (with both flags, of the test net) and two private keys; read back, the keys
are those of the two public keys in the address, and the wallet made from them has this address. -/
theorem C119_generated (H : Bytes → Bytes) (hH : ∀ x, 4 ≤ (H x).length) (testnet stagenet : Bool) (rv rs : ℕ) :
    ∃ addr tv ts view spend, generate H testnet stagenet rv rs = some (addr, tv, ts) ∧ readKey tv = some view ∧ readKey ts = some spend ∧
      Names H addr (if testnet then 1 else if stagenet then 2 else 0) false (spend • base) (view • base) ∧
      (newWallet H view spend (if testnet then 1 else if stagenet then 2 else 0)).map Wallet.address = some addr := by
  obtain ⟨w, h1, -, -, -, -, -, h2⟩ := newWallet_ok hH ((rv : ℤ) % l) ((rs : ℤ) % l) (network_lt testnet stagenet)
  refine ⟨w.address, hexText (encodeInt ((rv : ℤ) % l)), hexText (encodeInt ((rs : ℤ) % l)), (rv : ℤ) % l, (rs : ℤ) % l, ?_, readKey_hex (mod_l rv),
    readKey_hex (mod_l rs), h2, ?_⟩
  · unfold generate
    dsimp only
    rw [h1]
    exact Eq.refl _
  · have : network testnet stagenet = if testnet then 1 else if stagenet then 2 else 0 := rfl
    rw [← this, h1]
    exact Eq.refl _

/-- C119: two runs that print the same address print the same private keys, and were for the same network. -/
theorem C119_same_address (H : Bytes → Bytes) (hH : ∀ x, 4 ≤ (H x).length) {t s t' s' : Bool} {rv rs rv' rs' : ℕ} {addr tv ts tv' ts' : Bytes}
    (h : generate H t s rv rs = some (addr, tv, ts)) (h' : generate H t' s' rv' rs' = some (addr, tv', ts')) :
    tv = tv' ∧ ts = ts' ∧ network t s = network t' s' := by
  obtain ⟨w, h1, -, -, -, -, -, h2⟩ := newWallet_ok hH ((rv : ℤ) % l) ((rs : ℤ) % l) (network_lt t s)
  obtain ⟨w', g1, -, -, -, -, -, g2⟩ := newWallet_ok hH ((rv' : ℤ) % l) ((rs' : ℤ) % l) (network_lt t' s')
  unfold generate at h h'
  dsimp only at h h'
  rw [h1, Option.map_some, Option.some.injEq, Prod.mk.injEq, Prod.mk.injEq] at h
  rw [g1, Option.map_some, Option.some.injEq, Prod.mk.injEq, Prod.mk.injEq] at h'
  obtain ⟨a1, a2, a3⟩ := h
  obtain ⟨b1, b2, b3⟩ := h'
  rw [a1] at h2
  rw [b1] at g2
  obtain ⟨e1, -, e2, e3⟩ := names_unique h2 g2
  rw [← a2, ← b2, ← a3, ← b3, scalar_unique (mod_l rv) (mod_l rv') e3, scalar_unique (mod_l rs) (mod_l rs') e2]
  exact ⟨rfl, rfl, e1⟩

theorem mem_indices {a b : ℕ} {i : ℕ × ℕ} : i ∈ indices a b ↔ i.1 < a ∧ i.2 < b ∧ i ≠ (0, 0) := by
  obtain ⟨m, n⟩ := i
  simp only [indices, List.mem_flatMap, List.mem_map, List.mem_filter, List.mem_range, Prod.mk.injEq, Bool.not_eq_true', Bool.and_eq_false_iff, beq_eq_false_iff_ne]
  constructor
  · rintro ⟨M, hM, N, ⟨hN, h⟩, rfl, rfl⟩
    exact ⟨hM, hN, fun e => by simp_all⟩
  · rintro ⟨h1, h2, h3⟩
    exact ⟨m, h1, n, ⟨h2, by by_cases hm : m = 0 <;> simp_all⟩, rfl, rfl⟩

theorem nodup_indices (a b : ℕ) : (indices a b).Nodup := by
  unfold indices
  rw [List.nodup_flatMap]
  refine ⟨fun m _ => (List.nodup_range.filter _).map (fun x y h => (Prod.mk.inj h).2), ?_⟩
  refine List.nodup_range.imp ?_
  intro x y hxy z hz hz'
  obtain ⟨_, -, rfl⟩ := List.mem_map.mp hz
  obtain ⟨_, -, e⟩ := List.mem_map.mp hz'
  exact hxy (Prod.mk.inj e).1.symm

theorem subLine_ok {H : Bytes → Bytes} (hH : ∀ x, 4 ≤ (H x).length) {a : ℤ} (ha : 0 ≤ a) {S : Ext} {s : Point} (hS : Rep S s) {net : ℕ} (hn : net < 3) {i j : ℕ}
    (hi : i < 2 ^ 32) (hj : j < 2 ^ 32) (h0 : ¬(i = 0 ∧ j = 0)) :
    ∃ t, subLine H a S net i j = some (i, j, t) ∧
      Names H t net true (s + hs H (subText a i j) • base) (a • (s + hs H (subText a i j) • base)) := by
  have hk : Key.subAddressKeys H a S i j =
      some (add S (scalarmultB (hs H (subText a i j))), Key.smul (add S (scalarmultB (hs H (subText a i j)))) a) := by
    unfold Key.subAddressKeys Key.subSecret Key.subSecretCore
    rw [if_neg h0, if_neg h0, if_pos ⟨hi, hj⟩, Option.map_some]
    rfl
  have hD : Rep (add S (scalarmultB (hs H (subText a i j)))) (s + hs H (subText a i j) • base) := rep_add hS (rep_B _)
  generalize add S (scalarmultB (hs H (subText a i j))) = D at hk hD
  have hC := Key.rep_smul hD ha
  obtain ⟨ver, h1, h2⟩ := address_names hH hD hC hn true
  refine ⟨_, ?_, h2⟩
  rw [subLine, hk, Option.bind_some, h1, Option.map_some]

theorem gen_get {H : Bytes → Bytes} (hH : ∀ x, 4 ≤ (H x).length) {a : ℤ} (ha : 0 ≤ a) {S : Ext} {s : Point} (hS : Rep S s) {net : ℕ} (hn : net < 3) :
    ∀ is : List (ℕ × ℕ), (∀ i ∈ is, i.1 < 2 ^ 32 ∧ i.2 < 2 ^ 32 ∧ i ≠ (0, 0)) →
      ∃ ls, is.mapM (fun i => subLine H a S net i.1 i.2) = some ls ∧ ls.map (fun x => (x.1, x.2.1)) = is ∧
        ∀ x ∈ ls, Names H x.2.2 net true (s + hs H (subText a x.1 x.2.1) • base) (a • (s + hs H (subText a x.1 x.2.1) • base))
  | [], _ => ⟨[], rfl, rfl, by simp⟩
  | (i, j) :: is, h => by
    obtain ⟨h1, h2, h3⟩ := h (i, j) (by simp)
    obtain ⟨t, ht, hN⟩ := subLine_ok hH ha hS hn h1 h2 (fun e => h3 (Prod.ext e.1 e.2))
    obtain ⟨ls, g1, g2, g3⟩ := gen_get hH ha hS hn is fun k hk => h k (by simp [hk])
    refine ⟨(i, j, t) :: ls, ?_, by simp [g2], ?_⟩
    · rw [List.mapM_cons, ht, g1]
      rfl
    · intro x hx
      rcases List.mem_cons.mp hx with rfl | hx
      · exact hN
      · exact g3 x hx

/-- C119: the listing of sub-addresses succeeds and has exactly one line for each account and index below the limits, except the main address; the
text in it is a sub-address of that network, whose public spend key is that of the main spend key plus the hash for these numbers, and whose public view
key is the private view key times it. -/
theorem C119_listing (H : Bytes → Bytes) (hH : ∀ x, 4 ≤ (H x).length) {view : ℤ} (hv : 0 ≤ view) (spend : ℤ) {net : ℕ} (hn : net < 3) {majors minors : ℕ}
    (hM : majors ≤ 2 ^ 32) (hm : minors ≤ 2 ^ 32) :
    ∃ ls, genSubAddress H view (scalarmultB spend) net majors minors = some ls ∧
      (∀ i j, (∃ t, (i, j, t) ∈ ls) ↔ i < majors ∧ j < minors ∧ ¬(i = 0 ∧ j = 0)) ∧ (ls.map fun x => (x.1, x.2.1)).Nodup ∧
      ∀ i j t, (i, j, t) ∈ ls → Names H t net true ((spend + hs H (subText view i j)) • base) (view • (spend + hs H (subText view i j)) • base) := by
  obtain ⟨ls, h1, h2, h3⟩ := gen_get hH hv (rep_B spend) hn (indices majors minors) fun i hi => by
    obtain ⟨g1, g2, g3⟩ := mem_indices.mp hi
    exact ⟨by omega, by omega, g3⟩
  refine ⟨ls, h1, ?_, ?_, ?_⟩
  · intro i j
    have : (∃ t, (i, j, t) ∈ ls) ↔ (i, j) ∈ indices majors minors := by
      rw [← h2, List.mem_map]
      constructor
      · rintro ⟨t, ht⟩
        exact ⟨_, ht, rfl⟩
      · rintro ⟨⟨_, _, t⟩, ht, e⟩
        obtain ⟨rfl, rfl⟩ := Prod.mk.inj e
        exact ⟨t, ht⟩
    rw [this, mem_indices]
    simp
  · rw [h2]
    exact nodup_indices _ _
  · intro i j t ht
    have := h3 _ ht
    dsimp only at this
    rw [add_zsmul]
    exact this

/-- C119: equal texts in two listings of one wallet are on the same network, and stand for the same account and index unless the hash function has a
coincidence at the two named strings. -/
theorem C119_listing_distinct (H : Bytes → Bytes) (hH : ∀ x, 4 ≤ (H x).length) {view : ℤ} (hv : 0 ≤ view ∧ view < l) (spend : ℤ) {net net' : ℕ}
    (hn : net < 3) (hn' : net' < 3) {majors minors majors' minors' : ℕ} (hM : majors ≤ 2 ^ 32) (hm : minors ≤ 2 ^ 32) (hM' : majors' ≤ 2 ^ 32)
    (hm' : minors' ≤ 2 ^ 32) {ls ls' : List (ℕ × ℕ × Bytes)} (h : genSubAddress H view (scalarmultB spend) net majors minors = some ls)
    (h' : genSubAddress H view (scalarmultB spend) net' majors' minors' = some ls') {i j i' j' : ℕ} {t : Bytes} (ht : (i, j, t) ∈ ls)
    (ht' : (i', j', t) ∈ ls') : net = net' ∧ ((i, j) = (i', j') ∨ Collision H (subText view i j) (subText view i' j')) := by
  obtain ⟨L, h1, h2, -, h4⟩ := C119_listing H hH hv.1 spend hn hM hm
  obtain ⟨L', g1, g2, -, g4⟩ := C119_listing H hH hv.1 spend hn' hM' hm'
  obtain rfl : L = ls := Option.some.inj (h1.symm.trans h)
  obtain rfl : L' = ls' := Option.some.inj (g1.symm.trans h')
  obtain ⟨e1, -, e2, -⟩ := names_unique (h4 _ _ _ ht) (g4 _ _ _ ht')
  refine ⟨e1, ?_⟩
  by_cases hne : (i, j) = (i', j')
  · exact Or.inl hne
  · right
    obtain ⟨a1, a2, a3⟩ := (h2 i j).mp ⟨t, ht⟩
    obtain ⟨b1, b2, b3⟩ := (g2 i' j').mp ⟨t, ht'⟩
    rw [add_zsmul, add_zsmul] at e2
    have e3 := scalar_unique (hs_range _ _) (hs_range _ _) (add_left_cancel e2)
    refine ⟨fun e => hne ?_, e3⟩
    obtain ⟨-, f1, f2⟩ := Key.subText_inj hv hv (by omega) (by omega) (by omega) (by omega) e
    rw [f1, f2]

/-- C119: what the seed tool prints belongs to one wallet: the two texts of private keys read back as the keys, the two texts of public keys are theirs,
the three addresses are those of the three networks, and the sub-addresses are of this wallet, for the networks asked for, or for the main net if none is. -/
theorem C119_report (H : Bytes → Bytes) (hH : ∀ x, 4 ≤ (H x).length) {view spend : ℤ} (hv : 0 ≤ view ∧ view < l) (hs' : 0 ≤ spend ∧ spend < l)
    (subs mainnet testnet stagenet : Bool) :
    ∃ r, report H (spend, scalarmultB spend, view, scalarmultB view) subs mainnet testnet stagenet = some r ∧
      readKey r.spendSec = some spend ∧ readKey r.viewSec = some view ∧ Hd.unhexText r.spendPub = some (encPt (spend • base)) ∧
      Hd.unhexText r.viewPub = some (encPt (view • base)) ∧
      (∃ m t s, r.addresses = [m, t, s] ∧ Names H m 0 false (spend • base) (view • base) ∧ Names H t 1 false (spend • base) (view • base) ∧
        Names H s 2 false (spend • base) (view • base)) ∧
      (∀ net, net ∈ r.subs.map Prod.fst ↔
        subs = true ∧ (net = 0 ∧ (mainnet = true ∨ testnet = false ∧ stagenet = false) ∨ net = 1 ∧ testnet = true ∨ net = 2 ∧ stagenet = true)) ∧
      ∀ net ls, (net, ls) ∈ r.subs → genSubAddress H view (scalarmultB spend) net 5 5 = some ls := by
  obtain ⟨w0, a0, -, -, -, -, -, b0⟩ := newWallet_ok hH view spend (net := 0) (by decide)
  obtain ⟨w1, a1, -, -, -, -, -, b1⟩ := newWallet_ok hH view spend (net := 1) (by decide)
  obtain ⟨w2, a2, -, -, -, -, -, b2⟩ := newWallet_ok hH view spend (net := 2) (by decide)
  have key : ∀ ns : List ℕ, (∀ n ∈ ns, n < 3) →
      ∃ R, (ns.mapM fun net => (genSubAddress H view (scalarmultB spend) net 5 5).map fun ls => (net, ls)) = some R ∧ R.map Prod.fst = ns ∧
        ∀ net ls, (net, ls) ∈ R → genSubAddress H view (scalarmultB spend) net 5 5 = some ls := by
    intro ns
    induction ns with
    | nil => exact fun _ => ⟨[], rfl, rfl, by simp⟩
    | cons n ns ih =>
      intro h
      obtain ⟨R, c1, c2, c3⟩ := ih fun k hk => h k (by simp [hk])
      obtain ⟨ls, d1, -⟩ := C119_listing H hH hv.1 spend (h n (by simp)) (majors := 5) (minors := 5) (by norm_num) (by norm_num)
      refine ⟨(n, ls) :: R, ?_, by simp [c2], ?_⟩
      · rw [List.mapM_cons, d1, c1]
        rfl
      · intro net ls' h'
        rcases List.mem_cons.mp h' with e | h'
        · obtain ⟨rfl, rfl⟩ := Prod.mk.inj e
          exact d1
        · exact c3 _ _ h'
  obtain ⟨R, c1, c2, c3⟩ := key (if subs then subNets mainnet testnet stagenet else []) (by
    revert subs mainnet testnet stagenet
    decide)
  refine ⟨⟨hexText (encodeInt spend), hexText (encodeInt view), hexText (encodePoint (scalarmultB spend)), hexText (encodePoint (scalarmultB view)),
    [w0.address, w1.address, w2.address], R⟩, ?_, readKey_hex hs', readKey_hex hv, ?_, ?_, ⟨_, _, _, Eq.refl _, b0, b1, b2⟩, ?_, c3⟩
  · unfold report
    dsimp only
    rw [a0, a1, a2, Option.bind_some, Option.bind_some, Option.bind_some, c1]
    exact Eq.refl _
  · rw [← encodePoint_rep (rep_B spend)]
    exact Hd.unhexText_text _
  · rw [← encodePoint_rep (rep_B view)]
    exact Hd.unhexText_text _
  · intro net
    dsimp only
    rw [c2]
    cases subs <;> cases mainnet <;> cases testnet <;> cases stagenet <;> simp [subNets]

/-! A toy hash: the four runs of the generator, and the lines of a small listing. -/

/-- A hash that depends on the first byte and the one with the minor number. -/
def demoH (b : Bytes) : Bytes := (b.getD 0 0 + b.getD 44 0 + 1) :: List.replicate 31 0

/-- The network and the keys that are read from what the generator prints. -/
def demoRun (t s : Bool) (rv rs : ℕ) : Option (ℕ × ℤ × ℤ × Bool) :=
  (generate demoH t s rv rs).bind fun p => (decodeAddr demoH p.1).bind fun i => (readKey p.2.1).bind fun v => (readKey p.2.2).map fun k =>
    (i.net, v, k, i.spend = encodePoint (scalarmultB k) && i.view = encodePoint (scalarmultB v))

example : demoRun false false 5 7 = some (0, 5, 7, true) ∧ demoRun true true 5 7 = some (1, 5, 7, true) ∧ demoRun false true 5 7 = some (2, 5, 7, true) := by
  decide +kernel

example : (genSubAddress demoH 5 (scalarmultB 7) 1 2 2).map (fun ls => ls.map fun x => (x.1, x.2.1, (decodeAddr demoH x.2.2).map fun i => (i.net, i.isSub))) =
    some [(0, 1, some (1, true)), (1, 0, some (1, true)), (1, 1, some (1, true))] := by decide +kernel

end Verif.Creds

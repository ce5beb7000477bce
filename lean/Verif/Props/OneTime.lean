import Verif.Props.Keys
import Verif.Lemmas.Varint

/-!
C113: outputs have their own one-time keys and amount keys. Two outputs with the same key show two different strings with the same hash, or random numbers
that were drawn twice.
-/

namespace Verif.Key
open Verif Ed

/-- Two different strings that are hashed to the same scalar. -/
def Collision (H : Bytes → Bytes) (x y : Bytes) : Prop :=
  x ≠ y ∧ (bitSum (H x) 256 : ℤ) % l = (bitSum (H y) 256 : ℤ) % l

/-- What is hashed for the output at position `n`: the shared point and the position. -/
def shared (D : Ext) (n : ℕ) : Bytes := encodePoint D ++ Varint.dumpNat n

theorem shared_ne {D E : Ext} {p r : Point} (hD : Rep D p) (hE : Rep E r) {m n : ℕ} (h : ¬(m = n ∧ p = r)) : shared D m ≠ shared E n := by
  intro hc
  rw [shared, shared, encodePoint_rep hD, encodePoint_rep hE] at hc
  obtain ⟨h1, h2⟩ := List.append_inj hc (by rw [encPt_length, encPt_length])
  exact h ⟨Varint.dumpNat_inj h2, encPt_injective h1⟩

theorem keys_equal {H : Bytes → Bytes} {o o' : OutKeys} {P P' : Ext} {p p' δ δ' : Point} {m n : ℕ} {spend spend' : Bytes}
    (h1 : decodePoint spend = some P) (h2 : decodePoint spend' = some P') (r1 : Rep P p) (r2 : Rep P' p')
    (o1 : Rep o.outKey (p + sh H δ m • base)) (o2 : Rep o'.outKey (p' + sh H δ' n • base)) (hs : spend = spend')
    (he : encodePoint o.outKey = encodePoint o'.outKey) : sh H δ m = sh H δ' n := by
  subst hs
  rw [h1] at h2
  cases h2
  obtain rfl := rep_unique r1 r2
  rw [encodePoint_rep o1, encodePoint_rep o2] at he
  exact scalar_unique (hs_range _ _) (hs_range _ _) (add_left_cancel (encPt_injective he))

/-- C113: two outputs of one transaction to the same spend key (so two payments to the same address) have different one-time keys, or they show a
collision. Otherwise only one of them could ever be spent. -/
theorem C113_one_transaction {H : Bytes → Bytes} {k : TxKeys} {view : ℤ} {change : Option (Bytes × Bytes)} {ss : List ℤ} {dsts : List Dst}
    {os : List OutKeys} (hos : allOutKeys H k view change 0 ss dsts = some os) {m n : ℕ} (hmn : m ≠ n) {d e : Dst} (hd : dsts[m]? = some d)
    (he : dsts[n]? = some e) {o p : OutKeys} (ho : os[m]? = some o) (hp : os[n]? = some p) (hspend : d.spend = e.spend)
    (hsame : encodePoint o.outKey = encodePoint p.outKey) :
    ∃ s t D E, ss[m]? = some s ∧ ss[n]? = some t ∧ outDerivation k view change s d = some D ∧ outDerivation k view change t e = some E ∧
      Collision H (shared D m) (shared E n) := by
  obtain ⟨-, hall⟩ := all_get hos
  obtain ⟨s, o', hs, ho', hok⟩ := hall m d hd
  obtain ⟨t, p', ht, hp', hpk⟩ := hall n e he
  obtain rfl : o' = o := Option.some.inj (ho'.symm.trans ho)
  obtain rfl : p' = p := Option.some.inj (hp'.symm.trans hp)
  rw [Nat.zero_add] at hok hpk
  obtain ⟨D, δ, P, q, hD, hδ, hP, hq, -, hO, -⟩ := outKeys_inv hok
  obtain ⟨E, ε, P', q', hE, hε, hP', hq', -, hO', -⟩ := outKeys_inv hpk
  have := keys_equal hP hP' hq hq' hO hO' hspend hsame
  rw [sh, sh, ← encodePoint_rep hδ, ← encodePoint_rep hε] at this
  exact ⟨s, t, D, E, hs, ht, hD, hE, shared_ne hδ hε fun h => hmn h.1, this⟩

/-- C113: no two outputs of a transaction, to whomever, have the same amount key (from which the mask of the commitment and the pad of the amount
are made), or they show a collision. -/
theorem C113_amount_keys {H : Bytes → Bytes} {k : TxKeys} {view : ℤ} {change : Option (Bytes × Bytes)} {ss : List ℤ} {dsts : List Dst}
    {os : List OutKeys} (hos : allOutKeys H k view change 0 ss dsts = some os) {m n : ℕ} (hmn : m ≠ n) {d e : Dst} (hd : dsts[m]? = some d)
    (he : dsts[n]? = some e) {o p : OutKeys} (ho : os[m]? = some o) (hp : os[n]? = some p) (hsame : o.amountKey = p.amountKey) :
    ∃ s t D E, ss[m]? = some s ∧ ss[n]? = some t ∧ outDerivation k view change s d = some D ∧ outDerivation k view change t e = some E ∧
      Collision H (shared D m) (shared E n) := by
  obtain ⟨-, hall⟩ := all_get hos
  obtain ⟨s, o', hs, ho', hok⟩ := hall m d hd
  obtain ⟨t, p', ht, hp', hpk⟩ := hall n e he
  obtain rfl : o' = o := Option.some.inj (ho'.symm.trans ho)
  obtain rfl : p' = p := Option.some.inj (hp'.symm.trans hp)
  rw [Nat.zero_add] at hok hpk
  obtain ⟨D, δ, P, q, hD, hδ, -, -, a1, -⟩ := outKeys_inv hok
  obtain ⟨E, ε, P', q', hE, hε, -, -, a2, -⟩ := outKeys_inv hpk
  have : sh H δ m = sh H ε n := by rw [← a1, ← a2, hsame]
  rw [sh, sh, ← encodePoint_rep hδ, ← encodePoint_rep hε] at this
  exact ⟨s, t, D, E, hs, ht, hD, hE, shared_ne hδ hε fun h => hmn h.1, this⟩

/-- The secret scalar used for a payment: the one drawn for the output if it has an additional key and goes to a sub-address, else the one of the
transaction. -/
def usedScalar (k : TxKeys) (s : ℤ) (d : Dst) : ℤ := if d.isSub && k.needAdditional then s else k.r

theorem eq_of_torsion {v : Point} (hv : (8 : ℤ) • v ≠ 0) {x y : ℤ} (hx : 0 < x ∧ x < l) (hy : 0 < y ∧ y < l)
    (h : (8 : ℤ) • x • v = (8 : ℤ) • y • v) : x = y := by
  have h8 : addOrderOf ((8 : ℤ) • v) = lN := by
    refine addOrderOf_eq_prime ?_ hv
    have := l_eight v
    rwa [← natCast_zsmul v 8] at this
  rw [smul_comm, smul_comm (8 : ℤ) y] at h
  have h2 : x.toNat • ((8 : ℤ) • v) = y.toNat • ((8 : ℤ) • v) := by
    rw [← natCast_zsmul, ← natCast_zsmul, Int.toNat_of_nonneg hx.1.le, Int.toNat_of_nonneg hy.1.le, h]
  have h3 : x.toNat ≡ y.toNat [MOD lN] := by
    have := (nsmul_eq_nsmul_iff_modEq (G := Point)).mp h2
    rwa [h8] at this
  have hl : l = (lN : ℤ) := l_eq
  have h4 := Nat.ModEq.eq_of_lt_of_lt h3 (by omega) (by omega)
  omega

/-- C113: payments of two transactions (of any senders) to the same address have different one-time keys, unless they show a collision or are at the same
place with the same secret scalar, which is drawn at random. The view key of the address must not be one of the eight points of small order. -/
theorem C113_transactions {H : Bytes → Bytes} {k k' : TxKeys} {view view' : ℤ} {change change' : Option (Bytes × Bytes)} {ss ss' : List ℤ}
    {dsts dsts' : List Dst} {os os' : List OutKeys} (hos : allOutKeys H k view change 0 ss dsts = some os)
    (hos' : allOutKeys H k' view' change' 0 ss' dsts' = some os') {m n : ℕ} {d e : Dst} (hd : dsts[m]? = some d) (he : dsts'[n]? = some e)
    {o p : OutKeys} (ho : os[m]? = some o) (hp : os'[n]? = some p) (haddr : d.addr = e.addr) (hc : change ≠ some d.addr) (hc' : change' ≠ some e.addr)
    {V : Ext} (hV : decodePoint d.view = some V) (hsmall : encodePoint (mul8 V) ≠ encodePoint ident)
    (hsame : encodePoint o.outKey = encodePoint p.outKey) :
    ∃ s t D E, ss[m]? = some s ∧ ss'[n]? = some t ∧ outDerivation k view change s d = some D ∧ outDerivation k' view' change' t e = some E ∧
      (Collision H (shared D m) (shared E n) ∨ m = n ∧ usedScalar k s d = usedScalar k' t e) := by
  obtain ⟨-, hall⟩ := all_get hos
  obtain ⟨-, hall'⟩ := all_get hos'
  obtain ⟨s, o', hs, ho', hok⟩ := hall m d hd
  obtain ⟨t, p', ht, hp', hpk⟩ := hall' n e he
  obtain rfl : o' = o := Option.some.inj (ho'.symm.trans ho)
  obtain rfl : p' = p := Option.some.inj (hp'.symm.trans hp)
  rw [Nat.zero_add] at hok hpk
  obtain ⟨D, δ, P, q, hD, hδ, hP, hq, -, hO, -⟩ := outKeys_inv hok
  obtain ⟨E, ε, P', q', hE, hε, hP', hq', -, hO', -⟩ := outKeys_inv hpk
  have := keys_equal hP hP' hq hq' hO hO' (congrArg Prod.fst haddr) hsame
  rw [sh, sh, ← encodePoint_rep hδ, ← encodePoint_rep hε] at this
  refine ⟨s, t, D, E, hs, ht, hD, hE, ?_⟩
  by_cases hmn : m = n ∧ δ = ε
  · refine Or.inr ⟨hmn.1, ?_⟩
    have hview : d.view = e.view := congrArg Prod.snd haddr
    unfold outDerivation at hD hE
    rw [if_neg hc, hV] at hD
    rw [if_neg hc', ← hview, hV] at hE
    obtain ⟨u0, u1, v, hv, hδ2⟩ := keyDerivation_inv hD
    obtain ⟨w0, w1, v', hv', hε2⟩ := keyDerivation_inv hE
    obtain rfl := rep_unique hv hv'
    have h1 := rep_unique hδ hδ2
    have h2 := rep_unique hε hε2
    rw [encodePoint_rep (rep_mul8 hv), encodePoint_rep rep_ident] at hsmall
    exact eq_of_torsion (fun h0 => hsmall (congrArg encPt h0)) ⟨u0, u1⟩ ⟨w0, w1⟩ (h1.symm.trans (hmn.2.trans h2))
  · exact Or.inl ⟨shared_ne hδ hε hmn, this⟩

/-- C113, change: two change outputs of a wallet in two transactions have different one-time keys, unless they show a collision or are at the same place with
public transaction keys that agree up to a point of small order; for transactions that publish `r·G` that is the same `r`. -/
theorem C113_change {H : Bytes → Bytes} {k k' : TxKeys} {view : ℤ} {addr : Bytes × Bytes} {ss ss' : List ℤ}
    {dsts dsts' : List Dst} {os os' : List OutKeys} (hos : allOutKeys H k view (some addr) 0 ss dsts = some os)
    (hos' : allOutKeys H k' view (some addr) 0 ss' dsts' = some os') {m n : ℕ} {d e : Dst} (hd : dsts[m]? = some d) (he : dsts'[n]? = some e)
    {o p : OutKeys} (ho : os[m]? = some o) (hp : os'[n]? = some p) (hda : d.addr = addr) (hea : e.addr = addr)
    (hsame : encodePoint o.outKey = encodePoint p.outKey) :
    ∃ D E, keyDerivation k.rPub view = some D ∧ keyDerivation k'.rPub view = some E ∧
      (Collision H (shared D m) (shared E n) ∨ m = n ∧ encodePoint (mul8 k.rPub) = encodePoint (mul8 k'.rPub) ∧
        ∀ r r', (0 < r ∧ r < l) → (0 < r' ∧ r' < l) → k.rPub = scalarmultB r → k'.rPub = scalarmultB r' → r = r') := by
  obtain ⟨-, hall⟩ := all_get hos
  obtain ⟨-, hall'⟩ := all_get hos'
  obtain ⟨s, o', hs, ho', hok⟩ := hall m d hd
  obtain ⟨t, p', ht, hp', hpk⟩ := hall' n e he
  obtain rfl : o' = o := Option.some.inj (ho'.symm.trans ho)
  obtain rfl : p' = p := Option.some.inj (hp'.symm.trans hp)
  rw [Nat.zero_add] at hok hpk
  obtain ⟨D, δ, P, q, hD, hδ, hP, hq, -, hO, -⟩ := outKeys_inv hok
  obtain ⟨E, ε, P', q', hE, hε, hP', hq', -, hO', -⟩ := outKeys_inv hpk
  have := keys_equal hP hP' hq hq' hO hO' (congrArg Prod.fst (hda.trans hea.symm)) hsame
  rw [sh, sh, ← encodePoint_rep hδ, ← encodePoint_rep hε] at this
  unfold outDerivation at hD hE
  rw [if_pos (by rw [hda])] at hD
  rw [if_pos (by rw [hea])] at hE
  refine ⟨D, E, hD, hE, ?_⟩
  by_cases hmn : m = n ∧ δ = ε
  · right
    obtain ⟨u0, u1, v, hv, hδ2⟩ := keyDerivation_inv hD
    obtain ⟨-, -, v', hv', hε2⟩ := keyDerivation_inv hE
    have h1 := rep_unique hδ hδ2
    have h2 := rep_unique hε hε2
    have h3 : (8 : ℤ) • view • v = (8 : ℤ) • view • v' := h1.symm.trans (hmn.2.trans h2)
    have h4 : (8 : ℤ) • v = (8 : ℤ) • v' := by
      by_contra hne
      have hne' : (8 : ℤ) • (v - v') ≠ 0 := by rw [_root_.smul_sub]; exact sub_ne_zero.mpr hne
      have h8 : addOrderOf ((8 : ℤ) • (v - v')) = lN := by
        refine addOrderOf_eq_prime ?_ hne'
        have := l_eight (v - v')
        rwa [← natCast_zsmul (v - v') 8] at this
      have h5 : view.toNat • ((8 : ℤ) • (v - v')) = 0 := by
        rw [← natCast_zsmul, Int.toNat_of_nonneg u0.le, smul_comm, _root_.smul_sub, _root_.smul_sub, h3, sub_self]
      have h6 := addOrderOf_dvd_of_nsmul_eq_zero h5
      rw [h8] at h6
      have hl : l = (lN : ℤ) := l_eq
      have := Nat.le_of_dvd (by omega) h6
      omega
    refine ⟨hmn.1, by rw [encodePoint_rep (rep_mul8 hv), encodePoint_rep (rep_mul8 hv'), h4], ?_⟩
    intro r r' hr hr' e1 e2
    have e3 : v = r • base := rep_unique hv (e1 ▸ rep_B r)
    have e4 : v' = r' • base := rep_unique hv' (e2 ▸ rep_B r')
    rw [e3, e4] at h4
    refine eq_of_torsion (v := base) ?_ hr hr' h4
    intro h0
    have : (8 : ℕ) • base = 0 := by rw [← natCast_zsmul]; exact h0
    have h6 := addOrderOf_dvd_of_nsmul_eq_zero this
    rw [order_base] at h6
    exact absurd (Nat.le_of_dvd (by norm_num) h6) (by decide +kernel)
  · exact Or.inl ⟨shared_ne hδ hε hmn, this⟩

/-! The hypotheses are met: three payments to one address and change, under a hash that ends up the same for the first two positions. -/

/-- The one-time keys and amount keys of outputs to the same address, under a hash that depends on the position only. -/
def demoSame (h : UInt8 → UInt8) (r : ℤ) (n : ℕ) : Option (List Bytes × List ℤ) :=
  (txKeys r (List.replicate n (demoDst 0 0 4)) none).bind fun k =>
    (allOutKeys (fun b => h (b.getLastD 0) :: List.replicate 31 0) k 2 none 0 (List.replicate n 7) (List.replicate n (demoDst 0 0 4))).map fun os =>
      (os.map fun o => encodePoint o.outKey, os.map (·.amountKey))

example : (demoSame (fun i => i / 2 + 1) 5 3).map (·.2) = some [1, 1, 2] ∧
    ((demoSame (fun i => i / 2 + 1) 5 3).map fun o => (decide (o.1[0]? = o.1[1]?), decide (o.1[1]? = o.1[2]?))) = some (true, false) := by decide +kernel
example : demoSame (fun _ => 1) 5 1 = demoSame (fun _ => 1) 6 1 ∧ (demoSame (fun _ => 1) 5 1).isSome = true := by decide +kernel
example : ((decodePoint (demoDst 0 0 4).view).map fun V => decide (encodePoint (mul8 V) ≠ encodePoint ident)) = some true := by decide +kernel

theorem one_out (H : Bytes → Bytes) {r : ℤ} (hr : 0 < r ∧ r < l) (S : Point) (amount : ℕ) :
    ∃ o, allOutKeys H ⟨r, scalarmultB r, false⟩ 0 none 0 [0] [⟨encPt S, encPt 0, false, amount⟩] = some [o] ∧
      encodePoint o.outKey = encPt (S + sh H 0 0 • base) := by
  obtain ⟨D, hD, hDr⟩ := keyDerivation_rep (rep_canon 0) hr.1 hr.2
  rw [smul_zero, smul_zero] at hDr
  obtain ⟨P, hP, hPr⟩ := derivePublic_rep H hDr 0 (rep_canon S)
  refine ⟨⟨none, P, sh H 0 0⟩, ?_, encodePoint_rep hPr⟩
  simp [allOutKeys, outKeys, additionalKey, outDerivation, decode_encPt, hD, hP, toScalar_rep H hDr]

/-- C113 is false for an address whose view key is of small order, which is accepted: all payments to it that are the first of their
transaction have the same one-time key, whatever the random numbers. -/
theorem C113_false_small (H : Bytes → Bytes) {r r' : ℤ} (hr : 0 < r ∧ r < l) (hr' : 0 < r' ∧ r' < l) (amount amount' : ℕ) :
    ∃ (spend view : Bytes) (k k' : TxKeys) (o o' : OutKeys),
      txKeys r [⟨spend, view, false, amount⟩] none = some k ∧ txKeys r' [⟨spend, view, false, amount'⟩] none = some k' ∧
      allOutKeys H k 0 none 0 [0] [⟨spend, view, false, amount⟩] = some [o] ∧ allOutKeys H k' 0 none 0 [0] [⟨spend, view, false, amount'⟩] = some [o'] ∧
      encodePoint o.outKey = encodePoint o'.outKey := by
  obtain ⟨o, h1, h2⟩ := one_out H hr base amount
  obtain ⟨o', h3, h4⟩ := one_out H hr' base amount'
  exact ⟨encPt base, encPt 0, ⟨r, scalarmultB r, false⟩, ⟨r', scalarmultB r', false⟩, o, o', by simp [txKeys, classify, classifyLoop],
    by simp [txKeys, classify, classifyLoop], h1, h3, h2.trans h4.symm⟩

end Verif.Key

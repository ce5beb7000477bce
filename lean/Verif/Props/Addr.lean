import Verif.Model.Addr
import Verif.Props.B58

/-! C25, C26: addresses. -/

namespace Verif.Addr
open Verif

/-- What the recipient of an address text must get back. -/
structure Parts where
  spend : Bytes
  view : Bytes
  net : Nat
  isSub : Bool
  isIntegrated : Bool
  pid : Option Bytes
deriving DecidableEq

def Info.parts (i : Info) : Parts := ⟨i.spend, i.view, i.net, i.isSub, i.isIntegrated, i.pid⟩

theorem drop_one_take {α : Type} (x : α) (b c : List α) : ((x :: b) ++ c).take (((x :: b) ++ c).length - c.length) = x :: b := by
  rw [List.length_append, Nat.add_sub_cancel, List.take_left]

theorem decodeCheck_encodeCheck (H : Bytes → Bytes) (hH : ∀ x, 4 ≤ (H x).length) (v : Nat) (hv : v < 256) (b : Bytes) :
    decodeCheck H (encodeCheck H v b) = some (b, v) := by
  unfold decodeCheck encodeCheck
  simp only
  rw [B58.C23_roundtrip_bin _ (by simp)]
  simp only
  generalize hc : (H (UInt8.ofNat v :: b)).take 4 = c
  have h4 : c.length = 4 := by rw [← hc]; simp [hH]
  have e : ((UInt8.ofNat v :: b) ++ c).length - 4 = (UInt8.ofNat v :: b).length := by rw [List.length_append, h4]; omega
  rw [e, List.take_left, List.drop_left, hc]
  simp [Nat.mod_eq_of_lt hv]

/-- The version byte determines network and kind, and is determined by them. -/
theorem version_spec (net : Nat) (isSub isInt : Bool) (v : Nat) (h : netVersion (some net) isSub isInt = some v) :
    v < 256 ∧ addrType v = some net ∧ isSubaddress v = isSub ∧ isIntegrated v = isInt := by
  unfold netVersion at h
  match net with
  | 0 => cases isSub <;> cases isInt <;> simp [prefixes] at h <;> subst h <;> decide
  | 1 => cases isSub <;> cases isInt <;> simp [prefixes] at h <;> subst h <;> decide
  | 2 => cases isSub <;> cases isInt <;> simp [prefixes] at h <;> subst h <;> decide
  | n + 3 => cases isSub <;> cases isInt <;> simp [prefixes] at h

theorem version_of_byte (b : UInt8) (net : Nat) (h : addrType b.toNat = some net) :
    netVersion (some net) (isSubaddress b.toNat) (isIntegrated b.toNat) = some b.toNat := by
  have key : ∀ y : Fin 256, (match addrType y with
      | some net => decide (netVersion (some net) (isSubaddress y) (isIntegrated y) = some y.1)
      | none => true) = true := by decide +kernel
  have := key ⟨b.toNat, b.toNat_lt⟩
  simp only [h] at this
  simpa using this

theorem version_exists (net : Nat) (hn : net < 3) (isSub isInt : Bool) (h : ¬ (isSub = true ∧ isInt = true)) :
    ∃ v, netVersion (some net) isSub isInt = some v := by
  match net with
  | 0 => cases isSub <;> cases isInt <;> simp [netVersion, prefixes] at h ⊢
  | 1 => cases isSub <;> cases isInt <;> simp [netVersion, prefixes] at h ⊢
  | 2 => cases isSub <;> cases isInt <;> simp [netVersion, prefixes] at h ⊢

theorem recomputeAddr_parts {H : Bytes → Bytes} {i j : Info} (h : recomputeAddr H i = some j) :
    j.parts = i.parts ∧ publicAddrEncode H i.spend i.view i.isSub (some i.net) i.pid = some j.addr ∧
      publicAddrEncode H i.spend i.view i.isSub (some i.net) none = some j.base := by
  unfold recomputeAddr at h
  split at h
  · cases h
  · rename_i b hb
    split at h
    · cases h
    · rename_i a ha
      injection h with h
      subst h
      exact ⟨rfl, ha, hb⟩

/-- C25. For 32-byte keys, any of the three networks and any kind of address (standard, sub-address, or integrated with an 8-byte
payment id): the address can be encoded, and decoding its text gives network, keys, kind and payment id back, and the same text. -/
theorem C25_roundtrip (H : Bytes → Bytes) (hH : ∀ x, 4 ≤ (H x).length) (spend view : Bytes) (hs : spend.length = 32)
    (hv : view.length = 32) (net : Nat) (hn : net < 3) (isSub : Bool) (pid : Option Bytes) (hp : ∀ p, pid = some p → p.length = 8)
    (hk : ¬ (isSub = true ∧ pid.isSome = true)) :
    ∃ t info, publicAddrEncode H spend view isSub (some net) pid = some t ∧ decodeAddr H t = some info ∧
      info.parts = ⟨spend, view, net, isSub, pid.isSome, pid⟩ ∧ info.addr = t := by
  obtain ⟨v, hver⟩ := version_exists net hn isSub pid.isSome hk
  obtain ⟨v0, hver0⟩ := version_exists net hn isSub false (by simp)
  obtain ⟨h1, h2, h3, h4⟩ := version_spec _ _ _ _ hver
  have hpl : ¬ ((pid.getD []).length ≠ 0 ∧ (pid.getD []).length ≠ 8) := by
    cases pid with
    | none => simp
    | some p => simp [hp p rfl]
  have ht : publicAddrEncode H spend view isSub (some net) pid = some (encodeAddr H v spend view pid) := by
    unfold publicAddrEncode; rw [if_neg hpl, hver]; rfl
  have hbase : publicAddrEncode H spend view isSub (some net) none = some (encodeAddr H v0 spend view none) := by
    unfold publicAddrEncode; simp [hver0]
  refine ⟨_, ⟨spend, view, net, isSub, pid.isSome, pid, encodeAddr H v spend view pid, encodeAddr H v0 spend view none⟩, ht, ?_, rfl, rfl⟩
  have e1 : (spend ++ view ++ pid.getD []).take 32 = spend := by rw [List.append_assoc, ← hs, List.take_left]
  have e2 : ((spend ++ view ++ pid.getD []).drop 32).take 32 = view := by
    rw [List.append_assoc]
    conv => lhs; rw [show (32 : Nat) = spend.length from hs.symm, List.drop_left, show spend.length = view.length by omega, List.take_left]
  have e3 : (spend ++ view ++ pid.getD []).drop 64 = pid.getD [] := by
    have : (64 : Nat) = (spend ++ view).length := by simp [hs, hv]
    rw [this, List.drop_left]
  unfold decodeAddr encodeAddr
  rw [decodeCheck_encodeCheck H hH v h1]
  simp only [setAddr, h2, e1, e2, e3, h3, h4]
  have hpid : (if pid.isSome = true then some (pid.getD []) else none) = pid := by cases pid <;> simp
  rw [hpid]
  unfold recomputeAddr
  simp only [hbase, ht]
  rfl

example : ∃ t info, publicAddrEncode (fun _ => [1, 2, 3, 4]) (List.replicate 32 7) (List.replicate 32 9) false (some 2) (some [1, 2, 3, 4, 5, 6, 7, 8]) =
    some t ∧ decodeAddr (fun _ => [1, 2, 3, 4]) t = some info ∧ t.length = 106 := by
  obtain ⟨t, info, h1, h2, _⟩ := C25_roundtrip (fun _ => [1, 2, 3, 4]) (fun _ => by simp) (List.replicate 32 7) (List.replicate 32 9) rfl rfl 2
    (by omega) false (some [1, 2, 3, 4, 5, 6, 7, 8]) (by simp) (by simp)
  refine ⟨t, info, h1, h2, ?_⟩
  simp [publicAddrEncode, netVersion, prefixes] at h1
  rw [← h1, encodeAddr, encodeCheck, B58.C23_length]
  rfl

/-- C25. Two different addresses never have the same text. -/
theorem C25_injective (H : Bytes → Bytes) (hH : ∀ x, 4 ≤ (H x).length) (s v s' v' : Bytes) (net net' : Nat) (sub sub' : Bool)
    (pid pid' : Option Bytes) (t : Bytes) (hs : s.length = 32) (hv : v.length = 32) (hs' : s'.length = 32) (hv' : v'.length = 32)
    (hp : ∀ p, pid = some p → p.length = 8) (hp' : ∀ p, pid' = some p → p.length = 8)
    (h : publicAddrEncode H s v sub (some net) pid = some t) (h' : publicAddrEncode H s' v' sub' (some net') pid' = some t) :
    s = s' ∧ v = v' ∧ net = net' ∧ sub = sub' ∧ pid = pid' := by
  have aux : ∀ (s v : Bytes) (net : Nat) (sub : Bool) (pid : Option Bytes), publicAddrEncode H s v sub (some net) pid = some t →
      net < 3 ∧ ¬ (sub = true ∧ pid.isSome = true) := by
    intro s v net sub pid h
    unfold publicAddrEncode at h
    split at h
    · cases h
    · cases hver : netVersion (some net) sub pid.isSome with
      | none => rw [hver] at h; cases h
      | some ver =>
        unfold netVersion at hver
        refine ⟨?_, ?_⟩
        · rcases Nat.lt_or_ge net 3 with hl | hl
          · exact hl
          · obtain ⟨k, rfl⟩ := Nat.exists_eq_add_of_le hl
            rw [Nat.add_comm] at hver
            simp [prefixes] at hver
        · rintro ⟨rfl, h2⟩
          simp [h2] at hver
  obtain ⟨a1, a2⟩ := aux _ _ _ _ _ h
  obtain ⟨b1, b2⟩ := aux _ _ _ _ _ h'
  obtain ⟨t1, i1, c1, c2, c3, _⟩ := C25_roundtrip H hH s v hs hv net a1 sub pid hp a2
  obtain ⟨t2, i2, d1, d2, d3, _⟩ := C25_roundtrip H hH s' v' hs' hv' net' b1 sub' pid' hp' b2
  rw [h] at c1; rw [h'] at d1
  injection c1 with c1; injection d1 with d1
  subst c1; subst d1
  rw [c2] at d2
  injection d2 with d2
  subst d2
  rw [c3] at d3
  injection d3 with e1 e2 e3 e4 e5 e6
  exact ⟨e1, e2, e3, e4, e6⟩

/-- C25. A text is only accepted if its last four bytes are the checksum of the bytes before them, its version byte (the first byte) is one of
the nine known ones, and an integrated address carries 8 bytes of payment id (or none at all). The result is exactly what the bytes say. -/
theorem C25_checksum (H : Bytes → Bytes) (t : Bytes) (info : Info) (h : decodeAddr H t = some info) :
    ∃ body ver, B58.Mnr.decodeBin t = some (body ++ (H body).take 4) ∧ (body ++ (H body).take 4).head? = some ver ∧
      addrType ver.toNat = some info.net ∧ isSubaddress ver.toNat = info.isSub ∧ isIntegrated ver.toNat = info.isIntegrated ∧
      info.spend = (body.drop 1).take 32 ∧ info.view = (body.drop 33).take 32 ∧
      info.pid = (if info.isIntegrated then some (body.drop 65) else none) ∧
      (info.isIntegrated = true → body.drop 65 = [] ∨ (body.drop 65).length = 8) := by
  unfold decodeAddr at h
  split at h
  · cases h
  · rename_i d ver hd
    unfold decodeCheck at hd
    split at hd
    · cases hd
    · rename_i dd hdd
      simp only at hd
      split at hd
      · rename_i hc
        have hsum := List.take_append_drop (dd.length - 4) dd
        rw [hc] at hsum
        generalize dd.take (dd.length - 4) = body at hsum hd
        subst hsum
        generalize hcs : (H body).take 4 = cs at *
        have : ∃ v, (body ++ cs).head? = some v ∧ d = body.drop 1 ∧ ver = v.toNat := by
          cases hx : body ++ cs with
          | nil => rw [hx] at hd; cases hd
          | cons v rest =>
            rw [hx] at hd
            simp only [Option.some.injEq, Prod.mk.injEq] at hd
            exact ⟨v, rfl, hd.1.symm, hd.2.symm⟩
        obtain ⟨v, hv1, rfl, rfl⟩ := this
        refine ⟨body, v, by rw [hcs]; exact hdd, by rw [hcs]; exact hv1, ?_⟩
        unfold setAddr at h
        split at h
        · cases h
        · rename_i net hnet
          obtain ⟨h1, h2, _⟩ := recomputeAddr_parts h
          unfold Info.parts at h1
          simp only [Parts.mk.injEq] at h1
          obtain ⟨p1, p2, p3, p4, p5, p6⟩ := h1
          rw [List.drop_drop] at p2
          rw [List.drop_drop] at p6
          refine ⟨by rw [p3]; exact hnet, p4.symm, p5.symm, p1, p2, by rw [p6, p5], ?_⟩
          intro hint
          rw [p5] at hint
          simp only [hint, if_true, publicAddrEncode, Option.getD_some] at h2
          split at h2
          · cases h2
          · rename_i hno
            rw [List.drop_drop] at hno
            by_cases hz : (body.drop 65).length = 0
            · exact Or.inl (List.length_eq_zero_iff.1 hz)
            · exact Or.inr (by
                rcases Nat.decEq (body.drop 65).length 8 with q | q
                · exact absurd ⟨hz, q⟩ hno
                · exact q)
      · cases hd

/-- C25. A corrupted checksum is rejected: whatever the bytes before it are. -/
theorem C25_bad_checksum_rejected (H : Bytes → Bytes) (hH : ∀ x, 4 ≤ (H x).length) (body cs : Bytes) (hcs : cs.length = 4)
    (h : cs ≠ (H body).take 4) : decodeAddr H (B58.Mnr.encode (body ++ cs)) = none := by
  cases hd : decodeAddr H (B58.Mnr.encode (body ++ cs)) with
  | none => rfl
  | some info =>
    obtain ⟨b, _, h1, _⟩ := C25_checksum H _ _ hd
    have hne : body ++ cs ≠ [] := by
      intro e
      have := congrArg List.length e
      rw [List.length_append, hcs] at this
      simp at this
    rw [B58.C23_roundtrip_bin _ hne] at h1
    injection h1 with h1
    have hl : ((H b).take 4).length = 4 := by simp [hH]
    have := List.append_inj' h1 (by rw [hcs, hl])
    rw [← this.1] at this
    exact absurd this.2 h

/-- Kind of an address by length of its text: 95 characters, or 106 with a payment id. -/
def standardLength (info : Info) (t : Bytes) : Prop := t.length = (if info.isIntegrated then 106 else 95)

/-- C25. An accepted text of standard length, without the block "jpXCZedGfVR" (see C24), is the one text of its address. -/
theorem C25_canonical (H : Bytes → Bytes) (hH : ∀ x, 4 ≤ (H x).length) (t : Bytes) (info : Info) (h : decodeAddr H t = some info)
    (hl : standardLength info t) (hbad : ∀ i, i < t.length / 11 → B58.Mnr.slice t (i * 11) (i * 11 + 11) ≠ B58.Mnr.badBlock) :
    info.addr = t ∧ info.spend.length = 32 ∧ info.view.length = 32 ∧
      publicAddrEncode H info.spend info.view info.isSub (some info.net) info.pid = some t := by
  obtain ⟨body, ver, h1, h2, h3, h4, h5, h6, h7, h8, h9⟩ := C25_checksum H t info h
  have hdt : B58.Mnr.decodeText t = some (body ++ (H body).take 4) := by
    unfold B58.Mnr.decodeBin at h1
    split at h1
    · cases h1
    · exact h1
  have henc := B58.C24_canonical_partial t _ hdt hbad
  have hcs : ((H body).take 4).length = 4 := by simp [hH]
  have hlen := B58.C23_length (body ++ (H body).take 4)
  rw [henc, List.length_append, hcs] at hlen
  have hbl : body.length = if info.isIntegrated then 73 else 65 := by
    unfold standardLength at hl
    have hm : (body.length + 4) % 8 < 8 := Nat.mod_lt _ (by omega)
    have hdm := Nat.div_add_mod (body.length + 4) 8
    generalize (body.length + 4) % 8 = m at *
    generalize (body.length + 4) / 8 = q at *
    have hsz : ∀ m : Fin 8, B58.Mnr.blockSizes.getD m.1 0 ∈ [0, 2, 3, 5, 6, 7, 9, 10] ∧
        (B58.Mnr.blockSizes.getD m.1 0 = 7 → m.1 = 5) := by decide
    have hsz := hsz ⟨m, hm⟩
    generalize B58.Mnr.blockSizes.getD m 0 = z at *
    have hz : z ≤ 10 := by
      have := hsz.1
      simp only [List.mem_cons, List.not_mem_nil, or_false] at this
      omega
    split at hl <;> rename_i hi
    · have : z = 7 := by omega
      have := hsz.2 this
      rw [if_pos hi]; simp only at this; omega
    · have : z = 7 := by omega
      have := hsz.2 this
      rw [if_neg hi]; simp only at this; omega
  have hge : 65 ≤ body.length := by split at hbl <;> omega
  have hs : info.spend.length = 32 := by rw [h6]; simp; omega
  have hv : info.view.length = 32 := by rw [h7]; simp; omega
  -- the address field
  have haddr : publicAddrEncode H info.spend info.view info.isSub (some info.net) info.pid = some info.addr := by
    unfold decodeAddr at h
    split at h
    · cases h
    · unfold setAddr at h
      split at h
      · cases h
      · obtain ⟨q1, q2, _⟩ := recomputeAddr_parts h
        unfold Info.parts at q1
        simp only [Parts.mk.injEq] at q1
        obtain ⟨p1, p2, p3, p4, p5, p6⟩ := q1
        simp only at q2
        rw [p1, p2, p3, p4, p6]; exact q2
  -- body = version :: spend ++ view ++ pid
  obtain ⟨b0, rest, rfl⟩ : ∃ b0 rest, body = b0 :: rest := by
    cases body with
    | nil => simp at hge
    | cons b r => exact ⟨b, r, rfl⟩
  simp only [List.cons_append, List.head?_cons, Option.some.injEq] at h2
  subst h2
  have hrest : info.spend ++ info.view ++ info.pid.getD [] = rest := by
    rw [h6, h7, h8]
    simp only [List.drop_succ_cons, List.drop_zero]
    have e1 : rest = rest.take 32 ++ ((rest.drop 32).take 32 ++ rest.drop 64) := by
      conv => lhs; rw [← List.take_append_drop 32 rest, ← List.take_append_drop 32 (rest.drop 32), List.drop_drop]
    split
    · simp only [Option.getD_some]; rw [List.append_assoc]; exact e1.symm
    · rename_i hi
      simp only [hi] at hbl
      have : rest.drop 64 = [] := List.drop_of_length_le (by simp at hbl; omega)
      rw [this] at e1
      simpa using e1.symm
  have hpis : info.pid.isSome = info.isIntegrated := by rw [h8]; cases info.isIntegrated <;> rfl
  have hkey : info.addr = t := by
    unfold publicAddrEncode at haddr
    split at haddr
    · cases haddr
    · cases hver : netVersion (some info.net) info.isSub info.pid.isSome with
      | none => rw [hver] at haddr; cases haddr
      | some v =>
        rw [hver] at haddr
        simp only [Option.map_some, Option.some.injEq] at haddr
        obtain ⟨v1, v2, v3, v4⟩ := version_spec _ _ _ _ hver
        have hveq : v = b0.toNat := by
          have hu := version_of_byte b0 info.net h3
          rw [h4, h5, ← hpis, hver] at hu
          simpa using hu
        rw [← haddr, hveq, encodeAddr, hrest, encodeCheck]
        simp only [UInt8.ofNat_toNat]
        exact henc
  exact ⟨hkey, hs, hv, by rw [haddr, hkey]⟩

/-- The decoder does not check the length: data of any length under a standard version byte, with a matching checksum, is accepted; keys may be
short or missing and surplus bytes are dropped. -/
theorem C25_length_not_checked (H : Bytes → Bytes) (hH : ∀ x, 4 ≤ (H x).length) (data : Bytes) :
    ∃ info, decodeAddr H (encodeCheck H 18 data) = some info ∧ info.spend = data.take 32 ∧ info.view = (data.drop 32).take 32 ∧
      info.pid = none := by
  unfold decodeAddr
  rw [decodeCheck_encodeCheck H hH 18 (by omega)]
  exact ⟨_, rfl, rfl, rfl, rfl⟩

/-- An empty payment id gives an integrated address without a payment id. -/
theorem C25_empty_payment_id (H : Bytes → Bytes) (spend view : Bytes) :
    publicAddrEncode H spend view false (some 0) (some []) = some (encodeCheck H 19 (spend ++ view)) := by
  simp [publicAddrEncode, netVersion, prefixes, encodeAddr]

/-! ## C26 -/

/-- C26 is false: building the address of index (0,0) flags a sub-address, and the text carries the sub-address prefix with the main keys. -/
theorem C26_false (H : Bytes → Bytes) (keys : Bytes × Bytes) (sub : Nat × Nat → Bytes × Bytes) (net : Nat) (hn : net < 3) :
    ∃ info main, buildAddressInfo H keys sub (some (0, 0)) none net = some info ∧ info.isSub = true ∧ info.spend = keys.1 ∧
      info.view = keys.2 ∧ buildAddressInfo H keys sub none none net = some main ∧ main.isSub = false ∧ main.spend = info.spend ∧
      main.view = info.view ∧ info.addr ≠ main.addr := by
  obtain ⟨v, hv⟩ := version_exists net hn true false (by simp)
  obtain ⟨w, hw⟩ := version_exists net hn false false (by simp)
  have h1 := version_spec _ _ _ _ hv
  have h2 := version_spec _ _ _ _ hw
  refine ⟨⟨keys.1, keys.2, net, true, false, none, encodeAddr H v keys.1 keys.2 none, encodeAddr H v keys.1 keys.2 none⟩,
    ⟨keys.1, keys.2, net, false, false, none, encodeAddr H w keys.1 keys.2 none, encodeAddr H w keys.1 keys.2 none⟩,
    ?_, rfl, rfl, rfl, ?_, rfl, rfl, rfl, ?_⟩
  · simp [buildAddressInfo, recomputeAddr, publicAddrEncode, hv]
  · simp [buildAddressInfo, recomputeAddr, publicAddrEncode, hw]
  · intro e
    simp only [encodeAddr, encodeCheck] at e
    have := B58.C23_injective _ _ e
    simp only [List.cons_append, List.cons.injEq] at this
    have he := congrArg UInt8.toNat this.1
    simp [Nat.mod_eq_of_lt h1.1, Nat.mod_eq_of_lt h2.1] at he
    have := h1.2.2.1
    rw [he, h2.2.2.1] at this
    simp at this

/-- C26 is false: recomputing an address for an index on one of the axes clears the flag. -/
theorem C26_false_recompute (H : Bytes → Bytes) (i : Info) (spend view : Bytes) (major minor : Nat) (h0 : (major, minor) ≠ (0, 0))
    (hax : major = 0 ∨ minor = 0) (j : Info) (h : recomputeSub H i spend view major minor = some j) : j.isSub = false := by
  have h1 := (recomputeAddr_parts h).1
  simp only [Info.parts, Parts.mk.injEq] at h1
  obtain ⟨_, _, _, h4, _⟩ := h1
  rw [h4]
  simp only [decide_eq_false_iff_not]
  omega

example : ∃ j, recomputeSub (fun x => x) ⟨[], [], 0, false, false, none, [], []⟩ [1] [2] 0 5 = some j := ⟨_, rfl⟩

/-- C26, partial: without an index the flag is clear; for an index other than (0,0) it is set (recomputing: for an index with both parts
nonzero), and (0,0) is recomputed without the flag. Missing: (0,0) when building and the axes when recomputing, see above. -/
theorem C26_flag_partial (H : Bytes → Bytes) (keys : Bytes × Bytes) (sub : Nat × Nat → Bytes × Bytes) (pid : Option Bytes) (net : Nat) :
    (∀ j, buildAddressInfo H keys sub none pid net = some j → j.isSub = false ∧ (j.spend, j.view) = keys) ∧
    (∀ idx j, idx ≠ (0, 0) → buildAddressInfo H keys sub (some idx) pid net = some j → j.isSub = true ∧ (j.spend, j.view) = sub idx ∧
      j.pid = none) ∧
    (∀ i spend view major minor j, major ≠ 0 → minor ≠ 0 → recomputeSub H i spend view major minor = some j → j.isSub = true) ∧
    (∀ i spend view j, recomputeSub H i spend view 0 0 = some j → j.isSub = false) := by
  refine ⟨?_, ?_, ?_, ?_⟩
  · intro j h
    unfold buildAddressInfo at h
    rw [if_neg (by simp)] at h
    have h1 := (recomputeAddr_parts h).1
    simp only [Info.parts, Parts.mk.injEq] at h1
    exact ⟨h1.2.2.2.1, by rw [h1.1, h1.2.1]⟩
  · intro idx j hne h
    unfold buildAddressInfo at h
    split at h
    · cases h
    · rename_i hc
      obtain ⟨h1, h2, _⟩ := recomputeAddr_parts h
      simp only [Info.parts, Parts.mk.injEq, hne, if_false] at h1
      refine ⟨h1.2.2.2.1, by rw [h1.1, h1.2.1], ?_⟩
      rw [h1.2.2.2.2.2]
      cases pid with
      | none => rfl
      | some p =>
        simp [publicAddrEncode, netVersion] at h2
  · intro i spend view major minor j h1 h2 h
    have h3 := (recomputeAddr_parts h).1
    simp only [Info.parts, Parts.mk.injEq] at h3
    rw [h3.2.2.2.1]; simp [h1, h2]
  · intro i spend view j h
    have h3 := (recomputeAddr_parts h).1
    simp only [Info.parts, Parts.mk.injEq] at h3
    rw [h3.2.2.2.1]; simp

example : ∃ j, buildAddressInfo (fun x => x) ([1], [2]) (fun i => ([UInt8.ofNat i.1], [UInt8.ofNat i.2])) (some (3, 4)) none 1 = some j := ⟨_, rfl⟩

end Verif.Addr

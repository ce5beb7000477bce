import Verif.Lemmas.Amounts

/-! Fields of the extra field, the choice of the view key for payment ids. -/

namespace Verif.Key
open Verif Ed Edwards

theorem dump_small (n : ℕ) (h : n < 128) : Varint.dumpNat n = [UInt8.ofNat n] := by
  rw [Varint.dumpNat_eq, if_pos (by omega), Nat.mod_eq_of_lt h]

theorem readField_key (k rest : Bytes) (hk : k.length = 32) : readField (1 :: (k ++ rest)) = some (.pubKey k, rest) := by
  have h1 : (k ++ rest).take 32 = k := by rw [List.take_append_of_le_length (by omega), List.take_of_length_le (by omega)]
  have h2 : (k ++ rest).drop 32 = rest := by rw [List.drop_append_of_le_length (by omega), List.drop_of_length_le (by omega), List.nil_append]
  rw [readField, if_pos rfl, if_neg (by simp; omega), h1, h2]

theorem readField_nonce (n rest : Bytes) (hn : n.length < 128) :
    readField (2 :: UInt8.ofNat n.length :: (n ++ rest)) = some (.nonce n, rest) := by
  have hl := Varint.load_dumpNat n.length (n ++ rest)
  rw [dump_small _ hn, List.singleton_append] at hl
  rw [readField, if_neg (by decide), if_pos rfl, hl]
  dsimp only
  rw [if_neg (by simp)]
  simp

theorem readKeys_flatten (ks : List Bytes) (hk : ∀ k ∈ ks, k.length = 32) (rest : Bytes) :
    readKeys ks.length (ks.flatten ++ rest) = some (ks, rest) := by
  induction ks with
  | nil => rfl
  | cons k ks ih =>
    have h32 := hk k (List.mem_cons_self)
    rw [List.length_cons, readKeys, List.flatten_cons, List.append_assoc, if_neg (by simp; omega)]
    have h1 : (k ++ (ks.flatten ++ rest)).take 32 = k := by
      rw [List.take_append_of_le_length (by omega), List.take_of_length_le (by omega)]
    have h2 : (k ++ (ks.flatten ++ rest)).drop 32 = ks.flatten ++ rest := by
      rw [List.drop_append_of_le_length (by omega), List.drop_of_length_le (by omega), List.nil_append]
    rw [h1, h2, ih fun k h => hk k (List.mem_cons_of_mem _ h)]
    rfl

theorem readField_additional (ks : List Bytes) (hk : ∀ k ∈ ks, k.length = 32) (rest : Bytes) :
    readField (4 :: (Varint.dumpNat ks.length ++ (ks.flatten ++ rest))) = some (.additional ks, rest) := by
  rw [readField, if_neg (by decide), if_neg (by decide), if_pos rfl, Varint.load_dumpNat]
  dsimp only
  rw [readKeys_flatten ks hk]
  rfl

theorem parse_step (f : ℕ) (x : UInt8) (b : Bytes) : parseExtra (f + 1) (x :: b) =
    match readField (x :: b) with
    | none => none
    | some (f', rest) => (parseExtra f rest).map fun fs => f' :: fs := by
  rfl

/-- The initial extra field (`process_payment_id`): empty or one nonce. -/
theorem process_shape (H : Bytes → Bytes) (hH : ∀ d, (H d).length = 32) (pid ex : Bytes) (r : ℤ) (dsts : List Dst)
    (change : Option (Bytes × Bytes)) (h : processPaymentId H pid r dsts change = some ex) :
    (pid = [] ∧ ex = []) ∨
    (pid.length = 32 ∧ ex = 2 :: UInt8.ofNat (0 :: pid).length :: (0 :: pid)) ∨
    (pid.length = 8 ∧ ∃ V e, destView dsts change ≠ nullKey ∧ decodePoint (destView dsts change) = some V ∧
      encryptPaymentId H pid V r = some e ∧ e.length = 8 ∧ ex = 2 :: UInt8.ofNat (1 :: e).length :: (1 :: e)) := by
  unfold processPaymentId at h
  split at h
  · rename_i h0
    cases h
    exact Or.inl ⟨h0, rfl⟩
  split at h
  · rename_i h8
    split at h
    · simp at h
    rename_i hnull
    split at h
    · simp at h
    rename_i V hV
    obtain ⟨e, he, rfl⟩ := Option.map_eq_some_iff.mp h
    refine Or.inr (Or.inr ⟨h8, V, e, hnull, hV, he, ?_, rfl⟩)
    obtain ⟨dv, -, rfl⟩ := Option.map_eq_some_iff.mp he
    rw [xor8_length _ _ (by rw [hH]; omega), h8]
  split at h
  · rename_i h32
    cases h
    exact Or.inr (Or.inl ⟨h32, rfl⟩)
  · simp at h

/-! ## The recipient of an encrypted payment id -/

theorem encrypt_rep (H : Bytes → Bytes) (pid : Bytes) {V : Ext} {v : Point} (hV : Rep V v) {x : ℤ} (h0 : 0 < x) (h1 : x < l) :
    encryptPaymentId H pid V x = some (xor8 pid (H (encPt ((8 : ℤ) • x • v) ++ [0x8D]))) := by
  obtain ⟨D, hD, hDr⟩ := keyDerivation_rep hV h0 h1
  rw [encryptPaymentId, hD, Option.map_some, encodePoint_rep hDr]

/-- With no zero amounts, the loop that looks for the view key of the destination succeeds only if all destinations except change have one
address. -/
theorem destView_unique (change : Option (Bytes × Bytes)) (dsts : List Dst) (cur : Bytes × Bytes) (n : ℕ)
    (hpos : ∀ d ∈ dsts, change ≠ some d.addr → d.amount ≠ 0) (h : destViewLoop change dsts cur n ≠ nullKey) :
    (n > 0 → destViewLoop change dsts cur n = cur.2 ∧ ∀ d ∈ dsts, change ≠ some d.addr → d.addr = cur) ∧
    (n = 0 → cur = (nullKey, nullKey) → ∃ ad : Bytes × Bytes, destViewLoop change dsts cur n = ad.2 ∧ (∃ d ∈ dsts, change ≠ some d.addr ∧ d.addr = ad) ∧
      ∀ d ∈ dsts, change ≠ some d.addr → d.addr ≠ (nullKey, nullKey) → d.addr = ad) := by
  induction dsts generalizing cur n with
  | nil =>
    simp only [destViewLoop] at h ⊢
    exact ⟨fun _ => ⟨trivial, by simp⟩, fun _ hc => by rw [hc] at h; exact absurd rfl h⟩
  | cons e ds ih =>
    have hpos' : ∀ d ∈ ds, change ≠ some d.addr → d.amount ≠ 0 := fun d hd => hpos d (List.mem_cons_of_mem _ hd)
    rw [destViewLoop] at h ⊢
    by_cases hc : change = some e.addr
    · have hskip : (if e.amount = 0 then destViewLoop change ds cur n else if change = some e.addr then destViewLoop change ds cur n
          else if e.addr = cur then destViewLoop change ds cur n else if n > 0 then nullKey else destViewLoop change ds e.addr (n + 1)) =
          destViewLoop change ds cur n := by
        rw [if_pos hc]
        split <;> rfl
      rw [hskip] at h ⊢
      obtain ⟨i1, i2⟩ := ih cur n hpos' h
      refine ⟨fun hn => ⟨(i1 hn).1, fun d hd hdc => ?_⟩, fun hn hcur => ?_⟩
      · rcases List.mem_cons.mp hd with rfl | hd
        · exact absurd hc hdc
        · exact (i1 hn).2 d hd hdc
      · obtain ⟨ad, h1, ⟨d0, hd0, hd1⟩, h2⟩ := i2 hn hcur
        refine ⟨ad, h1, ⟨d0, List.mem_cons_of_mem _ hd0, hd1⟩, fun d hd hdc => ?_⟩
        rcases List.mem_cons.mp hd with rfl | hd
        · exact absurd hc hdc
        · exact h2 d hd hdc
    · have ham := hpos e List.mem_cons_self hc
      rw [if_neg ham, if_neg hc] at h ⊢
      split at h
      · rename_i hcur
        obtain ⟨i1, i2⟩ := ih cur n hpos' h
        rw [if_pos hcur]
        refine ⟨fun hn => ⟨(i1 hn).1, fun d hd hdc => ?_⟩, fun hn hcur' => ?_⟩
        · rcases List.mem_cons.mp hd with rfl | hd
          · exact hcur
          · exact (i1 hn).2 d hd hdc
        · obtain ⟨ad, h1, ⟨d0, hd0, hd1⟩, h2⟩ := i2 hn hcur'
          refine ⟨ad, h1, ⟨d0, List.mem_cons_of_mem _ hd0, hd1⟩, fun d hd hdc hdn => ?_⟩
          rcases List.mem_cons.mp hd with rfl | hd
          · exact absurd (hcur.trans hcur') hdn
          · exact h2 d hd hdc hdn
      · rename_i hcur
        split at h
        · exact absurd rfl h
        · rename_i hn
          rw [if_neg hcur, if_neg hn]
          obtain ⟨i1, -⟩ := ih e.addr (n + 1) hpos' h
          obtain ⟨j1, j2⟩ := i1 (by omega)
          refine ⟨fun hn' => absurd hn' hn, fun _ _ => ⟨e.addr, j1, ⟨e, List.mem_cons_self, hc, rfl⟩, fun d hd hdc _ => ?_⟩⟩
          rcases List.mem_cons.mp hd with rfl | hd
          · rfl
          · exact j2 d hd hdc

theorem classify_seen (change : Option (Bytes × Bytes)) (d : Dst) (ds : List Dst) (h : ∀ e ∈ ds, change ≠ some e.addr → e.addr = d.addr)
    (seen : List Bytes) (hs : d.key ∈ seen) (acc : ℕ × ℕ × Option (Bytes × Bytes)) : classifyLoop change ds seen acc = acc := by
  induction ds with
  | nil => rfl
  | cons e ds ih =>
    have ih := ih fun e he => h e (List.mem_cons_of_mem _ he)
    unfold classifyLoop
    split
    · exact ih
    · rename_i hc
      have he := h e List.mem_cons_self hc
      have hk : e.spend ++ e.view = d.key := by
        have h1 := congrArg Prod.fst he
        have h2 := congrArg Prod.snd he
        simp only [Dst.addr] at h1 h2
        rw [Dst.key, h1, h2]
      rw [if_pos (by rw [hk]; simpa using hs)]
      exact ih

theorem classify_single (change : Option (Bytes × Bytes)) (d : Dst) (hd : change ≠ some d.addr) (ds : List Dst) (hm : d ∈ ds)
    (h : ∀ e ∈ ds, change ≠ some e.addr → e.addr = d.addr ∧ e.isSub = d.isSub) :
    classify ds change = if d.isSub then (0, 1, some d.addr) else (1, 0, none) := by
  unfold classify
  induction ds with
  | nil => simp at hm
  | cons e ds ih =>
    unfold classifyLoop
    split
    · rename_i hc
      have hne : d ≠ e := fun h => hd (h ▸ hc)
      exact ih ((List.mem_cons.mp hm).resolve_left hne) fun e he => h e (List.mem_cons_of_mem _ he)
    · rename_i hc
      obtain ⟨h1, h2⟩ := h e List.mem_cons_self hc
      have hk : e.spend ++ e.view = d.key := by
        have h3 := congrArg Prod.fst h1
        have h4 := congrArg Prod.snd h1
        simp only [Dst.addr] at h3 h4
        rw [Dst.key, h3, h4]
      rw [if_neg (by simp)]
      dsimp only
      have hseen := fun acc => classify_seen change d ds (fun e he hce => (h e (List.mem_cons_of_mem _ he) hce).1) ((e.spend ++ e.view) :: [])
        (by rw [hk]; simp) acc
      rw [hseen, hseen, h1, h2]

end Verif.Key

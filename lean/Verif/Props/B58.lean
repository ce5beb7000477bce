import Verif.Lemmas.B58

/-! C23, C24, C27: base58. -/

namespace Verif.B58
open Verif Verif.Dig

theorem mod_aux {a b c : Nat} (h : c < b) : (a * b + c) % b = c := by
  rw [Nat.mul_comm, Nat.mul_add_mod, Nat.mod_eq_of_lt h]

theorem div_aux {a b c : Nat} (h : c < b) : (a * b + c) / b = a := by
  rw [Nat.mul_comm, Nat.mul_add_div (by omega), Nat.div_eq_of_lt h, Nat.add_zero]

/-- C23. Decoding the Monero base58 text of any byte string returns it. -/
theorem C23_roundtrip (b : Bytes) : Mnr.decodeText (Mnr.encode b) = some b := by
  rw [Mnr.encode_eq]
  have hb : (0 + b.length / 8) * 8 ≤ b.length := by omega
  have hl := Mnr.encBlocks_length b (b.length / 8) 0 hb
  by_cases h : b.length % 8 > 0
  · rw [if_pos h]
    have hs : (Mnr.slice b (b.length / 8 * 8) (b.length / 8 * 8 + b.length % 8)).length = b.length % 8 :=
      Mnr.slice_length _ _ _ (by omega)
    generalize hlast : Mnr.slice b (b.length / 8 * 8) (b.length / 8 * 8 + b.length % 8) = last at hs
    have he := Mnr.encBlock_length last
    rw [hs] at he
    have h11 : 0 < Mnr.blockSizes.getD (b.length % 8) 0 ∧ Mnr.blockSizes.getD (b.length % 8) 0 < 11 := by
      have : ∀ k : Fin 8, 0 < k.1 → 0 < Mnr.blockSizes.getD k.1 0 ∧ Mnr.blockSizes.getD k.1 0 < 11 := by decide
      exact this ⟨b.length % 8, by omega⟩ h
    have htot : (Mnr.encBlocks b 0 (b.length / 8) ++ Mnr.encBlock last).length =
        b.length / 8 * 11 + Mnr.blockSizes.getD (b.length % 8) 0 := by rw [List.length_append, hl, he]
    rw [Mnr.decodeText_eq, htot, mod_aux h11.2, div_aux h11.2, (Mnr.sizes_idx _ (by omega)).1]
    simp only [h11.1, gt_iff_lt, if_true]
    have := Mnr.dec_encBlocks b (b.length / 8) 0 [] (Mnr.encBlock last) rfl hb
    simp only [List.nil_append] at this
    rw [this]
    have h2 := Mnr.slice_append (Mnr.encBlocks b 0 (b.length / 8)) (Mnr.encBlock last) [] (b.length / 8 * 11) _ hl he
    rw [List.append_nil] at h2
    simp only [h2, Mnr.decBlock_encBlock last (by omega) (by omega), Option.map_some, Option.some.injEq]
    rw [← hlast]
    have := Mnr.slice_split b 0 (b.length / 8 * 8) (b.length % 8)
    simp only [Nat.zero_add, Nat.zero_mul] at this ⊢
    rw [← this]
    simp [Mnr.slice, Nat.div_add_mod']
  · rw [if_neg h, List.append_nil, Mnr.decodeText_eq, hl, Nat.mul_mod_left, Nat.mul_div_cancel _ (by omega)]
    have := Mnr.dec_encBlocks b (b.length / 8) 0 [] [] rfl hb
    simp only [List.nil_append, List.append_nil] at this
    rw [this]
    simp only [Mnr.blockSizes, List.idxOf?, List.findIdx?, List.findIdx?.go, beq_self_eq_true]
    simp only [Nat.zero_mul, Nat.zero_add, Mnr.slice, List.drop_zero, Nat.sub_zero]
    rw [List.take_of_length_le (by omega)]
    simp

/-- The same through the `data_bin` argument, which addresses use. -/
theorem C23_roundtrip_bin (b : Bytes) (h : b ≠ []) : Mnr.decodeBin (Mnr.encode b) = some b := by
  have := C23_roundtrip b
  unfold Mnr.decodeBin
  cases he : Mnr.encode b with
  | nil =>
    rw [he] at this
    simp [Mnr.decodeText] at this
    exact absurd this h
  | cons x xs => simpa [he] using this

/-- The encoding has no failure case and its length depends only on the length of the input. -/
theorem C23_length (b : Bytes) : (Mnr.encode b).length = b.length / 8 * 11 + Mnr.blockSizes.getD (b.length % 8) 0 := by
  rw [Mnr.encode_eq, List.length_append, Mnr.encBlocks_length _ _ _ (by omega)]
  congr 1
  by_cases h : b.length % 8 > 0
  · rw [if_pos h, Mnr.encBlock_length, Mnr.slice_length _ _ _ (by omega)]
  · rw [if_neg h]
    have : b.length % 8 = 0 := by omega
    rw [this]; rfl

/-- Different byte strings have different texts. -/
theorem C23_injective (a b : Bytes) (h : Mnr.encode a = Mnr.encode b) : a = b := by
  have := C23_roundtrip a
  rw [h, C23_roundtrip b] at this
  simpa using this.symm

example : Mnr.decodeText (Mnr.encode [0, 0, 255, 3, 4, 5, 6, 7, 8, 9]) = some [0, 0, 255, 3, 4, 5, 6, 7, 8, 9] := by decide +kernel

/-- The decoder rejects the empty argument on the `data_bin` path. -/
theorem C23_empty_bin : Mnr.decodeBin [] = none := rfl

/-- C24 is false: "jpXCZedGfVR" (the digits of 2^64) passes the overflow check `product > 2**64` and decodes like "11111111111". -/
theorem C24_false : Mnr.decodeText Mnr.badBlock = some [0, 0, 0, 0, 0, 0, 0, 0] ∧
    Mnr.decodeText (List.replicate 11 (char 0)) = some [0, 0, 0, 0, 0, 0, 0, 0] ∧ Mnr.badBlock ≠ List.replicate 11 (char 0) := by
  decide +kernel

theorem decBlocks_congr (e e' : Bytes) (k s : Nat)
    (h : ∀ i, s ≤ i → i < s + k → Mnr.decBlock (Mnr.slice e (i * 11) (i * 11 + 11)) = Mnr.decBlock (Mnr.slice e' (i * 11) (i * 11 + 11))) :
    Mnr.decBlocks e s k = Mnr.decBlocks e' s k := by
  induction k generalizing s with
  | zero => rfl
  | succ k ih => rw [Mnr.decBlocks, Mnr.decBlocks, h s (by omega) (by omega), ih (s + 1) (fun i h1 h2 => h i (by omega) (by omega))]

/-- C24 is false for every text that has a zero block: replacing it gives a second text with the same bytes. -/
theorem C24_false_everywhere (pre post : Bytes) (k : Nat) (hp : pre.length = k * 11) :
    Mnr.decodeText (pre ++ (Mnr.badBlock ++ post)) = Mnr.decodeText (pre ++ (List.replicate 11 (char 0) ++ post)) := by
  have hb : Mnr.badBlock.length = 11 := rfl
  have hr : (List.replicate 11 (char 0)).length = 11 := rfl
  have hlen : (pre ++ (Mnr.badBlock ++ post)).length = (pre ++ (List.replicate 11 (char 0) ++ post)).length := by
    simp only [List.length_append, hb, hr]
  have hslice : ∀ a n, k * 11 + 11 ≤ a ∨ a + n ≤ k * 11 → Mnr.slice (pre ++ (Mnr.badBlock ++ post)) a (a + n) =
      Mnr.slice (pre ++ (List.replicate 11 (char 0) ++ post)) a (a + n) := by
    intro a n h
    simp only [Mnr.slice, Nat.add_sub_cancel_left]
    rcases h with h | h
    · rw [List.drop_append, List.drop_append, List.drop_append, List.drop_append, hb, hr,
        List.drop_of_length_le (l := Mnr.badBlock) (by rw [hb]; omega), List.drop_of_length_le (l := List.replicate 11 (char 0)) (by rw [hr]; omega)]
    · rw [List.drop_append_of_le_length (by omega), List.drop_append_of_le_length (by omega),
        List.take_append_of_le_length (by simp; omega), List.take_append_of_le_length (by simp; omega)]
  rw [Mnr.decodeText_eq, Mnr.decodeText_eq, hlen]
  have h1 := decBlocks_congr (pre ++ (Mnr.badBlock ++ post)) (pre ++ (List.replicate 11 (char 0) ++ post))
    ((pre ++ (List.replicate 11 (char 0) ++ post)).length / 11) 0 (by
      intro i _ _
      by_cases hi : i = k
      · subst hi
        rw [Mnr.slice_append _ _ _ _ _ hp hb, Mnr.slice_append _ _ _ _ _ hp hr]
        decide +kernel
      · rw [hslice _ _ (by omega)])
  have hdiv : k + 1 ≤ (pre ++ (List.replicate 11 (char 0) ++ post)).length / 11 := by
    rw [Nat.le_div_iff_mul_le (by omega)]
    simp only [List.length_append, hr]; omega
  rw [h1, hslice _ _ (by omega)]

/-- C24, partial: apart from that one block, decoding is canonical: a text that decodes and has no full block "jpXCZedGfVR" is the
encoding of the result. Missing: texts with that block (`C24_false`). -/
theorem C24_canonical_partial (t b : Bytes) (h : Mnr.decodeText t = some b)
    (hbad : ∀ i, i < t.length / 11 → Mnr.slice t (i * 11) (i * 11 + 11) ≠ Mnr.badBlock) : Mnr.encode b = t := by
  rw [Mnr.decodeText_eq] at h
  split at h
  · cases h
  · rename_i size hsz
    split at h
    · cases h
    · rename_i b1 hb1
      have hl := Mnr.decBlocks_length (by omega) hb1
      have he := fun post => Mnr.enc_decBlocks (by omega) hb1 (fun i _ h2 => hbad i (by omega)) [] post rfl
      have hsp := Mnr.slice_split t 0 (t.length / 11 * 11) (t.length % 11)
      have hfull : Mnr.slice t 0 (0 + (t.length / 11 * 11 + t.length % 11)) = t := by simp [Mnr.slice, Nat.div_add_mod']
      by_cases hm : t.length % 11 > 0
      · rw [if_pos hm] at h
        have hs : (Mnr.slice t (t.length / 11 * 11) (t.length / 11 * 11 + t.length % 11)).length = t.length % 11 :=
          Mnr.slice_length _ _ _ (by omega)
        cases hd : Mnr.decBlock (Mnr.slice t (t.length / 11 * 11) (t.length / 11 * 11 + t.length % 11)) with
        | none => rw [hd] at h; cases h
        | some b2 =>
          rw [hd] at h
          simp only [Option.map_some, Option.some.injEq] at h
          subst h
          have hb2 := Mnr.decBlock_length (by rw [hs]; exact hsz) hd
          obtain ⟨z1, z2⟩ := Mnr.idx_size hsz
          have hz : 0 < size ∧ size < 8 := by
            constructor
            · rcases Nat.eq_zero_or_pos size with e | e
              · subst e; simp [Mnr.blockSizes] at z2; omega
              · exact e
            · rcases Nat.lt_or_eq_of_le z1 with e | e
              · exact e
              · subst e
                have : t.length % 11 < 11 := Nat.mod_lt _ (by omega)
                simp [Mnr.blockSizes] at z2; omega
          have henc := Mnr.encBlock_decBlock hd (by
            intro e
            have := congrArg List.length e
            rw [hs] at this
            have : t.length % 11 < 11 := Nat.mod_lt _ (by omega)
            have : Mnr.badBlock.length = 11 := rfl
            omega)
          rw [Mnr.encode_eq, List.length_append, hl, hb2, mod_aux hz.2, div_aux hz.2, if_pos hz.1]
          have h2 := Mnr.slice_append b1 b2 [] (t.length / 11 * 8) size hl hb2
          rw [List.append_nil] at h2
          rw [h2, henc]
          have h3 := he b2
          simp only [List.nil_append, Nat.zero_mul, Nat.zero_add] at h3
          simp only [Nat.zero_add] at hsp hfull
          rw [h3, ← hsp, hfull]
      · rw [if_neg hm] at h
        injection h with h
        subst h
        have : t.length % 11 = 0 := by omega
        rw [Mnr.encode_eq, hl, Nat.mul_mod_left, Nat.mul_div_cancel _ (by omega), if_neg (by omega), List.append_nil]
        have h3 := he []
        simp only [List.nil_append, Nat.zero_mul, Nat.zero_add, List.append_nil] at h3
        rw [h3]
        simp only [Mnr.slice]
        rw [List.drop_zero, List.take_of_length_le (by omega)]

example : Mnr.decodeText (Mnr.encode [1, 2, 3, 4, 5, 6, 7, 8, 9]) = some [1, 2, 3, 4, 5, 6, 7, 8, 9] ∧
    Mnr.slice (Mnr.encode [1, 2, 3, 4, 5, 6, 7, 8, 9]) 0 11 ≠ Mnr.badBlock := by decide +kernel

/-- Two texts without that block that decode to the same bytes are equal. -/
theorem C24_injective_partial (t t' b : Bytes) (h : Mnr.decodeText t = some b) (h' : Mnr.decodeText t' = some b)
    (hb : ∀ i, i < t.length / 11 → Mnr.slice t (i * 11) (i * 11 + 11) ≠ Mnr.badBlock)
    (hb' : ∀ i, i < t'.length / 11 → Mnr.slice t' (i * 11) (i * 11 + 11) ≠ Mnr.badBlock) : t = t' :=
  (C24_canonical_partial t b h hb).symm.trans (C24_canonical_partial t' b h' hb')

/-! ## Bitcoin -/

theorem natsLead (w : Bytes) (h : ∀ d, w.head? = some d → d ≠ 0) : Lead (nats w) := by
  intro d hd
  cases w with
  | nil => simp [nats] at hd
  | cons x w =>
    simp [nats] at hd
    have := h x rfl
    intro e
    apply this
    rw [← hd] at e
    exact UInt8.toNat_inj.1 (by simpa using e)

theorem textLead (ds : List Nat) (hd : ∀ d ∈ ds, d < 58) (h : Lead ds) : ∀ c, (text ds).head? = some c → c ≠ char 0 := by
  intro c hc
  cases ds with
  | nil => simp [text] at hc
  | cons d ds =>
    simp [text] at hc
    have := h d rfl
    rw [← hc]
    intro e
    exact this (char_inj (hd d (by simp)) (by omega) e)

/-- C27. Decoding the Bitcoin base58 text of any byte string, leading zeros included, returns it. -/
theorem C27_roundtrip (v : Bytes) : Btc.decode (Btc.encode v) = some v := by
  obtain ⟨h1, h2⟩ := Btc.strip_spec (0 : UInt8) v
  unfold Btc.encode
  generalize hw : v.dropWhile (· == 0) = w at h1 h2
  generalize hn : v.length - w.length = n at h1
  simp only [hn]
  rw [Btc.accLoop_eq, List.reverse_reverse, Nat.zero_add, Nat.one_mul, Btc.encodeInt_eq, List.append_nil]
  have hlt := natDigits_lt (by omega : 1 < 58) (ofBE 256 (nats w))
  have hld := natDigits_lead (by omega : 1 < 58) (ofBE 256 (nats w))
  unfold Btc.decode
  rw [Btc.strip_of _ _ _ (textLead _ hlt hld)]
  have : Btc.decodeInt (text (natDigits 58 (by omega) (ofBE 256 (nats w)))) 0 = some (ofBE 256 (nats w)) := by
    rw [Btc.decodeInt_iff]
    exact ⟨_, hlt, rfl, (ofBE_natDigits (by omega) _).symm⟩
  simp only [this, List.length_append, List.length_replicate, Nat.add_sub_cancel]
  rw [Btc.decLoop_eq, natDigits_ofBE (by omega) _ (nats_lt w) (natsLead w h2)]
  simp only [ofNats_nats, List.nil_append, List.reverse_reverse]
  rw [← h1]

/-- C27. Every text that decodes is the encoding of its result: two texts never decode to the same bytes. -/
theorem C27_canonical (t v : Bytes) (h : Btc.decode t = some v) : Btc.encode v = t := by
  obtain ⟨h1, h2⟩ := Btc.strip_spec (char 0) t
  unfold Btc.decode at h
  generalize hw : t.dropWhile (· == char 0) = w at h1 h2 h
  generalize hn : t.length - w.length = n at h1 h
  simp only [hn] at h
  split at h
  · cases h
  · rename_i acc hacc
    obtain ⟨ds, d1, d2, d3⟩ := (Btc.decodeInt_iff _ _ _).1 hacc
    injection h with h
    rw [Btc.decLoop_eq, List.nil_append, List.reverse_reverse] at h
    have hlead : Lead ds := by
      intro d hd e
      cases ds with
      | nil => simp at hd
      | cons x ds =>
        simp at hd; subst hd; subst e
        exact h2 (char 0) (by rw [d2]; simp [text]) rfl
    have hacc' : acc = ofBE 58 ds := d3
    have hbl : ∀ d, (ofNats (natDigits 256 (by omega) acc)).head? = some d → d ≠ 0 := by
      intro d hd e
      have h3 := natDigits_lead (by omega : 1 < 256) acc
      have h4 := natDigits_lt (by omega : 1 < 256) acc
      cases hds : natDigits 256 (by omega) acc with
      | nil => rw [hds] at hd; simp [ofNats] at hd
      | cons x xs =>
        rw [hds] at hd h3 h4
        simp [ofNats] at hd
        have := h3 x rfl
        have hx := h4 x (by simp)
        rw [e] at hd
        have := congrArg UInt8.toNat hd
        simp [Nat.mod_eq_of_lt hx] at this
        omega
    unfold Btc.encode
    rw [← h, Btc.strip_of _ _ _ hbl]
    simp only [List.length_append, List.length_replicate, Nat.add_sub_cancel]
    rw [Btc.accLoop_eq, List.reverse_reverse, nats_ofNats _ (natDigits_lt (by omega) _), ofBE_natDigits, Nat.zero_add, Nat.one_mul,
      Btc.encodeInt_eq, hacc', natDigits_ofBE (by omega) ds d1 hlead, List.append_nil, ← d2, ← h1]

/-- C27, with checksum. The texts that pass are exactly the encodings: for any 4-byte or longer digest. -/
theorem C27_check (H : Bytes → Bytes) (hH : ∀ x, 4 ≤ (H x).length) (t v : Bytes) :
    Btc.decodeCheck H t = some v ↔ t = Btc.encodeCheck H v := by
  have h4 : ∀ x, ((H x).take 4).length = 4 := fun x => by simp [hH x]
  constructor
  · intro h
    unfold Btc.decodeCheck at h
    split at h
    · cases h
    · rename_i r hr
      simp only at h
      split at h
      · cases h
      · rename_i hc
        injection h with h
        have hc' : r.drop (r.length - 4) = (H v).take 4 := by rw [← h]; exact not_not.1 hc
        have := List.take_append_drop (r.length - 4) r
        rw [h, hc'] at this
        unfold Btc.encodeCheck
        rw [this, C27_canonical t r hr]
  · rintro rfl
    unfold Btc.decodeCheck Btc.encodeCheck
    rw [C27_roundtrip]
    have hl : (v ++ (H v).take 4).length - 4 = v.length := by rw [List.length_append, h4]; omega
    simp only [hl, List.take_left, List.drop_left]
    simp

example : Btc.decode (Btc.encode [0, 0, 1, 2, 255]) = some [0, 0, 1, 2, 255] ∧ (Btc.encode [0, 0, 1, 2, 255]).length = 5 := by decide +kernel
example : Btc.decodeCheck (fun x => x ++ [1, 2, 3, 4]) (Btc.encodeCheck (fun x => x ++ [1, 2, 3, 4]) [7]) = some [7] := by decide +kernel
example : Btc.decode [48] = none := by decide +kernel

end Verif.B58

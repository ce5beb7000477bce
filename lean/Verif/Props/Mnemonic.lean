import Verif.Model.Mnemonic
import Verif.Lemmas.Digits

/-! C28, C29: seed words. -/

namespace Verif.Mnemonic
open Verif Verif.Dig

def increasing : List Nat → Bool
  | [] => true
  | x :: xs => (match xs with | [] => true | y :: _ => Nat.blt x y) && increasing xs

theorem increasing_words : increasing words = true := by decide +kernel

theorem words_length : words.length = n := by decide +kernel

theorem increasing_lt {l : List Nat} (h : increasing l = true) : l.Pairwise (· < ·) := by
  induction l with
  | nil => exact List.Pairwise.nil
  | cons x xs ih =>
    simp only [increasing, Bool.and_eq_true] at h
    have ih := ih h.2
    refine List.Pairwise.cons ?_ ih
    cases xs with
    | nil => simp
    | cons y ys =>
      have hxy : x < y := by
        have := h.1
        simpa [Nat.blt_eq] using this
      intro z hz
      rcases List.mem_cons.1 hz with rfl | hz
      · exact hxy
      · exact Nat.lt_trans hxy ((List.pairwise_cons.1 ih).1 z hz)

theorem words_nodup : words.Nodup := (increasing_lt increasing_words).imp (fun h => Nat.ne_of_lt h)

theorem index_word (w : Nat) (h : w < n) : words.idxOf? (words.getD w 0) = some w := by
  have hl : w < words.length := by rw [words_length]; exact h
  have e : words.getD w 0 = words[w] := by simp [List.getD_eq_getElem?_getD, List.getElem?_eq_getElem hl]
  rw [e, List.idxOf?, List.findIdx?_eq_some_iff_getElem]
  refine ⟨hl, by simp, ?_⟩
  intro j hj
  simp only [beq_iff_eq]
  intro he
  have := List.pairwise_iff_getElem.1 (increasing_lt increasing_words) j w (by omega) hl hj
  omega

theorem hexNat_eq (x : Nat) : hexNat x = natDigits 16 (by omega) x := by
  induction x using Nat.strongRecOn with
  | ind x ih =>
    rw [hexNat]
    by_cases h : x = 0
    · subst h; rw [if_pos rfl, natDigits_zero]
    · rw [if_neg h, natDigits_pos (by omega) h, ih _ (Nat.div_lt_self (by omega) (by omega))]

/-- `%08x` of a 32-bit number gives its eight digits. -/
theorem fmt08_eq (x : Nat) (h : x < 16 ^ 8) : fmt08 x = toBE 16 8 x := by
  have hlt := natDigits_lt (by omega : 1 < 16) x
  have hval := ofBE_natDigits (by omega : 1 < 16) x
  have hlead := natDigits_lead (by omega : 1 < 16) x
  unfold fmt08
  rw [hexNat_eq]
  generalize natDigits 16 _ x = l at *
  have hlen : l.length ≤ 8 := by
    rcases Nat.lt_or_ge 8 l.length with hc | hc
    · exfalso
      cases l with
      | nil => simp at hc
      | cons d l =>
        have hd := hlead d rfl
        rw [ofBE_cons] at hval
        simp only [List.length_cons] at hc
        have : 16 ^ 8 ≤ 16 ^ l.length := Nat.pow_le_pow_right (by omega) (by omega)
        have : 1 * 16 ^ l.length ≤ d * 16 ^ l.length := Nat.mul_le_mul_right _ (by omega)
        omega
    · exact hc
  have hrep : ofBE 16 (List.replicate (8 - l.length) 0 ++ l) = x := by
    rw [ofBE_append, hval]
    have : ofBE 16 (List.replicate (8 - l.length) 0) = 0 := by
      generalize 8 - l.length = k
      induction k with
      | zero => rfl
      | succ k ih => rw [List.replicate_succ, ofBE_cons, ih]; simp
    rw [this]; omega
  have h8 : (List.replicate (8 - l.length) 0 ++ l).length = 8 := by simp; omega
  have := toBE_ofBE (by omega : 0 < 16) (List.replicate (8 - l.length) 0 ++ l) (by
    intro d hd
    rcases List.mem_append.1 hd with hd | hd
    · rw [List.mem_replicate] at hd; omega
    · exact hlt d hd)
  rw [hrep, h8] at this
  exact this.symm

theorem swap_swap (l : List Nat) (h : l.length = 8) : swap (swap l) = l ∧ (swap l).length = 8 := by
  match l, h with
  | [a, b, c, d, e, f, g, i], _ => exact ⟨rfl, rfl⟩

theorem mem_swap {l : List Nat} {P : Nat → Prop} (h : ∀ d ∈ l, P d) : ∀ d ∈ swap l, P d := by
  intro d hd
  simp only [swap, List.mem_append] at hd
  rcases hd with hd | hd | hd | hd
  · exact h d (List.mem_of_mem_drop (List.mem_of_mem_take hd))
  · exact h d (List.mem_of_mem_drop (List.mem_of_mem_take hd))
  · exact h d (List.mem_of_mem_drop (List.mem_of_mem_take hd))
  · exact h d (List.mem_of_mem_take hd)

theorem sub_aux (a w : Nat) (hw : w < n) : (n + (a + w) % n - w) % n = a % n := by
  simp only [n] at *
  omega

/-- The three words determine the 32-bit number. -/
theorem triple (x : Nat) (hx : x < 16 ^ 8) :
    x % n + n * ((n + (x / n + x % n) % n - x % n) % n) +
      n * n * ((n + (x / n / n + (x / n + x % n) % n) % n - (x / n + x % n) % n) % n) = x := by
  have hn : n = 1626 := rfl
  have h1 : x % n < n := Nat.mod_lt _ (by omega)
  have h2 : (x / n + x % n) % n < n := Nat.mod_lt _ (by omega)
  rw [sub_aux _ _ h1, sub_aux _ _ h2]
  have h3 : x / n / n < n := by rw [hn]; omega
  rw [Nat.mod_eq_of_lt h3]
  have e1 := Nat.div_add_mod x n
  have e2 := Nat.div_add_mod (x / n) n
  generalize x / n / n = c at *
  generalize x / n % n = b at *
  generalize x % n = a at *
  rw [← e1, ← e2, Nat.mul_add, Nat.mul_assoc]
  omega

theorem groups_roundtrip (k : Nat) (hex : List Nat) (hl : hex.length = 8 * k) (hd : ∀ d ∈ hex, d < 16) (tail : List Nat) :
    decodeGroups k (encodeGroups k hex ++ tail) = some hex := by
  induction k generalizing hex with
  | zero => rw [List.length_eq_zero_iff.1 (by omega : hex.length = 0)]; rfl
  | succ k ih =>
    have h8 : (hex.take 8).length = 8 := by simp; omega
    obtain ⟨s1, s2⟩ := swap_swap _ h8
    have hds := mem_swap (l := hex.take 8) (P := (· < 16)) (fun d h => hd d (List.mem_of_mem_take h))
    have hp : parseHex (swap (hex.take 8)) = ofBE 16 (swap (hex.take 8)) := rfl
    have hx : ofBE 16 (swap (hex.take 8)) < 16 ^ 8 := by have := ofBE_lt _ hds; rwa [s2] at this
    have hn : 0 < n := by decide
    simp only [encodeGroups, hp, List.cons_append, List.nil_append, decodeGroups, index_word _ (Nat.mod_lt _ hn)]
    rw [triple _ hx, fmt08_eq _ hx, ih (hex.drop 8) (by simp; omega) (fun d h => hd d (List.mem_of_mem_drop h))]
    have := toBE_ofBE (by omega : 0 < 16) _ hds
    rw [s2] at this
    rw [this, s1]
    simp

theorem hexlify_length (m : Bytes) : (hexlify m).length = 2 * m.length := by
  induction m with
  | nil => rfl
  | cons b m ih => simp [hexlify, ih]; omega

theorem hexlify_lt (m : Bytes) : ∀ d ∈ hexlify m, d < 16 := by
  induction m with
  | nil => simp [hexlify]
  | cons b m ih =>
    intro d hd
    simp only [hexlify, List.mem_cons] at hd
    have := b.toNat_lt
    rcases hd with rfl | rfl | hd
    · omega
    · omega
    · exact ih d hd

theorem groups_length (k : Nat) (hex : List Nat) : (encodeGroups k hex).length = 3 * k := by
  induction k generalizing hex with
  | zero => rfl
  | succ k ih => simp [encodeGroups, ih]; omega

/-- The seed words of Monero: every four bytes, read as a little-endian number `x`, give the words number `x`, `x / n + x` and
`x / n² + x / n + x` modulo the size `n` of the list. -/
def standard : Bytes → List Nat
  | b0 :: b1 :: b2 :: b3 :: rest =>
    let x := b0.toNat + 256 * b1.toNat + 256 ^ 2 * b2.toNat + 256 ^ 3 * b3.toNat
    words.getD (x % 1626) 0 :: words.getD ((x / 1626 + x) % 1626) 0 :: words.getD ((x / 1626 ^ 2 + x / 1626 + x) % 1626) 0 :: standard rest
  | _ => []

/-- C28. The words are the standard ones. -/
theorem C28_standard (crc : List Nat → Nat) (m : Bytes) : encode crc m false = some (standard m) := by
  have key : ∀ (k : Nat) (m : Bytes), m.length / 4 = k → encodeGroups k (hexlify m) = standard m := by
    intro k
    induction k with
    | zero =>
      intro m h
      match m, h with
      | [], _ => rfl
      | [_], _ => rfl
      | [_, _], _ => rfl
      | [_, _, _], _ => rfl
      | _ :: _ :: _ :: _ :: _, h => simp only [List.length_cons] at h; omega
    | succ k ih =>
      intro m h
      match m, h with
      | [], h => simp at h
      | [_], h => simp at h
      | [_, _], h => simp at h
      | [_, _, _], h => simp at h
      | b0 :: b1 :: b2 :: b3 :: rest, h =>
        have hx : parseHex (swap ((hexlify (b0 :: b1 :: b2 :: b3 :: rest)).take 8)) =
            b0.toNat + 256 * b1.toNat + 256 ^ 2 * b2.toNat + 256 ^ 3 * b3.toNat := by
          simp only [hexlify, List.take_succ_cons, List.take_zero, swap, List.drop_succ_cons, List.drop_zero, parseHex, List.cons_append,
            List.nil_append, List.foldl_cons, List.foldl_nil]
          omega
        have hd : (hexlify (b0 :: b1 :: b2 :: b3 :: rest)).drop 8 = hexlify rest := rfl
        rw [encodeGroups, hx, hd, ih rest (by simp only [List.length_cons] at h; omega)]
        simp only [standard, n]
        generalize b0.toNat + 256 * b1.toNat + 256 ^ 2 * b2.toNat + 256 ^ 3 * b3.toNat = x
        have e2 : (x / 1626 + x % 1626) % 1626 = (x / 1626 + x) % 1626 := by omega
        have e3 : (x / 1626 / 1626 + (x / 1626 + x) % 1626) % 1626 = (x / 1626 ^ 2 + x / 1626 + x) % 1626 := by
          rw [Nat.div_div_eq_div_mul]; omega
        rw [e2, e3]
        rfl
  have hl := hexlify_length m
  unfold encode
  simp only [Bool.false_eq_true, if_false]
  rw [key _ m (by omega)]

example : standard [1, 2, 3, 4, 5] ≠ [] := by decide +kernel

/-- C28. For every seed whose length is a multiple of four bytes (with checksum word: not empty), the words decode to the seed (as hex
digits), with and without checksum word; the seed of 32 bytes has 24 words (25 with checksum). -/
theorem C28_roundtrip (crc : List Nat → Nat) (pre : Nat → Nat) (m : Bytes) (k : Nat) (hm : m.length = 4 * k) (checksum : Bool)
    (hne : checksum = true → m ≠ []) :
    ∃ ws, encode crc m checksum = some ws ∧ decode crc pre ws = some (hexlify m) ∧
      ws.length = 3 * k + (if checksum then 1 else 0) := by
  have hl := hexlify_length m
  have hk : (hexlify m).length / 8 = k := by omega
  have hg := groups_length k (hexlify m)
  unfold encode
  simp only [hk]
  cases checksum with
  | false =>
    simp only [Bool.false_eq_true, if_false]
    refine ⟨_, rfl, ?_, by omega⟩
    unfold decode
    rw [if_neg (by decide), hg, Nat.mul_div_cancel_left _ (by omega)]
    have := groups_roundtrip k (hexlify m) (by omega) (hexlify_lt m) []
    rw [List.append_nil] at this
    exact this
  | true =>
    have hk0 : k ≠ 0 := by
      intro e
      exact hne rfl (List.length_eq_zero_iff.1 (by omega))
    rw [if_pos rfl, if_neg (by omega)]
    refine ⟨_, rfl, ?_, by simp [hg]⟩
    unfold decode
    rw [if_neg (by decide), List.length_append, hg]
    have : (3 * k + 1) / 3 = k := by omega
    rw [List.length_singleton, this]
    exact groups_roundtrip k (hexlify m) (by omega) (hexlify_lt m) _

example : ∃ ws, encode (fun _ => 7) [1, 2, 3, 255, 4, 5, 6, 7] true = some ws ∧ ws.length = 7 := by
  obtain ⟨ws, h, _, h2⟩ := C28_roundtrip (fun _ => 7) id [1, 2, 3, 255, 4, 5, 6, 7] 2 rfl true (by simp)
  exact ⟨ws, h, h2⟩

/-- Other lengths: the bytes behind the last full group of four are dropped without an error. -/
theorem C28_other_lengths (crc : List Nat → Nat) (m : Bytes) (k : Nat) (hm : m.length / 4 = k) :
    encode crc m false = some (encodeGroups k (hexlify m)) ∧ (encodeGroups k (hexlify m)).length = 3 * k := by
  have hl := hexlify_length m
  have : (hexlify m).length / 8 = k := by omega
  simp [encode, this, groups_length]

/-- C29 is false: the checksum word is not looked at. Decoding `3k` words and one arbitrary further word (even one that is not in the
word list) gives the same result as decoding the `3k` words. -/
theorem C29_false (crc : List Nat → Nat) (pre : Nat → Nat) (ws : List Nat) (k : Nat) (hw : ws.length = 3 * k) (last : Nat) :
    decode crc pre (ws ++ [last]) = decode crc pre ws := by
  have aux : ∀ k (l m : List Nat), l.length = 3 * k → decodeGroups k (l ++ m) = decodeGroups k l := by
    intro k
    induction k with
    | zero => intro l m h; rfl
    | succ k ih =>
      intro l m h
      match l, h with
      | a :: b :: c :: l, h =>
        have hl : l.length = 3 * k := by simp at h; omega
        simp only [List.cons_append, decodeGroups, ih l m hl]
  unfold decode
  rw [if_neg (by decide), if_neg (by decide), List.length_append, hw, List.length_singleton, show (3 * k + 1) / 3 = k by omega,
    Nat.mul_div_cancel_left _ (by omega), aux k ws [last] hw]

/-- Concretely: a seed with a wrong checksum word is accepted, whatever `crc` is. -/
theorem C29_false_concrete (crc : List Nat → Nat) (pre : Nat → Nat) : ∃ ws last, encode crc [1, 2, 3, 4] true = some ws ∧ last ∉ words ∧
    decode crc pre (ws.dropLast ++ [last]) = some (hexlify [1, 2, 3, 4]) := by
  obtain ⟨ws, h1, h2, h3⟩ := C28_roundtrip crc pre [1, 2, 3, 4] 1 rfl true (by simp)
  refine ⟨ws, 0, h1, by decide +kernel, ?_⟩
  have hl : ws.dropLast.length = 3 * 1 := by simp [h3]
  rw [C29_false crc pre _ 1 hl]
  obtain ⟨x, hx⟩ : ∃ x, ws.dropLast ++ [x] = ws := by
    have : ws ≠ [] := by intro e; simp [e] at h3
    exact ⟨_, List.dropLast_concat_getLast this⟩
  rw [← C29_false crc pre _ 1 hl x, hx, h2]

/-- Also not rejected: three words whose number does not fit into 32 bits. They decode to the number divided by 16 (the last digit of
`%08x` is cut off). -/
theorem C28_overflow_accepted : decode (fun _ => 0) id [words.getD 1625 0, words.getD 1624 0, words.getD 1623 0] =
    some (swap (toBE 16 8 (4298942375 / 16))) ∧ 4298942375 ≥ 2 ^ 32 := by
  decide +kernel

end Verif.Mnemonic

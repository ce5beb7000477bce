import Verif.Model.B58
import Verif.Lemmas.Digits

namespace Verif.B58
open Verif Verif.Dig

theorem digit_char (d : Nat) (h : d < 58) : digit (char d) = some d := by
  have : ∀ d : Fin 58, digit (char d) = some d.1 := by decide
  exact this ⟨d, h⟩

theorem digit_some {c : UInt8} {d : Nat} (h : digit c = some d) : d < 58 ∧ c = char d := by
  have : ∀ c : Fin 256, ∀ d, digit (UInt8.ofNat c) = some d → d < 58 ∧ UInt8.ofNat c = char d := by
    have : ∀ c : Fin 256, (match digit (UInt8.ofNat c) with | none => true | some d => decide (d < 58 ∧ UInt8.ofNat c = char d)) = true := by
      decide +kernel
    intro c d hd
    have := this c
    rw [hd] at this
    simpa using this
  have := this ⟨c.toNat, c.toNat_lt⟩ d
  simp only [UInt8.ofNat_toNat] at this
  exact this h

/-- The text of a digit list. -/
def text (ds : List Nat) : Bytes := ds.map char

theorem char_inj {a b : Nat} (ha : a < 58) (hb : b < 58) (h : char a = char b) : a = b := by
  have := digit_char a ha
  rw [h, digit_char b hb] at this
  simpa using this.symm

theorem text_inj {a b : List Nat} (ha : ∀ d ∈ a, d < 58) (hb : ∀ d ∈ b, d < 58) (h : text a = text b) : a = b := by
  induction a generalizing b with
  | nil => cases b with
    | nil => rfl
    | cons _ _ => simp [text] at h
  | cons x a ih => cases b with
    | nil => simp [text] at h
    | cons y b =>
      simp only [text, List.map_cons, List.cons.injEq] at h
      rw [char_inj (ha x (by simp)) (hb y (by simp)) h.1, ih (fun d hd => ha d (by simp [hd])) (fun d hd => hb d (by simp [hd])) h.2]

namespace Mnr

theorem uint8beTo64_eq (data : Bytes) : uint8beTo64 data = ofBE 256 (nats data) := by
  simp [uint8beTo64, ofBE, nats, List.foldl_map]

theorem uint64To8be_eq (i num : Nat) (x tl : Bytes) (hx : x.length = i) :
    uint64To8be i num (x ++ tl) = ofNats (toBE 256 i num) ++ tl := by
  induction i generalizing num x tl with
  | zero => rw [List.length_eq_zero_iff.1 hx]; simp [uint64To8be, toBE, ofNats]
  | succ i ih =>
    have hne : x ≠ [] := by intro e; simp [e] at hx
    have e := List.dropLast_concat_getLast hne
    generalize x.dropLast = m at e
    generalize x.getLast hne = d at e
    subst e
    have hm : m.length = i := by simpa using hx
    rw [uint64To8be, List.append_assoc, List.set_append_right _ _ (by omega), show i - m.length = 0 by omega]
    simp only [List.cons_append, List.nil_append, List.set_cons_zero]
    rw [ih _ m _ hm]
    simp [toBE, ofNats]

theorem encLoop_eq (k n : Nat) (pre post : Bytes) (h : n < 58 ^ k) :
    encLoop n (pre.length + (k - 1)) (pre ++ (List.replicate k (char 0) ++ post)) = pre ++ (text (toBE 58 k n) ++ post) := by
  induction k generalizing n post with
  | zero =>
    have : n = 0 := by simpa using h
    subst this
    rw [encLoop]; simp [toBE, text]
  | succ k ih =>
    rw [encLoop]
    by_cases h0 : n = 0
    · subst h0
      simp [toBE_zero, text]
    · rw [if_neg h0]
      have hk : k + 1 - 1 = k := by omega
      rw [hk, List.set_append_right _ _ (by omega), show pre.length + k - pre.length = k by omega,
        List.replicate_succ', List.append_assoc, List.set_append_right _ _ (by simp), List.length_replicate, Nat.sub_self]
      simp only [List.cons_append, List.nil_append, List.set_cons_zero]
      have h2 : n / 58 < 58 ^ k := Nat.div_lt_of_lt_mul (by rw [Nat.pow_succ, Nat.mul_comm] at h; exact h)
      by_cases hk0 : k = 0
      · subst hk0
        have : n / 58 = 0 := by simpa using h2
        rw [this, encLoop]; simp [toBE, text]
      · rw [show pre.length + k - 1 = pre.length + (k - 1) by omega, ih (n / 58) _ h2]
        simp [toBE, text]

/-- Encoding of one block. -/
def encBlock (data : Bytes) : Bytes := text (toBE 58 (blockSizes.getD data.length 0) (ofBE 256 (nats data)))

theorem pow_le (k : Nat) (h : k ≤ 8) : 256 ^ k ≤ 58 ^ blockSizes.getD k 0 := by
  have : ∀ k : Fin 9, 256 ^ k.1 ≤ 58 ^ blockSizes.getD k.1 0 := by decide +kernel
  exact this ⟨k, by omega⟩

theorem encBlock_length (data : Bytes) : (encBlock data).length = blockSizes.getD data.length 0 := by simp [encBlock, text]

theorem value_lt (data : Bytes) : ofBE 256 (nats data) < 256 ^ data.length := by
  have := ofBE_lt (nats data) (nats_lt data)
  simpa using this

theorem encodeBlock_eq (data pre post : Bytes) (h : data.length ≤ 8) :
    encodeBlock data (pre ++ (List.replicate (blockSizes.getD data.length 0) (char 0) ++ post)) pre.length =
      pre ++ (encBlock data ++ post) := by
  unfold encodeBlock encBlock
  rw [uint8beTo64_eq, encLoop_eq]
  exact Nat.lt_of_lt_of_le (value_lt data) (pow_le _ h)

def encBlocks (data : Bytes) : Nat → Nat → Bytes
  | _, 0 => []
  | s, k + 1 => encBlock (slice data (s * 8) (s * 8 + 8)) ++ encBlocks data (s + 1) k

theorem slice_length (data : Bytes) (a n : Nat) (h : a + n ≤ data.length) : (slice data a (a + n)).length = n := by
  simp [slice]; omega

theorem enc_fold (data : Bytes) (k s r : Nat) (pre : Bytes) (hp : pre.length = s * 11) (hl : (s + k) * 8 ≤ data.length) :
    (List.range' s k).foldl (fun res i => encodeBlock (slice data (i * 8) (i * 8 + 8)) res (i * 11))
      (pre ++ List.replicate (k * 11 + r) (char 0)) = pre ++ (encBlocks data s k ++ List.replicate r (char 0)) := by
  induction k generalizing s pre with
  | zero => simp [encBlocks]
  | succ k ih =>
    rw [List.range'_succ, List.foldl_cons]
    have hs : (slice data (s * 8) (s * 8 + 8)).length = 8 := slice_length _ _ _ (by omega)
    have e : List.replicate ((k + 1) * 11 + r) (char 0) =
        List.replicate (blockSizes.getD (slice data (s * 8) (s * 8 + 8)).length 0) (char 0) ++ List.replicate (k * 11 + r) (char 0) := by
      rw [hs, List.replicate_append_replicate]; congr 1; simp [blockSizes]; omega
    rw [e, ← hp, encodeBlock_eq _ _ _ (by omega)]
    have hl2 : (pre ++ encBlock (slice data (s * 8) (s * 8 + 8))).length = (s + 1) * 11 := by
      rw [List.length_append, encBlock_length, hs, hp]; simp [blockSizes]; omega
    have := ih (s + 1) (pre ++ encBlock (slice data (s * 8) (s * 8 + 8))) hl2 (by omega)
    rw [List.append_assoc] at this
    rw [this]
    simp [encBlocks]

theorem encode_eq (data : Bytes) : encode data = encBlocks data 0 (data.length / 8) ++
    (if data.length % 8 > 0 then encBlock (slice data (data.length / 8 * 8) (data.length / 8 * 8 + data.length % 8)) else []) := by
  unfold encode
  by_cases h : data.length = 0
  · simp [h, encBlocks]
  · rw [if_neg h]
    simp only [List.range_eq_range']
    have hb : (0 + data.length / 8) * 8 ≤ data.length := by omega
    have := enc_fold data (data.length / 8) 0 (blockSizes.getD (data.length % 8) 0) [] rfl hb
    simp only [List.nil_append] at this
    rw [this]
    by_cases h2 : data.length % 8 > 0
    · rw [if_pos h2, if_pos h2]
      have hs : (slice data (data.length / 8 * 8) (data.length / 8 * 8 + data.length % 8)).length = data.length % 8 :=
        slice_length _ _ _ (by omega)
      have hlen : ∀ k s, (s + k) * 8 ≤ data.length → (encBlocks data s k).length = k * 11 := by
        intro k
        induction k with
        | zero => intro s _; simp [encBlocks]
        | succ k ih =>
          intro s hs
          simp only [encBlocks, List.length_append, encBlock_length, ih (s + 1) (by omega)]
          rw [slice_length _ _ _ (by omega)]; simp [blockSizes]; omega
      have := encodeBlock_eq (slice data (data.length / 8 * 8) (data.length / 8 * 8 + data.length % 8))
        (encBlocks data 0 (data.length / 8)) [] (by omega)
      rw [hs, hlen _ 0 hb] at this
      simpa using this
    · rw [if_neg h2, if_neg h2]
      have : data.length % 8 = 0 := by omega
      simp [this, blockSizes]

/-! ### Decoding -/

theorem decLoop_iff (cs : Bytes) (o r v : Nat) (hr : r ≤ 2 ^ 64) : decLoop cs o r = some v ↔
    ∃ ds : List Nat, (∀ d ∈ ds, d < 58) ∧ cs = text ds ∧ v = r + o * ofBE 58 ds.reverse ∧ v ≤ 2 ^ 64 := by
  induction cs generalizing o r v with
  | nil =>
    simp only [decLoop, Option.some.injEq]
    constructor
    · rintro rfl; exact ⟨[], by simp, rfl, by simp [ofBE], hr⟩
    · rintro ⟨ds, _, h2, h3, _⟩
      have : ds = [] := by cases ds with
        | nil => rfl
        | cons _ _ => simp [text] at h2
      subst this
      simp [ofBE] at h3; exact h3.symm
  | cons c cs ih =>
    rw [decLoop]
    cases hd : digit c with
    | none =>
      simp only [reduceCtorEq, false_iff]
      rintro ⟨ds, h1, h2, _⟩
      cases ds with
      | nil => simp [text] at h2
      | cons d ds =>
        simp only [text, List.map_cons, List.cons.injEq] at h2
        rw [h2.1, digit_char d (h1 d (by simp))] at hd
        simp at hd
    | some d =>
      obtain ⟨hd1, hd2⟩ := digit_some hd
      simp only
      by_cases hp : o * d + r > 2 ^ 64
      · rw [if_pos hp]
        simp only [reduceCtorEq, false_iff]
        rintro ⟨ds, h1, h2, h3, h4⟩
        cases ds with
        | nil => simp [text] at h2
        | cons d' ds =>
          simp only [text, List.map_cons, List.cons.injEq] at h2
          have : d' = d := by
            rw [h2.1, digit_char d' (h1 d' (by simp))] at hd
            simpa using hd
          subst this
          rw [List.reverse_cons, ofBE_snoc, Nat.mul_add] at h3
          omega
      · rw [if_neg hp, ih _ _ _ (by omega)]
        constructor
        · rintro ⟨ds, h1, h2, h3, h4⟩
          refine ⟨d :: ds, ?_, by simp [text, hd2] at h2 ⊢; exact h2, ?_, h4⟩
          · intro x hx
            rcases List.mem_cons.1 hx with rfl | hx
            · exact hd1
            · exact h1 x hx
          · rw [h3, List.reverse_cons, ofBE_snoc]; ring
        · rintro ⟨ds, h1, h2, h3, h4⟩
          cases ds with
          | nil => simp [text] at h2
          | cons d' ds =>
            simp only [text, List.map_cons, List.cons.injEq] at h2
            have : d' = d := by
              rw [h2.1, digit_char d' (h1 d' (by simp))] at hd
              simpa using hd
            subst this
            refine ⟨ds, fun x hx => h1 x (by simp [hx]), h2.2, ?_, h4⟩
            rw [h3, List.reverse_cons, ofBE_snoc]; ring

theorem decLoop_reverse (cs : Bytes) (v : Nat) : decLoop cs.reverse 1 0 = some v ↔
    ∃ ds : List Nat, (∀ d ∈ ds, d < 58) ∧ cs = text ds ∧ v = ofBE 58 ds ∧ v ≤ 2 ^ 64 := by
  rw [decLoop_iff _ _ _ _ (by omega)]
  constructor
  · rintro ⟨ds, h1, h2, h3, h4⟩
    refine ⟨ds.reverse, by simpa using h1, ?_, by omega, h4⟩
    have := congrArg List.reverse h2
    rw [List.reverse_reverse] at this
    rw [this]; simp [text]
  · rintro ⟨ds, h1, h2, h3, h4⟩
    refine ⟨ds.reverse, by simpa using h1, ?_, by rw [List.reverse_reverse]; omega, h4⟩
    rw [h2]; simp [text]

/-- Decoding of one block. -/
def decBlock (data : Bytes) : Option Bytes :=
  if data.length < 1 ∨ data.length > 11 then none else
    match blockSizes.idxOf? data.length with
    | none => none
    | some size =>
      if size ≤ 0 then none else
        match decLoop data.reverse 1 0 with
        | none => none
        | some num => if size < 8 ∧ 2 ^ (8 * size) ≤ num then none else some (ofNats (toBE 256 size num))

theorem write_eq (tmp pre mid post : Bytes) (h : mid.length = tmp.length) :
    (List.range tmp.length).foldl (fun buf i => buf.set (i + pre.length) (tmp.getD i 0)) (pre ++ (mid ++ post)) =
      pre ++ (tmp ++ post) := by
  have key : ∀ k, k ≤ tmp.length →
      (List.range k).foldl (fun buf i => buf.set (i + pre.length) (tmp.getD i 0)) (pre ++ (mid ++ post)) =
      pre ++ (tmp.take k ++ (mid.drop k ++ post)) := by
    intro k
    induction k with
    | zero => simp
    | succ k ih =>
      intro hk
      rw [List.range_succ, List.foldl_append, ih (by omega), List.foldl_cons, List.foldl_nil,
        List.set_append_right _ _ (by omega), show k + pre.length - pre.length = k by omega,
        List.set_append_right _ _ (by simp), List.length_take, Nat.min_eq_left (by omega), Nat.sub_self,
        List.drop_eq_getElem_cons (by omega : k < mid.length), List.cons_append, List.set_cons_zero]
      have e : tmp.take (k + 1) = tmp.take k ++ [tmp.getD k 0] := by
        rw [List.take_succ]
        simp [List.getD_eq_getElem?_getD, List.getElem?_eq_getElem (by omega : k < tmp.length)]
      rw [e]; simp
  rw [key _ (Nat.le_refl _), List.take_length, ← h, List.drop_length, List.nil_append]

theorem decodeBlock_eq (data pre mid post : Bytes) (size : Nat) (hs : blockSizes.idxOf? data.length = some size)
    (hm : mid.length = size) :
    decodeBlock data (pre ++ (mid ++ post)) pre.length = (decBlock data).map (fun b => pre ++ (b ++ post)) := by
  unfold decodeBlock decBlock
  rw [hs]
  by_cases h1 : data.length < 1 ∨ data.length > 11
  · rw [if_pos h1, if_pos h1]; rfl
  · rw [if_neg h1, if_neg h1]
    simp only
    by_cases h2 : size ≤ 0
    · rw [if_pos h2, if_pos h2]; rfl
    · rw [if_neg h2, if_neg h2]
      cases decLoop data.reverse 1 0 with
      | none => rfl
      | some num =>
        simp only
        by_cases h3 : size < 8 ∧ 2 ^ (8 * size) ≤ num
        · rw [if_pos h3, if_pos h3]; rfl
        · rw [if_neg h3, if_neg h3]
          have := uint64To8be_eq size num (List.replicate size 0) [] (by simp)
          rw [List.append_nil, List.append_nil] at this
          rw [this, write_eq _ _ _ _ (by simp [hm])]
          rfl

theorem decBlock_length {data b : Bytes} {size : Nat} (hs : blockSizes.idxOf? data.length = some size) (h : decBlock data = some b) :
    b.length = size := by
  unfold decBlock at h
  rw [hs] at h
  split at h
  · cases h
  · simp only at h
    split at h
    · cases h
    · split at h
      · cases h
      · split at h
        · cases h
        · injection h with h; rw [← h]; simp

def decBlocks (enc : Bytes) : Nat → Nat → Option Bytes
  | _, 0 => some []
  | s, k + 1 =>
    match decBlock (slice enc (s * 11) (s * 11 + 11)) with
    | none => none
    | some b => (decBlocks enc (s + 1) k).map (b ++ ·)

theorem foldl_none {α β : Type} (f : α → β → Option α) (l : List β) :
    l.foldl (fun (a : Option α) i => a.bind fun a => f a i) none = none := by
  induction l with
  | nil => rfl
  | cons x l ih => simpa using ih

theorem dec_fold (enc : Bytes) (k s r : Nat) (pre : Bytes) (hp : pre.length = s * 8) (hl : (s + k) * 11 ≤ enc.length) :
    (List.range' s k).foldl (fun data i => data.bind fun data => decodeBlock (slice enc (i * 11) (i * 11 + 11)) data (i * 8))
      (some (pre ++ List.replicate (k * 8 + r) 0)) = (decBlocks enc s k).map (fun b => pre ++ (b ++ List.replicate r 0)) := by
  induction k generalizing s pre with
  | zero => simp [decBlocks]
  | succ k ih =>
    rw [List.range'_succ, List.foldl_cons]
    have hs : (slice enc (s * 11) (s * 11 + 11)).length = 11 := slice_length _ _ _ (by omega)
    have hs2 : blockSizes.idxOf? (slice enc (s * 11) (s * 11 + 11)).length = some 8 := by rw [hs]; rfl
    have e : List.replicate ((k + 1) * 8 + r) (0 : UInt8) = List.replicate 8 0 ++ List.replicate (k * 8 + r) 0 := by
      rw [List.replicate_append_replicate]; congr 1; omega
    simp only [Option.bind_some]
    rw [e, ← hp, decodeBlock_eq _ _ _ _ 8 hs2 (by simp), decBlocks]
    cases hb : decBlock (slice enc (s * 11) (s * 11 + 11)) with
    | none => exact foldl_none _ _
    | some b =>
      have hbl := decBlock_length hs2 hb
      have := ih (s + 1) (pre ++ b) (by rw [List.length_append, hp, hbl]; omega) (by omega)
      rw [List.append_assoc] at this
      simp only [Option.map_some]
      rw [this]
      cases decBlocks enc (s + 1) k <;> simp

theorem decBlocks_length {enc b : Bytes} {k s : Nat} (hl : (s + k) * 11 ≤ enc.length) (h : decBlocks enc s k = some b) :
    b.length = k * 8 := by
  induction k generalizing s b with
  | zero => simp [decBlocks] at h; simp [h]
  | succ k ih =>
    rw [decBlocks] at h
    have hs : (slice enc (s * 11) (s * 11 + 11)).length = 11 := slice_length _ _ _ (by omega)
    have hs2 : blockSizes.idxOf? (slice enc (s * 11) (s * 11 + 11)).length = some 8 := by rw [hs]; rfl
    cases hb : decBlock (slice enc (s * 11) (s * 11 + 11)) with
    | none => rw [hb] at h; cases h
    | some x =>
      rw [hb] at h
      cases h2 : decBlocks enc (s + 1) k with
      | none => rw [h2] at h; cases h
      | some y =>
        rw [h2] at h
        simp only [Option.map_some, Option.some.injEq] at h
        rw [← h, List.length_append, ih (by omega) h2, decBlock_length hs2 hb]; omega

/-- Decoding of the blocks of a text. -/
theorem decodeText_eq (enc : Bytes) : decodeText enc =
    match blockSizes.idxOf? (enc.length % 11) with
    | none => none
    | some _ =>
      match decBlocks enc 0 (enc.length / 11) with
      | none => none
      | some b => if enc.length % 11 > 0 then (decBlock (slice enc (enc.length / 11 * 11) (enc.length / 11 * 11 + enc.length % 11))).map (b ++ ·)
          else some b := by
  unfold decodeText
  by_cases h : enc.length = 0
  · simp [h, decBlocks, blockSizes, List.idxOf?, List.findIdx?, List.findIdx?.go]
  · rw [if_neg h]
    simp only [List.range_eq_range']
    cases hi : blockSizes.idxOf? (enc.length % 11) with
    | none => rfl
    | some size =>
      simp only
      have hb : (0 + enc.length / 11) * 11 ≤ enc.length := by omega
      have := dec_fold enc (enc.length / 11) 0 size [] rfl hb
      simp only [List.nil_append] at this
      rw [this]
      cases hd : decBlocks enc 0 (enc.length / 11) with
      | none => rfl
      | some b =>
        simp only [Option.map_some]
        by_cases h2 : enc.length % 11 > 0
        · rw [if_pos h2, if_pos h2]
          have hs : (slice enc (enc.length / 11 * 11) (enc.length / 11 * 11 + enc.length % 11)).length = enc.length % 11 :=
            slice_length _ _ _ (by omega)
          have := decodeBlock_eq (slice enc (enc.length / 11 * 11) (enc.length / 11 * 11 + enc.length % 11)) b (List.replicate size 0) []
            size (by rw [hs]; exact hi) (by simp)
          rw [List.append_nil, decBlocks_length hb hd] at this
          rw [this]; simp
        · rw [if_neg h2, if_neg h2]
          have : enc.length % 11 = 0 := by omega
          rw [this] at hi
          have : size = 0 := by
            have : blockSizes.idxOf? 0 = some 0 := rfl
            rw [this] at hi; simpa using hi.symm
          simp [this]

/-! ### Blocks there and back -/

theorem sizes_idx (k : Nat) (h : k ≤ 8) : blockSizes.idxOf? (blockSizes.getD k 0) = some k ∧ blockSizes.getD k 0 ≤ 11 := by
  have : ∀ k : Fin 9, blockSizes.idxOf? (blockSizes.getD k.1 0) = some k.1 ∧ blockSizes.getD k.1 0 ≤ 11 := by decide
  exact this ⟨k, by omega⟩

theorem decBlock_encBlock (data : Bytes) (h0 : 0 < data.length) (h : data.length ≤ 8) : decBlock (encBlock data) = some data := by
  unfold decBlock
  rw [encBlock_length, (sizes_idx _ h).1]
  have h1 : 0 < blockSizes.getD data.length 0 := by
    have : ∀ k : Fin 8, 0 < blockSizes.getD (k.1 + 1) 0 := by decide
    have := this ⟨data.length - 1, by omega⟩
    simpa [Nat.sub_add_cancel h0] using this
  have h2 := (sizes_idx _ h).2
  have hv := value_lt data
  have h8 : 256 ^ data.length = 2 ^ (8 * data.length) := by rw [Nat.pow_mul]
  have h9 : 2 ^ (8 * data.length) ≤ 2 ^ 64 := Nat.pow_le_pow_right (by omega) (by omega)
  have hd : decLoop (encBlock data).reverse 1 0 = some (ofBE 256 (nats data)) := by
    rw [decLoop_reverse]
    exact ⟨_, toBE_lt (by omega) _ _, rfl, (ofBE_toBE _ _ (Nat.lt_of_lt_of_le hv (pow_le _ h))).symm, by omega⟩
  rw [if_neg (by omega)]
  simp only [hd]
  rw [if_neg (by omega), if_neg (by omega)]
  have := toBE_ofBE (by omega : 0 < 256) (nats data) (nats_lt data)
  rw [nats_length] at this
  rw [this, ofNats_nats]

/-- "jpXCZedGfVR": the digits of 2^64. -/
def badBlock : Bytes := [106, 112, 88, 67, 90, 101, 100, 71, 102, 86, 82]

theorem badBlock_eq : badBlock = text (toBE 58 11 (2 ^ 64)) := by decide +kernel

theorem idx_size {L size : Nat} (h : blockSizes.idxOf? L = some size) : size ≤ 8 ∧ blockSizes.getD size 0 = L := by
  have h' := List.findIdx?_eq_some_iff_getElem.1 h
  obtain ⟨hlt, h2, _⟩ := h'
  have : blockSizes.length = 9 := rfl
  refine ⟨by omega, ?_⟩
  rw [List.getD_eq_getElem?_getD, List.getElem?_eq_getElem hlt]
  simpa using h2

theorem encBlock_decBlock {t b : Bytes} (h : decBlock t = some b) (hne : t ≠ badBlock) : encBlock b = t := by
  unfold decBlock at h
  split at h
  · cases h
  · split at h
    · cases h
    · rename_i size hs
      split at h
      · cases h
      · split at h
        · cases h
        · rename_i num hn
          obtain ⟨ds, h1, h2, h3, h4⟩ := (decLoop_reverse _ _).1 hn
          obtain ⟨hz, hz2⟩ := idx_size hs
          split at h
          · cases h
          · rename_i hno
            injection h with h
            have hlen : ds.length = t.length := by rw [h2]; simp [text]
            have hlt : num < 256 ^ size := by
              rw [show 256 ^ size = 2 ^ (8 * size) by rw [Nat.pow_mul]]
              by_cases h8 : size < 8
              · omega
              · have : size = 8 := by omega
                subst this
                have hne2 : num ≠ 2 ^ 64 := by
                  intro e
                  apply hne
                  rw [badBlock_eq, h2, ← e, h3]
                  have h11 : ds.length = 11 := by rw [hlen, ← hz2]; rfl
                  have := toBE_ofBE (by omega : 0 < 58) ds h1
                  rw [h11] at this; rw [this]
                have : (2 : Nat) ^ (8 * 8) = 2 ^ 64 := rfl
                omega
            unfold encBlock
            rw [← h, ofNats_length, toBE_length, nats_ofNats _ (toBE_lt (by omega) _ _), ofBE_toBE _ _ hlt, hz2, ← hlen, h3,
              toBE_ofBE (by omega) ds h1, h2]

theorem slice_append (pre mid post : Bytes) (a n : Nat) (h : pre.length = a) (hm : mid.length = n) :
    slice (pre ++ (mid ++ post)) a (a + n) = mid := by
  subst h; subst hm
  simp [slice]

theorem slice_split (data : Bytes) (a n m : Nat) : slice data a (a + (n + m)) = slice data a (a + n) ++ slice data (a + n) (a + n + m) := by
  simp only [slice, Nat.add_sub_cancel_left]
  rw [← List.drop_drop, List.take_add]

theorem dec_encBlocks (data : Bytes) (k s : Nat) (pre post : Bytes) (hp : pre.length = s * 11) (hl : (s + k) * 8 ≤ data.length) :
    decBlocks (pre ++ (encBlocks data s k ++ post)) s k = some (slice data (s * 8) (s * 8 + k * 8)) := by
  induction k generalizing s pre with
  | zero => simp [decBlocks, slice]
  | succ k ih =>
    have hs : (slice data (s * 8) (s * 8 + 8)).length = 8 := slice_length _ _ _ (by omega)
    have he : (encBlock (slice data (s * 8) (s * 8 + 8))).length = 11 := by rw [encBlock_length, hs]; rfl
    rw [decBlocks, encBlocks, List.append_assoc, slice_append _ _ _ _ _ hp he, decBlock_encBlock _ (by omega) (by omega)]
    have := ih (s + 1) (pre ++ encBlock (slice data (s * 8) (s * 8 + 8))) (by rw [List.length_append, hp, he]; omega) (by omega)
    rw [List.append_assoc] at this
    simp only [this, Option.map_some]
    rw [show (k + 1) * 8 = 8 + k * 8 by omega, slice_split, show (s + 1) * 8 = s * 8 + 8 by omega]

theorem encBlocks_length (data : Bytes) (k s : Nat) (h : (s + k) * 8 ≤ data.length) : (encBlocks data s k).length = k * 11 := by
  induction k generalizing s with
  | zero => simp [encBlocks]
  | succ k ih =>
    simp only [encBlocks, List.length_append, encBlock_length, ih (s + 1) (by omega)]
    rw [slice_length _ _ _ (by omega)]; simp [blockSizes]; omega

theorem enc_decBlocks {enc b : Bytes} {k s : Nat} (hl : (s + k) * 11 ≤ enc.length) (h : decBlocks enc s k = some b)
    (hbad : ∀ i, s ≤ i → i < s + k → slice enc (i * 11) (i * 11 + 11) ≠ badBlock) (pre post : Bytes) (hp : pre.length = s * 8) :
    encBlocks (pre ++ (b ++ post)) s k = slice enc (s * 11) (s * 11 + k * 11) := by
  induction k generalizing s b pre with
  | zero => simp [encBlocks, slice]
  | succ k ih =>
    rw [decBlocks] at h
    have hs : (slice enc (s * 11) (s * 11 + 11)).length = 11 := slice_length _ _ _ (by omega)
    have hs2 : blockSizes.idxOf? (slice enc (s * 11) (s * 11 + 11)).length = some 8 := by rw [hs]; rfl
    cases hb : decBlock (slice enc (s * 11) (s * 11 + 11)) with
    | none => rw [hb] at h; cases h
    | some x =>
      rw [hb] at h
      cases h2 : decBlocks enc (s + 1) k with
      | none => rw [h2] at h; cases h
      | some y =>
        rw [h2] at h
        simp only [Option.map_some, Option.some.injEq] at h
        have hx := decBlock_length hs2 hb
        subst h
        rw [encBlocks, List.append_assoc, slice_append _ _ _ _ _ hp hx, encBlock_decBlock hb (hbad s (by omega) (by omega))]
        have := ih (by omega) h2 (fun i h1 h2 => hbad i (by omega) (by omega)) (pre ++ x)
          (by rw [List.length_append, hp, hx]; omega)
        rw [List.append_assoc] at this
        rw [this, show (k + 1) * 11 = 11 + k * 11 by omega, slice_split, show (s + 1) * 11 = s * 11 + 11 by omega]

end Mnr

/-! ## Bitcoin -/

namespace Btc

theorem encodeInt_eq (n : Nat) (s : Bytes) : encodeInt n s = text (natDigits 58 (by omega) n) ++ s := by
  induction n using Nat.strongRecOn generalizing s with
  | ind n ih =>
    rw [encodeInt]
    by_cases h : n = 0
    · subst h; rw [natDigits_zero]; simp [text]
    · rw [if_neg h, ih _ (Nat.div_lt_self (by omega) (by omega)), natDigits_pos (by omega) h]
      simp [text]

theorem accLoop_eq (cs : Bytes) (p acc : Nat) : accLoop cs p acc = acc + p * ofBE 256 (nats cs.reverse) := by
  induction cs generalizing p acc with
  | nil => simp [accLoop, nats, ofBE]
  | cons c cs ih =>
    have e : nats (cs.reverse ++ [c]) = nats cs.reverse ++ [c.toNat] := by simp [nats]
    rw [accLoop, ih, List.reverse_cons, e, ofBE_snoc]
    ring

theorem decLoop_eq (n : Nat) (r : Bytes) : decLoop n r = r ++ (ofNats (natDigits 256 (by omega) n)).reverse := by
  induction n using Nat.strongRecOn generalizing r with
  | ind n ih =>
    rw [decLoop]
    by_cases h : n = 0
    · subst h; rw [natDigits_zero]; simp [ofNats]
    · rw [if_neg h, ih _ (Nat.div_lt_self (by omega) (by omega)), natDigits_pos (by omega) h]
      simp [ofNats]

theorem decodeInt_iff (cs : Bytes) (acc v : Nat) : decodeInt cs acc = some v ↔
    ∃ ds : List Nat, (∀ d ∈ ds, d < 58) ∧ cs = text ds ∧ v = ds.foldl (fun a d => a * 58 + d) acc := by
  induction cs generalizing acc with
  | nil =>
    simp only [decodeInt, Option.some.injEq]
    constructor
    · rintro rfl; exact ⟨[], by simp, rfl, rfl⟩
    · rintro ⟨ds, _, h2, h3⟩
      cases ds with
      | nil => simpa using h3.symm
      | cons _ _ => simp [text] at h2
  | cons c cs ih =>
    rw [decodeInt]
    cases hd : digit c with
    | none =>
      simp only [reduceCtorEq, false_iff]
      rintro ⟨ds, h1, h2, _⟩
      cases ds with
      | nil => simp [text] at h2
      | cons d ds =>
        simp only [text, List.map_cons, List.cons.injEq] at h2
        rw [h2.1, digit_char d (h1 d (by simp))] at hd
        simp at hd
    | some d =>
      obtain ⟨hd1, hd2⟩ := digit_some hd
      simp only
      rw [ih]
      constructor
      · rintro ⟨ds, h1, h2, h3⟩
        refine ⟨d :: ds, ?_, by simp only [text, List.map_cons, hd2]; rw [h2]; rfl, by simpa using h3⟩
        intro x hx
        rcases List.mem_cons.1 hx with rfl | hx
        · exact hd1
        · exact h1 x hx
      · rintro ⟨ds, h1, h2, h3⟩
        cases ds with
        | nil => simp [text] at h2
        | cons d' ds =>
          simp only [text, List.map_cons, List.cons.injEq] at h2
          have : d' = d := by
            rw [h2.1, digit_char d' (h1 d' (by simp))] at hd
            simpa using hd
          subst this
          exact ⟨ds, fun x hx => h1 x (by simp [hx]), h2.2, by simpa using h3⟩

/-- A list is its leading run of `z` and the rest, which does not start with `z`. -/
theorem strip_spec {α : Type} [BEq α] [LawfulBEq α] (z : α) (v : List α) :
    v = List.replicate (v.length - (v.dropWhile (· == z)).length) z ++ v.dropWhile (· == z) ∧
      (∀ d, (v.dropWhile (· == z)).head? = some d → d ≠ z) := by
  induction v with
  | nil => simp
  | cons x v ih =>
    by_cases hx : x = z
    · subst hx
      simp only [List.dropWhile_cons, beq_self_eq_true, if_true]
      refine ⟨?_, ih.2⟩
      have hle : (v.dropWhile (· == x)).length ≤ v.length := (List.dropWhile_suffix _).length_le
      rw [List.length_cons, show v.length + 1 - (v.dropWhile (· == x)).length = (v.length - (v.dropWhile (· == x)).length) + 1 by omega,
        List.replicate_succ, List.cons_append, ← ih.1]
    · have : (x == z) = false := by simpa using hx
      simp only [List.dropWhile_cons, this]
      refine ⟨by simp, ?_⟩
      intro d hd
      simp at hd; subst hd; exact hx

theorem strip_of {α : Type} [BEq α] [LawfulBEq α] (z : α) (k : Nat) (w : List α) (h : ∀ d, w.head? = some d → d ≠ z) :
    (List.replicate k z ++ w).dropWhile (· == z) = w := by
  induction k with
  | zero =>
    cases w with
    | nil => rfl
    | cons x w =>
      have : (x == z) = false := by simpa using h x rfl
      simp [this]
  | succ k ih => simpa [List.replicate_succ] using ih

end Btc
end Verif.B58

import Verif.Lemmas.SeedSlip
import Verif.Lemmas.SeedText
import Verif.Props.Hd

/-! Monero keys of a seed, and the words that restore them. -/

namespace Verif.Seed
open Verif Hd HdSpec
open Verif.Mnemonic (hexlify words)

/-- The keys and the words are those Monero wallets compute from a master secret of 32 bytes: the spend secret is the number it writes, the view secret the
hash of the spend secret, both modulo the group order; the words are those of the list and one of them again. -/
structure Standard (H : Bytes → Bytes) (master : Bytes) (sd : Sd) : Prop where
  secret : sd.moneroMaster = master
  spendSec : sd.spendSec = Key.number master % Ed.l
  viewSec : ∃ w : Bytes, w.length = 32 ∧ (Key.number w : ℤ) = sd.spendSec ∧ sd.viewSec = Key.number (H w) % Ed.l
  spendPub : Ed.Rep sd.spendPub (sd.spendSec • Ed.base)
  viewPub : Ed.Rep sd.viewPub (sd.viewSec • Ed.base)
  words : ∃ last ∈ Mnemonic.standard master, sd.electrumWords = joinSpace ((Mnemonic.standard master ++ [last]).map (wordText 12))

theorem number_encodeInt {s : ℤ} (h0 : 0 ≤ s) (h1 : s < Ed.l) : (Ed.encodeInt s).length = 32 ∧ (Key.number (Ed.encodeInt s) : ℤ) = s := by
  have hlen : (Ed.encodeInt s).length = 32 := by rw [Ed.encodeInt, Ed.packBits_length]
  refine ⟨hlen, ?_⟩
  rw [← Key.bitSum_256 hlen, Ed.bitSum_encodeInt s 256 (le_refl _)]
  have : Ed.l < 2 ^ 256 := by decide +kernel
  exact Int.emod_eq_of_lt h0 (lt_trans h1 this)

theorem mod_l (s : ℤ) : 0 ≤ s % Ed.l ∧ s % Ed.l < Ed.l :=
  have h : 0 < Ed.l := by decide +kernel
  ⟨Int.emod_nonneg _ (ne_of_gt h), Int.emod_lt_of_pos _ h⟩

theorem encode_out (crc : List Nat → Nat) (m : Bytes) : Mnemonic.encodeGroups ((hexlify m).length / 8) (hexlify m) = Mnemonic.standard m := by
  have := Mnemonic.C28_standard crc m
  simpa [Mnemonic.encode] using this

theorem standard_length (m : Bytes) : (Mnemonic.standard m).length = 3 * (m.length / 4) := by
  rw [← encode_out (fun _ => 0) m, Mnemonic.groups_length, Mnemonic.hexlify_length]
  omega

theorem encode_sum (crc : List Nat → Nat) (m : Bytes) (h : 4 ≤ m.length) :
    ∃ last ∈ Mnemonic.standard m, Mnemonic.encode crc m true = some (Mnemonic.standard m ++ [last]) := by
  have hl := standard_length m
  have hne : (Mnemonic.standard m).length ≠ 0 := by omega
  have hlt : crc (Mnemonic.standard m) % (Mnemonic.standard m).length < (Mnemonic.standard m).length := Nat.mod_lt _ (Nat.pos_of_ne_zero hne)
  refine ⟨(Mnemonic.standard m).getD (crc (Mnemonic.standard m) % (Mnemonic.standard m).length) 0, ?_, ?_⟩
  · rw [List.getD_eq_getElem?_getD, List.getElem?_eq_getElem hlt]
    exact List.getElem_mem _
  · unfold Mnemonic.encode
    simp only [encode_out crc m, if_true, if_neg hne]

theorem keys_standard (H : Bytes → Bytes) (hH : ∀ m, (H m).length = 32) (master : Bytes) (hm : master.length = 32) :
    ∃ k, Key.moneroKeys H master = some k ∧ k.1 = Key.number master % Ed.l ∧
      (∃ w : Bytes, w.length = 32 ∧ (Key.number w : ℤ) = k.1 ∧ k.2.2.1 = Key.number (H w) % Ed.l) ∧
      Ed.Rep k.2.1 (k.1 • Ed.base) ∧ Ed.Rep k.2.2.2 (k.2.2.1 • Ed.base) := by
  obtain ⟨h1, h2⟩ := number_encodeInt (mod_l (Key.number master)).1 (mod_l (Key.number master)).2
  obtain ⟨B, A, h, hB, hA⟩ := Key.C38_account_standard H hH master (Ed.encodeInt (Key.number master % Ed.l : ℤ)) hm h1 h2
  exact ⟨_, h, rfl, ⟨_, h1, h2, rfl⟩, hB, hA⟩

theorem setMoneroSeed_standard (o : Outside) (hH : ∀ m, (o.keccak m).length = 32) (master : Bytes) (hm : master.length = 32) :
    ∃ sd, setMoneroSeed o master = some sd ∧ Standard o.keccak master sd := by
  obtain ⟨last, hlast, he⟩ := encode_sum o.crc master (by omega)
  obtain ⟨k, hk, h1, h2, h3, h4⟩ := keys_standard o.keccak hH master hm
  refine ⟨_, by rw [setMoneroSeed, he, Option.bind_some, hk, Option.map_some], ?_⟩
  exact ⟨rfl, h1, h2, h3, h4, last, hlast, rfl⟩

theorem standard_mem (m : Bytes) : ∀ w ∈ Mnemonic.standard m, w ∈ words := by
  have key : ∀ (k : Nat) (hex : List Nat), ∀ w ∈ Mnemonic.encodeGroups k hex, w ∈ words := by
    intro k
    have hg : ∀ x, words.getD (x % Mnemonic.n) 0 ∈ words := by
      intro x
      have : x % Mnemonic.n < words.length := by rw [Mnemonic.words_length]; exact Nat.mod_lt _ (by decide)
      rw [List.getD_eq_getElem?_getD, List.getElem?_eq_getElem this]
      exact List.getElem_mem _
    induction k with
    | zero => intro hex w hw; cases hw
    | succ k ih =>
      intro hex w hw
      simp only [Mnemonic.encodeGroups, List.cons_append, List.nil_append, List.mem_cons] at hw
      rcases hw with rfl | rfl | rfl | hw
      · exact hg _
      · exact hg _
      · exact hg _
      · exact ih _ w hw
  rw [← encode_out (fun _ => 0) m]
  exact key _ _

/-- Words spelled in any mixture of capital and small letters, in lines of one or more words. -/
structure Spelled (ws : List (List Char)) (lines : List (List Char)) : Prop where
  ex : ∃ groups : List (List (List Char)), (∀ g ∈ groups, g ≠ []) ∧ lines = groups.map joinSpace ∧ groups.flatten.map lower = ws

theorem cleanInput_spelled {ws lines : List (List Char)} (hs : ∀ w ∈ ws, small w = true) (h : Spelled ws lines) : cleanInput (.list lines) = ws := by
  obtain ⟨groups, hne, rfl, he⟩ := h.ex
  rw [cleanInput_lines hne, he]
  intro g hg w hw
  apply solid_of_lower
  apply hs
  rw [← he]
  exact List.mem_map.2 ⟨w, List.mem_flatten.2 ⟨g, hg, hw⟩, rfl⟩

theorem texts_small (ws : List Nat) (h : ∀ w ∈ ws, w ∈ words) : ∀ t ∈ ws.map (wordText 12), small t = true := by
  intro t ht
  obtain ⟨w, hw, rfl⟩ := List.mem_map.1 ht
  exact (moneroWord_good (h w hw)).2.1

theorem texts_back (ws : List Nat) (h : ∀ w ∈ ws, w ∈ words) : (ws.map (wordText 12)).map moneroWord = ws := by
  rw [List.map_map]
  conv_rhs => rw [← List.map_id ws]
  apply List.map_congr_left
  intro w hw
  exact moneroWord_text (h w hw)

/-- The standard words, with or without a further word, restore the secret. -/
theorem fromWords (o : Outside) (master : Bytes) (k : Nat) (hm : master.length = 4 * k) (tail : List Nat) (ht : tail.length ≤ 1)
    (htw : ∀ w ∈ tail, w ∈ words) {lines : List (List Char)}
    (h : Spelled ((Mnemonic.standard master ++ tail).map (wordText 12)) lines) : fromMoneroMnemonics o (.list lines) = setMoneroSeed o master := by
  have hmem : ∀ w ∈ Mnemonic.standard master ++ tail, w ∈ words := by
    intro w hw
    rcases List.mem_append.1 hw with hw | hw
    · exact standard_mem master w hw
    · exact htw w hw
  have hdec : Mnemonic.decode o.crc o.prefixOf (Mnemonic.standard master ++ tail) = some (hexlify master) := by
    have h0 : Mnemonic.decode o.crc o.prefixOf (Mnemonic.standard master) = some (hexlify master) := by
      obtain ⟨ws, h1, h2, -⟩ := Mnemonic.C28_roundtrip o.crc o.prefixOf master k hm false (by intro h; cases h)
      rw [Mnemonic.C28_standard] at h1
      rw [Option.some.inj h1]
      exact h2
    have hl : (Mnemonic.standard master).length = 3 * k := by rw [standard_length]; omega
    cases tail with
    | nil => rw [List.append_nil]; exact h0
    | cons t ts =>
      have : ts = [] := List.length_eq_zero_iff.1 (by rw [List.length_cons] at ht; omega)
      rw [this, Mnemonic.C29_false _ _ _ k hl, h0]
  rw [fromMoneroMnemonics, cleanInput_spelled (texts_small _ hmem) h, texts_back _ hmem, hdec, Option.bind_some, unhexlify_hexlify, Option.bind_some]

end Verif.Seed

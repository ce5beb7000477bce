import Verif.Model.Prng
import Verif.Model.Bulletproof
import Verif.Lemmas.EdCodec
import Verif.Props.Keccak

/-! C71: the pseudo random generator as a stream of bytes. -/

namespace Verif.Prng
open Verif

/-- Byte number `k` of the stream of a seed: block `k / 32` is the hash of the seed and the number `k / 32 + 1` as 32 big-endian bytes. -/
def streamAt (H : Bytes → Bytes) (seed : Bytes) (k : ℕ) : UInt8 := (H (seed ++ be (k / 32 + 1))).getD (k % 32) 0

/-- `n` bytes of the stream from position `off`. -/
def slice (H : Bytes → Bytes) (seed : Bytes) (off n : ℕ) : Bytes := (List.range n).map fun k => streamAt H seed (off + k)

theorem slice_add (H : Bytes → Bytes) (seed : Bytes) (off a b : ℕ) : slice H seed off (a + b) = slice H seed off a ++ slice H seed (off + a) b := by
  unfold slice
  rw [List.range_add, List.map_append, List.map_map]
  refine congrArg _ (List.map_congr_left fun k _ => ?_)
  show streamAt H seed (off + (a + k)) = streamAt H seed (off + a + k)
  rw [Nat.add_assoc]

theorem slice_block {H : Bytes → Bytes} (hH : ∀ x, (H x).length = 32) (seed : Bytes) (c n : ℕ) (hn : n ≤ 32) :
    slice H seed (32 * c) n = (H (seed ++ be (c + 1))).take n := by
  unfold slice
  refine List.ext_getElem (by simp [hH]; omega) fun i h1 h2 => ?_
  have hi : i < 32 := by simp at h1; omega
  have e1 : (32 * c + i) / 32 = c := by omega
  have e2 : (32 * c + i) % 32 = i := by omega
  simp only [List.getElem_map, List.getElem_range, List.getElem_take, streamAt, e1, e2]
  rw [List.getD_eq_getElem?_getD, List.getElem?_eq_getElem (by rw [hH]; exact hi), Option.getD_some]

theorem nextLoop_eq {H : Bytes → Bytes} (hH : ∀ x, (H x).length = 32) (seed : Bytes) :
    ∀ (fuel left : ℕ) (acc : Bytes) (c : ℕ), left ≤ fuel → c + (left + 31) / 32 < 2 ^ 256 →
      nextLoop H fuel left acc ⟨seed, c⟩ = (⟨seed, c + (left + 31) / 32⟩, some (acc ++ slice H seed (32 * c) left)) := by
  intro fuel
  induction fuel with
  | zero =>
    intro left acc c h _
    obtain rfl : left = 0 := by omega
    simp [nextLoop, slice]
  | succ fuel ih =>
    intro left acc c h hc
    cases left with
    | zero => simp [nextLoop, slice]
    | succ left =>
      have hlt : c + 1 < 2 ^ 256 := by omega
      rw [nextLoop]
      simp only [gen, if_pos hlt, hH]
      rcases Nat.lt_or_ge left 32 with hl | hl
      · have e : min 32 (left + 1) = left + 1 := by omega
        rw [e, Nat.sub_self, ih 0 _ _ (by omega) (by omega), slice_block hH seed c (left + 1) (by omega)]
        have : (left + 1 + 31) / 32 = 1 := by omega
        rw [this]
        simp [slice]
      · have e : min 32 (left + 1) = 32 := by omega
        rw [e, ih _ _ _ (by omega) (by omega), show left + 1 = 32 + (left + 1 - 32) by omega, slice_add, slice_block hH seed c 32 (le_refl 32),
          ← List.append_assoc]
        have e1 : 32 + (left + 1 - 32) - 32 = left + 1 - 32 := by omega
        have e2 : c + 1 + (left + 1 - 32 + 31) / 32 = c + (32 + (left + 1 - 32) + 31) / 32 := by omega
        rw [e1, e2, show 32 * (c + 1) = 32 * c + 32 by ring]

/-- C71. One call returns the bytes of the stream from the next unused block on; the counter moves by whole blocks. -/
theorem C71_next {H : Bytes → Bytes} (hH : ∀ x, (H x).length = 32) (p : Prng) (n : ℕ) (hc : p.ctr + (n + 31) / 32 < 2 ^ 256) :
    next H p n = (⟨p.seed, p.ctr + (n + 31) / 32⟩, some (slice H p.seed (32 * p.ctr) n)) := by
  obtain ⟨seed, c⟩ := p
  exact nextLoop_eq hH seed n n [] c (le_refl n) hc

/-- The actual hash has digests of 32 bytes. -/
theorem keccakHash_length (x : Bytes) : (Keccak.keccakHash x).length = 32 := by
  rw [Keccak.keccakHash, Keccak.digest, Keccak.squeeze_eq (by omega) (by omega), List.length_take, Keccak.getBytes_length]
  rfl

/-- The hypotheses hold for the actual generator: 100 bytes after a fresh start. -/
example : next Keccak.keccakHash (new [1, 2]) 100 = (⟨[1, 2], 4⟩, some (slice Keccak.keccakHash [1, 2] 0 100)) :=
  C71_next keccakHash_length (new [1, 2]) 100 (by show 0 + (100 + 31) / 32 < 2 ^ 256; omega)

/-- What a reader of the stream expects of a sequence of calls: `next` reads at the current position, `rewind` skips, `reset` goes to the start (of
another stream if a seed is given). -/
def expected (H : Bytes → Bytes) : Bytes → ℕ → List Call → List (Option Bytes)
  | _, _, [] => []
  | seed, pos, .next n :: cs => some (slice H seed pos n) :: expected H seed (pos + n) cs
  | seed, pos, .rewind n :: cs => some [] :: expected H seed (pos + n) cs
  | seed, _, .reset none :: cs => some [] :: expected H seed 0 cs
  | _, _, .reset (some s) :: cs => some [] :: expected H s 0 cs

/-- The number of bytes a call asks for. -/
def Call.size : Call → ℕ
  | .next n => n
  | .rewind n => n
  | .reset _ => 0

/-- C71 (partial: whole blocks only). However a stream is read in pieces that are multiples of 32 bytes, with skipping and restarting in between, the
pieces are those of the stream. Pieces of other sizes lose the rest of their last block (`C71_false_pieces`). -/
theorem C71_history_partial {H : Bytes → Bytes} (hH : ∀ x, (H x).length = 32) (seed : Bytes) (cs : List Call)
    (h32 : ∀ c ∈ cs, c.size % 32 = 0) (hsum : (cs.map Call.size).sum < 2 ^ 256) : run H (new seed) cs = expected H seed 0 cs := by
  have key : ∀ (cs : List Call) (seed : Bytes) (c : ℕ), (∀ c ∈ cs, c.size % 32 = 0) → 32 * c + (cs.map Call.size).sum < 2 ^ 256 →
      run H ⟨seed, c⟩ cs = expected H seed (32 * c) cs := by
    intro cs
    induction cs with
    | nil => intros; rfl
    | cons x cs ih =>
      intro seed c h hc
      have hx := h x List.mem_cons_self
      have ht : ∀ c ∈ cs, c.size % 32 = 0 := fun y hy => h y (List.mem_cons_of_mem _ hy)
      rw [List.map_cons, List.sum_cons] at hc
      cases x with
      | next n =>
        simp only [Call.size] at hx hc
        rw [run, expected, C71_next hH ⟨seed, c⟩ n (by show c + (n + 31) / 32 < 2 ^ 256; omega)]
        show _ :: run H ⟨seed, c + (n + 31) / 32⟩ cs = _
        rw [ih _ _ ht (by omega), show 32 * (c + (n + 31) / 32) = 32 * c + n by omega]
      | rewind n =>
        simp only [Call.size] at hx hc
        rw [run, expected, rewind, C71_next hH ⟨seed, c⟩ n (by show c + (n + 31) / 32 < 2 ^ 256; omega)]
        show _ :: run H ⟨seed, c + (n + 31) / 32⟩ cs = _
        rw [ih _ _ ht (by omega), show 32 * (c + (n + 31) / 32) = 32 * c + n by omega]
        rfl
      | reset s =>
        simp only [Call.size] at hc
        cases s with
        | none => exact congrArg (some [] :: ·) (ih seed 0 ht (by omega))
        | some s => exact congrArg (some [] :: ·) (ih s 0 ht (by omega))
  exact key cs seed 0 h32 (by omega)

/-- A hypothesis-satisfying history: read 32, skip 64, read 96, restart with another seed, read 32. -/
example : ∀ c ∈ [Call.next 32, .rewind 64, .next 96, .reset (some [7]), .next 32], c.size % 32 = 0 := by decide

/-- C71 (false in general), for the generator with the actual hash: two reads of 16 bytes are not one read of 32 bytes. -/
theorem C71_false_pieces : ∃ a b c, run Keccak.keccakHash (new []) [.next 16, .next 16] = [some a, some b] ∧
    run Keccak.keccakHash (new []) [.next 32] = [some c] ∧ a ++ b ≠ c := by
  refine ⟨(Keccak.keccakHash (be 1)).take 16, (Keccak.keccakHash (be 2)).take 16, Keccak.keccakHash (be 1), ?_, ?_, ?_⟩ <;> decide +kernel

/-- Which bytes get lost: after a read of `n` bytes the next read starts at the next multiple of 32. -/
theorem C71_lost {H : Bytes → Bytes} (hH : ∀ x, (H x).length = 32) (seed : Bytes) (n m : ℕ) (hn : n < 2 ^ 200) (hm : m < 2 ^ 200) :
    run H (new seed) [.next n, .next m] = [some (slice H seed 0 n), some (slice H seed (32 * ((n + 31) / 32)) m)] := by
  have h1 := C71_next hH (new seed) n (by show 0 + (n + 31) / 32 < 2 ^ 256; omega)
  have h2 := C71_next hH ⟨seed, 0 + (n + 31) / 32⟩ m (by show 0 + (n + 31) / 32 + (m + 31) / 32 < 2 ^ 256; omega)
  simp only [run, h1]
  show [_, (next H ⟨seed, 0 + (n + 31) / 32⟩ m).2] = _
  rw [h2]
  simp [new]

theorem byte_sum (m : ℕ) : (m % 2 + (m / 2 % 2 * 2 + (m / 4 % 2 * 4 + (m / 8 % 2 * 8 + (m / 16 % 2 * 16 + (m / 32 % 2 * 32 + (m / 64 % 2 * 64 +
    m / 128 % 2 * 128))))))) = m % 256 := by omega

theorem be_eq (n : ℕ) : be n = Bp.be32 n := by
  have key : ∀ i < 32, UInt8.ofNat ((List.range 8).map fun j => Ed.intBit (n : ℤ) (i * 8 + j) * 2 ^ j).sum = UInt8.ofNat (n >>> (8 * i)) := by
    intro i _
    have hb : ∀ j, Ed.intBit (n : ℤ) (i * 8 + j) = n / 2 ^ (8 * i) / 2 ^ j % 2 := by
      intro j
      unfold Ed.intBit
      rw [Nat.div_div_eq_div_mul, ← pow_add, show 8 * i + j = i * 8 + j by ring]
      exact_mod_cast Int.toNat_natCast (n / 2 ^ (i * 8 + j) % 2)
    simp only [hb]
    rw [Nat.shiftRight_eq_div_pow]
    generalize n / 2 ^ (8 * i) = m
    have : ((List.range 8).map fun j => m / 2 ^ j % 2 * 2 ^ j).sum = m % 256 := by
      rw [← byte_sum m]
      simp [List.range_succ]
      try ring
    rw [this]
    apply UInt8.toNat.inj
    simp
  unfold be Bp.be32 Ed.encodeInt Ed.packBits
  refine List.ext_getElem (by simp) fun i h1 h2 => ?_
  have hi : i < 32 := by simpa using h1
  simp only [List.getElem_map, List.getElem_range, List.getElem_reverse, List.length_map, List.length_range]
  rw [key _ (by omega), show 8 * (32 - 1 - i) = 8 * (31 - i) by omega]

/-- C71. The scalars the range prover draws (`prngAt` of the Bulletproof model, C45): the one number `i` is the 32-byte piece number `i` of the stream,
reduced. -/
theorem C71_scalars {H : Bytes → Bytes} (hH : ∀ x, (H x).length = 32) (seed : Bytes) (i : ℕ) (hi : i + 1 < 2 ^ 200) :
    ∃ b, (run H (new seed) [.rewind (32 * i), .next 32])[1]? = some (some b) ∧ Ed.decodeScalar b = some (Bp.prngAt H seed i) := by
  have h := C71_history_partial hH seed [.rewind (32 * i), .next 32] (by simp [Call.size]) (by simp [Call.size]; omega)
  refine ⟨slice H seed (32 * i) 32, by rw [h]; simp [expected], ?_⟩
  rw [slice_block hH _ _ _ (le_refl 32), List.take_of_length_le (by rw [hH]), be_eq, Ed.decodeScalar, Ed.decodeInt, if_neg (by rw [hH]; omega)]
  rfl

end Verif.Prng

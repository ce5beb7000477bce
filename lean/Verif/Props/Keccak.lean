import Verif.Lemmas.Keccak

/-!
C51: incremental hashing equals one-shot hashing. C62: the hash is the Keccak of its specification (Spec/Keccak.lean).
-/

namespace Verif.Keccak
open Verif

/-- What `digest` has to return in a sequence of calls, for a hash function `h` of whole messages; `m` is what was fed since the start or the last
`reset`. -/
def expected (h : Bytes → Bytes) : Bytes → List Call → List Bytes
  | _, [] => []
  | m, .update m' :: cs => expected h (m ++ m') cs
  | m, .digest :: cs => h m :: expected h m cs
  | _, .reset :: cs => expected h [] cs

/-- C51: in any sequence of `update`, `digest` and `reset` on a hash object of any rate and output size, each `digest` returns the one-shot hash of
everything fed since the last `reset`, in whatever pieces; asking for a digest does not disturb what follows. -/
theorem C51_history (rate size : ℕ) (hr : 0 < rate) (cs : List Call) :
    calls rate size Sponge.new cs = expected (fun m => digest rate size (Sponge.new.absorb rate m)) [] cs := by
  have key : ∀ (cs : List Call) (m : Bytes), calls rate size (after rate m) cs =
      expected (fun m => digest rate size (Sponge.new.absorb rate m)) m cs := by
    intro cs
    induction cs with
    | nil => intro m; rfl
    | cons c cs ih =>
      intro m
      cases c with
      | update m' => rw [calls, expected, absorb_after hr, ih]
      | digest =>
        rw [calls, expected, ih]
        congr 2
        rw [← after_nil rate, absorb_after hr, List.nil_append]
      | reset =>
        rw [calls, expected, ← ih, after_nil]
  have := key cs []
  rwa [after_nil] at this

/-- C51: feeding a message in any pieces gives the hash of the whole. -/
theorem C51_pieces (ms : List Bytes) : calls 136 32 Sponge.new (ms.map Call.update ++ [.digest]) = [keccakHash ms.flatten] := by
  rw [C51_history _ _ (by decide)]
  have : ∀ (ms : List Bytes) (m : Bytes) (h : Bytes → Bytes), expected h m (ms.map Call.update ++ [.digest]) = [h (m ++ ms.flatten)] := by
    intro ms
    induction ms with
    | nil => intro m h; simp [expected]
    | cons a ms ih => intro m h; rw [List.map_cons, List.cons_append, expected, ih, List.flatten_cons, List.append_assoc]
  rw [this]
  rfl

theorem padding_eq {used rate : ℕ} (h : used < rate) :
    padding used rate = if rate - used = 1 then [0x81] else 0x01 :: (List.replicate (rate - used - 2) 0x00 ++ [0x80]) := by
  have e : (if rate - used = 0 then rate else rate - used) = rate - used := if_neg (by omega)
  unfold padding
  simp only [e]

theorem pad_bits {rate : ℕ} (hr : 0 < rate) (n : ℕ) : KeccakSpec.pad (8 * rate) (8 * n) = KeccakSpec.bits (padding (n % rate) rate) := by
  have hlt : n % rate < rate := Nat.mod_lt _ hr
  have hm : (8 * n) % (8 * rate) = 8 * (n % rate) := Nat.mul_mod_mul_left _ _ _
  have hm2 : (8 * n + 2) % (8 * rate) = 8 * (n % rate) + 2 := by
    rw [Nat.add_mod, hm, Nat.mod_eq_of_lt (show 2 < 8 * rate by omega), Nat.mod_eq_of_lt (by omega)]
  have hb : ∀ b : UInt8, ∀ m : Bytes, KeccakSpec.bits (b :: m) = (List.range 8).map b.toNat.testBit ++ KeccakSpec.bits m := fun _ _ => rfl
  have hz : ∀ k, KeccakSpec.bits (List.replicate k 0x00) = List.replicate (8 * k) false := by
    intro k
    induction k with
    | zero => rfl
    | succ k ih =>
      rw [List.replicate_succ, hb, ih, show 8 * (k + 1) = 8 + 8 * k by ring, ← List.replicate_append_replicate]
      rfl
  rw [KeccakSpec.pad, hm2, padding_eq hlt]
  split
  · rename_i h1
    rw [show (8 * rate - (8 * (n % rate) + 2)) % (8 * rate) = 6 by rw [Nat.mod_eq_of_lt (by omega)]; omega]
    decide
  · rename_i h1
    rw [hb, bits_append, hz]
    have e1 : (List.range 8).map (0x01 : UInt8).toNat.testBit = true :: List.replicate 7 false := by decide
    have e2 : KeccakSpec.bits [0x80] = List.replicate 7 false ++ [true] := by decide
    rw [e1, e2, List.cons_append, ← List.append_assoc, ← List.append_assoc, List.replicate_append_replicate, List.replicate_append_replicate]
    rw [Nat.mod_eq_of_lt (show 8 * rate - (8 * (n % rate) + 2) < 8 * rate by omega)]
    congr 3
    omega

theorem padding_length {used rate : ℕ} (h : used < rate) : (padding used rate).length = rate - used := by
  rw [padding_eq h]
  split
  · rename_i h1; simp [h1]
  · simp; omega

theorem squeeze_eq {rate size : ℕ} (hs : size ≤ rate) (h200 : rate ≤ 200) (s : Lanes) : squeeze rate size s = (getBytes s).take size := by
  rw [squeeze, squeezeOnce]
  dsimp only
  have hl : ((getBytes s).take rate).length = rate := by rw [List.length_take, getBytes_length]; omega
  have e : squeezeLoop rate size size ((getBytes s).take rate) (keccakF s) = (getBytes s).take rate := by
    cases size with
    | zero => rfl
    | succ n => rw [squeezeLoop, if_neg (by omega)]
  rw [e, List.take_take, Nat.min_eq_left hs]

theorem digest_after {rate size : ℕ} (hr : 0 < rate) (hs : size ≤ rate) (h200 : rate ≤ 200) (m : Bytes) :
    digest rate size (after rate m) = (getBytes (blocks rate (m.length / rate + 1) (m ++ padding (m.length % rate) rate) Sponge.new.s)).take size := by
  rw [digest, squeeze_eq hs h200]
  have hle : m.length / rate * rate ≤ m.length := Nat.div_mul_le_self _ _
  have hd : (after rate m).buffer.length = m.length % rate := by
    rw [after, List.length_drop]
    have := Nat.div_add_mod m.length rate
    rw [Nat.mul_comm] at this
    omega
  have hlt : m.length % rate < rate := Nat.mod_lt _ hr
  rw [blocks_append rate _ 1, blocks_prefix _ _ _ _ _ hle, List.drop_append_of_le_length hle, blocks, blocks, Sponge.absorbFinal, hd]
  dsimp only
  rw [List.take_of_length_le (l := List.drop _ _ ++ _)]
  · rfl
  · rw [List.length_append, padding_length hlt]
    have := hd
    rw [after] at this
    dsimp only at this
    omega

/-- C62: for every rate up to 200 bytes and every output up to the rate, hence for all presets, the digest is the sponge of the specification with
pad10*1 and Keccak-f[1600]. -/
theorem C62_standard (rate size : ℕ) (hr : 0 < rate) (hs : size ≤ rate) (h200 : rate ≤ 200) (m : Bytes) :
    KeccakSpec.bits (digest rate size (Sponge.new.absorb rate m)) = KeccakSpec.sponge (8 * rate) (8 * size) (KeccakSpec.bits m) := by
  have e : Sponge.new.absorb rate m = after rate m := by
    rw [← after_nil rate, absorb_after hr, List.nil_append]
  rw [e, digest_after hr hs h200, KeccakSpec.sponge]
  rw [bits_length, pad_bits hr, ← bits_append]
  have hlen : (KeccakSpec.bits (m ++ padding (m.length % rate) rate)).length / (8 * rate) = m.length / rate + 1 := by
    rw [bits_length, Nat.mul_div_mul_left _ _ (by omega), List.length_append, padding_length (Nat.mod_lt _ hr)]
    have h1 := Nat.div_add_mod m.length rate
    have h2 := Nat.mod_lt m.length hr
    have : m.length + (rate - m.length % rate) = rate * (m.length / rate + 1) := by rw [Nat.mul_add]; omega
    rw [this, Nat.mul_div_cancel_left _ hr]
  rw [hlen]
  have h0 : Rep Sponge.new.s fun _ _ _ => false := by
    intro x y hx hy
    rw [Sponge.new, lane_table _ hx hy]
    simp
  have hrep := rep_blocks rate (m.length / rate + 1) (m ++ padding (m.length % rate) rate) Sponge.new.s _ (shape_table _) h0
  rw [bits_take, getBytes_bits hrep, ← List.map_take, List.take_range, Nat.min_eq_left (by omega)]

/-- C62: `keccak_hash` is Keccak-256. -/
theorem C62_keccak256 (m : Bytes) : KeccakSpec.bits (keccakHash m) = KeccakSpec.sponge 1088 256 (KeccakSpec.bits m) :=
  C62_standard 136 32 (by decide) (by decide) (by decide) m

/-- C62: the permutation on lanes is Keccak-f[1600] of the specification, for every state. -/
theorem C62_permutation (s : Lanes) (A : KeccakSpec.State) (hs : Shape s) (h : Rep s A) : Rep (keccakF s) (KeccakSpec.keccakF A) := (rep_keccakF hs h).1

/-- The known hash of the empty message. -/
example : keccakHash [] = [0xc5, 0xd2, 0x46, 0x01, 0x86, 0xf7, 0x23, 0x3c, 0x92, 0x7e, 0x7d, 0xb2, 0xdc, 0xc7, 0x03, 0xc0,
    0xe5, 0x00, 0xb6, 0x53, 0xca, 0x82, 0x27, 0x3b, 0x7b, 0xfa, 0xd8, 0x04, 0x5d, 0x85, 0xa4, 0x70] := by decide +kernel

example : Shape Sponge.new.s ∧ Rep Sponge.new.s fun _ _ _ => false := by
  refine ⟨shape_table _, fun x y hx hy => ?_⟩
  rw [Sponge.new, lane_table _ hx hy]
  simp

/-- C62: digests have the announced size. -/
theorem C62_size (rate size : ℕ) (hr : 0 < rate) (hs : size ≤ rate) (h200 : rate ≤ 200) (m : Bytes) :
    (digest rate size (Sponge.new.absorb rate m)).length = size := by
  have e : Sponge.new.absorb rate m = after rate m := by
    rw [← after_nil rate, absorb_after hr, List.nil_append]
  rw [e, digest_after hr hs h200, List.length_take, getBytes_length]
  omega

end Verif.Keccak

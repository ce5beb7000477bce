import Verif.Props.Curve
import Verif.Lemmas.Elligator

/-! C35, C58–C61: encodings of scalars, field elements and points, checks on points, hashing to a point, division by eight. -/

namespace Verif.Ed
open Verif Verif.Edwards

/-! ## C35: scalars -/

/-- C35. Encoding a 256-bit number and decoding returns it; in general, the number modulo 2^256. -/
theorem C35_int_roundtrip (y : ℤ) : ∃ n : ℕ, decodeInt (encodeInt y) = some n ∧ (n : ℤ) = y % 2 ^ 256 :=
  decodeInt_encodeInt y

/-- C35. Every 32-byte string is the encoding of the number it decodes to. -/
theorem C35_int_bytes (s : Bytes) (hs : s.length = 32) : ∃ n : ℕ, decodeInt s = some n ∧ encodeInt n = s := by
  have h : decodeInt s = some (bitSum s 256) := by rw [decodeInt, if_neg (by omega)]
  exact ⟨_, h, encodeInt_decodeInt s hs _ h⟩

/-- C35. Scalar objects keep their value through bytes. -/
theorem C35_scalar_roundtrip (v : ℤ) (h0 : 0 ≤ v) (h1 : v < l) : decodeScalar (encodeInt v) = some v := by
  obtain ⟨n, hn, hv⟩ := decodeInt_encodeInt v
  have hl : l ≤ 2 ^ 256 := by decide +kernel
  have : v % 2 ^ 256 = v := Int.emod_eq_of_lt h0 (lt_of_lt_of_le h1 hl)
  have h2 : decodeScalar (encodeInt v) = some ((n : ℤ) % l) := by rw [decodeScalar, hn]; rfl
  rw [h2, hv, this, Int.emod_eq_of_lt h0 h1]

/-- C35. A scalar is always in range, whatever the bytes. -/
theorem C35_scalar_range (s : Bytes) (v : ℤ) (h : decodeScalar s = some v) : 0 ≤ v ∧ v < l := by
  rw [decodeScalar] at h
  obtain ⟨n, -, rfl⟩ := Option.map_eq_some_iff.mp h
  exact ⟨Int.emod_nonneg _ (ne_of_gt l_pos), Int.emod_lt_of_pos _ l_pos⟩

example : decodeScalar (encodeInt (l - 1)) = some (l - 1) ∧ decodeScalar (encodeInt (2 * l + 5)) = some 5 := by decide +kernel

/-! ## C35: limbs -/

/-- The integer that limbs with the given widths stand for. -/
def limbVal : List ℕ → List ℤ → ℤ
  | b :: bs, x :: xs => x + 2 ^ b * limbVal bs xs
  | _, _ => 0

theorem emod_mul (n a b : ℤ) (ha : 0 < a) : n % (a * b) = n % a + a * (n / a % b) := by
  rw [Int.emod_def, Int.emod_def (n / a), Int.emod_def n a, Int.ediv_ediv_of_nonneg ha.le]
  ring

theorem fromLimbs_toLimbs (bs : List ℕ) (n acc : ℤ) (sh : ℕ) :
    fromLimbs bs (toLimbs bs n) acc 0 sh = some (acc + n % 2 ^ bs.sum * 2 ^ sh) := by
  induction bs generalizing n acc sh with
  | nil => simp [fromLimbs, Int.emod_one]
  | cons b bs ih =>
    have hp : (0 : ℤ) < 2 ^ b := by positivity
    simp only [toLimbs, fromLimbs]
    have h0 : n % 2 ^ b / 2 ^ b = 0 := Int.ediv_eq_zero_of_lt (Int.emod_nonneg _ (ne_of_gt hp)) (Int.emod_lt_of_pos _ hp)
    rw [h0, ih, Int.emod_emod_of_dvd _ (dvd_refl _), List.sum_cons, pow_add (2 : ℤ) b, emod_mul _ _ _ hp, pow_add]
    congr 1
    ring

theorem toLimbs_val (bs : List ℕ) (n : ℤ) (h0 : 0 ≤ n) (h : n < 2 ^ bs.sum) : limbVal bs (toLimbs bs n) = n := by
  induction bs generalizing n with
  | nil => simp only [List.sum_nil, pow_zero] at h; simp only [limbVal, toLimbs]; omega
  | cons b bs ih =>
    have hp : (0 : ℤ) < 2 ^ b := by positivity
    simp only [toLimbs, limbVal]
    rw [ih (n / 2 ^ b) (Int.ediv_nonneg h0 hp.le) (by
      rw [List.sum_cons, pow_add] at h
      exact Int.ediv_lt_of_lt_mul hp (by rw [mul_comm]; exact h))]
    have := Int.emod_add_mul_ediv n (2 ^ b)
    linarith

theorem toLimbs_range (bs : List ℕ) (n : ℤ) :
    ∀ p ∈ List.zip bs (toLimbs bs n), 0 ≤ p.2 ∧ p.2 < 2 ^ p.1 := by
  induction bs generalizing n with
  | nil => simp
  | cons b bs ih =>
    have hp : (0 : ℤ) < 2 ^ b := by positivity
    intro p hp'
    simp only [toLimbs, List.zip_cons_cons, List.mem_cons] at hp'
    rcases hp' with rfl | h
    · exact ⟨Int.emod_nonneg _ (ne_of_gt hp), Int.emod_lt_of_pos _ hp⟩
    · exact ih _ p h

/-- C35. Field elements as ten limbs of 26 and 25 bits: the limbs are in range, stand for the number modulo q, and decode to it. -/
theorem C35_field_limbs (n : ℤ) :
    decodeEd25519 (encodeEd25519 n) = some (n % q) ∧ limbVal limbBits (encodeEd25519 n) = n % q ∧
    ∀ p ∈ List.zip limbBits (encodeEd25519 n), 0 ≤ p.2 ∧ p.2 < 2 ^ p.1 := by
  have hr := mod_q_range n
  have hq : q ≤ 2 ^ limbBits.sum := by decide +kernel
  have hlt : n % q < 2 ^ limbBits.sum := lt_of_lt_of_le hr.2 hq
  refine ⟨?_, toLimbs_val _ _ hr.1 hlt, toLimbs_range _ _⟩
  rw [decodeEd25519, encodeEd25519, fromLimbs_toLimbs, Int.emod_eq_of_lt hr.1 hlt]
  simp

/-- C35. Scalars as nine limbs of 30 bits. -/
theorem C35_scalar_limbs (n : ℤ) :
    decodeModm (encodeModm n) = some (n % l) ∧ limbVal modmBits (encodeModm n) = n % l ∧
    ∀ p ∈ List.zip modmBits (encodeModm n), 0 ≤ p.2 ∧ p.2 < 2 ^ p.1 := by
  have hr : 0 ≤ n % l ∧ n % l < l := ⟨Int.emod_nonneg _ (ne_of_gt l_pos), Int.emod_lt_of_pos _ l_pos⟩
  have hq : l ≤ 2 ^ modmBits.sum := by decide +kernel
  have hlt : n % l < 2 ^ modmBits.sum := lt_of_lt_of_le hr.2 hq
  refine ⟨?_, toLimbs_val _ _ hr.1 hlt, toLimbs_range _ _⟩
  rw [decodeModm, encodeModm, fromLimbs_toLimbs, Int.emod_eq_of_lt hr.1 hlt]
  simp

example : encodeEd25519 (-1) = [67108844, 33554431, 67108863, 33554431, 67108863, 33554431, 67108863, 33554431, 67108863, 33554431] := by
  decide +kernel

theorem toSigned_val (bs : List ℕ) (x : ℤ) (b : ℕ) : limbVal (bs ++ [b]) (toSigned bs x) = x := by
  induction bs generalizing x with
  | nil => simp [toSigned, limbVal]
  | cons c bs ih =>
    simp only [toSigned, List.cons_append, limbVal, ih]
    ring

/-- All limbs of the signed form but the last are balanced. -/
theorem toSigned_range (bs : List ℕ) (hb : ∀ b ∈ bs, 0 < b) (x : ℤ) :
    ∀ p ∈ List.zip bs (toSigned bs x), -2 ^ (p.1 - 1) ≤ p.2 ∧ p.2 < 2 ^ (p.1 - 1) := by
  induction bs generalizing x with
  | nil => simp
  | cons c bs ih =>
    intro p hp'
    simp only [toSigned, List.zip_cons_cons, List.mem_cons] at hp'
    rcases hp' with rfl | h
    · have hc := hb c (by simp)
      obtain ⟨k, rfl⟩ : ∃ k, c = k + 1 := ⟨c - 1, by omega⟩
      simp only [Nat.add_sub_cancel, pow_succ]
      have hp : (0 : ℤ) < 2 ^ k := by positivity
      generalize (2 : ℤ) ^ k = m at hp
      have h1 := Int.emod_add_mul_ediv (x + m) (m * 2)
      have h2 := Int.emod_nonneg (x + m) (b := m * 2) (by omega)
      have h3 := Int.emod_lt_of_pos (x + m) (b := m * 2) (by omega)
      rw [mul_comm ((x + m) / (m * 2)) (m * 2)]
      constructor <;> linarith
    · exact ih (fun b hb' => hb b (List.mem_cons_of_mem _ hb')) _ p h

/-- C35. The signed form stands for the same residue, by the representative nearest to zero, with balanced limbs. -/
theorem C35_signed_limbs (x : ℤ) :
    (limbVal limbBits (encodeEd25519Sign x) - x) % q = 0 ∧
    2 * |limbVal limbBits (encodeEd25519Sign x)| ≤ q ∧
    ∀ p ∈ List.zip (limbBits.take 9) (encodeEd25519Sign x), -2 ^ (p.1 - 1) ≤ p.2 ∧ p.2 < 2 ^ (p.1 - 1) := by
  have hr := mod_q_range x
  have hv : limbVal limbBits (encodeEd25519Sign x) = if x % q + x % q > q then x % q - q else x % q := by
    have := toSigned_val (limbBits.take 9) (if x % q + x % q > q then x % q - q else x % q) 25
    exact this
  refine ⟨?_, ?_, toSigned_range _ (by decide) _⟩
  · rw [hv, mod_q_eq_zero, Int.cast_sub]
    split
    · rw [Int.cast_sub, cast_mod_q, cast_q]; ring
    · rw [cast_mod_q]; ring
  · rw [hv]
    split
    · rw [abs_of_nonpos (by omega)]; omega
    · rw [abs_of_nonneg hr.1]; omega

/-- The decoder on any ten limbs: everything but the carry out of the last one. -/
theorem fromLimbs_val (bs : List ℕ) (xs : List ℤ) (hl : xs.length = bs.length) (acc c : ℤ) (sh : ℕ) (hne : bs ≠ []) :
    ∃ k : ℤ, fromLimbs bs xs acc c sh = some (acc + 2 ^ sh * (c + limbVal bs xs) - 2 ^ (sh + bs.sum) * k) ∧
      k = xs.getLast (by rintro rfl; exact hne (List.length_eq_zero_iff.mp hl.symm)) / 2 ^ (bs.getLast hne) := by
  induction bs generalizing xs acc c sh with
  | nil => exact absurd rfl hne
  | cons b bs ih =>
    cases xs with
    | nil => simp at hl
    | cons x xs =>
      simp only [List.length_cons, Nat.add_right_cancel_iff] at hl
      simp only [fromLimbs, limbVal]
      have hx := Int.emod_add_mul_ediv x (2 ^ b)
      by_cases hb : bs = []
      · subst hb
        have : xs = [] := List.length_eq_zero_iff.mp hl
        subst this
        refine ⟨x / 2 ^ b, ?_, by simp⟩
        simp only [fromLimbs, limbVal, List.sum_cons, List.sum_nil, Nat.add_zero, Option.some.injEq, pow_add]
        linear_combination 2 ^ sh * hx
      · obtain ⟨k, hk, hkl⟩ := ih xs hl (acc + (x % 2 ^ b + c) * 2 ^ sh) (x / 2 ^ b) (sh + b) hb
        refine ⟨k, ?_, ?_⟩
        · rw [hk, List.sum_cons, ← Nat.add_assoc]
          simp only [Option.some.injEq, pow_add]
          linear_combination 2 ^ sh * hx
        · rw [hkl]
          congr 1
          · rw [List.getLast_cons]
          · rw [List.getLast_cons hb]

/-- C35 fails for the signed form: the decoder drops the carry out of the last limb, so negative representatives come back as
`x + 2^255`, which is `x + 19` modulo q. -/
theorem C35_false_signed : ¬ ∀ x : ℤ, ∃ n, decodeEd25519 (encodeEd25519Sign x) = some n ∧ (n - x) % q = 0 := by
  intro h
  obtain ⟨n, h1, h2⟩ := h (-2 ^ 250)
  have : decodeEd25519 (encodeEd25519Sign (-2 ^ 250)) = some (2 ^ 255 - 2 ^ 250) := by decide +kernel
  rw [this] at h1
  have := Option.some.inj h1
  subst this
  revert h2
  decide +kernel

theorem toSigned_last (bs : List ℕ) (x : ℤ) (n : ℕ) (hx : 0 ≤ x) (hb : ∀ b ∈ bs, 0 < b) (h : x ≤ 2 ^ (bs.sum + n)) (hne : toSigned bs x ≠ []) :
    0 ≤ (toSigned bs x).getLast hne ∧ (toSigned bs x).getLast hne ≤ 2 ^ n := by
  induction bs generalizing x with
  | nil =>
    rw [List.sum_nil, Nat.zero_add] at h
    exact ⟨hx, h⟩
  | cons c bs ih =>
    have hc := hb c (by simp)
    simp only [toSigned] at hne ⊢
    have hn : toSigned bs (0 + (x + 2 ^ (c - 1)) / 2 ^ c) ≠ [] := by cases bs <;> simp [toSigned]
    rw [List.getLast_cons hn]
    apply ih _ _ (fun b hb' => hb b (List.mem_cons_of_mem _ hb'))
    · rw [zero_add]
      have hp : (0 : ℤ) < 2 ^ c := by positivity
      rw [← Int.lt_add_one_iff]
      apply Int.ediv_lt_of_lt_mul hp
      have h2 : (2 : ℤ) ^ (c - 1) < 2 ^ c := pow_lt_pow_right₀ (by norm_num) (by omega)
      rw [List.sum_cons, Nat.add_assoc, pow_add] at h
      nlinarith
    · rw [zero_add]
      exact Int.ediv_nonneg (by positivity) (by positivity)

/-- What holds of the signed form: residues up to q/2 come back. -/
theorem C35_signed_partial (x : ℤ) (h : 2 * (x % q) ≤ q) : decodeEd25519 (encodeEd25519Sign x) = some (x % q) := by
  have hr := mod_q_range x
  have hv : limbVal limbBits (encodeEd25519Sign x) = x % q := by
    have := toSigned_val (limbBits.take 9) (if x % q + x % q > q then x % q - q else x % q) 25
    rw [if_neg (by omega)] at this
    rw [← this]
    simp only [encodeEd25519Sign]
    rw [if_neg (by omega)]
    rfl
  have hlen : ∀ (bs : List ℕ) (y : ℤ), (toSigned bs y).length = bs.length + 1 := by
    intro bs
    induction bs with
    | nil => intro y; rfl
    | cons b bs ih => intro y; simp [toSigned, ih]
  obtain ⟨k, hk, hkl⟩ := fromLimbs_val limbBits (encodeEd25519Sign x) (hlen _ _) 0 0 0 (by decide)
  have hk0 : k = 0 := by
    rw [hkl]
    have hS : encodeEd25519Sign x = toSigned (limbBits.take 9) (x % q) := by
      simp only [encodeEd25519Sign]
      rw [if_neg (by omega)]
    have hne : toSigned (limbBits.take 9) (x % q) ≠ [] := by intro h0; have := hlen (limbBits.take 9) (x % q); rw [h0] at this; simp at this
    have hq : q ≤ 2 * 2 ^ ((limbBits.take 9).sum + 24) := by decide +kernel
    obtain ⟨a, b⟩ := toSigned_last (limbBits.take 9) (x % q) 24 hr.1 (by decide) (by linarith) hne
    simp only [hS]
    apply Int.ediv_eq_zero_of_lt a
    have : limbBits.getLast (by decide) = 25 := by decide
    rw [this]
    exact lt_of_le_of_lt b (by norm_num)
  rw [decodeEd25519, hk, hk0, hv]
  simp

/-- C35. Making the limbs of a constant non-negative keeps its value, if no limb is below minus its range and the last is not negative. -/
theorem C35_const_limbs (bs : List ℕ) (xs : List ℤ) (c : ℤ) (hl : xs.length = bs.length)
    (hx : ∀ p ∈ List.zip bs xs, -2 ^ p.1 ≤ p.2) (hlast : ∀ y, xs.getLast? = some y → 0 ≤ y) (hne : xs ≠ []) :
    limbVal bs (xmrConst bs xs c) = limbVal bs xs + c := by
  induction bs generalizing xs c with
  | nil => cases xs with
    | nil => exact absurd rfl hne
    | cons => simp at hl
  | cons b bs ih =>
    cases xs with
    | nil => simp at hl
    | cons x xs =>
      simp only [xmrConst, limbVal]
      have hp : (0 : ℤ) < 2 ^ b := by positivity
      have hxb := hx (b, x) (by simp)
      simp only at hxb
      by_cases hxs : xs = []
      · subst hxs
        have : 0 ≤ x := hlast x rfl
        have hbs : bs = [] := by simpa using hl.symm
        subst hbs
        rw [if_neg (by omega)]
        simp [xmrConst, limbVal]
      · have := ih xs (if x < 0 then x / 2 ^ b else 0) (by simpa using hl)
          (fun p hp' => hx p (by rw [List.zip_cons_cons]; exact List.mem_cons_of_mem _ hp'))
          (fun y hy => hlast y (by rw [List.getLast?_cons]; rw [hy]; rfl)) hxs
        rw [this]
        split
        · rename_i hneg
          have : x / 2 ^ b = -1 := by
            have h1 := Int.emod_add_mul_ediv x (2 ^ b)
            have h2 := Int.emod_nonneg x (b := 2 ^ b) (ne_of_gt hp)
            have h3 := Int.emod_lt_of_pos x (b := 2 ^ b) hp
            generalize (2 : ℤ) ^ b = m at *
            generalize x / m = k at *
            have : k < 0 := by by_contra hc; nlinarith
            have : -2 < k := by by_contra hc; nlinarith
            omega
          rw [this]; ring
        · ring

example : limbVal [26, 25, 26] (xmrConst [26, 25, 26] [-10913610, 13857413, 3] 0) = limbVal [26, 25, 26] [-10913610, 13857413, 3] ∧
    xmrConst [26, 25, 26] [-10913610, 13857413, 3] 0 = [56195254, 13857412, 3] := by decide +kernel

/-! ## C58: is the encoding of a point unique? -/

/-- C58 does not hold: `y = q + 1` is accepted and is the neutral element, whose encoding is that of `y = 1`. -/
theorem C58_false : ¬ ∀ (s : Bytes) (P : Ext), s.length = 32 → decodePoint s = some P → encodePoint P = s := by
  intro h
  have h1 : decodePoint (encodeInt (q + 1)) = some ⟨0, q + 1, 1, 0⟩ := by decide +kernel
  have h2 := h _ _ (by rw [encodeInt, packBits_length]) h1
  revert h2
  decide +kernel

/-- Nor with a reduced `y`: for `x = 0` both signs are accepted. -/
theorem C58_false_sign : ∃ (s : Bytes) (P : Ext), s.length = 32 ∧ (bitSum s 255 : ℤ) < q ∧ decodePoint s = some P ∧ encodePoint P ≠ s :=
  ⟨encodeInt (1 + 2 ^ 255), ⟨q, 1, 1, 0⟩, by rw [encodeInt, packBits_length], by rw [bitSum_encodeInt _ _ (by norm_num)]; decide +kernel,
    by decide +kernel, by decide +kernel⟩

section
attribute [local irreducible] bitSum

/-- What holds: encodings with a reduced `y` and without a sign on a zero `x` are the encoding of the point they decode to. -/
theorem C58_partial (s : Bytes) (P : Ext) (hs : s.length = 32) (h : decodePoint s = some P) (hy : (bitSum s 255 : ℤ) < q)
    (hx : (P.x : Fq) ≠ 0 ∨ bit s 255 = 0) : encodePoint P = s := by
  obtain ⟨p, hp⟩ := decodePoint_rep h
  rw [encodePoint_rep hp]
  rw [decodePoint, if_neg (by omega)] at h
  simp only at h
  obtain ⟨⟨hx0, hxq⟩, heven, -⟩ := xrecover_spec (bitSum s 255 : ℤ)
  have hqodd : q % 2 = 1 := by decide +kernel
  have hb := bit_le s 255
  generalize hx' : (if xrecover (bitSum s 255 : ℤ) % 2 ≠ (bit s 255 : ℤ) then q - xrecover (bitSum s 255 : ℤ) else
    xrecover (bitSum s 255 : ℤ)) = x at h
  split at h
  · have hP := (Option.some.inj h)
    have hPx : P.x = x := by rw [← hP]
    have hPy : P.y = (bitSum s 255 : ℤ) := by rw [← hP]
    have hPz : P.z = 1 := by rw [← hP]
    have hvy : val p.y = (bitSum s 255 : ℤ) := by
      have : p.y = ((bitSum s 255 : ℤ) : Fq) := by rw [← hPy, hp.y, hPz]; simp
      rw [this, val_cast, Int.emod_eq_of_lt (Int.natCast_nonneg _) hy]
    have hvx : val p.x % 2 = (bit s 255 : ℤ) := by
      have hpx : p.x = (x : Fq) := by rw [← hPx, hp.x, hPz]; simp
      rw [hpx, val_cast]
      have hsel : x % 2 = (bit s 255 : ℤ) ∧ 0 ≤ x ∧ x ≤ q := by
        rw [← hx']
        split
        · omega
        · rename_i hc
          exact ⟨not_not.mp hc, hx0, hxq.le⟩
      by_cases hxq' : x = q
      · exfalso
        rcases hx with h0 | h0
        · apply h0; rw [hPx, hxq', cast_q]
        · rw [hxq', h0, hqodd] at hsel; simp at hsel
      · rw [Int.emod_eq_of_lt hsel.2.1 (by omega)]; exact hsel.1
    apply bits_ext (encPt_length p) hs
    intro i hi
    by_cases h255 : i = 255
    · subst h255
      have := encPt_sign p
      rw [hvx] at this
      exact_mod_cast this
    · rw [← bitSum_bit _ 255 i (by omega), ← bitSum_bit s 255 i (by omega)]
      have := encPt_y p
      rw [hvy] at this
      have : bitSum (encPt p) 255 = bitSum s 255 := by exact_mod_cast this
      rw [this]
  · exact absurd h (by simp)

end

example : (decodePoint (encodePoint B)).isSome = true ∧ B.x % q ≠ 0 := by decide +kernel

/-! ## C59: are points off the curve rejected? -/

/-- C59. The check that key derivation relies on accepts exactly the points of the curve. -/
theorem C59_check_partial (P : Ext) : checkPoint P = true ↔
    (P.z : Fq) ≠ 0 ∧ (P.t : Fq) / P.z = (P.x : Fq) / P.z * ((P.y : Fq) / P.z) ∧ Spec.OnCurve (affine P) := C49_on_curve P

/-- The other check it calls never rejects anything: a residue is compared with 0. -/
theorem C59_dead_check (P : Ext) : geFrombytesCheck P = some 0 := by
  simp only [geFrombytesCheck]
  split
  · rw [if_neg]
    exact not_lt.mpr (mod_q_range _).1
  · rfl

/-- Comparison of points checks only its first argument: a second argument off the curve is accepted. -/
theorem C59_false_eq : ∃ P Q : Ext, pointEq P Q = some true ∧ isOnCurve Q = false :=
  ⟨ident, ⟨0, 0, 0, 0⟩, by decide +kernel, by decide +kernel⟩

/-- C59. The scalar check accepts exactly the scalars 1, …, l - 1. -/
theorem C59_sc_check (v : ℤ) : scCheck v = 0 ↔ 0 < v ∧ v < l := by
  have hl := l_pos
  unfold scCheck
  split
  · rename_i h0
    constructor
    · intro h; simp at h
    · rintro ⟨h1, h2⟩
      rw [Int.emod_eq_of_lt h1.le h2] at h0
      omega
  · rename_i h0
    split
    · rename_i h
      have h1 := Int.emod_nonneg v (ne_of_gt hl)
      have h2 := Int.emod_lt_of_pos v hl
      refine ⟨fun _ => ?_, fun _ => rfl⟩
      omega
    · rename_i h
      refine ⟨fun h' => by simp at h', fun ⟨h1, h2⟩ => absurd (Int.emod_eq_of_lt h1.le h2).symm h⟩

example : isOnCurve ⟨1, 1, 1, 1⟩ = false ∧ geFrombytesCheck ⟨1, 1, 1, 1⟩ = some 0 := by decide +kernel

/-! ## C60: hashing to a point -/

/-- C60. For every hash value the result is a point of the curve that is annihilated by l: it lies in the subgroup of prime order. -/
theorem C60_hash_to_point (h : Bytes) (hh : h.length = 32) :
    ∃ P, hashToPoint h = some P ∧ isOnCurve P = true ∧
      Spec.times (affine P) (2 ^ 252 + 27742317777372353535851937790883648493) = Spec.zero := by
  obtain ⟨n, hn, -⟩ := C35_int_bytes h hh
  obtain ⟨p, hp⟩ := hashPoint_on ((n : ℤ) % q)
  have h8 := rep_smul hp 8
  refine ⟨_, by rw [hashToPoint, hn]; rfl, (isOnCurve_iff _).mpr ⟨_, h8⟩, ?_⟩
  rw [affine_rep h8, ← lN_eq, ← toAff_times]
  exact congrArg toAff (l_eight p)

example : (hashToPoint (List.replicate 32 7)).map (fun P => pointEqual P ident) = some false := by decide +kernel

/-! ## C61: dividing by eight -/

/-- C61. Dividing a point of the prime-order subgroup by eight and multiplying by eight again returns it. -/
theorem C61_mul_inv_eight (P : Ext) (hP : isOnCurve P = true)
    (hl : Spec.times (affine P) (2 ^ 252 + 27742317777372353535851937790883648493) = Spec.zero) :
    ∃ R, mulInv8 P = some R ∧ isOnCurve R = true ∧ affine (scalarmult R 8) = affine P := by
  obtain ⟨p, hp⟩ := (isOnCurve_iff P).mp hP
  rw [affine_rep hp, ← lN_eq, ← toAff_times] at hl
  have hl : lN • p = 0 := toAff_injective (r := 0) hl
  have hs : decodeScalar invEight = some 2713877091499598330239944961141122840321418634767465352250731601857045344121 := by decide +kernel
  have h1 := rep_smul hp 2713877091499598330239944961141122840321418634767465352250731601857045344121
  have h2 := rep_smul h1 8
  refine ⟨_, by rw [mulInv8, hs]; rfl, (isOnCurve_iff _).mpr ⟨_, h1⟩, ?_⟩
  have hm : 2713877091499598330239944961141122840321418634767465352250731601857045344121 * 8 = lN * 3 + 1 := by decide +kernel
  have : 8 • 2713877091499598330239944961141122840321418634767465352250731601857045344121 • p = p := by
    rw [← mul_nsmul, hm, add_nsmul, mul_nsmul, hl, nsmul_zero, one_nsmul, zero_add]
  rw [this] at h2
  exact (affine_rep h2).trans (affine_rep hp).symm

/-- C61 fails outside that subgroup: the point of order two is lost. -/
theorem C61_false_torsion : ∃ P R, isOnCurve P = true ∧ mulInv8 P = some R ∧ pointEqual (scalarmult R 8) P = false :=
  ⟨⟨0, -1, 1, 0⟩, _, by decide +kernel, rfl, by decide +kernel⟩

example : isOnCurve B = true ∧ Spec.times (affine B) (2 ^ 252 + 27742317777372353535851937790883648493) = Spec.zero :=
  ⟨B_on, (C49_order.2.1 _).mpr (dvd_refl _)⟩

end Verif.Ed

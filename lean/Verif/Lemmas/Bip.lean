import Verif.Model.Bip
import Verif.Lemmas.Digits

namespace Verif.Bip
open Verif Verif.Dig

theorem toBE_split (b k m x : Nat) : toBE b (k + m) x = toBE b k (x / b ^ m) ++ toBE b m x := by
  induction m generalizing x with
  | zero => simp [toBE]
  | succ m ih =>
    rw [← Nat.add_assoc, toBE, ih (x / b), toBE, Nat.div_div_eq_div_mul, Nat.pow_succ, Nat.mul_comm b, List.append_assoc]

theorem toBE_mod (k m x : Nat) (h : m ≤ k) : toBE 2 m (x % 2 ^ k) = toBE 2 m x := by
  induction m generalizing k x with
  | zero => rfl
  | succ m ih =>
    obtain ⟨k, rfl⟩ : ∃ j, k = j + 1 := ⟨k - 1, by omega⟩
    have h1 : x % 2 ^ (k + 1) / 2 = x / 2 % 2 ^ k := by
      rw [Nat.pow_succ, Nat.mul_comm, Nat.mod_mul_right_div_self]
    have h2 : x % 2 ^ (k + 1) % 2 = x % 2 := by
      rw [Nat.pow_succ, Nat.mul_comm, Nat.mod_mul_right_mod]
    rw [toBE, toBE, h1, h2, ih k _ (by omega)]

theorem toBE_join (k m x y : Nat) (hy : y < 2 ^ m) : toBE 2 k x ++ toBE 2 m y = toBE 2 (k + m) (x * 2 ^ m + y) := by
  have hp : 0 < 2 ^ m := Nat.pow_pos (by omega)
  rw [toBE_split, Nat.mul_comm, Nat.mul_add_div hp, Nat.div_eq_of_lt hy, Nat.add_zero]
  congr 1
  rw [← toBE_mod m m (2 ^ m * x + y) (Nat.le_refl _), Nat.mul_add_mod, Nat.mod_eq_of_lt hy]

theorem shl_or (c k x : Nat) (h : x < 2 ^ k) : (c <<< k) ||| x = c * 2 ^ k + x := by
  rw [← Nat.shiftLeft_add_eq_or_of_lt h, Nat.shiftLeft_eq]

theorem toBE_zeros (k x m : Nat) : toBE 2 k x ++ List.replicate m 0 = toBE 2 (k + m) (x * 2 ^ m) := by
  have := toBE_join k m x 0 (Nat.pow_pos (by omega))
  rw [toBE_zero, Nat.add_zero] at this
  exact this

/-- The bits of a byte string, and of a list of word indices; most significant first. -/
def bits8 (l : List Nat) : List Nat := l.flatMap (toBE 2 8)
def bits11 (l : List Nat) : List Nat := l.flatMap (toBE 2 11)

theorem bits8_cons (x : Nat) (l : List Nat) : bits8 (x :: l) = toBE 2 8 x ++ bits8 l := rfl
theorem bits8_append (a b : List Nat) : bits8 (a ++ b) = bits8 a ++ bits8 b := by simp [bits8]
theorem bits11_append (a b : List Nat) : bits11 (a ++ b) = bits11 a ++ bits11 b := by simp [bits11]
theorem bits8_length (l : List Nat) : (bits8 l).length = 8 * l.length := by
  induction l with
  | nil => rfl
  | cons x l ih => rw [bits8_cons, List.length_append, ih, toBE_length, List.length_cons]; omega
theorem bits11_length (l : List Nat) : (bits11 l).length = 11 * l.length := by
  induction l with
  | nil => rfl
  | cons x l ih =>
    show (toBE 2 11 x ++ bits11 l).length = _
    rw [List.length_append, ih, toBE_length, List.length_cons]; omega

/-- What packing keeps of a bit string: up to 7 surplus bits are dropped, 8 to 10 surplus bits are padded with zeros. -/
def pack (s : List Nat) : List Nat :=
  if s.length % 11 ≤ 7 then s.take (s.length - s.length % 11) else s ++ List.replicate (11 - s.length % 11) 0

theorem b2iLoop_spec (bs : Bytes) (carry cb : Nat) (ind : List Nat) (hcb : cb < 11) (hc : carry < 2 ^ cb) (hi : ∀ i ∈ ind, i < 2 ^ 11)
    (hne : bs ≠ []) :
    bits11 (b2iLoop bs carry cb ind) = pack (bits11 ind ++ (toBE 2 cb carry ++ bits8 (nats bs))) ∧
      ∀ i ∈ b2iLoop bs carry cb ind, i < 2 ^ 11 := by
  induction bs generalizing carry cb ind with
  | nil => exact absurd rfl hne
  | cons b bs ih =>
    have hb := b.toNat_lt
    rw [b2iLoop]
    by_cases h8 : cb + 8 < 11
    · -- the byte fits
      have hmin : min 8 (11 - cb) = 8 := by omega
      have hx : b.toNat &&& (2 ^ 8 - 1) = b.toNat := by rw [Nat.and_two_pow_sub_one_eq_mod, Nat.mod_eq_of_lt hb]
      have hfl : decide (8 = 11 - cb) = false := by simp; omega
      simp only [hmin, Nat.sub_self, Nat.shiftRight_zero, hx, shl_or _ _ _ hb, hfl, Bool.false_or]
      have hlt : carry * 2 ^ 8 + b.toNat < 2 ^ (cb + 8) := by rw [Nat.pow_add]; omega
      cases bs with
      | nil =>
        simp only [List.isEmpty_nil, ne_eq, Nat.reduceEqDiff, not_false_eq_true, decide_true, Bool.and_self, if_true, b2iLoop]
        have hlen : (bits11 ind ++ (toBE 2 cb carry ++ bits8 (nats [b]))).length % 11 = cb + 8 := by
          simp only [List.length_append, bits11_length, toBE_length, bits8_length, nats_length, List.length_singleton]; omega
        constructor
        · rw [pack, hlen, if_neg (by omega), bits11_append]
          simp only [nats, List.map_cons, List.map_nil, bits8, List.flatMap_cons, List.flatMap_nil, List.append_nil, bits11, List.append_assoc]
          congr 1
          rw [← List.append_assoc, toBE_join _ _ _ _ hb, toBE_zeros, Nat.shiftLeft_eq, show cb + 8 + (11 - (cb + 8)) = 11 by omega]
        · intro i hi'
          rcases List.mem_append.1 hi' with h | h
          · exact hi i h
          · simp only [List.mem_singleton] at h
            rw [h, Nat.shiftLeft_eq, show (2 : Nat) ^ 11 = 2 ^ (cb + 8) * 2 ^ (11 - (cb + 8)) by rw [← Nat.pow_add]; congr 1; omega]
            exact Nat.mul_lt_mul_of_pos_right hlt (Nat.pow_pos (by omega))
      | cons b' bs' =>
        simp only [List.isEmpty_cons, Bool.false_and, Bool.false_eq_true, if_false]
        obtain ⟨h1, h2⟩ := ih _ (cb + 8) ind h8 hlt hi (by simp)
        refine ⟨?_, h2⟩
        rw [h1]
        congr 2
        have e : bits8 (nats (b :: b' :: bs')) = toBE 2 8 b.toNat ++ bits8 (nats (b' :: bs')) := rfl
        rw [e, ← List.append_assoc, toBE_join _ _ _ _ hb]
    · -- an index is complete
      have hmin : min 8 (11 - cb) = 11 - cb := by omega
      generalize hcl : 11 - cb = cl at *
      have hcl8 : cl ≤ 8 := by omega
      have hcl0 : cl ≠ 0 := by omega
      have hq : b.toNat / 2 ^ (8 - cl) < 2 ^ cl := by
        apply Nat.div_lt_of_lt_mul
        rw [← Nat.pow_add, show 8 - cl + cl = 8 by omega]; exact hb
      have hx : (b.toNat >>> (8 - cl)) &&& (2 ^ cl - 1) = b.toNat / 2 ^ (8 - cl) := by
        rw [Nat.and_two_pow_sub_one_eq_mod, Nat.shiftRight_eq_div_pow, Nat.mod_eq_of_lt hq]
      have hmin' : min 8 cl = cl := by omega
      have hlt : carry * 2 ^ cl + b.toNat / 2 ^ (8 - cl) < 2 ^ 11 := by
        rw [show 11 = cb + cl by omega, Nat.pow_add]
        have : (carry + 1) * 2 ^ cl ≤ 2 ^ cb * 2 ^ cl := Nat.mul_le_mul_right _ hc
        rw [Nat.add_mul, Nat.one_mul] at this
        omega
      have hsh : 11 - (cb + cl) = 0 := by omega
      simp only [hmin', hx, shl_or _ _ _ hq, decide_true, Bool.true_or, if_true, hsh, Nat.shiftLeft_zero, ite_self,
        Nat.and_two_pow_sub_one_eq_mod]
      have hind : ∀ i ∈ ind ++ [carry * 2 ^ cl + b.toNat / 2 ^ (8 - cl)], i < 2 ^ 11 := by
        intro i hi'
        rcases List.mem_append.1 hi' with h | h
        · exact hi i h
        · simp only [List.mem_singleton] at h; rw [h]; exact hlt
      have hbits : bits11 (ind ++ [carry * 2 ^ cl + b.toNat / 2 ^ (8 - cl)]) ++ toBE 2 (8 - cl) (b.toNat % 2 ^ (8 - cl)) =
          bits11 ind ++ (toBE 2 cb carry ++ toBE 2 8 b.toNat) := by
        rw [bits11_append, List.append_assoc]
        congr 1
        simp only [bits11, List.flatMap_cons, List.flatMap_nil, List.append_nil]
        have h8' : 8 = cl + (8 - cl) := by omega
        conv => rhs; rw [h8', toBE_split, ← List.append_assoc, toBE_join _ _ _ _ hq, show cb + cl = 11 by omega]
        rw [toBE_mod _ _ _ (Nat.le_refl _)]
      cases bs with
      | nil =>
        rw [b2iLoop]
        refine ⟨?_, hind⟩
        have hlen : (bits11 ind ++ (toBE 2 cb carry ++ bits8 (nats [b]))).length % 11 = 8 - cl := by
          simp only [List.length_append, bits11_length, toBE_length, bits8_length, nats_length, List.length_singleton]; omega
        have e : bits8 (nats [b]) = toBE 2 8 b.toNat := by simp [bits8, nats]
        rw [pack, hlen, if_pos (by omega), e, ← hbits, List.length_append, toBE_length, Nat.add_sub_cancel, List.take_left]
      | cons b' bs' =>
        obtain ⟨h1, h2⟩ := ih (b.toNat % 2 ^ (8 - cl)) (8 - cl) (ind ++ [carry * 2 ^ cl + b.toNat / 2 ^ (8 - cl)]) (by omega)
          (Nat.mod_lt _ (Nat.pow_pos (by omega))) hind (by simp)
        refine ⟨?_, h2⟩
        rw [h1]
        congr 1
        rw [← List.append_assoc, hbits]
        simp [nats, bits8_cons]

/-- Bits that are still to be consumed. -/
theorem i2bLoop_spec (fuel cur : Nat) (rest : List Nat) (carry cb avail : Nat) (barr : List Nat) (hcb : cb < 8) (hc : carry < 2 ^ cb)
    (ha : 0 < avail) (ha2 : avail ≤ 11) (hb : ∀ x ∈ barr, x < 256) (hf : avail + 11 * rest.length < fuel) :
    ∃ r, i2bLoop fuel cur rest carry cb avail barr = some r ∧ (∀ x ∈ r, x < 256) ∧
      bits8 r = (let s := bits8 barr ++ (toBE 2 cb carry ++ (toBE 2 avail cur ++ bits11 rest)); s.take (8 * (s.length / 8))) := by
  induction fuel generalizing cur rest carry cb avail barr with
  | zero => omega
  | succ fuel ih =>
    rw [i2bLoop]
    generalize hcons : min (8 - cb) avail = cons
    have hcons0 : 0 < cons := by omega
    have hle1 : cons ≤ 8 - cb := by omega
    have hle2 : cons ≤ avail := by omega
    have hmod : (cur >>> (avail - cons)) &&& (1 <<< cons - 1) = cur / 2 ^ (avail - cons) % 2 ^ cons := by
      rw [Nat.shiftLeft_eq, Nat.one_mul, Nat.and_two_pow_sub_one_eq_mod, Nat.shiftRight_eq_div_pow]
    have hml : cur / 2 ^ (avail - cons) % 2 ^ cons < 2 ^ cons := Nat.mod_lt _ (Nat.pow_pos (by omega))
    simp only [hmod, shl_or _ _ _ hml]
    generalize hc1 : carry * 2 ^ cons + cur / 2 ^ (avail - cons) % 2 ^ cons = carry1
    have hlt : carry1 < 2 ^ (cb + cons) := by
      rw [← hc1, Nat.pow_add]
      have : (carry + 1) * 2 ^ cons ≤ 2 ^ cb * 2 ^ cons := Nat.mul_le_mul_right _ hc
      rw [Nat.add_mul, Nat.one_mul] at this
      omega
    -- the bits
    have hav : toBE 2 avail cur = toBE 2 cons (cur / 2 ^ (avail - cons)) ++ toBE 2 (avail - cons) cur := by
      conv => lhs; rw [show avail = cons + (avail - cons) by omega, toBE_split]
    have hcar : toBE 2 cb carry ++ toBE 2 cons (cur / 2 ^ (avail - cons)) = toBE 2 (cb + cons) carry1 := by
      rw [← hc1, ← toBE_join _ _ _ _ hml, toBE_mod _ _ _ (Nat.le_refl _)]
    -- state after the conditional append
    have hst : ∃ barr1 carry2 cb2, (if 8 - cb = cons then (barr ++ [carry1], 0, 0) else (barr, carry1, cb + cons)) = (barr1, carry2, cb2) ∧
        cb2 < 8 ∧ carry2 < 2 ^ cb2 ∧ (∀ x ∈ barr1, x < 256) ∧
        bits8 barr1 ++ toBE 2 cb2 carry2 = bits8 barr ++ toBE 2 (cb + cons) carry1 := by
      by_cases h : 8 - cb = cons
      · rw [if_pos h]
        refine ⟨_, _, _, rfl, by omega, by simp, ?_, ?_⟩
        · intro x hx
          rcases List.mem_append.1 hx with hx | hx
          · exact hb x hx
          · simp only [List.mem_singleton] at hx
            rw [show cb + cons = 8 by omega] at hlt
            rw [hx]; exact hlt
        · rw [show cb + cons = 8 by omega, bits8_append]
          simp [bits8, toBE]
      · rw [if_neg h]
        exact ⟨_, _, _, rfl, by omega, hlt, hb, rfl⟩
    obtain ⟨barr1, carry2, cb2, he, g1, g2, g3, g4⟩ := hst
    rw [he]
    simp only
    have hS : bits8 barr ++ (toBE 2 cb carry ++ (toBE 2 avail cur ++ bits11 rest)) =
        bits8 barr1 ++ (toBE 2 cb2 carry2 ++ (toBE 2 (avail - cons) cur ++ bits11 rest)) := by
      rw [hav, List.append_assoc, ← List.append_assoc (toBE 2 cb carry), hcar, ← List.append_assoc (bits8 barr), ← g4, List.append_assoc]
    by_cases h0 : avail - cons = 0
    · rw [if_pos h0]
      cases rest with
      | nil =>
        refine ⟨barr1, rfl, g3, ?_⟩
        rw [hS, h0]
        have hl : (bits8 barr1 ++ (toBE 2 cb2 carry2 ++ (toBE 2 0 cur ++ bits11 []))).length / 8 = barr1.length := by
          simp only [List.length_append, bits8_length, toBE_length, bits11_length, List.length_nil]; omega
        simp only [hl]
        rw [← bits8_length, List.take_left]
      | cons c rest =>
        obtain ⟨r, r1, r2, r3⟩ := ih c rest carry2 cb2 11 barr1 g1 g2 (by omega) (by omega) g3 (by simp at hf; omega)
        refine ⟨r, r1, r2, ?_⟩
        rw [r3, hS, h0]
        simp [toBE, bits11]
    · rw [if_neg h0]
      obtain ⟨r, r1, r2, r3⟩ := ih cur rest carry2 cb2 (avail - cons) barr1 g1 g2 (by omega) (by omega) g3 (by omega)
      exact ⟨r, r1, r2, by rw [r3, hS]⟩

theorem bits8_inj {a b : List Nat} (ha : ∀ x ∈ a, x < 256) (hb : ∀ x ∈ b, x < 256) (h : bits8 a = bits8 b) : a = b := by
  induction a generalizing b with
  | nil =>
    cases b with
    | nil => rfl
    | cons y b =>
      have := congrArg List.length h
      rw [bits8_length, bits8_length] at this
      simp at this
  | cons x a ih =>
    cases b with
    | nil =>
      have := congrArg List.length h
      rw [bits8_length, bits8_length] at this
      simp at this
    | cons y b =>
      rw [bits8_cons, bits8_cons] at h
      obtain ⟨h1, h2⟩ := List.append_inj h (by simp)
      have e := congrArg (ofBE 2) h1
      rw [ofBE_toBE _ _ (ha x (by simp)), ofBE_toBE _ _ (hb y (by simp))] at e
      rw [e, ih (fun z hz => ha z (by simp [hz])) (fun z hz => hb z (by simp [hz])) h2]

/-- Unpacking never runs into the iteration bound and returns the full bytes of the bit string. -/
theorem indicesToBytes_spec (ind : List Nat) (hne : ind ≠ []) :
    ∃ r, indicesToBytes ind = some r ∧ bits8 (nats r) = (bits11 ind).take (8 * ((bits11 ind).length / 8)) := by
  cases ind with
  | nil => exact absurd rfl hne
  | cons c rest =>
    obtain ⟨r, h1, h2, h3⟩ := i2bLoop_spec (11 * (c :: rest).length + 1) c rest 0 0 11 [] (by omega) (by simp) (by omega) (by omega)
      (by simp) (by simp; omega)
    refine ⟨r.map UInt8.ofNat, ?_, ?_⟩
    · simp only [indicesToBytes, h1]
      rw [if_pos (by simpa using h2)]
    · have : nats (r.map UInt8.ofNat) = r := nats_ofNats r h2
      rw [this, h3]
      simp [bits8, toBE, bits11]

end Verif.Bip

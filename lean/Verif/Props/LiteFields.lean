import Verif.Lemmas.Lite

/-! C53: integers, tags and lengths of the lite protocol. -/

namespace Verif.Lite
open Verif Ed Key Sig

/-- `w` writes the bytes `b`, whatever was written before. -/
def Writes (w : LM Unit) (b : Bytes) : Prop := ∀ s : St, w.run s = (some (), s.put b)

/-- `r` reads the value `x` off a message that goes on with the bytes `b`, and leaves what comes after them. -/
def Reads {α : Type} (r : LM α) (b : Bytes) (x : α) : Prop :=
  ∀ (s : St) (y : Bytes), rest s = b ++ y → r.run s = (some x, s.adv b.length)

theorem put_put (s : St) (a b : Bytes) : (s.put a).put b = s.put (a ++ b) := by
  unfold St.put; simp only [List.append_assoc]

theorem adv_adv (s : St) (m n : ℕ) : (s.adv m).adv n = s.adv (m + n) := by
  unfold St.adv; simp only [Nat.add_assoc]

theorem writes_insert (b : Bytes) : Writes (insert b) b := fun _ => rfl

theorem writes_bind {u w : LM Unit} {a b : Bytes} (h1 : Writes u a) (h2 : Writes w b) : Writes (do u; w) (a ++ b) := by
  intro s
  rw [run_bind_some (h1 s), h2, put_put]

theorem reads_bind {α β : Type} {r : LM α} {f : α → LM β} {a b : Bytes} {x : α} {z : β} (h1 : Reads r a x) (h2 : Reads (f x) b z) :
    Reads (r >>= f) (a ++ b) z := by
  intro s y h
  rw [List.append_assoc] at h
  rw [run_bind_some (h1 s _ h), h2 _ y (rest_adv h rfl), adv_adv, List.length_append]

theorem reads_pure {α : Type} (x : α) : Reads (pure x : LM α) [] x := fun _ _ _ => rfl

theorem reads_u8 (b : UInt8) : Reads fetchU8 [b] b.toNat := fun _ _ h => run_u8 h

theorem toNat_ofNat (x : ℕ) : (UInt8.ofNat x).toNat = x % 256 := by simp

/-- C53. Bytes written are the bytes fetched. -/
theorem C53_bytes (b : Bytes) : Writes (insert b) b ∧ Reads (fetch b.length) b b :=
  ⟨writes_insert b, fun _ _ h => run_fetch h rfl⟩

/-- C53. Integers of one, two and four bytes: what was written is fetched again, taken modulo the size of the field. -/
theorem C53_integers (x : ℕ) :
    (∃ b, b.length = 1 ∧ Writes (insertU8 x) b ∧ Reads fetchU8 b (x % 2 ^ 8)) ∧
    (∃ b, b.length = 2 ∧ Writes (insertU16 x) b ∧ Reads fetchU16 b (x % 2 ^ 16)) ∧
    (∃ b, b.length = 4 ∧ Writes (insertU32 x) b ∧ Reads fetchU32 b (x % 2 ^ 32)) := by
  refine ⟨⟨[UInt8.ofNat x], rfl, writes_insert _, ?_⟩, ⟨[UInt8.ofNat (x / 256)] ++ [UInt8.ofNat x], rfl, ?_, ?_⟩,
    ⟨[UInt8.ofNat (x / 16777216)] ++ ([UInt8.ofNat (x / 65536)] ++ ([UInt8.ofNat (x / 256)] ++ [UInt8.ofNat x])), rfl, ?_, ?_⟩⟩
  · have := reads_u8 (UInt8.ofNat x)
    rwa [toNat_ofNat] at this
  · exact writes_bind (writes_insert _) (writes_insert _)
  · have h := reads_bind (f := fun a => do let b ← fetchU8; pure (a * 256 + b)) (reads_u8 (UInt8.ofNat (x / 256)))
      (reads_bind (f := fun b => pure ((UInt8.ofNat (x / 256)).toNat * 256 + b)) (reads_u8 (UInt8.ofNat x)) (reads_pure _))
    rw [toNat_ofNat, toNat_ofNat, List.append_nil] at h
    rw [show x % 2 ^ 16 = x / 256 % 256 * 256 + x % 256 by omega]
    exact h
  · exact writes_bind (writes_insert _) (writes_bind (writes_insert _) (writes_bind (writes_insert _) (writes_insert _)))
  · have h := reads_bind (f := fun a => do let b ← fetchU8; let c ← fetchU8; let d ← fetchU8; pure (((a * 256 + b) * 256 + c) * 256 + d))
      (reads_u8 (UInt8.ofNat (x / 16777216)))
      (reads_bind (f := fun b => do let c ← fetchU8; let d ← fetchU8; pure ((((UInt8.ofNat (x / 16777216)).toNat * 256 + b) * 256 + c) * 256 + d))
        (reads_u8 (UInt8.ofNat (x / 65536)))
        (reads_bind (f := fun c => do let d ← fetchU8; pure ((((UInt8.ofNat (x / 16777216)).toNat * 256 + (UInt8.ofNat (x / 65536)).toNat) * 256 + c) * 256 + d))
          (reads_u8 (UInt8.ofNat (x / 256)))
          (reads_bind (f := fun d => pure ((((UInt8.ofNat (x / 16777216)).toNat * 256 + (UInt8.ofNat (x / 65536)).toNat) * 256 + (UInt8.ofNat (x / 256)).toNat) * 256 + d))
            (reads_u8 (UInt8.ofNat x)) (reads_pure _))))
    rw [toNat_ofNat, toNat_ofNat, toNat_ofNat, toNat_ofNat, List.append_nil] at h
    rw [show x % 2 ^ 32 = ((x / 16777216 % 256 * 256 + x / 65536 % 256) * 256 + x / 256 % 256) * 256 + x % 256 by omega]
    exact h

/-- C53. A fetch that goes beyond the end of the message is refused. -/
theorem C53_refused (s : St) :
    (∀ n, (rest s).length < n → ((fetch n).run s).1 = none) ∧
    ((rest s).length < 1 → (fetchU8.run s).1 = none) ∧
    ((rest s).length < 2 → (fetchU16.run s).1 = none) ∧
    ((rest s).length < 4 → (fetchU32.run s).1 = none) := by
  have u8 : ∀ s : St, rest s = [] → (fetchU8.run s) = (none, s) := by
    intro s h
    unfold fetchU8
    rw [run_bind_none (fetch_short (by rw [h]; decide))]
  refine ⟨fun n h => by rw [fetch_short h], fun h => by rw [u8 s (List.length_eq_zero_iff.mp (by omega))], ?_, ?_⟩
  · intro h
    unfold fetchU16
    cases hr : rest s with
    | nil => rw [run_bind_none (u8 s hr)]
    | cons a r =>
      rw [hr] at h
      rw [run_bind_some (run_u8 hr), run_bind_none (u8 _ (by rw [rest_u8 hr]; exact List.length_eq_zero_iff.mp (by simp only [List.length_cons] at h; omega)))]
  · intro h
    unfold fetchU32
    cases hr : rest s with
    | nil => rw [run_bind_none (u8 s hr)]
    | cons a r =>
      rw [hr] at h
      rw [run_bind_some (run_u8 hr)]
      have h1 := rest_u8 hr
      cases hr1 : r with
      | nil => rw [run_bind_none (u8 _ (by rw [h1, hr1]))]
      | cons b r1 =>
        rw [hr1] at h1 h
        rw [run_bind_some (run_u8 h1)]
        have h2 := rest_u8 h1
        cases hr2 : r1 with
        | nil => rw [run_bind_none (u8 _ (by rw [h2, hr2]))]
        | cons c r2 =>
          rw [hr2] at h2 h
          have h3 := rest_u8 h2
          rw [run_bind_some (run_u8 h2), run_bind_none (u8 _ (by rw [h3]; exact List.length_eq_zero_iff.mp (by simp only [List.length_cons] at h; omega)))]

/-- A state whose message is `b`. -/
def holding (b : Bytes) : St := { a := 0, b := 0, A := ident, B := ident, msg := b }

theorem fetchT_one {b : UInt8} (h : b.toNat % 32 ≠ 31) : Reads fetchT [b] b.toNat := by
  have := reads_bind (f := fun t => if t % 32 = 0x1f then do let u ← fetchU8; pure (t * 256 + u) else pure t) (reads_u8 b)
    (z := b.toNat) (b := []) (by rw [if_neg h]; exact reads_pure _)
  exact this

theorem fetchT_two {a b : UInt8} (h : a.toNat % 32 = 31) : Reads fetchT ([a] ++ [b]) (a.toNat * 256 + b.toNat) := by
  have := reads_bind (f := fun t => if t % 32 = 0x1f then do let u ← fetchU8; pure (t * 256 + u) else pure t) (reads_u8 a)
    (z := a.toNat * 256 + b.toNat) (b := [b]) (by
      rw [if_pos h]
      have := reads_bind (f := fun u => pure (a.toNat * 256 + u)) (reads_u8 b) (reads_pure _)
      exact this)
  exact this

/-- C53. A tag is fetched as it was written exactly when it is a one-byte tag that does not end in five ones or a two-byte tag whose first byte does. -/
theorem C53_tag (t : ℕ) (ht : t < 2 ^ 16) :
    ∃ b, Writes (insertT t) b ∧ (Reads fetchT b t ↔ (t < 256 ∧ t % 32 ≠ 31) ∨ (256 ≤ t ∧ t / 256 % 32 = 31)) := by
  by_cases h : t < 256
  · have hw : insertT t = insertU8 t := by unfold insertT; rw [if_neg (by omega)]
    refine ⟨[UInt8.ofNat t], by rw [hw]; exact writes_insert _, ?_⟩
    have hn : (UInt8.ofNat t).toNat = t := by rw [toNat_ofNat]; omega
    by_cases h2 : t % 32 = 31
    · simp only [h2, ne_eq, not_true_eq_false, and_false, false_or]
      refine ⟨fun hr => ?_, fun h3 => by omega⟩
      have := hr (holding [UInt8.ofNat t]) [] rfl
      have h3 : fetchT.run (holding [UInt8.ofNat t]) = (none, (holding [UInt8.ofNat t]).adv 1) := by
        unfold fetchT
        rw [run_bind_some (run_u8 (o := UInt8.ofNat t) (y := []) rfl), hn, if_pos h2]
        unfold fetchU8
        rw [run_bind_none (run_bind_none (fetch_short (s := (holding [UInt8.ofNat t]).adv 1) (by show (0 : ℕ) < 1; decide)) _)]
      rw [h3] at this
      cases congrArg Prod.fst this
    · refine ⟨fun _ => Or.inl ⟨h, h2⟩, fun _ => ?_⟩
      have := fetchT_one (b := UInt8.ofNat t) (by rw [hn]; exact h2)
      rwa [hn] at this
  · have hw : insertT t = insertU16 t := by unfold insertT; rw [if_pos (by omega)]
    have hb : Writes (insertT t) ([UInt8.ofNat (t / 256)] ++ [UInt8.ofNat t]) := by
      rw [hw]; exact writes_bind (writes_insert _) (writes_insert _)
    refine ⟨_, hb, ?_⟩
    have h1 : (UInt8.ofNat (t / 256)).toNat = t / 256 := by rw [toNat_ofNat]; omega
    have h2 : (UInt8.ofNat t).toNat = t % 256 := toNat_ofNat t
    by_cases h3 : t / 256 % 32 = 31
    · refine ⟨fun _ => Or.inr ⟨by omega, h3⟩, fun _ => ?_⟩
      have := fetchT_two (a := UInt8.ofNat (t / 256)) (b := UInt8.ofNat t) (by rw [h1]; exact h3)
      rw [h1, h2, show t / 256 * 256 + t % 256 = t by omega] at this
      exact this
    · refine ⟨fun hr => ?_, fun h4 => by omega⟩
      have := hr (holding ([UInt8.ofNat (t / 256)] ++ [UInt8.ofNat t])) [] rfl
      have h4 := fetchT_one (b := UInt8.ofNat (t / 256)) (by rw [h1]; exact h3) (holding ([UInt8.ofNat (t / 256)] ++ [UInt8.ofNat t])) [UInt8.ofNat t] rfl
      rw [h4] at this
      have := Option.some.inj (congrArg Prod.fst this)
      omega

theorem fetchL_one {a : UInt8} (b : UInt8) (h : a.toNat % 128 = 1) : Reads fetchL ([a] ++ [b]) (b.toNat : ℤ) := by
  refine reads_bind (f := fun l => if l % 128 = 1 then do let v ← fetchU8; pure (v : ℤ) else if l % 128 = 2 then do let v ← fetchU16; pure (v : ℤ) else pure (-1))
    (reads_u8 a) (b := [b]) ?_
  rw [if_pos h]
  exact reads_bind (f := fun v : ℕ => pure (v : ℤ)) (reads_u8 b) (reads_pure _)

theorem fetchL_two {a : UInt8} {b : Bytes} {x : ℕ} (h : a.toNat % 128 = 2) (hr : Reads fetchU16 b x) : Reads fetchL ([a] ++ b) (x : ℤ) := by
  refine reads_bind (f := fun l => if l % 128 = 1 then do let v ← fetchU8; pure (v : ℤ) else if l % 128 = 2 then do let v ← fetchU16; pure (v : ℤ) else pure (-1))
    (reads_u8 a) (b := b) ?_
  rw [if_neg (by omega), if_pos h]
  have := reads_bind (f := fun v : ℕ => pure (v : ℤ)) hr (reads_pure (x : ℤ))
  rwa [List.append_nil] at this

theorem fetchL_other {a : UInt8} (h1 : a.toNat % 128 ≠ 1) (h2 : a.toNat % 128 ≠ 2) : Reads fetchL [a] (-1) := by
  refine reads_bind (f := fun l => if l % 128 = 1 then do let v ← fetchU8; pure (v : ℤ) else if l % 128 = 2 then do let v ← fetchU16; pure (v : ℤ) else pure (-1))
    (reads_u8 a) (b := []) ?_
  rw [if_neg h1, if_neg h2]
  exact reads_pure _

/-- C53, as far as it holds: a tag that can be fetched and a length from 128 to 65535 are fetched as they were written. -/
theorem C53_length_partial (t : ℕ) (htag : (t < 256 ∧ t % 32 ≠ 31) ∨ (256 ≤ t ∧ t < 2 ^ 16 ∧ t / 256 % 32 = 31)) (l : ℕ) (h0 : 128 ≤ l) (h1 : l < 2 ^ 16) :
    ∃ b, Writes (insertTL t l) b ∧ Reads (do let t ← fetchT; let l ← fetchL; pure (t, l)) b (t, (l : ℤ)) := by
  obtain ⟨bt, wt, rt⟩ := C53_tag t (by omega)
  have rt := rt.mpr (by omega)
  have key : ∀ bl (w : LM Unit), Writes w bl → Reads fetchL bl (l : ℤ) → (insertTL t l = (do insertT t; w)) →
      ∃ b, Writes (insertTL t l) b ∧ Reads (do let t ← fetchT; let l ← fetchL; pure (t, l)) b (t, (l : ℤ)) := by
    intro bl w hw hr he
    refine ⟨bt ++ bl, by rw [he]; exact writes_bind wt hw, ?_⟩
    have := reads_bind (f := fun t => do let l ← fetchL; pure (t, l)) rt (reads_bind (f := fun l => pure (t, l)) hr (reads_pure _))
    rwa [List.append_nil] at this
  by_cases h : l < 256
  · refine key ([UInt8.ofNat ((0x8100 + l) / 256)] ++ [UInt8.ofNat (0x8100 + l)]) (insertU16 (0x8100 + l)) (writes_bind (writes_insert _) (writes_insert _)) ?_ ?_
    · have hh : (UInt8.ofNat (0x8100 + l)).toNat = l := by rw [toNat_ofNat]; omega
      have := fetchL_one (a := UInt8.ofNat ((0x8100 + l) / 256)) (UInt8.ofNat (0x8100 + l)) (by rw [toNat_ofNat]; omega)
      rwa [hh] at this
    · unfold insertTL; rw [if_neg (by omega), if_pos h]
  · obtain ⟨b, -, hw, hr⟩ := (C53_integers l).2.1
    rw [Nat.mod_eq_of_lt h1] at hr
    refine key ([0x82] ++ b) (do insertU8 0x82; insertU16 l) (writes_bind (writes_insert _) hw) (fetchL_two (by decide) hr) ?_
    unfold insertTL; rw [if_neg (by omega), if_neg h]

/-- C53 does not hold for lengths below 128, which are written as one byte: that byte is taken for the number of length bytes. Every length but 1 and 2 is
fetched as -1; 1 is fetched as the first byte of the contents and 2 as the first two. -/
theorem C53_false_length (l : ℕ) (h : l < 128) :
    Writes (do insertT 0; insertU8 l) [0, UInt8.ofNat l] ∧ insertTL 0 l = (do insertT 0; insertU8 l) ∧
    (l ≠ 1 → l ≠ 2 → Reads fetchL [UInt8.ofNat l] (-1)) ∧
    (l = 1 → ∀ b : UInt8, Reads fetchL [UInt8.ofNat l, b] (b.toNat : ℤ)) ∧
    (l = 2 → ∀ b c : UInt8, Reads fetchL [UInt8.ofNat l, b, c] ((b.toNat * 256 + c.toNat : ℕ) : ℤ)) := by
  have hn : (UInt8.ofNat l).toNat = l := by rw [toNat_ofNat]; omega
  refine ⟨writes_bind (a := [0]) (writes_insert _) (writes_insert _), ?_, ?_, ?_, ?_⟩
  · unfold insertTL; rw [if_pos h]
  · intro h1 h2
    exact fetchL_other (by rw [hn]; omega) (by rw [hn]; omega)
  · intro h1 b
    exact fetchL_one b (by rw [hn]; omega)
  · intro h1 b c
    refine fetchL_two (b := [b, c]) (by rw [hn]; omega) ?_
    exact reads_bind (f := fun a => do let b ← fetchU8; pure (a * 256 + b)) (b := [c]) (reads_u8 b)
      (reads_bind (f := fun x => pure (b.toNat * 256 + x)) (b := []) (reads_u8 c) (reads_pure _))

/-- Tag 0x42 with length 300, and tag 0x1f07 with length 200. -/
example : (0x42 < 256 ∧ 0x42 % 32 ≠ 31) ∧ (128 ≤ 300 ∧ 300 < 2 ^ 16) ∧ (256 ≤ 0x1f07 ∧ 0x1f07 < 2 ^ 16 ∧ 0x1f07 / 256 % 32 = 31) := by decide

example : (fetchL.run (holding [5, 1, 2, 3, 4, 5])).1 = some (-1) := by decide
example : (fetchL.run (holding [1, 77])).1 = some 77 := by decide
example : (fetchL.run (holding [0x81, 200])).1 = some 200 := by decide

end Verif.Lite

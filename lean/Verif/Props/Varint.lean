import Verif.Lemmas.Varint

/-! C19, C20: integers on the wire. -/

namespace Verif.Varint
open Verif

/-- C19. A non-negative integer written to a stream is read back exactly and the reader is left
exactly behind it, whatever follows. -/
theorem C19_uvarint_roundtrip (n : Int) (hn : 0 ≤ n) :
    ∃ enc, dump n = some enc ∧ ∀ rest, load (enc ++ rest) = some (n.toNat, rest) := by
  refine ⟨dumpNat n.toNat, ?_, fun rest => load_dumpNat _ rest⟩
  rw [dump, if_neg (by omega)]

/-- C19. Negative integers are refused. -/
theorem C19_uvarint_negative_rejected (n : Int) : dump n = none ↔ n < 0 := by
  unfold dump; split <;> simp <;> omega

/-- C19. The encoding is prefix free: no encoding is a proper prefix of another one. -/
theorem C19_uvarint_prefix_free (m n : Int) (em en tail : Bytes)
    (hm : dump m = some em) (hn : dump n = some en) (h : en = em ++ tail) : m = n ∧ tail = [] := by
  unfold dump at hm hn
  split at hm <;> simp at hm
  split at hn <;> simp at hn
  subst hm hn
  have h' : dumpNat n.toNat ++ [] = dumpNat m.toNat ++ tail := by simpa using h
  have := dumpNat_append_inj h'
  exact ⟨by omega, this.2.symm⟩

/-- C19. A truncated encoding is never accepted. -/
theorem C19_uvarint_truncated_rejected (n : Int) (enc p s : Bytes) (h : dump n = some enc)
    (hp : enc = p ++ s) (hs : s ≠ []) : load p = none := by
  unfold dump at h
  split at h <;> simp at h
  subst h
  cases hl : load p with
  | none => rfl
  | some x =>
    exfalso
    -- the value found in `p` would also be found in the full encoding, leaving `… ++ s`
    have mono : ∀ (q : Bytes) (a b : Nat) v r, loadAux a b q = some (v, r) →
        loadAux a b (q ++ s) = some (v, r ++ s) := by
      intro q
      induction q with
      | nil => intro a b v r h; simp [loadAux] at h
      | cons c q ih =>
        intro a b v r h
        rw [List.cons_append]
        rw [loadAux_cons] at h ⊢
        by_cases hc : 128 ≤ c.toNat
        · rw [if_pos hc] at h ⊢; exact ih _ _ _ _ h
        · rw [if_neg hc] at h ⊢; simp at h; obtain ⟨rfl, rfl⟩ := h; rfl
    have h1 := mono p 0 0 x.1 x.2 hl
    have h2 := load_dumpNat n.toNat []
    rw [List.append_nil, hp] at h2
    unfold load at h2
    rw [h2] at h1
    simp at h1
    exact hs h1.2.2

/-- C20. The signed/unsigned mapping is a bijection between all integers and the naturals. -/
theorem C20_sint_roundtrip (s : Int) : 0 ≤ sintToUint s ∧ uintToSint (sintToUint s) = s := by
  unfold sintToUint uintToSint
  constructor
  · simp only; split <;> omega
  · simp only; split <;> split <;> omega

theorem C20_uint_roundtrip (u : Int) (hu : 0 ≤ u) : sintToUint (uintToSint u) = u := by
  unfold sintToUint uintToSint
  simp only; split <;> split <;> omega

example : dump 300 = some [0xAC, 0x02] := by decide +kernel
example : load [0xAC, 0x02, 0x07] = some (300, [0x07]) := by decide +kernel
example : sintToUint (-3) = 5 ∧ uintToSint 5 = -3 := by decide

end Verif.Varint

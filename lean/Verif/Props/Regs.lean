import Verif.Lemmas.Regs

/-!
C132: programs over scalar and point objects compute in the field and in the group.
-/

namespace Verif.Regs
open Verif Ed Edwards Key Sig

/-- C132. Whatever objects are given as destinations and operands, the same ones included, a program raises exactly when the specification has no result,
and otherwise every object holds the value it should: scalars reduced, points on the curve. -/
theorem C132_program_partial {ops : List Op} (hops : ∀ op ∈ ops, op.Plain) : ∀ {m : Mem} {a : Vals}, Good m a →
    Option.Rel Good (run ops m) (Vals.run ops a) := by
  induction ops with
  | nil => intro m a h; exact .some h
  | cons op ops ih =>
    intro m a h
    exact rel_bind (step_plain h (hops op (by simp))) fun m' a' h' => ih (fun x hx => hops x (by simp [hx])) h'

/-- C132. In such a memory equality of scalars is equality of the values, and the bytes of points are equal exactly for equal points. -/
theorem C132_equal {m : Mem} {a : Vals} (h : Good m a) (i j : Nat) :
    (∀ x y, a.sc[i]? = some x → a.sc[j]? = some y → (scEq m i j = some true ↔ x = y)) ∧
    (∀ p q, a.pt[i]? = some p → a.pt[j]? = some q → ∃ P Q, m.pt[i]? = some P ∧ m.pt[j]? = some Q ∧ (encodePoint P = encodePoint Q ↔ p = q)) := by
  constructor
  · intro x y hx hy
    have h1 := rel_get h.sc i
    have h2 := rel_get h.sc j
    rw [hx] at h1
    rw [hy] at h2
    unfold scEq
    generalize m.sc[i]? = u at h1 ⊢
    generalize m.sc[j]? = w at h2 ⊢
    cases h1 with
    | some h1 =>
      cases h2 with
      | some h2 =>
        simp only [Option.bind_some, Option.map_some, Option.some.injEq, beq_iff_eq]
        constructor
        · rintro rfl; rw [← h1.2.2, ← h2.2.2]
        · rintro rfl; rw [← holds_val h1, ← holds_val h2]
  · intro p q hp hq
    have h1 := rel_get h.pt i
    have h2 := rel_get h.pt j
    rw [hp] at h1
    rw [hq] at h2
    generalize m.pt[i]? = u at h1 ⊢
    generalize m.pt[j]? = w at h2 ⊢
    cases h1 with
    | some h1 =>
      cases h2 with
      | some h2 =>
        refine ⟨_, _, rfl, rfl, ?_⟩
        rw [encodePoint_rep h1, encodePoint_rep h2]
        exact ⟨fun e => encPt_injective e, fun e => by rw [e]⟩

/-- A program that uses its destinations as operands. -/
example : Good ⟨[], []⟩ ⟨[], []⟩ ∧ (Vals.run [.sc none (.int 5), .sc (some 0) (.mul 0 0), .sc none (.inv 0), .pt none (.base 1), .pt (some 0) (.add 0 0)]
    ⟨[], []⟩).isSome = true := ⟨⟨.nil, .nil⟩, rfl⟩

/-- A scalar read without reduction that is below the order. -/
example : (Op.raw none (encodeInt 5)).Plain ∧ decodeInt (encodeInt 5) = some 5 := by
  constructor
  · change bitSum (encodeInt 5) 256 < lN
    decide +kernel
  · decide +kernel

/-- C132 is false of `invert_ext`: the object it is given held the base point, and does not hold it afterwards. -/
theorem C132_false_invert : ∃ m a m' a', Good m a ∧ step m (.invert 0) = some m' ∧ a.step (.invert 0) = some a' ∧ a'.pt[0]? = some base ∧
    ∀ P, m'.pt[0]? = some P → ¬ Rep P base := by
  refine ⟨⟨[], [B]⟩, ⟨[], [base]⟩, ⟨[], [neg B]⟩, ⟨[], [base, -base]⟩, ⟨.nil, .cons rep_base .nil⟩, rfl, rfl, rfl, ?_⟩
  rintro P hP h
  obtain rfl : neg B = P := by simpa using hP
  have h1 : encodePoint (neg B) = encodePoint B := by rw [encodePoint_rep h, encodePoint_rep rep_base]
  exact absurd h1 (by decide +kernel)

/-- C132 is false of scalars read without reduction: 1 and the order plus 1 are the same scalar, but they are not equal. -/
theorem C132_false_raw : ∃ (b : Bytes) (m : Mem) (a : Vals), b.length = 32 ∧ run [.sc none (.int 1), .raw none b] ⟨[], []⟩ = some m ∧
    Vals.run [.sc none (.int 1), .raw none b] ⟨[], []⟩ = some a ∧ a.sc[0]? = a.sc[1]? ∧ scEq m 0 1 = some false := by
  refine ⟨encodeInt (l + 1), ⟨[1, l + 1], []⟩, ⟨[1, 1], []⟩, by decide +kernel, ?_, ?_, rfl, by decide +kernel⟩
  · have h1 : decodeInt (encodeInt (l + 1)) = some (l + 1).toNat := by decide +kernel
    have h2 : ((l + 1).toNat : ℤ) = l + 1 := by decide +kernel
    have h3 : (1 : ℤ) % l = 1 := by decide +kernel
    simp [run, step, SExp.eval, put, h1, h2, h3]
  · have h1 : ¬ (encodeInt (l + 1)).length < 32 := by decide +kernel
    have h2 : bitSum (encodeInt (l + 1)) 256 = lN + 1 := by decide +kernel
    simp [Vals.run, Vals.step, SExp.spec, store, h1, h2]

end Verif.Regs

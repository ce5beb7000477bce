import Verif.Spec.Regs

/-!
Single calls on scalar and point objects.
-/

namespace Verif.Regs
open Verif Ed Edwards Key Sig

theorem rel_bind {α β γ δ : Type} {R : α → β → Prop} {T : γ → δ → Prop} {a : Option α} {b : Option β} {f : α → Option γ} {g : β → Option δ}
    (h : Option.Rel R a b) (hf : ∀ x y, R x y → Option.Rel T (f x) (g y)) : Option.Rel T (a.bind f) (b.bind g) := by
  cases h with
  | some h => exact hf _ _ h
  | none => exact .none

theorem rel_map {α β γ δ : Type} {R : α → β → Prop} {T : γ → δ → Prop} {a : Option α} {b : Option β} {f : α → γ} {g : β → δ}
    (h : Option.Rel R a b) (hf : ∀ x y, R x y → T (f x) (g y)) : Option.Rel T (a.map f) (b.bind fun y => some (g y)) := by
  cases h with
  | some h => exact .some (hf _ _ h)
  | none => exact .none

theorem rel_get {α β : Type} {R : α → β → Prop} {l : List α} {l' : List β} (h : List.Forall₂ R l l') : ∀ i : Nat, Option.Rel R l[i]? l'[i]? := by
  induction h with
  | nil => intro i; exact .none
  | cons h _ ih =>
    intro i
    cases i with
    | zero => exact .some h
    | succ i => exact ih i

theorem rel_put {α β : Type} {R : α → β → Prop} {l : List α} {l' : List β} (h : List.Forall₂ R l l') {v : α} {x : β} (hv : R v x) (r : Option Nat) :
    Option.Rel (List.Forall₂ R) (put r v l) (store r x l') := by
  cases r with
  | none => exact .some (List.rel_append h (.cons hv .nil))
  | some i =>
    unfold put store
    dsimp only
    rw [← h.length_eq]
    split
    · refine .some ?_
      rw [List.forall₂_iff_get]
      refine ⟨by simp [h.length_eq], ?_⟩
      intro j h1 h2
      simp only [List.get_eq_getElem, List.getElem_set, List.getElem_mapIdx, eq_comm (a := i)]
      split
      · exact hv
      · exact h.get _ _
    · exact .none

theorem holds_mod (v : Int) : Holds (v % l) (v : Fl) := by
  refine ⟨(emod_l_range v).1, (emod_l_range v).2, ?_⟩
  rw [l_eq]
  exact (ZMod.intCast_mod v lN)

theorem holds_val {v : Int} {x : Fl} (h : Holds v x) : (x.val : ℤ) = v := by
  obtain ⟨h0, h1, rfl⟩ := h
  rw [ZMod.val_intCast, ← l_eq, Int.emod_eq_of_lt h0 h1]

theorem rep_val {v : Int} {x : Fl} (h : Holds v x) {P : Ext} {p : Point} (hP : Rep P p) : Rep (smul P v) (x.val • p) := by
  have := Key.rep_smul hP h.1
  rwa [← holds_val h, natCast_zsmul, holds_val h] at this

theorem rep_base_val {v : Int} {x : Fl} (h : Holds v x) : Rep (scalarmultB v) (x.val • Ed.base) := by
  have := rep_B v
  rwa [← holds_val h, natCast_zsmul, holds_val h] at this

theorem decodeInt_rel (b : Bytes) : Option.Rel (fun n x => n = bitSum b 256 ∧ (n : Fl) = x) (decodeInt b)
    (if b.length < 32 then none else some ((bitSum b 256 : ℕ) : Fl)) := by
  unfold decodeInt
  split
  · exact .none
  · exact .some ⟨rfl, rfl⟩

theorem eval_sc {m : Mem} {a : Vals} (h : Good m a) (e : SExp) : Option.Rel Holds (e.eval m) (e.spec a) := by
  cases e with
  | int x =>
    simp only [SExp.eval, SExp.spec]
    by_cases hx : x < 2 ^ 64
    · rw [if_neg (by omega), if_pos hx]; exact .some (holds_mod x)
    · rw [if_pos (by omega), if_neg hx]; exact .none
  | copy i => exact rel_get h.sc i
  | add i j =>
    refine rel_bind (rel_get h.sc i) fun v x hx => rel_map (rel_get h.sc j) fun w y hy => ?_
    have := holds_mod (v + w); rwa [Int.cast_add, hx.2.2, hy.2.2] at this
  | sub i j =>
    refine rel_bind (rel_get h.sc i) fun v x hx => rel_map (rel_get h.sc j) fun w y hy => ?_
    have := holds_mod (v - w); rwa [Int.cast_sub, hx.2.2, hy.2.2] at this
  | mul i j =>
    refine rel_bind (rel_get h.sc i) fun v x hx => rel_map (rel_get h.sc j) fun w y hy => ?_
    have := holds_mod (v * w); rwa [Int.cast_mul, hx.2.2, hy.2.2] at this
  | mulsub i j k =>
    refine rel_bind (rel_get h.sc i) fun v x hx => rel_bind (rel_get h.sc j) fun w y hy => rel_map (rel_get h.sc k) fun u z hz => ?_
    have := holds_mod (u - v * w); rwa [Int.cast_sub, Int.cast_mul, hx.2.2, hy.2.2, hz.2.2] at this
  | muladd i j k =>
    refine rel_bind (rel_get h.sc i) fun v x hx => rel_bind (rel_get h.sc j) fun w y hy => rel_map (rel_get h.sc k) fun u z hz => ?_
    have := holds_mod (u + v * w); rwa [Int.cast_add, Int.cast_mul, hx.2.2, hy.2.2, hz.2.2] at this
  | inv i =>
    refine rel_map (rel_get h.sc i) fun v x hx => ?_
    exact ⟨(C50_scalar_inv v).1.1, (C50_scalar_inv v).1.2, by rw [Bp.cast_scInv, hx.2.2]⟩
  | dec b =>
    simp only [SExp.eval, SExp.spec, decodeScalar, decodeInt]
    split
    · exact .none
    · refine .some ?_
      have := holds_mod (bitSum b 256 : ℕ)
      rwa [Int.cast_natCast] at this

theorem eval_pt {m : Mem} {a : Vals} (h : Good m a) (e : PExp) : Option.Rel Rep (e.eval m) (e.spec a) := by
  cases e with
  | ident => exact .some rep_ident
  | base i => exact rel_map (rel_get h.sc i) fun v x hx => rep_base_val hx
  | mul P i => exact rel_bind (rel_get h.pt P) fun A p hp => rel_map (rel_get h.sc i) fun v x hx => rep_val hx hp
  | add P Q => exact rel_bind (rel_get h.pt P) fun A p hp => rel_map (rel_get h.pt Q) fun B q hq => rep_add hp hq
  | sub P Q => exact rel_bind (rel_get h.pt P) fun A p hp => rel_map (rel_get h.pt Q) fun B q hq => rep_sub hp hq
  | double P => exact rel_map (rel_get h.pt P) fun A p hp => by rw [two_nsmul]; exact rep_add hp hp
  | mul8 P => exact rel_map (rel_get h.pt P) fun A p hp => Ed.rep_smul hp 8
  | keys2 i j P =>
    exact rel_bind (rel_get h.sc i) fun v x hx => rel_bind (rel_get h.sc j) fun w y hy => rel_map (rel_get h.pt P) fun A p hp =>
      rep_add (rep_base_val hx) (rep_val hy hp)
  | keys3 i P j Q =>
    exact rel_bind (rel_get h.sc i) fun v x hx => rel_bind (rel_get h.pt P) fun A p hp => rel_bind (rel_get h.sc j) fun w y hy =>
      rel_map (rel_get h.pt Q) fun B q hq => rep_add (rep_val hx hp) (rep_val hy hq)

theorem step_plain {m : Mem} {a : Vals} (h : Good m a) {op : Op} (hop : op.Plain) : Option.Rel Good (step m op) (a.step op) := by
  cases op with
  | sc r e =>
    exact rel_bind (eval_sc h e) fun v x hv => rel_map (rel_put h.sc hv r) fun s t hs => ⟨hs, h.pt⟩
  | pt r e =>
    exact rel_bind (eval_pt h e) fun v x hv => rel_map (rel_put h.pt hv r) fun s t hs => ⟨h.sc, hs⟩
  | raw r b =>
    have hb : bitSum b 256 < lN := hop
    have e : a.step (.raw r b) = (if b.length < 32 then none else some ((bitSum b 256 : ℕ) : Fl)).bind fun x =>
        (store r x a.sc).bind fun t => some { a with sc := t } := by
      simp only [Vals.step]
      split <;> rfl
    rw [e]
    refine rel_bind (decodeInt_rel b) fun n x hx => rel_map (rel_put h.sc ?_ r) fun s t hs => ⟨hs, h.pt⟩
    refine ⟨by omega, ?_, by rw [Int.cast_natCast]; exact hx.2⟩
    rw [l_eq, hx.1]
    exact_mod_cast hb
  | invert P => exact hop.elim

end Verif.Regs

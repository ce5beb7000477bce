import Verif.Model.MsgObj
import Mathlib.Tactic.Common

/-!
C128: messages are independent values.
-/

namespace Verif.MsgObj

/-- What a reader of an attribute sees. -/
inductive Seen
  | none
  | num (n : Int)
  | list (l : List Int)

/-- Messages as values: every message has its own fields. -/
structure Values where
  no : Nat
  fields : Nat → List (Nat × Bool)
  val : Nat → Nat → Option Seen

def Given.seen : Given → Seen
  | .none => .none
  | .num n => .num n
  | .list l => .list l

def Values.put (v : Values) (m f : Nat) (x : Seen) : Values := { v with val := fun m' f' => if m' = m ∧ f' = f then some x else v.val m' f' }

/-- Defaults of the fields that were not given: an empty list for a repeated one. -/
def defaults (fs : List (Nat × Bool)) (given : Nat → Option Seen) : Nat → Option Seen := fun f =>
  match given f with
  | some x => some x
  | Option.none => (fs.find? fun v => v.1 == f).map fun v => if v.2 then .list [] else .none

/-- The given attributes; the last one counts. -/
def givens (kwargs : List (Nat × Given)) : Nat → Option Seen := fun f => (kwargs.reverse.find? fun kv => kv.1 == f).map fun kv => kv.2.seen

def Values.grow (v : Values) (m f : Nat) (xs : List Int) : Option Values :=
  match v.val m f with
  | some (.list l) => some (v.put m f (.list (l ++ xs)))
  | Option.none => some (v.put m f (.list xs))
  | _ => Option.none

/-- The specification: only the message that is named changes. -/
def Values.step (v : Values) : Event → Option Values
  | .create fs kwargs => some ⟨v.no + 1, fun m => if m = v.no then fs else v.fields m, fun m f => if m = v.no then defaults fs (givens kwargs) f else v.val m f⟩
  | .set m f x => if m < v.no then some (v.put m f x.seen) else none
  | .extend m f xs => if m < v.no then v.grow m f xs else none
  | .add m f item => if m < v.no then if (v.fields m).find? (fun x => x.1 == f) = some (f, true) then v.grow m f [item] else none else none
  | .copy m p => if m < v.no ∧ p < v.no then some { v with val := fun m' f => if m' = m then v.val p f else v.val m' f } else none

def Values.run (v : Values) (es : List Event) : Values := es.foldl (fun v e => (v.step e).getD v) v

def see (list : Nat → List Int) : Val → Seen
  | .none => .none
  | .num n => .num n
  | .ref r => .list (list r)

/-- What the program sees of the messages. -/
def World.view (w : World) : Values := ⟨w.no, w.fields, fun m f => (w.dict m f).map (see w.list)⟩

/-- No two attributes share a list. -/
structure Sep (w : World) : Prop where
  lt : ∀ m f r, w.dict m f = some (.ref r) → r < w.nl
  inj : ∀ m f m' f' r, w.dict m f = some (.ref r) → w.dict m' f' = some (.ref r) → m = m' ∧ f = f'

theorem put_sep {w : World} (h : Sep w) (m f : Nat) (g : Given) : Sep (w.put m f g) := by
  cases g with
  | none =>
    refine ⟨fun m' f' r e => ?_, fun m1 f1 m2 f2 r e1 e2 => ?_⟩ <;> simp only [World.put, setVal] at *
    · split at e
      · simp at e
      · exact h.lt _ _ _ e
    · split at e1 <;> split at e2 <;> first | (simp at e1; done) | (simp at e2; done) | exact h.inj _ _ _ _ _ e1 e2
  | num n =>
    refine ⟨fun m' f' r e => ?_, fun m1 f1 m2 f2 r e1 e2 => ?_⟩ <;> simp only [World.put, setVal] at *
    · split at e
      · simp at e
      · exact h.lt _ _ _ e
    · split at e1 <;> split at e2 <;> first | (simp at e1; done) | (simp at e2; done) | exact h.inj _ _ _ _ _ e1 e2
  | list l =>
    refine ⟨fun m' f' r e => ?_, fun m1 f1 m2 f2 r e1 e2 => ?_⟩ <;> simp only [World.put, setVal] at *
    · split at e
      · simp only [Option.some.injEq, Val.ref.injEq] at e; omega
      · have := h.lt _ _ _ e; omega
    · split at e1 <;> split at e2
      · rename_i a b; exact ⟨a.1.trans b.1.symm, a.2.trans b.2.symm⟩
      · simp only [Option.some.injEq, Val.ref.injEq] at e1; have := h.lt _ _ _ e2; omega
      · simp only [Option.some.injEq, Val.ref.injEq] at e2; have := h.lt _ _ _ e1; omega
      · exact h.inj _ _ _ _ _ e1 e2

theorem put_view {w : World} (h : Sep w) (m f : Nat) (g : Given) : (w.put m f g).view = w.view.put m f g.seen := by
  have key : ∀ (x : Seen) (v : Val) (list : Nat → List Int), see list v = x → (∀ r, r < w.nl → list r = w.list r) →
      (fun m' f' => (setVal w.dict m f v m' f').map (see list)) = fun m' f' => if m' = m ∧ f' = f then some x else (w.dict m' f').map (see w.list) := by
    intro x v list hx hl
    funext m' f'
    unfold setVal
    split
    · rw [Option.map_some, hx]
    · cases hd : w.dict m' f' with
      | none => rfl
      | some u =>
        rw [Option.map_some, Option.map_some]
        cases u with
        | none => rfl
        | num n => rfl
        | ref r => rw [see, see, hl r (h.lt _ _ _ hd)]
  cases g with
  | none => simp only [World.put, World.view, Values.put, key .none .none w.list rfl (fun _ _ => rfl)]; rfl
  | num n => simp only [World.put, World.view, Values.put, key (.num n) (.num n) w.list rfl (fun _ _ => rfl)]; rfl
  | list l =>
    have := key (.list l) (.ref w.nl) (fun r => if r = w.nl then l else w.list r) (by simp [see]) (fun r hr => if_neg (by omega))
    simp only [World.put, World.view, Values.put, this]; rfl

theorem grow_ok {w : World} (h : Sep w) (m f : Nat) (xs : List Int) :
    (w.grow m f xs).map World.view = w.view.grow m f xs ∧ ∀ w', w.grow m f xs = some w' → Sep w' := by
  unfold World.grow Values.grow
  cases hd : w.dict m f with
  | none =>
    have e : w.view.val m f = none := by simp [World.view, hd]
    rw [e]
    exact ⟨by rw [Option.map_some, put_view h]; rfl, fun w' hw => by cases hw; exact put_sep h _ _ _⟩
  | some v =>
    cases v with
    | none =>
      have e : w.view.val m f = some .none := by simp [World.view, hd, see]
      rw [e]; exact ⟨rfl, fun w' hw => by cases hw⟩
    | num n =>
      have e : w.view.val m f = some (.num n) := by simp [World.view, hd, see]
      rw [e]; exact ⟨rfl, fun w' hw => by cases hw⟩
    | ref r =>
      have e : w.view.val m f = some (.list (w.list r)) := by simp [World.view, hd, see]
      rw [e]
      refine ⟨?_, fun w' hw => by cases hw; exact ⟨h.lt, h.inj⟩⟩
      dsimp only
      rw [Option.map_some]
      congr 1
      unfold World.view Values.put
      dsimp only
      congr 1
      funext m' f'
      split
      · rename_i hc; rw [hc.1, hc.2, hd, Option.map_some, see, if_pos rfl]
      · rename_i hc
        cases hd' : w.dict m' f' with
        | none => rfl
        | some u =>
          rw [Option.map_some, Option.map_some]
          cases u with
          | none => rfl
          | num n => rfl
          | ref r' =>
            rw [see, see, if_neg]
            rintro rfl
            exact hc (h.inj _ _ _ _ _ hd' hd)

theorem put_keeps (w : World) (m f : Nat) (g : Given) : (w.put m f g).no = w.no ∧ (w.put m f g).fields = w.fields := by cases g <;> exact ⟨rfl, rfl⟩

theorem puts_ok (m : Nat) : ∀ (kwargs : List (Nat × Given)) (w : World), Sep w →
    Sep (kwargs.foldl (fun w kv => w.put m kv.1 kv.2) w) ∧
    (kwargs.foldl (fun w kv => w.put m kv.1 kv.2) w).view = ⟨w.no, w.fields, fun m' f => if m' = m then (givens kwargs f).or (w.view.val m f) else w.view.val m' f⟩
  | [], w, h => by
    refine ⟨h, ?_⟩
    show w.view = _
    unfold World.view
    dsimp only
    congr 1
    funext m' f
    split
    · rename_i e; subst e; rfl
    · rfl
  | (k, g) :: kwargs, w, h => by
    have ih := puts_ok m kwargs (w.put m k g) (put_sep h m k g)
    rw [List.foldl_cons]
    refine ⟨ih.1, ?_⟩
    rw [ih.2, put_view h, (put_keeps w m k g).1, (put_keeps w m k g).2]
    congr 1
    funext m' f
    unfold Values.put givens
    dsimp only
    split
    · rename_i e
      subst e
      rw [List.reverse_cons, List.find?_append]
      cases kwargs.reverse.find? (fun kv => kv.1 == f) with
      | some x => rfl
      | none =>
        by_cases hk : k = f
        · subst hk; simp
        · have : ¬ (f = k) := fun e => hk e.symm
          simp [hk, this]
    · rename_i e
      rw [if_neg (fun hc => e hc.1)]

theorem fill_ok (m : Nat) : ∀ (fs : List (Nat × Bool)) (w : World), Sep w →
    Sep (World.fill m fs w) ∧ (World.fill m fs w).view = ⟨w.no, w.fields, fun m' f => if m' = m then defaults fs (w.view.val m) f else w.view.val m' f⟩
  | [], w, h => by
    refine ⟨h, ?_⟩
    show w.view = _
    unfold World.view
    dsimp only
    congr 1
    funext m' f
    split
    · rename_i e; subst e; unfold defaults; dsimp only; cases (w.dict m' f).map (see w.list) <;> rfl
    · rfl
  | (k, rep) :: fs, w, h => by
    rw [World.fill]
    by_cases hk : (w.dict m k).isSome
    · rw [if_pos hk]
      have ih := fill_ok m fs w h
      refine ⟨ih.1, ?_⟩
      rw [ih.2]
      congr 1
      funext m' f
      split
      · unfold defaults
        cases hv : w.view.val m f with
        | some x => rfl
        | none =>
          dsimp only
          rw [List.find?_cons]
          have : k ≠ f := by
            rintro rfl
            obtain ⟨y, hy⟩ := Option.isSome_iff_exists.mp hk
            simp [World.view, hy] at hv
          rw [show (k == f) = false from beq_eq_false_iff_ne.mpr this]
      · rfl
    · rw [if_neg hk]
      have ih := fill_ok m fs (w.put m k (if rep then .list [] else .none)) (put_sep h _ _ _)
      refine ⟨ih.1, ?_⟩
      rw [ih.2, put_view h, (put_keeps w m k _).1, (put_keeps w m k _).2]
      congr 1
      funext m' f
      have hn : w.view.val m k = none := by
        have : w.dict m k = none := by cases hd : w.dict m k with
          | none => rfl
          | some x => rw [hd] at hk; exact absurd rfl hk
        simp [World.view, this]
      split
      · unfold defaults Values.put
        dsimp only
        by_cases hf : f = k
        · subst hf
          rw [if_pos ⟨rfl, rfl⟩, hn]
          cases rep <;> simp [Given.seen]
        · rw [if_neg (fun hc => hf hc.2), List.find?_cons]
          rw [show (k == f) = false from beq_eq_false_iff_ne.mpr fun e => hf e.symm]
      · rename_i e
        unfold Values.put
        dsimp only
        rw [if_neg (fun hc => e hc.1)]

/-- The step is not a copy of a whole message. -/
def NoCopy : Event → Prop
  | .copy _ _ => False
  | _ => True

theorem step_ok {w : World} (h : Sep w) {e : Event} (he : NoCopy e) :
    (step w e).map World.view = w.view.step e ∧ ∀ w', step w e = some w' → Sep w' := by
  cases e with
  | copy m p => exact he.elim
  | set m f v =>
    unfold step Values.step
    dsimp only
    by_cases hm : m < w.no
    · rw [if_pos hm, if_pos (show m < w.view.no from hm), Option.map_some, put_view h]
      exact ⟨rfl, fun w' hw => by cases hw; exact put_sep h _ _ _⟩
    · rw [if_neg hm, if_neg (show ¬ m < w.view.no from hm)]
      exact ⟨rfl, fun w' hw => by cases hw⟩
  | extend m f xs =>
    unfold step Values.step
    dsimp only
    by_cases hm : m < w.no
    · rw [if_pos hm, if_pos (show m < w.view.no from hm)]
      exact grow_ok h _ _ _
    · rw [if_neg hm, if_neg (show ¬ m < w.view.no from hm)]
      exact ⟨rfl, fun w' hw => by cases hw⟩
  | add m f item =>
    unfold step Values.step
    dsimp only
    by_cases hm : m < w.no
    · rw [if_pos hm, if_pos (show m < w.view.no from hm)]
      show (match (w.fields m).find? (fun v : Nat × Bool => v.1 == f) with | some (_, true) => w.grow m f [item] | _ => none).map World.view =
        (if (w.fields m).find? (fun x => x.1 == f) = some (f, true) then w.view.grow m f [item] else none) ∧ _
      cases hf : (w.fields m).find? (fun v => v.1 == f) with
      | none => exact ⟨by simp, fun w' hw => by cases hw⟩
      | some x =>
        obtain ⟨k, rep⟩ := x
        have hk : k = f := by have := List.find?_some hf; simpa using this
        subst hk
        cases rep with
        | false => exact ⟨by simp, fun w' hw => by cases hw⟩
        | true =>
          rw [if_pos rfl]
          exact grow_ok h _ _ _
    · rw [if_neg hm, if_neg (show ¬ m < w.view.no from hm)]
      exact ⟨rfl, fun w' hw => by cases hw⟩
  | create fs kwargs =>
    unfold step Values.step World.create
    dsimp only [Nat.pred_succ]
    generalize hw1 : ({ w with no := w.no + 1, fields := fun m => if m = w.no then fs else w.fields m, dict := fun m f => if m = w.no then Option.none else w.dict m f } : World) = w1
    have s1 : Sep w1 := by
      subst hw1
      refine ⟨fun m f r e => ?_, fun m f m' f' r e1 e2 => ?_⟩ <;> dsimp only at *
      · split at e
        · cases e
        · exact h.lt _ _ _ e
      · split at e1
        · cases e1
        · split at e2
          · cases e2
          · exact h.inj _ _ _ _ _ e1 e2
    have h2 := puts_ok w.no kwargs w1 s1
    have h3 := fill_ok w.no fs _ h2.1
    refine ⟨?_, fun w' hw => by cases hw; exact h3.1⟩
    rw [Option.map_some, h3.2, h2.2]
    have hno : (kwargs.foldl (fun w' kv => w'.put w.no kv.1 kv.2) w1).no = w1.no := congrArg Values.no h2.2
    have hfi : (kwargs.foldl (fun w' kv => w'.put w.no kv.1 kv.2) w1).fields = w1.fields := congrArg Values.fields h2.2
    rw [hno, hfi]
    subst hw1
    dsimp only [World.view]
    congr 2
    funext m f
    split
    · rename_i e
      subst e
      refine Eq.trans ?_ (if_pos rfl).symm
      congr 1
      funext f'
      rw [if_pos rfl, if_pos rfl]
      cases givens kwargs f' <;> rfl
    · rename_i e
      exact (if_neg e).symm

/-- C128: whatever messages a program creates, assigns, extends and adds to, in any order, it sees the same as if every message were a value of its own:
default lists are never shared. Programs that use `CopyFrom` are left out. -/
theorem C128_values_partial (es : List Event) (h : ∀ e ∈ es, NoCopy e) : (run World.empty es).view = Values.run World.empty.view es := by
  have key : ∀ (es : List Event) (w : World), (∀ e ∈ es, NoCopy e) → Sep w → (run w es).view = Values.run w.view es := by
    intro es
    induction es with
    | nil => intro w _ _; rfl
    | cons e es ih =>
      intro w hc hs
      have hk := step_ok hs (hc e (by simp))
      show (run ((step w e).getD w) es).view = Values.run ((w.view.step e).getD w.view) es
      rw [← hk.1]
      cases he : step w e with
      | none => exact ih w (fun e' h' => hc e' (by simp [h'])) hs
      | some w' => exact ih w' (fun e' h' => hc e' (by simp [h'])) (hk.2 w' he)
  exact key es _ h ⟨fun m f r e => (by simp [World.empty] at e), fun m f m' f' r e => (by simp [World.empty] at e)⟩

/-- C128: right after `CopyFrom` both messages have the same attributes and all others are as before. -/
theorem C128_copy (w : World) (m p : Nat) (hm : m < w.no) (hp : p < w.no) : (step w (.copy m p)).map World.view = w.view.step (.copy m p) := by
  unfold step Values.step
  dsimp only
  rw [if_pos ⟨hm, hp⟩, if_pos (show m < w.view.no ∧ p < w.view.no from ⟨hm, hp⟩), Option.map_some]
  unfold World.view
  dsimp only
  congr 2
  funext m' f
  split <;> rfl

/-- A copy shares its lists with the original: what is appended to the copy later appears in the original. -/
theorem C128_false_copy : let es := [Event.create [(7, true)] [], .create [(7, true)] [], .copy 1 0, .extend 1 7 [5]]
    (run World.empty es).view.val 0 7 = some (.list [5]) ∧ (Values.run World.empty.view es).val 0 7 = some (.list []) := ⟨rfl, rfl⟩

/-- Asking twice for the method that adds an element adds two elements, and a field that holds `None` cannot be extended. -/
example : (run World.empty [.create [(7, true), (8, false)] [(8, .num 4)], .add 0 7 1, .add 0 7 2, .add 0 8 3, .extend 0 8 [1]]).view.val 0 7 = some (.list [1, 2]) ∧
    (run World.empty [.create [(7, true)] [], .create [(7, true)] [], .add 0 7 1]).view.val 1 7 = some (.list []) := ⟨rfl, rfl⟩

end Verif.MsgObj

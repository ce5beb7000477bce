import Verif.Lemmas.MultiExp

/-! C105: holders of scalars and points evaluate to the sum of the multiples. -/

namespace Verif.MultiExp
open Verif Ed Key Edwards

/-- C105: whatever supplies the pairs (lists, functions), a holder evaluates to the sum of the multiples of its first `size` pairs. -/
theorem C105_eval (m : MExp) (xs : List (Bytes × Bytes)) (ts : List (ℕ × Point)) (hd : List.Forall₂ Denotes xs ts) (hs : m.size = xs.length)
    (hx : ∀ i, (h : i < xs.length) → m.getIdx i = some xs[i]) : m.eval = some (encPt (total ts)) := by
  rw [MExp.eval, hs]
  exact evalData_spec hd _ hx

theorem getIdx_lists (xs : List (Bytes × Bytes)) (m : MExp) (h1 : m.scalars = xs.map Prod.fst) (h2 : m.points = xs.map Prod.snd) (i : Nat) (h : i < xs.length) :
    m.getIdx i = some xs[i] := by
  rw [MExp.getIdx, h1, h2, pick_list _ _ i (by simpa using h), pick_list _ _ i (by simpa using h)]
  simp

/-- C105: made of two lists. -/
theorem C105_lists (xs : List (Bytes × Bytes)) (ts : List (ℕ × Point)) (hd : List.Forall₂ Denotes xs ts) :
    (ofLists xs).eval = some (encPt (total ts)) := by
  refine C105_eval _ xs ts hd ?_ fun i h => getIdx_lists xs _ rfl rfl i h
  cases xs with
  | nil => rfl
  | cons x xs => simp [ofLists, MExp.new]

/-- C105: made of scalars in a list and points from a function, as in a proof's generators. -/
theorem C105_function (xs : List (Bytes × Bytes)) (ts : List (ℕ × Point)) (f : Nat → Option Bytes) (hd : List.Forall₂ Denotes xs ts)
    (hf : ∀ i, (h : i < xs.length) → f i = some xs[i].2) : (MExp.new none (xs.map Prod.fst) [] none (some f)).eval = some (encPt (total ts)) := by
  refine C105_eval _ xs ts hd ?_ ?_
  · cases xs with
    | nil => rfl
    | cons x xs => simp [MExp.new]
  · intro i h
    have h1 : pick (xs.map Prod.fst) none i = some xs[i].1 := by rw [pick_list _ _ i (by simpa using h)]; simp
    have h2 : pick [] (some f) i = some xs[i].2 := by rw [pick_fn _ _ i (Nat.zero_le _), hf i h]
    show (match pick (xs.map Prod.fst) none i, pick [] (some f) i with | some s, some P => some (s, P) | _, _ => none) = _
    rw [h1, h2]

/-- C105: filled pair by pair. -/
theorem C105_added (xs : List (Bytes × Bytes)) (ts : List (ℕ × Point)) (hd : List.Forall₂ Denotes xs ts) :
    (xs.foldl (fun m x => m.addPair x.1 x.2) (MExp.new none [] [] none none)).eval = some (encPt (total ts)) := by
  have key : ∀ (ys zs : List (Bytes × Bytes)) (m : MExp), m.scalars = ys.map Prod.fst → m.points = ys.map Prod.snd → m.size = ys.length →
      (zs.foldl (fun m x => m.addPair x.1 x.2) m).scalars = (ys ++ zs).map Prod.fst ∧
      (zs.foldl (fun m x => m.addPair x.1 x.2) m).points = (ys ++ zs).map Prod.snd ∧ (zs.foldl (fun m x => m.addPair x.1 x.2) m).size = (ys ++ zs).length := by
    intro ys zs
    induction zs generalizing ys with
    | nil => intro m h1 h2 h3; simpa using ⟨h1, h2, h3⟩
    | cons z zs ih =>
      intro m h1 h2 h3
      have := ih (ys ++ [z]) (m.addPair z.1 z.2) (by simp [MExp.addPair, h1]) (by simp [MExp.addPair, h2]) (by simp [MExp.addPair, h1])
      simpa using this
  obtain ⟨h1, h2, h3⟩ := key [] xs (MExp.new none [] [] none none) rfl rfl rfl
  exact C105_eval _ xs ts hd h3 fun i h => getIdx_lists xs _ h1 h2 i h

/-- C105: the holder used by the verifier, for every sequence of calls: the sum of what was added; a scalar alone takes the next point. -/
theorem C105_sequential (points : List Bytes) (fn : Nat → Bytes) (steps : List Step) (ts : List (ℕ × Point))
    (hd : List.Forall₂ Denotes (steps.mapIdx fun k s => pairOf points fn k s) ts) :
    ∃ m, steps.foldlM step (Seq.new points (some fun k => some (fn k))) = some m ∧ m.eval = encPt (total ts) := by
  have key : ∀ (steps : List Step) (k : Nat) (ts : List (ℕ × Point)) (acc : Ext) (p : Point),
      List.Forall₂ Denotes (steps.mapIdx fun i s => pairOf points fn (k + i) s) ts → Rep acc p →
      ∃ m, steps.foldlM step ⟨points, some fun k => some (fn k), k, acc⟩ = some m ∧ Rep m.acc (p + total ts) := by
    intro steps
    induction steps with
    | nil =>
      intro k ts acc p hd h
      have : ts = [] := by cases hd; rfl
      subst this
      exact ⟨_, rfl, by simpa [total] using h⟩
    | cons s steps ih =>
      intro k ts acc p hd h
      rw [List.mapIdx_cons] at hd
      cases hd with
      | @cons _ t _ ts hx hr =>
        simp only [Nat.add_zero] at hx
        obtain ⟨a, h1, h2⟩ := accPair_rep h hx
        have h3 : step ⟨points, some fun k => some (fn k), k, acc⟩ s = some ⟨points, some fun k => some (fn k), k + 1, a⟩ := by
          cases s with
          | pair s P =>
            simp only [step, Seq.addPair]
            rw [show (s, P) = pairOf points fn k (.pair s P) from rfl, h1]
            rfl
          | scalar s =>
            have h4 : pick points (some fun k => some (fn k)) k = some ((points[k]?).getD (fn k)) := by
              by_cases hk : k < points.length
              · rw [pick_list _ _ k hk, List.getElem?_eq_getElem hk]; rfl
              · rw [pick_fn _ _ k (by omega), List.getElem?_eq_none (by omega)]; rfl
            simp only [step, Seq.addScalar, Seq.addPair, h4, Option.bind_some]
            rw [show (s, (points[k]?).getD (fn k)) = pairOf points fn k (.scalar s) from rfl, h1]
            rfl
        obtain ⟨m, h5, h6⟩ := ih (k + 1) ts a _ (by simpa [Nat.add_assoc, Nat.add_comm 1] using hr) h2
        refine ⟨m, ?_, ?_⟩
        · rw [List.foldlM_cons, h3]; exact h5
        · rw [total, List.map_cons, List.sum_cons, ← add_assoc]; exact h6
  obtain ⟨m, h1, h2⟩ := key steps 0 ts ident 0 (by simpa using hd) rep_ident
  refine ⟨m, h1, ?_⟩
  rw [zero_add] at h2
  exact encodePoint_rep h2

/-- A holder made with a size (as one is for functions alone) has size zero and evaluates to the neutral element. -/
theorem C105_false_size (n : Nat) (S P : List Bytes) (f g : Option (Nat → Option Bytes)) :
    (MExp.new (some n) S P f g).eval = some (encPt 0) := by
  have := evalData_spec (List.Forall₂.nil : List.Forall₂ Denotes [] []) (fun i => (MExp.new (some n) S P f g).getIdx i) (fun i h => by simp at h)
  simpa [total, MExp.eval, MExp.new] using this

/-- C105, merged holders: inside a part, but not at its first element, the right pair is found. -/
theorem C105_merged_partial (pre post : List MExp) (e : MExp) (j : Nat) (h0 : 0 < j) (hj : j < e.size) :
    mergedAt (pre ++ e :: post) ((pre.map MExp.size).sum + j) = e.getIdx j := by
  have hc := chunk_at e post ((pre.map MExp.size).sum + j) (pre ++ e :: post).length pre 0 0 (by omega) (by omega) (by simp)
  have hb := bounds_at pre e post 0
  have hsum : ¬ ((pre ++ e :: post).map MExp.size).sum ≤ (pre.map MExp.size).sum + j := by
    rw [List.map_append, List.sum_append, List.map_cons, List.sum_cons]; omega
  rw [mergedAt, if_neg hsum]
  dsimp only
  rw [hc, if_neg (by omega), show 0 + pre.length + 1 - 1 = pre.length by omega, hb, List.getElem?_append_right (le_refl _), Nat.sub_self,
    List.getElem?_cons_zero, Option.bind_some, Option.getD_some]
  congr 1
  push_cast
  omega

/-- The first element of a merged holder of two lists cannot be read, and neither can the first element of the second. -/
theorem C105_false_merged (xs ys : List (Bytes × Bytes)) (hx : xs ≠ []) (hy : ys ≠ []) :
    mergedAt [ofLists xs, ofLists ys] 0 = none ∧ mergedAt [ofLists xs, ofLists ys] xs.length = none := by
  have size : ∀ l : List (Bytes × Bytes), l ≠ [] → (ofLists l).size = l.length := by
    intro l hl
    cases l with
    | nil => exact absurd rfl hl
    | cons => simp [ofLists, MExp.new]
  have px : 0 < xs.length := List.length_pos_iff.mpr hx
  have py : 0 < ys.length := List.length_pos_iff.mpr hy
  have sum : ([ofLists xs, ofLists ys].map MExp.size).sum = xs.length + ys.length := by
    simp [size xs hx, size ys hy]
  constructor
  · rw [mergedAt, if_neg (by rw [sum]; omega)]
    have hc : chunkLoop 0 (bounds [ofLists xs, ofLists ys] 0) [ofLists xs, ofLists ys].length 0 = 0 := by
      rw [bounds, chunkLoop, if_neg (fun h => absurd h.1 (by omega))]
    dsimp only
    rw [hc, if_pos rfl, sum]
    simp only [List.getLast?_cons_cons, List.getLast?_singleton, Option.bind_some]
    have : pick (ofLists ys).scalars (ofLists ys).scalarFn (((0 : Nat) : Int) - ((xs.length + ys.length : Nat) : Int)) = none := by
      have hl : (ofLists ys).scalars.length = ys.length := by simp [ofLists, MExp.new]
      rw [pick, hl, if_neg (by omega), pyIndex, if_neg (by omega), hl, if_neg (by push_cast; omega)]
    rw [MExp.getIdx, this]
  · rw [mergedAt, if_neg (by rw [sum]; omega)]
    have hc : chunkLoop xs.length (bounds [ofLists xs, ofLists ys] 0) [ofLists xs, ofLists ys].length 0 = 1 := by
      rw [bounds, chunkLoop, if_pos ⟨px, by simp⟩, bounds, chunkLoop, if_neg (by rw [size xs hx]; omega)]
    dsimp only
    rw [hc, if_neg (by omega)]
    simp only [bounds, Nat.sub_self, List.getElem?_cons_zero, Option.bind_some, Option.getD_some]
    have : pick (ofLists xs).scalars (ofLists xs).scalarFn ((xs.length : Int) - ((0 : Nat) : Int)) = none := by
      have hl : (ofLists xs).scalars.length = xs.length := by simp [ofLists, MExp.new]
      rw [pick, hl, if_pos (by push_cast; omega)]
      rfl
    rw [MExp.getIdx, this]

/-- The generator, encoded, and the number two. -/
def demoPair : Bytes × Bytes := (2 :: List.replicate 31 0, encodePoint B)

/-- Non-vacuity: bytes of the generator and the number two denote a pair. -/
example : (decodeInt demoPair.1 = some 2) ∧ (decodePoint demoPair.2).isSome = true := by decide +kernel

example : ∃ p : Point, Denotes demoPair (2, p) := by
  have h1 : decodeInt demoPair.1 = some 2 := by decide +kernel
  have h2 : (decodePoint demoPair.2).isSome = true := by decide +kernel
  obtain ⟨P, hP⟩ := Option.isSome_iff_exists.mp h2
  obtain ⟨p, hp⟩ := decodePoint_rep hP
  exact ⟨p, h1, P, hP, hp⟩

end Verif.MultiExp

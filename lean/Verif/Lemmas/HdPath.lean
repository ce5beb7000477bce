import Verif.Lemmas.Hd

/-! The texts of paths. -/

namespace Verif.Hd
open Verif HdSpec

/-- A decimal digit. -/
def IsDig (c : Char) : Prop := '0' ≤ c ∧ c ≤ '9'

instance (c : Char) : Decidable (IsDig c) := by unfold IsDig; infer_instance

theorem digit_ok : ∀ d : Fin 10, IsDig (Char.ofNat (48 + d.1)) ∧ (Char.ofNat (48 + d.1)).toNat = 48 + d.1 := by decide +kernel

theorem dec_digits (m : ℕ) : (∀ c ∈ dec m, IsDig c) ∧ dec m ≠ [] := by
  induction m using Nat.strong_induction_on with
  | _ m ih =>
    rw [dec]
    split
    · rename_i h
      refine ⟨?_, by simp⟩
      intro c hc
      rw [List.mem_singleton.1 hc]
      exact (digit_ok ⟨m, h⟩).1
    · rename_i h
      refine ⟨?_, by simp⟩
      intro c hc
      rcases List.mem_append.1 hc with hc | hc
      · exact (ih (m / 10) (by omega)).1 c hc
      · rw [List.mem_singleton.1 hc]
        exact (digit_ok ⟨m % 10, by omega⟩).1

theorem dig_ne {c d : Char} (h : IsDig c) (hd : ¬ IsDig d) : c ≠ d := fun e => hd (e ▸ h)

theorem dig_space {c : Char} (h : IsDig c) : isSpace c = false := by
  have h1 := dig_ne h (d := ' ') (by decide)
  have h2 := dig_ne h (d := '\t') (by decide)
  have h3 := dig_ne h (d := '\n') (by decide)
  have h4 := dig_ne h (d := '\r') (by decide)
  have h5 := dig_ne h (d := '\x0b') (by decide)
  have h6 := dig_ne h (d := '\x0c') (by decide)
  simp [isSpace, h1, h2, h3, h4, h5, h6]

/-- The value of digits. -/
theorem digitsVal_digits (l : List Char) (hl : ∀ c ∈ l, IsDig c) (b : Bool) (acc : ℕ) (hb : b = true ∨ l ≠ []) :
    digitsVal l b acc = some (l.foldl (fun a c => a * 10 + (c.toNat - 48)) acc) := by
  induction l generalizing b acc with
  | nil =>
    have : b = true := by simpa using hb
    simp [digitsVal, this]
  | cons c cs ih =>
    have hc := hl c (by simp)
    have h1 : c ≠ '_' := dig_ne hc (by decide)
    rw [digitsVal, if_neg h1, if_pos (show _ ∧ _ from hc), ih (fun x hx => hl x (List.mem_cons_of_mem _ hx)) true _ (Or.inl rfl)]
    rfl

theorem dec_val (m : ℕ) : (dec m).foldl (fun a c => a * 10 + (c.toNat - 48)) 0 = m := by
  induction m using Nat.strong_induction_on with
  | _ m ih =>
    rw [dec]
    split
    · rename_i h
      have := (digit_ok ⟨m, h⟩).2
      simp only at this
      simp only [List.foldl_cons, List.foldl_nil, this]
      omega
    · rename_i h
      have := (digit_ok ⟨m % 10, by omega⟩).2
      simp only at this
      rw [List.foldl_append, ih (m / 10) (by omega)]
      simp only [List.foldl_cons, List.foldl_nil, this]
      omega

theorem dropWhile_dig (l : List Char) (hl : ∀ c ∈ l, IsDig c) : l.dropWhile isSpace = l := by
  match l, hl with
  | [], _ => rfl
  | c :: cs, hl => rw [List.dropWhile_cons, dig_space (hl c (by simp))]; rfl

theorem pyInt_dec (m : ℕ) : pyInt (dec m) = some (m : ℤ) := by
  obtain ⟨hd, hne⟩ := dec_digits m
  have hv := dec_val m
  generalize dec m = l at *
  rw [pyInt, dropWhile_dig l hd, dropWhile_dig l.reverse (by simpa using hd), List.reverse_reverse]
  match l, hd, hne, hv with
  | c :: cs, hd, _, hv =>
    have hc := hd c (by simp)
    have h1 : c ≠ '-' := dig_ne hc (by decide)
    have h2 : c ≠ '+' := dig_ne hc (by decide)
    have := digitsVal_digits (c :: cs) hd false 0 (Or.inr (by simp))
    rw [hv] at this
    split
    · rename_i heq; simp at heq; exact absurd heq.1 h1
    · rename_i heq; simp at heq; exact absurd heq.1 h2
    · rw [this]; rfl

theorem getLast_dig {l : List Char} (hl : ∀ c ∈ l, IsDig c) (hne : l ≠ []) : ∃ c, l.getLast? = some c ∧ IsDig c :=
  ⟨l.getLast hne, List.getLast?_eq_some_getLast hne, hl _ (List.getLast_mem hne)⟩

theorem parsePart_plain (m : ℕ) : parsePart (dec m) = some ((m : ℤ), none) := by
  obtain ⟨hd, hne⟩ := dec_digits m
  obtain ⟨c, hc, hcd⟩ := getLast_dig hd hne
  have h1 : c ≠ '\'' := dig_ne hcd (by decide)
  have h2 : c ≠ 'p' := dig_ne hcd (by decide)
  simp only [parsePart, hc, h1, h2, or_self, if_false, pyInt_dec, Option.map_some]

theorem parsePart_hard (m : ℕ) (mark : Char) (hm : mark = '\'' ∨ mark = 'p') : parsePart (dec m ++ [mark]) = some ((m : ℤ), some true) := by
  obtain ⟨hd, hne⟩ := dec_digits m
  have hf : (dec m ++ [mark]).filter (fun c => c ≠ '\'' ∧ c ≠ 'p') = dec m := by
    rw [List.filter_append]
    have h1 : (dec m).filter (fun c => decide (c ≠ '\'' ∧ c ≠ 'p')) = dec m := by
      rw [List.filter_eq_self]
      intro c hc
      simp [dig_ne (hd c hc) (show ¬ IsDig '\'' by decide), dig_ne (hd c hc) (show ¬ IsDig 'p' by decide)]
    rw [h1]
    rcases hm with rfl | rfl <;> simp
  simp only [parsePart, List.getLast?_concat, hm, if_true, hf, pyInt_dec, Option.map_some]

/-- The text of a step. -/
def stepText (mark : Char) (s : Step) : List Char := dec s.1 ++ if s.2 then [mark] else []

theorem parsePart_step (mark : Char) (hm : mark = '\'' ∨ mark = 'p') (s : Step) :
    parsePart (stepText mark s) = some ((s.1 : ℤ), if s.2 then some true else none) := by
  obtain ⟨m, b⟩ := s
  cases b
  · simp [stepText, parsePart_plain]
  · simp [stepText, parsePart_hard m mark hm]

theorem stepText_slash (mark : Char) (hm : mark = '\'' ∨ mark = 'p') (s : Step) : '/' ∉ stepText mark s := by
  intro h
  rcases List.mem_append.1 h with h | h
  · exact absurd ((dec_digits _).1 _ h) (by decide)
  · split at h
    · rcases hm with rfl | rfl <;> simp at h
    · simp at h

theorem stepText_m (mark : Char) (s : Step) : stepText mark s ≠ ['m'] ∧ stepText mark s ≠ ['M'] := by
  obtain ⟨hd, hne⟩ := dec_digits s.1
  match h : dec s.1, hne with
  | c :: cs, _ =>
    have hc := hd c (by rw [h]; simp)
    have h1 : c ≠ 'm' := dig_ne hc (by decide)
    have h2 : c ≠ 'M' := dig_ne hc (by decide)
    simp [stepText, h, h1, h2]

theorem splitSlash_none (a : List Char) (h : '/' ∉ a) : splitSlash a = [a] := by
  induction a with
  | nil => rfl
  | cons c cs ih =>
    simp only [List.mem_cons, not_or] at h
    rw [splitSlash, if_neg (fun e => h.1 e.symm), ih h.2]

theorem splitSlash_cons (a b : List Char) (h : '/' ∉ a) : splitSlash (a ++ '/' :: b) = a :: splitSlash b := by
  induction a with
  | nil => simp [splitSlash]
  | cons c cs ih =>
    simp only [List.mem_cons, not_or] at h
    rw [List.cons_append, splitSlash, if_neg (fun e => h.1 e.symm), ih h.2]

theorem splitSlash_steps (mark : Char) (hm : mark = '\'' ∨ mark = 'p') (steps : List Step) (a : List Char) (ha : '/' ∉ a) :
    splitSlash (a ++ steps.flatMap fun s => '/' :: (dec s.1 ++ if s.2 then [mark] else [])) = a :: steps.map (stepText mark) := by
  induction steps generalizing a with
  | nil => simpa using splitSlash_none a ha
  | cons s ss ih =>
    rw [List.flatMap_cons, List.cons_append, splitSlash_cons _ _ ha, List.map_cons]
    congr 1
    exact ih (stepText mark s) (stepText_slash mark hm s)

theorem splitSlash_path (first mark : Char) (hf : first ≠ '/') (hm : mark = '\'' ∨ mark = 'p') (steps : List Step) :
    splitSlash (pathText first mark steps) = [first] :: steps.map (stepText mark) :=
  splitSlash_steps mark hm steps [first] (by simpa using hf.symm)

/-- The last character of a path is no `b`. -/
theorem path_last (first mark : Char) (hf : first = 'm' ∨ first = 'M') (hm : mark = '\'' ∨ mark = 'p') (steps : List Step) :
    ∀ c ∈ pathText first mark steps, c ≠ 'b' := by
  intro c hc
  rw [pathText, List.mem_cons, List.mem_flatMap] at hc
  rcases hc with rfl | ⟨s, _, hs⟩
  · rcases hf with rfl | rfl <;> decide
  · rcases List.mem_cons.1 hs with rfl | hs
    · decide
    · rcases List.mem_append.1 hs with h | h
      · exact dig_ne ((dec_digits _).1 _ h) (by decide)
      · split at h
        · rw [List.mem_singleton.1 h]; rcases hm with rfl | rfl <;> decide
        · simp at h

theorem path_nopub (first mark : Char) (hf : first = 'm' ∨ first = 'M') (hm : mark = '\'' ∨ mark = 'p') (steps : List Step) :
    (pathText first mark steps).drop ((pathText first mark steps).length - 4) ≠ ['.', 'p', 'u', 'b'] := by
  intro h
  have : 'b' ∈ (pathText first mark steps).drop ((pathText first mark steps).length - 4) := by rw [h]; decide
  exact path_last first mark hf hm steps 'b' (List.mem_of_mem_drop this) rfl

/-- Walking along the components. -/
theorem walk_eq (hm : Bytes → Bytes → Bytes) (hl : ∀ k m, (hm k m).length = 64) (h160 : Bytes → Bytes) (hh : ∀ m, (h160 m).length = 20)
    (mark : Char) (hk : mark = '\'' ∨ mark = 'p') (steps : List Step) (hs : ∀ s ∈ steps, s.1 < 2 ^ 31) {w : Wallet} {N : Node} {net : Network}
    (hr : Repr w N net) :
    match N.follow hm h160 steps with
    | none => walk hm h160 (steps.map (stepText mark)) w = none
    | some M => ∃ v, walk hm h160 (steps.map (stepText mark)) w = some v ∧ Repr v M net := by
  induction steps generalizing w N with
  | nil => exact ⟨w, rfl, hr⟩
  | cons s ss ih =>
    have hs1 := hs s (by simp)
    have hg := getChild_eq hm hl h160 hh hr (Step.index s) s.2 (by unfold Step.index; split <;> omega)
      (by unfold Step.index; split
          · rename_i h; simp [h]
          · rename_i h; simp only [h, add_zero]; simp; omega)
      (childIndex_step s hs1)
    rw [Node.follow, List.map_cons, walk, if_neg (by simp [stepText_m mark s]), parsePart_step mark hk]
    dsimp only
    match hc : N.child hm h160 (Step.index s), hg with
    | none, hg => rw [hg]; rfl
    | some M, hg =>
      obtain ⟨v, hv, hrv⟩ := hg
      rw [hv]
      exact ih (fun t ht => hs t (List.mem_cons_of_mem _ ht)) hrv

end Verif.Hd

import Verif.Model.WalletProc
import Verif.Spec.WalletProc
import Mathlib.Data.List.Basic
import Mathlib.Tactic.Tauto
import Mathlib.Tactic.SplitIfs

namespace Verif.WalletProc
open Verif Verif.WalletProcSpec

/-! ## Words -/

theorem words_ordinary {t : List Char} (ht : ∀ c ∈ t, ordinary c = true) (w : Option (List Char)) (r : List Char) (hne : t ≠ []) :
    words .none w (t ++ r) = words .none (some (w.getD [] ++ t)) r := by
  induction t generalizing w with
  | nil => exact absurd rfl hne
  | cons c t ih =>
    have hc := ht c (List.mem_cons_self ..)
    have h1 : ¬ (c = ' ' ∨ c = '\t') := by rintro (rfl | rfl) <;> revert hc <;> decide
    have h2 : c ≠ '\'' := by rintro rfl; revert hc; decide
    have h3 : c ≠ '"' := by rintro rfl; revert hc; decide
    rw [List.cons_append, words, if_neg h1, if_neg h2, if_neg h3, if_pos hc]
    by_cases e : t = []
    · subst e; rfl
    · rw [ih (fun x hx => ht x (List.mem_cons_of_mem _ hx)) _ e]
      simp

theorem words_single (t : List Char) (w r : List Char) :
    words .single (some w) (t.flatMap (fun c => if c = '\'' then ['\'', '"', '\'', '"', '\''] else [c]) ++ '\'' :: r) = words .none (some (w ++ t)) r := by
  induction t generalizing w with
  | nil => rw [List.flatMap_nil, List.nil_append, words, if_pos rfl, List.append_nil]
  | cons c t ih =>
    rw [List.flatMap_cons]
    by_cases hc : c = '\''
    · subst hc
      rw [if_pos rfl]
      have e : words .single (some w) ((['\'', '"', '\'', '"', '\''] ++ t.flatMap (fun c => if c = '\'' then ['\'', '"', '\'', '"', '\''] else [c])) ++
          '\'' :: r) = words .single (some (w ++ ['\''])) (t.flatMap (fun c => if c = '\'' then ['\'', '"', '\'', '"', '\''] else [c]) ++ '\'' :: r) := by
        simp [words]
      rw [e, ih]
      simp
    · rw [if_neg hc, List.singleton_append, List.cons_append, words, if_neg hc, ih]
      simp

theorem safe_ordinary {c : Char} (h : safe c = true) : ordinary c = true := by
  by_contra hn
  rw [ordinary, Bool.not_eq_true', Bool.not_eq_false, List.contains_iff_mem] at hn
  revert h
  have : ∀ c ∈ "|&;<>()$`\\\"' \t\n*?[]#~!{}^".toList, safe c = false := by decide +kernel
  rw [this c hn]; simp

/-- A quoted text is read as the text. -/
theorem words_quote (t w r : List Char) : words .none (some w) (quote t ++ r) = words .none (some (w ++ t)) r := by
  unfold quote
  split_ifs with h1 h2
  · subst h1; simp [words]
  · exact words_ordinary (fun c hc => safe_ordinary (List.all_eq_true.mp h2 c hc)) _ _ h1
  · have := words_single t w r
    simp only [List.cons_append, List.append_assoc, List.nil_append]
    rw [words, if_neg (by decide), if_pos rfl]
    exact this

theorem words_quote_none (t r : List Char) : words .none none (quote t ++ r) = words .none (some t) r := by
  unfold quote
  split_ifs with h1 h2
  · subst h1; simp [words]
  · rw [words_ordinary (fun c hc => safe_ordinary (List.all_eq_true.mp h2 c hc)) _ _ h1]; rfl
  · have := words_single t [] r
    simp only [List.cons_append, List.append_assoc, List.nil_append]
    rw [words, if_neg (by decide), if_pos rfl]
    exact this

theorem words_blank (w : Option (List Char)) (r : List Char) : words .none w (' ' :: r) = (words .none none r).map (w.toList ++ ·) := by
  rw [words, if_pos (Or.inl rfl)]

/-! ## Lines -/

/-- What follows the last line end, after `begun`. -/
def rest (begun : List Char) : List Char → List Char
  | [] => begun
  | c :: t => if c = '\n' then rest [] t else rest (begun ++ [c]) t

theorem splitNl_ne (t : List Char) : splitNl t ≠ [] := by
  cases t with
  | nil => simp [splitNl]
  | cons c t =>
    rw [splitNl]
    split
    · simp
    · split <;> simp

theorem splitNl_cons {c : Char} (hc : c ≠ '\n') (t : List Char) : splitNl (c :: t) = (c :: (splitNl t).headD []) :: (splitNl t).tail := by
  rw [splitNl, if_neg hc]
  cases h : splitNl t with
  | nil => exact absurd h (splitNl_ne t)
  | cons l ls => rfl

theorem splitNl_mem {t l : List Char} {x : Char} (hl : l ∈ splitNl t) (hx : x ∈ l) : x ∈ t := by
  induction t generalizing l with
  | nil =>
    simp only [splitNl, List.mem_singleton] at hl
    subst hl; exact hx
  | cons c t ih =>
    by_cases hc : c = '\n'
    · subst hc
      rw [splitNl, if_pos rfl, List.mem_cons] at hl
      rcases hl with rfl | hl
      · cases hx
      · exact List.mem_cons_of_mem _ (ih hl hx)
    · rw [splitNl_cons hc, List.mem_cons] at hl
      rcases hl with rfl | hl
      · rcases List.mem_cons.mp hx with rfl | hx
        · exact List.mem_cons_self ..
        · refine List.mem_cons_of_mem _ (ih (l := (splitNl t).headD []) ?_ hx)
          cases h : splitNl t with
          | nil => exact absurd h (splitNl_ne t)
          | cons l ls => simp
      · exact List.mem_cons_of_mem _ (ih (List.mem_of_mem_tail hl) hx)

theorem splitNl_lines (b t : List Char) :
    ('\n' ∉ t → lines b t = [] ∧ rest b t = b ++ t ∧ splitNl t = [t]) ∧
    ('\n' ∈ t → lines b t = (b ++ (splitNl t).headD []) :: (splitNl t).tail.dropLast ∧ rest b t = (splitNl t).getLastD [] ∧ 1 < (splitNl t).length) := by
  induction t generalizing b with
  | nil => simp [lines, rest, splitNl]
  | cons c t ih =>
    by_cases hc : c = '\n'
    · subst hc
      refine ⟨fun h => absurd (List.mem_cons_self ..) h, fun _ => ?_⟩
      rw [splitNl, if_pos rfl, lines, if_pos rfl, rest, if_pos rfl]
      have hne := splitNl_ne t
      by_cases hm : '\n' ∈ t
      · obtain ⟨h1, h2, h3⟩ := (ih []).2 hm
        refine ⟨?_, ?_, by simp [List.length_pos_iff, hne]⟩
        · rw [h1]
          cases e : splitNl t with
          | nil => exact absurd e hne
          | cons l ls =>
            cases ls with
            | nil => rw [e] at h3; simp at h3
            | cons l' ls => simp
        · rw [h2]
          cases e : splitNl t with
          | nil => exact absurd e hne
          | cons l ls => simp [List.getLastD]
      · obtain ⟨h1, h2, h3⟩ := (ih []).1 hm
        rw [h1, h2, h3]
        simp
    · rw [splitNl_cons hc, lines, if_neg hc, rest, if_neg hc]
      have hne := splitNl_ne t
      constructor
      · intro h
        obtain ⟨h1, h2, h3⟩ := (ih (b ++ [c])).1 (fun h' => h (List.mem_cons_of_mem _ h'))
        rw [h1, h2, h3]
        simp
      · intro h
        obtain ⟨h1, h2, h3⟩ := (ih (b ++ [c])).2 ((List.mem_cons.mp h).resolve_left (fun e => hc e.symm))
        rw [h1, h2]
        refine ⟨by simp, ?_, by simpa using h3⟩
        cases e : splitNl t with
        | nil => exact absurd e hne
        | cons l ls =>
          cases ls with
          | nil => rw [e] at h3; simp at h3
          | cons l' ls => simp [List.getLastD]

theorem stripCr_self {v : List Char} (h : '\r' ∉ v) : stripCr v = v := by
  have key : ∀ u : List Char, '\r' ∉ u → u.dropWhile (· == '\r') = u := by
    intro u hu
    cases u with
    | nil => rfl
    | cons c u =>
      rw [List.dropWhile_cons_of_neg]
      simp only [beq_iff_eq]
      rintro rfl
      exact hu (List.mem_cons_self ..)
  rw [stripCr, key v h, key _ (by simpa using h), List.reverse_reverse]

theorem chunkLines_eq {x : List Char} (h : '\r' ∉ x) : chunkLines x = splitNl x := by
  rw [chunkLines]
  refine (List.map_congr_left (g := id) fun v hv => stripCr_self fun hx => h (splitNl_mem hv hx)).trans (List.map_id _)

theorem lines_append (b s t : List Char) : lines b (s ++ t) = lines b s ++ lines (rest b s) t := by
  induction s generalizing b with
  | nil => rfl
  | cons c s ih =>
    simp only [List.cons_append, lines, rest]
    split
    · rw [ih]; rfl
    · exact ih _

theorem rest_append (b s t : List Char) : rest b (s ++ t) = rest (rest b s) t := by
  induction s generalizing b with
  | nil => rfl
  | cons c s ih =>
    simp only [List.cons_append, rest]
    split
    · exact ih _
    · exact ih _

theorem infix_iff (p l : List Char) : p <:+: l ↔ ∃ a b, l = a ++ p ++ b :=
  ⟨fun ⟨a, b, h⟩ => ⟨a, b, h.symm⟩, fun ⟨a, b, h⟩ => ⟨a, b, h.symm⟩⟩

theorem saysStarting_iff (l : List Char) : saysStarting l = true ↔ Announces l :=
  decide_eq_true_iff.trans (infix_iff _ _)

/-! ## Processing -/

/-- Several lines with one label. -/
theorem foldl_process (ls : List (List Char)) (b : Bool) (h : Heard) :
    ls.foldl (fun h line => processLine h line b) h =
      { h with out := if b then h.out else h.out ++ ls, err := if b then h.err ++ ls else h.err, ready := h.ready || ls.any saysStarting } := by
  induction ls generalizing h with
  | nil => cases b <;> simp
  | cons l ls ih =>
    rw [List.foldl_cons, ih]
    unfold processLine
    cases b <;> cases hs : saysStarting l <;> simp [hs]

/-- One read, when no line is lost. -/
theorem addOutput_eq {h : Heard} {x : List Char} {b : Bool} (hr : '\r' ∉ x) (hn : '\n' ∈ x ∨ cur h b = []) :
    addOutput h x b =
      setCur { h with out := h.out ++ (if b then (lines (cur h b) x).take 1 else lines (cur h b) x), err := h.err ++ (if b then (lines (cur h b) x).tail else []),
                      ready := h.ready || (lines (cur h b) x).any saysStarting } b (rest (cur h b) x) := by
  unfold addOutput
  rw [chunkLines_eq hr]
  dsimp only
  by_cases hm : '\n' ∈ x
  · obtain ⟨h1, h2, h3⟩ := (splitNl_lines (cur h b) x).2 hm
    rw [if_pos h3, foldl_process, h1, h2]
    cases b <;> simp only [cur, setCur, processLine, if_true, Bool.false_eq_true, if_false] <;>
      (split <;> rename_i hs <;> simp_all [List.any_cons])
  · obtain ⟨h1, h2, h3⟩ := (splitNl_lines (cur h b) x).1 hm
    have hc := hn.resolve_left hm
    rw [h1, h2, h3, hc]
    cases b <;> simp_all [cur, setCur]

theorem cur_setCur (h : Heard) (b c : Bool) (t : List Char) : cur (setCur h b t) c = if c = b then t else cur h c := by
  cases b <;> cases c <;> rfl

/-- The condition `Calm` when a line may have begun. -/
def CalmFrom (begun : List Char) : List (List Char) → Prop
  | [] => True
  | x :: cs => ('\n' ∈ x ∨ begun = []) ∧ CalmFrom (rest begun x) cs

theorem rest_nil_iff (s : List Char) : rest [] s = [] ↔ s = [] ∨ ∃ u, s = u ++ ['\n'] := by
  have snoc : ∀ (b u : List Char) (c : Char), rest b (u ++ [c]) = if c = '\n' then [] else rest b u ++ [c] := by
    intro b u c
    rw [rest_append, rest]
    split <;> rfl
  rcases List.eq_nil_or_concat s with rfl | ⟨u, c, rfl⟩
  · simp [rest]
  · rw [List.concat_eq_append, snoc]
    constructor
    · intro h
      split_ifs at h with hc
      · subst hc; exact .inr ⟨u, rfl⟩
      · simp at h
    · rintro (h | ⟨v, h⟩)
      · simp at h
      · have := congrArg List.getLast? h
        simp only [List.getLast?_concat, Option.some.injEq] at this
        rw [if_pos this]

theorem calm_from {cs : List (List Char)} (h : Calm cs) : CalmFrom [] cs := by
  have key : ∀ (post pre : List (List Char)), cs = pre ++ post → CalmFrom (rest [] pre.flatten) post := by
    intro post
    induction post with
    | nil => intro _ _; trivial
    | cons x post ih =>
      intro pre e
      refine ⟨?_, ?_⟩
      · by_cases hx : '\n' ∈ x
        · exact .inl hx
        · exact .inr ((rest_nil_iff _).mpr (h pre x post e hx))
      · have := ih (pre ++ [x]) (by rw [e]; simp)
        rwa [List.flatten_append, List.flatten_singleton, rest_append] at this
  exact key cs [] rfl

theorem chunks_cons (b : Bool) (r : Bool × List Char) (rs : List (Bool × List Char)) :
    chunks b (r :: rs) = if r.1 = b then r.2 :: chunks b rs else chunks b rs := by
  unfold chunks
  rw [List.filter_cons]
  split_ifs with h1 h2 h2 <;> simp_all

theorem listen_all (reads : List Read) : ∀ h : Heard, (∀ r ∈ reads, '\r' ∉ r.2) → (∀ b, CalmFrom (cur h b) (chunks b reads)) →
    ((listen h reads).out ++ (listen h reads).err).Perm
        (h.out ++ h.err ++ (lines (cur h false) (text false reads) ++ lines (cur h true) (text true reads))) ∧
      (h.out ++ lines (cur h false) (text false reads)).Sublist (listen h reads).out ∧
      ((∀ r ∈ reads, r.1 = false) → (listen h reads).out = h.out ++ lines (cur h false) (text false reads) ∧ (listen h reads).err = h.err) ∧
      (listen h reads).ready = (h.ready || (lines (cur h false) (text false reads)).any saysStarting ||
        (lines (cur h true) (text true reads)).any saysStarting) ∧
      ∀ b, cur (listen h reads) b = rest (cur h b) (text b reads) := by
  induction reads with
  | nil => intro h _ _; simp [listen, text, chunks, lines, rest]
  | cons r rs ih =>
    intro h hcr hcalm
    obtain ⟨b, x⟩ := r
    have hb := hcalm b
    rw [chunks_cons, if_pos rfl] at hb
    have hx : '\r' ∉ x := hcr (b, x) (List.mem_cons_self ..)
    have e := addOutput_eq (h := h) hx hb.1
    have hl : listen h ((b, x) :: rs) = listen (addOutput h x b) rs := rfl
    have hcur : ∀ c, cur (addOutput h x b) c = if c = b then rest (cur h b) x else cur h c := by
      intro c
      rw [e, cur_setCur]
      split
      · rfl
      · cases c <;> rfl
    have hcalm' : ∀ c, CalmFrom (cur (addOutput h x b) c) (chunks c rs) := by
      intro c
      rw [hcur c]
      split
      · rename_i hc; subst hc; exact hb.2
      · rename_i hc
        have := hcalm c
        rwa [chunks_cons, if_neg (fun h' => hc h'.symm)] at this
    obtain ⟨p1, p2, p3, p4, p5⟩ := ih (addOutput h x b) (fun r hr => hcr r (List.mem_cons_of_mem _ hr)) hcalm'
    have htext : ∀ c, text c ((b, x) :: rs) = if b = c then x ++ text c rs else text c rs := by
      intro c
      rw [text, chunks_cons]
      split <;> rfl
    have hout : (addOutput h x b).out = h.out ++ (if b then (lines (cur h b) x).take 1 else lines (cur h b) x) := by
      rw [e]; cases b <;> rfl
    have herr : (addOutput h x b).err = h.err ++ (if b then (lines (cur h b) x).tail else []) := by
      rw [e]; cases b <;> rfl
    have hrd : (addOutput h x b).ready = (h.ready || (lines (cur h b) x).any saysStarting) := by
      rw [e]; cases b <;> rfl
    rw [hl]
    rw [hout] at p2 p3 p1
    rw [herr] at p1 p3
    rw [hrd] at p4
    cases b with
    | false =>
      simp only [hcur, htext, if_true, Bool.false_eq_true, Bool.true_eq_false, if_false, lines_append, rest_append, List.append_nil] at p1 p2 p3 p4 p5 ⊢
      refine ⟨p1.trans ?_, ?_, ?_, ?_, ?_⟩
      · simp only [List.append_assoc]
        refine List.Perm.append_left _ ?_
        rw [← List.append_assoc, ← List.append_assoc h.err]
        exact List.Perm.append_right _ List.perm_append_comm
      · simpa using p2
      · intro hall
        have := p3 (fun r hr => hall r (List.mem_cons_of_mem _ hr))
        simpa using this
      · rw [p4, List.any_append]
        simp only [Bool.or_assoc]
      · intro c
        rw [p5 c]
        cases c <;> simp [rest_append]
    | true =>
      simp only [hcur, htext, if_true, Bool.false_eq_true, Bool.true_eq_false, if_false, lines_append, rest_append] at p1 p2 p3 p4 p5 ⊢
      have htake : ∀ l : List (List Char), l.take 1 ++ l.tail = l := by intro l; cases l <;> rfl
      refine ⟨p1.trans ?_, ?_, ?_, ?_, ?_⟩
      · obtain ⟨A, hA⟩ : ∃ A, A = lines (cur h true) x := ⟨_, rfl⟩
        rw [← hA]
        rw [List.perm_iff_count]
        intro a
        have hc : (A.take 1).count a + A.tail.count a = A.count a := by
          rw [← List.count_append, htake]
        simp only [List.count_append]
        omega
      · refine List.Sublist.trans ?_ p2
        simp only [List.append_assoc]
        exact List.Sublist.append_left (List.sublist_append_right _ _) _
      · intro hall
        exact absurd (hall _ (List.mem_cons_self ..)) (by simp)
      · rw [p4, List.any_append]
        cases h.ready <;> cases (lines (cur h true) x).any saysStarting <;> simp
      · intro c
        rw [p5 c]
        cases c <;> simp [rest_append]

end Verif.WalletProc

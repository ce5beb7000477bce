import Verif.Model.Entropy
import Mathlib.Tactic.Linarith

/-!
C122: the entropy file holds what the device gave, in order, and at least as much as was asked for. C123: requests to the wallet and the daemon carry the
credentials that were set.
-/

namespace Verif.Host
open Verif

/-- The bytes of the answers before the first failure. -/
def given : List (Option Bytes) → List Bytes
  | some e :: as => e :: given as
  | _ => []

/-- After `n` answers there is enough. -/
def enough (size : ℤ) (es : List Bytes) (n : ℕ) : Prop := size ≤ ((es.take n).flatten.length : ℤ)

instance (size : ℤ) (es : List Bytes) (n : ℕ) : Decidable (enough size es n) := by unfold enough; infer_instance

theorem stop {size : ℤ} {d : Download} (h : d.phase ≠ .asking) : ∀ as : List (Option Bytes), as.foldl (answer size) d = d
  | [] => rfl
  | a :: as => by
    have : answer size d a = d := by
      unfold answer
      cases hp : d.phase <;> simp_all
    rw [List.foldl_cons, this, stop h as]

theorem check_phase (size : ℤ) (f : Bytes) (c : ℕ) (as : List ℕ) : (check size f c as).file = f ∧ (check size f c as).csize = c ∧
    ((check size f c as).phase = .asking ∧ (c : ℤ) < size ∧ (check size f c as).asked = as ++ [10240] ∨
      (check size f c as).phase = .done ∧ size ≤ c ∧ (check size f c as).asked = as) := by
  unfold check
  split
  · exact ⟨rfl, rfl, Or.inl ⟨rfl, by assumption, rfl⟩⟩
  · exact ⟨rfl, rfl, Or.inr ⟨rfl, by omega, rfl⟩⟩

theorem run_spec (size : ℤ) (as : List (Option Bytes)) : ∀ (pre : List Bytes) (asked : List ℕ),
    ∃ n, n ≤ (given as).length ∧
      (as.foldl (answer size) (check size pre.flatten pre.flatten.length asked)).file = (pre ++ (given as).take n).flatten ∧
      (∀ m, m < n → ((pre ++ (given as).take m).flatten.length : ℤ) < size) ∧
      ((as.foldl (answer size) (check size pre.flatten pre.flatten.length asked)).phase = .done → size ≤ ((pre ++ (given as).take n).flatten.length : ℤ)) ∧
      ((as.foldl (answer size) (check size pre.flatten pre.flatten.length asked)).phase ≠ .done →
        n = (given as).length ∧ ((pre ++ given as).flatten.length : ℤ) < size) ∧
      ((as.foldl (answer size) (check size pre.flatten pre.flatten.length asked)).phase = .failed → none ∈ as) ∧
      ((as.foldl (answer size) (check size pre.flatten pre.flatten.length asked)).phase = .asking → none ∉ as ∧ given as = as.filterMap id) := by
  induction as with
  | nil =>
    intro pre asked
    obtain ⟨h1, -, h3⟩ := check_phase size pre.flatten pre.flatten.length asked
    refine ⟨0, Nat.le_refl _, by simpa [given] using h1, by simp, ?_, ?_, ?_, by simp [given]⟩
    · intro h
      rcases h3 with ⟨h3, -⟩ | ⟨-, h3, -⟩
      · rw [List.foldl_nil, h3] at h; cases h
      · simpa [given] using h3
    · intro h
      rcases h3 with ⟨-, h3, -⟩ | ⟨h3, -⟩
      · exact ⟨rfl, by simpa [given] using h3⟩
      · exact absurd h3 h
    · intro h
      rcases h3 with ⟨h3, -⟩ | ⟨h3, -⟩ <;> · rw [List.foldl_nil, h3] at h; cases h
  | cons a as ih =>
    intro pre asked
    obtain ⟨h1, h2, h3⟩ := check_phase size pre.flatten pre.flatten.length asked
    rcases h3 with ⟨hp, hlt, ha⟩ | ⟨hp, hle, ha⟩
    · cases a with
      | none =>
        have e : answer size (check size pre.flatten pre.flatten.length asked) none =
            { check size pre.flatten pre.flatten.length asked with phase := .failed } := by
          unfold answer
          rw [hp]
        rw [List.foldl_cons, e, stop (by simp)]
        refine ⟨0, Nat.zero_le _, by simpa [given] using h1, by simp, by simp, ?_, by simp, by simp⟩
        intro _
        exact ⟨rfl, by simpa [given] using hlt⟩
      | some x =>
        have e : answer size (check size pre.flatten pre.flatten.length asked) (some x) =
            check size (pre ++ [x]).flatten (pre ++ [x]).flatten.length (asked ++ [10240]) := by
          unfold answer
          rw [hp]
          dsimp only
          rw [h1, h2, ha]
          simp
        obtain ⟨n, g1, g2, g3, g4, g5, g6, g7⟩ := ih (pre ++ [x]) (asked ++ [10240])
        rw [List.foldl_cons, e]
        refine ⟨n + 1, by simp [given, g1], by simpa [given] using g2, ?_, by simpa [given] using g4, ?_, ?_, ?_⟩
        · intro m hm
          cases m with
          | zero => simpa [given] using hlt
          | succ m => simpa [given] using g3 m (by omega)
        · intro h
          obtain ⟨k1, k2⟩ := g5 h
          exact ⟨by simp [given, k1], by simpa [given] using k2⟩
        · intro h
          exact List.mem_cons_of_mem _ (g6 h)
        · intro h
          obtain ⟨k1, k2⟩ := g7 h
          exact ⟨by simpa using k1, by simp [given, k2]⟩
    · rw [List.foldl_cons, show answer size (check size pre.flatten pre.flatten.length asked) a = check size pre.flatten pre.flatten.length asked by
        unfold answer; rw [hp], stop (by rw [hp]; simp)]
      refine ⟨0, Nat.zero_le _, by simpa using h1, by simp, fun _ => by simpa using hle, fun h => absurd hp h, ?_, ?_⟩
      · intro h; rw [hp] at h; cases h
      · intro h; rw [hp] at h; cases h

/-- C122: whatever the file held before and whatever the device answers, the file consists of the first answers of the device in order, and of nothing else.
When the command is done there are at least as many bytes as asked for, and no fewer answers would do. While it is not done there are fewer, all answers are in
the file, and it failed only if a call did. -/
theorem C122_file (size : ℤ) (old : Bytes) (as : List (Option Bytes)) :
    ∃ n, n ≤ (given as).length ∧ (getEntropy size old as).file = ((given as).take n).flatten ∧ (∀ m, m < n → ¬enough size (given as) m) ∧
      ((getEntropy size old as).phase = .done → enough size (given as) n) ∧
      ((getEntropy size old as).phase ≠ .done → n = (given as).length ∧ ((given as).flatten.length : ℤ) < size) ∧
      ((getEntropy size old as).phase = .failed → none ∈ as) := by
  obtain ⟨n, g1, g2, g3, g4, g5, g6, -⟩ := run_spec size as [] []
  unfold getEntropy begin
  refine ⟨n, g1, by simpa using g2, fun m hm => by simpa [enough] using g3 m hm, fun h => by simpa [enough] using g4 h, fun h => ?_, g6⟩
  obtain ⟨k1, k2⟩ := g5 h
  exact ⟨k1, by simpa using k2⟩

/-- The number of answers used so far. -/
def used (size : ℤ) (old : Bytes) (as : List (Option Bytes)) : ℕ :=
  (getEntropy size old as).asked.length - if (getEntropy size old as).phase = .done then 0 else 1

/-- C122: every request asks for ten kilobytes, and there is one request for each answer in the file and one more unless the command is done. -/
theorem C122_requests (size : ℤ) (old : Bytes) (as : List (Option Bytes)) :
    (getEntropy size old as).asked = List.replicate (getEntropy size old as).asked.length 10240 ∧
      (getEntropy size old as).file = ((given as).take (used size old as)).flatten ∧
      ((getEntropy size old as).phase ≠ .done → (getEntropy size old as).asked ≠ []) := by
  have key : ∀ (as : List (Option Bytes)) (pre : List Bytes) (k : ℕ), k = pre.length →
      ∃ j, (as.foldl (answer size) (check size pre.flatten pre.flatten.length (List.replicate k 10240))).asked = List.replicate j 10240 ∧
        ((as.foldl (answer size) (check size pre.flatten pre.flatten.length (List.replicate k 10240))).phase ≠ .done → k < j) ∧ k ≤ j ∧
        (as.foldl (answer size) (check size pre.flatten pre.flatten.length (List.replicate k 10240))).file = (pre ++ (given as).take
          (j - k - if (as.foldl (answer size) (check size pre.flatten pre.flatten.length (List.replicate k 10240))).phase = .done then 0 else 1)).flatten := by
    intro as
    induction as with
    | nil =>
      intro pre k hk
      obtain ⟨h1, -, h3⟩ := check_phase size pre.flatten pre.flatten.length (List.replicate k 10240)
      rw [List.foldl_nil]
      rcases h3 with ⟨hp, -, ha⟩ | ⟨hp, -, ha⟩
      · refine ⟨k + 1, by rw [ha, List.replicate_succ'], fun _ => by omega, by omega, by simp [h1, given, -List.length_flatten]⟩
      · exact ⟨k, ha, fun h => absurd hp h, Nat.le_refl _, by simp [h1, given, -List.length_flatten]⟩
    | cons a as ih =>
      intro pre k hk
      obtain ⟨h1, h2, h3⟩ := check_phase size pre.flatten pre.flatten.length (List.replicate k 10240)
      rcases h3 with ⟨hp, hlt, ha⟩ | ⟨hp, hle, ha⟩
      · cases a with
        | none =>
          rw [List.foldl_cons, show answer size (check size pre.flatten pre.flatten.length (List.replicate k 10240)) none =
            { check size pre.flatten pre.flatten.length (List.replicate k 10240) with phase := .failed } by unfold answer; rw [hp], stop (by simp)]
          exact ⟨k + 1, by dsimp only; rw [ha, List.replicate_succ'], fun _ => by omega, by omega, by simp [h1, given, -List.length_flatten]⟩
        | some x =>
          have e : answer size (check size pre.flatten pre.flatten.length (List.replicate k 10240)) (some x) =
              check size (pre ++ [x]).flatten (pre ++ [x]).flatten.length (List.replicate (k + 1) 10240) := by
            unfold answer
            rw [hp]
            dsimp only
            rw [h1, h2, ha, List.replicate_succ']
            simp
          rw [List.foldl_cons, e]
          obtain ⟨j, g1, g2, g3, g4⟩ := ih (pre ++ [x]) (k + 1) (by simp [hk])
          refine ⟨j, g1, fun h => by have := g2 h; omega, by omega, ?_⟩
          rw [g4]
          congr 1
          rw [List.append_assoc, List.singleton_append, given]
          by_cases hd : (as.foldl (answer size) (check size (pre ++ [x]).flatten (pre ++ [x]).flatten.length (List.replicate (k + 1) 10240))).phase = .done
          · rw [if_pos hd, show j - k - 0 = (j - (k + 1) - 0) + 1 by omega, List.take_succ_cons]
          · have := g2 hd
            rw [if_neg hd, show j - k - 1 = (j - (k + 1) - 1) + 1 by omega, List.take_succ_cons]
      · rw [List.foldl_cons, show answer size (check size pre.flatten pre.flatten.length (List.replicate k 10240)) a =
          check size pre.flatten pre.flatten.length (List.replicate k 10240) by unfold answer; rw [hp], stop (by rw [hp]; simp)]
        exact ⟨k, ha, fun h => absurd hp h, Nat.le_refl _, by simp [h1, -List.length_flatten]⟩
  obtain ⟨j, g1, g2, -, g4⟩ := key as [] 0 rfl
  have e : getEntropy size old as = as.foldl (answer size) (check size ([] : List Bytes).flatten ([] : List Bytes).flatten.length (List.replicate 0 10240)) := rfl
  rw [← e] at g1 g2 g4
  refine ⟨by rw [g1, List.length_replicate], ?_, fun h => ?_⟩
  · rw [g4, used, g1, List.length_replicate]
    simp
  · have := g2 h
    rw [g1]
    intro h0
    have := congrArg List.length h0
    simp at this
    omega

theorem flatten_ge : ∀ es : List Bytes, (∀ e ∈ es, e ≠ []) → es.length ≤ es.flatten.length
  | [], _ => by simp
  | e :: es, h => by
    have h1 := flatten_ge es fun x hx => h x (by simp [hx])
    have h2 : 0 < e.length := List.length_pos_iff.mpr (h e (by simp))
    rw [List.flatten_cons, List.length_append, List.length_cons]
    omega

/-- C122: with a device that answers every request with at least one byte the command ends after at most as many answers as bytes were asked for. -/
theorem C122_ends (size : ℤ) (old : Bytes) (es : List Bytes) (hes : ∀ e ∈ es, e ≠ []) (hlen : size ≤ es.length) :
    (getEntropy size old (es.map some)).phase = .done := by
  by_contra h
  obtain ⟨n, -, -, -, -, h5, -⟩ := C122_file size old (es.map some)
  obtain ⟨-, h6⟩ := h5 h
  have hg : ∀ l : List Bytes, given (l.map some) = l := by
    intro l
    induction l with
    | nil => rfl
    | cons x l ih => simp [given, ih]
  rw [hg] at h6
  have := flatten_ge es hes
  omega

/-- C122, the limits: a device that answers with nothing keeps the command asking, and a failing first call leaves the file empty whatever it held. -/
theorem C122_limits (size : ℤ) (hs : 0 < size) (old : Bytes) (n : ℕ) :
    (getEntropy size old (List.replicate n (some []))).phase = .asking ∧ (getEntropy size old [none]).file = [] ∧
      (getEntropy size old [none]).phase = .failed := by
  have h0 : check size [] 0 [] = ⟨[], 0, [10240], .asking⟩ := by
    unfold check
    rw [if_pos (by simpa using hs)]
    rfl
  have hk : ∀ n asked, ((List.replicate n (some ([] : Bytes))).foldl (answer size) ⟨[], 0, asked, .asking⟩).phase = .asking := by
    intro n
    induction n with
    | zero => intro _; rfl
    | succ n ih =>
      intro asked
      rw [List.replicate_succ, List.foldl_cons, show answer size ⟨[], 0, asked, .asking⟩ (some []) = ⟨[], 0, asked ++ [10240], .asking⟩ by
        unfold answer check
        simp [hs]]
      exact ih _
  unfold getEntropy begin
  rw [h0]
  exact ⟨hk n _, rfl, rfl⟩

example : getEntropy 3 [9, 9] [some [1, 2], some [], some [3, 4, 5], some [6]] = ⟨[1, 2, 3, 4, 5], 5, [10240, 10240, 10240], .done⟩ ∧
    (getEntropy 3 [9, 9] [some [1, 2], none]).file = [1, 2] := by decide

/-! ## Clients -/

theorem splitColon_pair : ∀ (user pass : List Char), ':' ∉ user → splitColon (user ++ ':' :: pass) = [user, pass]
  | [], pass, _ => by simp [splitColon]
  | c :: user, pass, h => by
    simp only [List.mem_cons, not_or] at h
    rw [List.cons_append, splitColon, if_neg (fun e => h.1 e.symm), splitColon_pair user pass h.2]

theorem splitColon_one : ∀ t : List Char, ':' ∉ t → splitColon t = [t]
  | [], _ => rfl
  | c :: t, h => by
    simp only [List.mem_cons, not_or] at h
    rw [splitColon, if_neg (fun e => h.1 e.symm), splitColon_one t h.2]

/-- C123, part: after credentials were set as a pair, or as a text of a user name without colon, a colon and any password, every request goes to the address
with this user and password, and with the method and the parameters given (parameters that are false are left out); without credentials it carries none.
Missing: texts without a colon. -/
theorem C123_request_partial {J : Type} (truthy : J → Bool) (url method : List Char) (params : Option J) :
    (∀ user pass g, g = .list [user, pass] ∨ g = .text (user ++ ':' :: pass) ∧ ':' ∉ user →
      (setCreds g).bind (fun c => request truthy c url method params) = some ⟨url, some (user, pass), method, params.filter truthy⟩) ∧
    (setCreds .none).bind (fun c => request truthy c url method params) = some ⟨url, none, method, params.filter truthy⟩ := by
  refine ⟨?_, rfl⟩
  rintro user pass g (rfl | ⟨rfl, h⟩)
  · rfl
  · rw [setCreds, splitColon_pair user pass h]
    rfl

/-- C123: lists of another length and other objects are refused, so the stored credentials stay as they were. -/
theorem C123_refused (l : List (List Char)) (hl : l.length ≠ 2) : setCreds (.list l) = none ∧ setCreds .other = none := by
  exact ⟨if_neg hl, rfl⟩

/-- C123 is false of texts without a colon: they are taken without complaint, and then every request raises. -/
theorem C123_false_text {J : Type} (truthy : J → Bool) (t url method : List Char) (ht : ':' ∉ t) (params : Option J) :
    ∃ c, setCreds (.text t) = some c ∧ request truthy c url method params = none := by
  refine ⟨some [t], ?_, rfl⟩
  rw [setCreds, splitColon_one t ht]

example : setCreds (.text "trezor:a:b".toList) = some (some ["trezor".toList, "a:b".toList]) ∧ ':' ∉ "trezor".toList := by decide

end Verif.Host

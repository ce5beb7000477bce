import Verif.Spec.Prompt
import Mathlib.Tactic.IntervalCases

namespace Verif.Prompt
variable {D : Type}

/-- The terminal does nothing that matters. -/
def Idle (up : List UInstr) (u : User D) : Prop := u.todo = [] ∨ u.todo = up

/-- The event of a request that has one was not set yet. -/
def Unfired (sh : Shared D) (th : Thread D) (n m : Nat) : Prop :=
  m ≤ n → ∃ e, sh.event = some e ∧ e ∉ sh.fired ∧ (m + 2 ≤ n → th.event = some e)

/-- The part of `wait_confirmation` that is the same for all requests. -/
def core : List Instr := [.clearResult, .newEvent, .hook, .loadEvent, .await]

/-- What happened since request `i` arrived: `d` was shown, but nothing chosen. -/
def Since (d : D) (i : Nat) (log : List (Ev D)) : Prop :=
  ∃ older mid, log = older ++ [.arrived i d] ++ mid ∧ ∀ e ∈ mid, e = .shown d ∨ e = .gaveUp

/-- The same, and `d` was shown last. -/
def Shown (d : D) (i : Nat) (log : List (Ev D)) : Prop :=
  ∃ older mid, log = older ++ [.arrived i d] ++ mid ++ [.shown d] ∧ ∀ e ∈ mid, e = .shown d ∨ e = .gaveUp

/-- The same, and then `b` was chosen. -/
def ChosenFor (d : D) (i : Nat) (log : List (Ev D)) (b : Bool) : Prop :=
  ∃ older mid, log = older ++ [.arrived i d] ++ mid ++ [.shown d, .answered b] ∧ ∀ e ∈ mid, e = .shown d ∨ e = .gaveUp

/-- A request for a transaction in progress. -/
inductive ActTx (d : D) (i : Nat) (sh : Shared D) (th : Thread D) (u : User D) (log : List (Ev D)) : Prop
  | early (n : Nat) (hn : n ≤ 3) (ht : th.todo = tx.drop n) (hd : 2 ≤ n → sh.data = some d) (hi : Idle userTx u) (hw : sh.waiting = false)
      (hl : Since d i log)
  | opened (j : Nat) (hj : j ≤ 4) (ht : th.todo = (core ++ tx.drop 9).drop j) (hd : sh.data = some d) (hw : sh.waiting = true) (he : Unfired sh th j 2)
      (hu : ((Idle userTx u ∨ u.todo = userTx.drop 1 ∨ (u.todo = userTx.drop 2 ∧ u.data = some d)) ∧ Since d i log) ∨
        (u.todo = userTx.drop 3 ∧ Shown d i log))
  | chosen (j : Nat) (hj : j ≤ 4) (ht : th.todo = (core ++ tx.drop 9).drop j) (hd : sh.data = some d) (he : Unfired sh th j 2)
      (hu : u.todo = userTx.drop 4 ∨ ((u.todo = userTx.drop 5 ∨ u.todo = userTx.drop 6 ∨ (u.todo = userTx.drop 7 ∧ sh.waiting = false)) ∧ sh.granted = u.answer))
      (hl : ChosenFor d i log u.answer)
  | lost (j : Nat) (hj : j ≤ 4) (ht : th.todo = (core ++ tx.drop 9).drop j) (hd : sh.data = some d) (hw : sh.waiting = false) (he : Unfired sh th j 2)
      (hi : Idle userTx u)
  | woken (j : Nat) (hj : 2 ≤ j ∧ j ≤ 5) (ht : th.todo = (core ++ tx.drop 9).drop j) (hw : sh.waiting = false) (hi : Idle userTx u)
      (hl : ChosenFor d i log sh.granted)
  | late (n : Nat) (hn : n ≤ 3) (ht : th.todo = (tx.drop 10).drop n) (hw : sh.waiting = false) (hi : Idle userTx u)
      (hl : ChosenFor d i log sh.granted) (hr : 2 ≤ n → th.answer = sh.granted)

/-- Events are numbered. -/
def Numbered (sh : Shared D) : Prop := (∀ e ∈ sh.fired, e < sh.next) ∧ ∀ e, sh.event = some e → e < sh.next

theorem allChosen_snoc {log : List (Ev D)} (h : AllChosen log) {e : Ev D} (he : ∀ i b, e = .returned i b → Chosen log i b) :
    AllChosen (log ++ [e]) := by
  intro before i b hp
  rcases List.prefix_concat_iff.1 hp with h' | h'
  · have h'' := List.append_inj' h' rfl
    rw [h''.1]
    exact he i b (by simpa using h''.2.symm)
  · exact h before i b h'

theorem allChosen_app {log l : List (Ev D)} (h : AllChosen log) (he : ∀ e ∈ l, ∀ i b, e ≠ .returned i b) : AllChosen (log ++ l) := by
  induction l generalizing log with
  | nil => simpa using h
  | cons e l ih =>
    have : log ++ e :: l = (log ++ [e]) ++ l := by simp
    rw [this]
    refine ih (allChosen_snoc h ?_) fun x hx => he x (List.mem_cons_of_mem _ hx)
    intro i b hb
    exact absurd hb (he e (List.mem_cons_self ..) i b)

theorem uexec_log (op : UInstr) (b : Bool) (sh : Shared D) (u : User D) : ∀ e ∈ (uexec op b sh u).2.2, ∀ i b', e ≠ .returned i b' := by
  intro e he i b' hb
  subst hb
  cases op <;> simp only [uexec] at he <;> first | (split at he <;> simp at he) | simp at he

theorem exec_numbered {op : Instr} {sh sh' : Shared D} {th th' : Thread D} (h : Numbered sh) (hx : exec op sh th = some (sh', th')) : Numbered sh' := by
  cases op <;> simp only [exec, Option.some.injEq, Prod.mk.injEq] at hx
  case newEvent =>
    obtain ⟨rfl, _⟩ := hx
    refine ⟨fun e he => Nat.lt_succ_of_lt (h.1 e he), ?_⟩
    intro e he
    have : sh.next = e := by simpa using he
    simp [this]
  case await =>
    split at hx
    · cases hx
    · split at hx
      · simp only [Option.some.injEq, Prod.mk.injEq] at hx
        obtain ⟨rfl, _⟩ := hx
        exact h
      · cases hx
  all_goals
    obtain ⟨rfl, _⟩ := hx
    exact h

theorem uexec_numbered {op : UInstr} {b : Bool} {sh : Shared D} {u : User D} (h : Numbered sh) : Numbered (uexec op b sh u).1 := by
  cases op <;> simp only [uexec]
  case print => split <;> exact h
  case fire =>
    split
    · rename_i e he
      refine ⟨?_, h.2⟩
      intro x hx
      rcases List.mem_cons.1 hx with rfl | hx
      · exact h.2 _ he
      · exact h.1 _ hx
    · exact h
  all_goals exact h

theorem exec_data {op : Instr} {sh sh' : Shared D} {th th' : Thread D} (hx : exec op sh th = some (sh', th')) :
    th'.data = th.data ∧ th'.done = th.done := by
  cases op <;> simp only [exec, Option.some.injEq, Prod.mk.injEq] at hx
  case await =>
    split at hx
    · cases hx
    · split at hx
      · simp only [Option.some.injEq, Prod.mk.injEq] at hx
        obtain ⟨_, rfl⟩ := hx
        exact ⟨rfl, rfl⟩
      · cases hx
  case guardFree =>
    obtain ⟨_, rfl⟩ := hx
    split <;> exact ⟨rfl, rfl⟩
  all_goals
    obtain ⟨_, rfl⟩ := hx
    exact ⟨rfl, rfl⟩

theorem core_exec {post : List Instr} {j : Nat} (hj : j ≤ 4) {sh sh' : Shared D} {th th' : Thread D} {op : Instr} {rest : List Instr}
    (hN : Numbered sh) (hto : th.todo = (core ++ post).drop j) (he : Unfired sh th j 2) (ht : th.todo = op :: rest)
    (hx : exec op sh { th with todo := rest } = some (sh', th')) :
    j ≤ 3 ∧ th'.todo = (core ++ post).drop (j + 1) ∧ Unfired sh' th' (j + 1) 2 ∧ sh'.data = sh.data ∧ sh'.waiting = sh.waiting ∧
      sh'.granted = sh.granted ∧ (sh'.result = true → sh.result = true) := by
  interval_cases j <;> simp only [core, List.cons_append, List.nil_append, List.drop_succ_cons, List.drop_zero] at hto <;>
    (rw [hto] at ht; injection ht with h1 h2; subst h1 h2; simp only [exec, Option.some.injEq, Prod.mk.injEq] at hx)
  · obtain ⟨rfl, rfl⟩ := hx
    exact ⟨by decide, rfl, by intro h; omega, rfl, rfl, rfl, by simp⟩
  · obtain ⟨rfl, rfl⟩ := hx
    refine ⟨by decide, rfl, ?_, rfl, rfl, rfl, id⟩
    intro _
    refine ⟨sh.next, rfl, fun hm => Nat.lt_irrefl _ (hN.1 _ hm), by omega⟩
  · obtain ⟨rfl, rfl⟩ := hx
    refine ⟨by decide, rfl, ?_, rfl, rfl, rfl, id⟩
    intro _
    obtain ⟨e, h1, h2, h3⟩ := he (by decide)
    exact ⟨e, h1, h2, by omega⟩
  · obtain ⟨rfl, rfl⟩ := hx
    refine ⟨by decide, rfl, ?_, rfl, rfl, rfl, id⟩
    intro _
    obtain ⟨e, h1, h2, h3⟩ := he (by decide)
    exact ⟨e, h1, h2, fun _ => h1⟩
  · exfalso
    obtain ⟨e, h1, h2, h3⟩ := he (by decide)
    rw [h3 (by decide)] at hx
    simp [h2] at hx

/-- The same after the event was set. -/
theorem core_woken {post : List Instr} {j : Nat} (hj : 2 ≤ j ∧ j ≤ 4) {sh sh' : Shared D} {th th' : Thread D} {op : Instr} {rest : List Instr}
    (hto : th.todo = (core ++ post).drop j) (ht : th.todo = op :: rest) (hx : exec op sh { th with todo := rest } = some (sh', th')) :
    th'.todo = (core ++ post).drop (j + 1) ∧ sh' = sh := by
  obtain ⟨hj1, hj2⟩ := hj
  interval_cases j <;> simp only [core, List.cons_append, List.nil_append, List.drop_succ_cons, List.drop_zero] at hto <;>
    (rw [hto] at ht; injection ht with h1 h2; subst h1 h2; simp only [exec, Option.some.injEq, Prod.mk.injEq] at hx)
  · obtain ⟨rfl, rfl⟩ := hx
    exact ⟨rfl, rfl⟩
  · obtain ⟨rfl, rfl⟩ := hx
    exact ⟨rfl, rfl⟩
  · split at hx
    · cases hx
    · split at hx
      · simp only [Option.some.injEq, Prod.mk.injEq] at hx
        obtain ⟨rfl, rfl⟩ := hx
        exact ⟨rfl, rfl⟩
      · cases hx

theorem actTx_exec {d : D} {i : Nat} {log : List (Ev D)} {sh sh' : Shared D} {th th' : Thread D} {u : User D} {op : Instr} {rest : List Instr}
    (hN : Numbered sh) (hdat : th.data = d) (h : ActTx d i sh th u log) (ht : th.todo = op :: rest)
    (hx : exec op sh { th with todo := rest } = some (sh', th')) : ActTx d i sh' th' u log := by
  cases h with
  | early n hn hto hd hi hw hl =>
    interval_cases n <;> simp only [tx, List.drop_succ_cons, List.drop_zero] at hto <;>
      (rw [hto] at ht; injection ht with h1 h2; subst h1 h2; simp only [exec, Option.some.injEq, Prod.mk.injEq] at hx; obtain ⟨rfl, rfl⟩ := hx)
    · exact .early 1 (by decide) rfl (by omega) hi hw hl
    · exact .early 2 (by decide) rfl (by simp [hdat]) hi hw hl
    · exact .early 3 (by decide) rfl (fun _ => hd (by decide)) hi hw hl
    · exact .opened 0 (by decide) rfl (hd (by decide)) rfl (by intro h; omega) (.inl ⟨.inl hi, hl⟩)
  | opened j hj hto hd hw he hu =>
    obtain ⟨h1, h2, h3, h4, h5, h6, h7⟩ := core_exec hj hN hto he ht hx
    exact .opened (j + 1) (by omega) h2 (h4.trans hd) (h5.trans hw) h3 hu
  | chosen j hj hto hd he hu hl =>
    obtain ⟨h1, h2, h3, h4, h5, h6, h7⟩ := core_exec hj hN hto he ht hx
    exact .chosen (j + 1) (by omega) h2 (h4.trans hd) h3 (by rw [h5, h6]; exact hu) hl
  | lost j hj hto hd hw he hi =>
    obtain ⟨h1, h2, h3, h4, h5, h6, h7⟩ := core_exec hj hN hto he ht hx
    exact .lost (j + 1) (by omega) h2 (h4.trans hd) (h5.trans hw) h3 hi
  | woken j hj hto hw hi hl =>
    rcases Nat.lt_or_ge j 5 with h5 | h5
    · obtain ⟨h1, rfl⟩ := core_woken ⟨hj.1, by omega⟩ hto ht hx
      exact .woken (j + 1) (by omega) h1 hw hi hl
    · have : j = 5 := by omega
      subst this
      simp only [core, tx, List.drop_succ_cons, List.drop_zero, List.cons_append, List.nil_append] at hto
      rw [hto] at ht; injection ht with h1 h2; subst h1 h2; simp only [exec, Option.some.injEq, Prod.mk.injEq] at hx; obtain ⟨rfl, rfl⟩ := hx
      exact .late 0 (by decide) rfl hw hi hl (by omega)
  | late n hn hto hw hi hl hr =>
    interval_cases n <;> simp only [tx, List.drop_succ_cons, List.drop_zero] at hto <;> rw [hto] at ht
    · injection ht with h1 h2; subst h1 h2; simp only [exec, Option.some.injEq, Prod.mk.injEq] at hx; obtain ⟨rfl, rfl⟩ := hx
      exact .late 1 (by decide) rfl rfl hi hl (by omega)
    · injection ht with h1 h2; subst h1 h2; simp only [exec, Option.some.injEq, Prod.mk.injEq] at hx; obtain ⟨rfl, rfl⟩ := hx
      exact .late 2 (by decide) rfl hw hi hl fun _ => rfl
    · injection ht with h1 h2; subst h1 h2; simp only [exec, Option.some.injEq, Prod.mk.injEq] at hx; obtain ⟨rfl, rfl⟩ := hx
      exact .late 3 (by decide) rfl hw hi hl fun _ => hr (by decide)
    · cases ht

theorem actTx_return {d : D} {i : Nat} {log : List (Ev D)} {sh : Shared D} {th : Thread D} {u : User D} (h : ActTx d i sh th u log)
    (ht : th.todo = []) : ChosenFor d i log th.answer ∧ sh.waiting = false ∧ Idle userTx u := by
  cases h with
  | early n hn hto => rw [hto] at ht; interval_cases n <;> cases ht
  | opened j hj hto => rw [hto] at ht; interval_cases j <;> cases ht
  | chosen j hj hto => rw [hto] at ht; interval_cases j <;> cases ht
  | lost j hj hto => rw [hto] at ht; interval_cases j <;> cases ht
  | woken j hj hto => rw [hto] at ht; obtain ⟨h1, h2⟩ := hj; interval_cases j <;> cases ht
  | late n hn hto hw hi hl hr =>
    rw [hto] at ht
    interval_cases n
    · cases ht
    · cases ht
    · cases ht
    · rw [hr (by decide)]
      exact ⟨hl, hw, hi⟩

theorem Since.add {d : D} {i : Nat} {log : List (Ev D)} (h : Since d i log) {e : Ev D} (he : e = .shown d ∨ e = .gaveUp) : Since d i (log ++ [e]) := by
  obtain ⟨o, m, rfl, hm⟩ := h
  refine ⟨o, m ++ [e], by simp, ?_⟩
  intro x hx
  rcases List.mem_append.1 hx with h | h
  · exact hm x h
  · rw [List.mem_singleton.1 h]
    exact he

theorem Since.show {d : D} {i : Nat} {log : List (Ev D)} (h : Since d i log) : Shown d i (log ++ [.shown d]) := by
  obtain ⟨o, m, rfl, hm⟩ := h
  exact ⟨o, m, rfl, hm⟩

theorem Shown.since {d : D} {i : Nat} {log : List (Ev D)} (h : Shown d i log) : Since d i log := by
  obtain ⟨o, m, rfl, hm⟩ := h
  exact Since.add ⟨o, m, rfl, hm⟩ (.inl rfl)

theorem Shown.choose {d : D} {i : Nat} {log : List (Ev D)} (h : Shown d i log) (b : Bool) : ChosenFor d i (log ++ [.answered b]) b := by
  obtain ⟨o, m, rfl, hm⟩ := h
  exact ⟨o, m, by simp, hm⟩

/-- An idle terminal whose prompt is not open does nothing. -/
theorem idle_act {up : List UInstr} {rest' : List UInstr} (hup : up = .check :: rest') {b : Bool} {sh : Shared D} {u : User D} (hi : Idle up u)
    (hw : sh.waiting = false) {op : UInstr} {rest : List UInstr} (ht : u.todo = op :: rest) :
    Idle up (uexec op b sh { u with todo := rest }).2.1 ∧ (uexec op b sh { u with todo := rest }).1 = sh ∧
    (uexec op b sh { u with todo := rest }).2.2 = [] := by
  rcases hi with h | h
  · rw [h] at ht; cases ht
  · rw [h, hup] at ht
    injection ht with h1 h2
    subst h1 h2
    simp only [uexec, hw, Bool.false_eq_true, if_false]
    exact ⟨.inl rfl, trivial, trivial⟩

theorem actTx_user {d : D} {i : Nat} {log : List (Ev D)} {sh : Shared D} {th : Thread D} {u : User D} {op : UInstr} {rest : List UInstr} (b : Bool)
    (h : ActTx d i sh th u log) (ht : u.todo = op :: rest) :
    ActTx d i (uexec op b sh { u with todo := rest }).1 th (uexec op b sh { u with todo := rest }).2.1
      (log ++ (uexec op b sh { u with todo := rest }).2.2) := by
  cases h with
  | early n hn hto hd hi hw hl =>
    obtain ⟨h1, h2, h3⟩ := idle_act (b := b) rfl hi hw ht
    rw [h2, h3, List.append_nil]
    exact .early n hn hto hd h1 hw hl
  | lost j hj hto hd hw he hi =>
    obtain ⟨h1, h2, h3⟩ := idle_act (b := b) rfl hi hw ht
    rw [h2, h3, List.append_nil]
    exact .lost j hj hto hd hw he h1
  | woken j hj hto hw hi hl =>
    obtain ⟨h1, h2, h3⟩ := idle_act (b := b) rfl hi hw ht
    rw [h2, h3, List.append_nil]
    exact .woken j hj hto hw h1 hl
  | late n hn hto hw hi hl hr =>
    obtain ⟨h1, h2, h3⟩ := idle_act (b := b) rfl hi hw ht
    rw [h2, h3, List.append_nil]
    exact .late n hn hto hw h1 hl hr
  | opened j hj hto hd hw he hu =>
    rcases hu with ⟨(hi | hu | ⟨hu, hud⟩), hl⟩ | ⟨hu, hl⟩
    · rcases hi with h | h
      · rw [h] at ht; cases ht
      · rw [h] at ht
        injection ht with h1 h2
        subst h1 h2
        simp only [uexec, hw, if_true, List.append_nil]
        exact .opened j hj hto hd hw he (.inl ⟨.inr (.inl rfl), hl⟩)
    · rw [hu] at ht
      injection ht with h1 h2
      subst h1 h2
      simp only [uexec, hd, Option.isSome_some, if_true, List.append_nil]
      exact .opened j hj hto hd hw he (.inl ⟨.inr (.inr ⟨rfl, rfl⟩), hl⟩)
    · rw [hu] at ht
      injection ht with h1 h2
      subst h1 h2
      simp only [uexec, hud]
      exact .opened j hj hto hd hw he (.inr ⟨rfl, hl.show⟩)
    · rw [hu] at ht
      injection ht with h1 h2
      subst h1 h2
      simp only [uexec]
      exact .chosen j hj hto hd he (.inl rfl) (hl.choose b)
  | chosen j hj hto hd he hu hl =>
    rcases hu with hu | ⟨(hu | hu | ⟨hu, hw⟩), hg⟩ <;>
      (rw [hu] at ht; injection ht with h1 h2; subst h1 h2)
    · simp only [uexec, List.append_nil]
      exact .chosen j hj hto hd he (.inr ⟨.inl rfl, rfl⟩) hl
    · simp only [uexec, List.append_nil]
      exact .chosen j hj hto hd he (.inr ⟨.inr (.inl rfl), hg⟩) hl
    · simp only [uexec, List.append_nil]
      exact .chosen j hj hto hd he (.inr ⟨.inr (.inr ⟨rfl, rfl⟩), hg⟩) hl
    · rcases Nat.lt_or_ge j 2 with h2 | h2
      · simp only [uexec]
        split
        · rw [List.append_nil]
          exact .lost j hj hto hd hw (by intro h; omega) (.inl rfl)
        · rw [List.append_nil]
          exact .lost j hj hto hd hw he (.inl rfl)
      · obtain ⟨e, he1, he2, he3⟩ := he h2
        simp only [uexec, he1, List.append_nil]
        exact .woken j ⟨h2, by omega⟩ hto hw (.inl rfl) (by rw [hg]; exact hl)

theorem actTx_type {d : D} {i : Nat} {log : List (Ev D)} {sh : Shared D} {th : Thread D} {u : User D} (h : ActTx d i sh th u log) (ht : u.todo = []) :
    ActTx d i sh th { u with todo := userTx } log := by
  cases h with
  | early n hn hto hd hi hw hl => exact .early n hn hto hd (.inr rfl) hw hl
  | lost j hj hto hd hw he hi => exact .lost j hj hto hd hw he (.inr rfl)
  | woken j hj hto hw hi hl => exact .woken j hj hto hw (.inr rfl) hl
  | late n hn hto hw hi hl hr => exact .late n hn hto hw (.inr rfl) hl hr
  | opened j hj hto hd hw he hu =>
    rcases hu with ⟨(hi | hu | ⟨hu, hud⟩), hl⟩ | ⟨hu, hl⟩
    · exact .opened j hj hto hd hw he (.inl ⟨.inl (.inr rfl), hl⟩)
    all_goals rw [hu] at ht; cases ht
  | chosen j hj hto hd he hu hl =>
    rcases hu with hu | ⟨(hu | hu | ⟨hu, hw⟩), hg⟩ <;> (rw [hu] at ht; cases ht)

theorem idle_no {up : List UInstr} {u : User D} (hc : .check ∈ up) (h : Idle up u) (ht : .select ∈ u.todo ∧ .check ∉ u.todo) : False := by
  rcases h with h | h
  · rw [h] at ht; cases ht.1
  · rw [h] at ht; exact ht.2 hc

theorem actTx_giveUp {d : D} {i : Nat} {log : List (Ev D)} {sh : Shared D} {th : Thread D} {u : User D} (h : ActTx d i sh th u log)
    (ht : .select ∈ u.todo ∧ .check ∉ u.todo) : ActTx d i sh th { u with todo := [] } (log ++ [.gaveUp]) := by
  cases h with
  | early n hn hto hd hi hw hl => exact (idle_no (by decide) hi ht).elim
  | lost j hj hto hd hw he hi => exact (idle_no (by decide) hi ht).elim
  | woken j hj hto hw hi hl => exact (idle_no (by decide) hi ht).elim
  | late n hn hto hw hi hl hr => exact (idle_no (by decide) hi ht).elim
  | opened j hj hto hd hw he hu =>
    have hl : Since d i log := by
      rcases hu with ⟨_, hl⟩ | ⟨_, hl⟩
      · exact hl
      · exact hl.since
    exact .opened j hj hto hd hw he (.inl ⟨.inl (.inl rfl), hl.add (.inr rfl)⟩)
  | chosen j hj hto hd he hu hl =>
    exfalso
    rcases hu with hu | ⟨(hu | hu | ⟨hu, hw⟩), hg⟩ <;> (rw [hu] at ht; exact absurd ht.1 (by decide))

/-- A step changes nothing but the request in progress. -/
theorem set_last {α : Type} (old : List α) (a b : α) : (old ++ [a]).set old.length b = old ++ [b] := by simp

/-- The invariant, from that of the request in progress. -/
structure Kept (rp : List Instr) (up : List UInstr) (Act : D → Nat → Shared D → Thread D → User D → List (Ev D) → Prop)
    (Ok : List (Ev D) → Prop) : Prop where
  check : ∃ r, up = .check :: r
  new : ∀ {d i sh u log} {older : List (Ev D)}, log = older ++ [.arrived i d] → sh.waiting = false → Idle up u → Act d i sh ⟨d, rp, none, false, false⟩ u log
  exec : ∀ {d i log sh sh' th th' u op rest}, Numbered sh → th.data = d → Act d i sh th u log → th.todo = op :: rest →
    exec op sh { th with todo := rest } = some (sh', th') → Act d i sh' th' u log
  back : ∀ {d i log sh th u}, Act d i sh th u log → th.todo = [] → Ok log → Ok (log ++ [.returned i th.answer]) ∧ sh.waiting = false ∧ Idle up u
  user : ∀ {d i log sh th u op rest} (b : Bool), Act d i sh th u log → u.todo = op :: rest →
    Act d i (uexec op b sh { u with todo := rest }).1 th (uexec op b sh { u with todo := rest }).2.1 (log ++ (uexec op b sh { u with todo := rest }).2.2)
  type : ∀ {d i log sh th u}, Act d i sh th u log → u.todo = [] → Act d i sh th { u with todo := up } log
  giveUp : ∀ {d i log sh th u}, Act d i sh th u log → .select ∈ u.todo ∧ .check ∉ u.todo → Act d i sh th { u with todo := [] } (log ++ [.gaveUp])
  ok : ∀ {log l : List (Ev D)}, Ok log → (∀ e ∈ l, ∀ i b, e ≠ .returned i b) → Ok (log ++ l)
  nil : Ok []

/-- The state of a device that serves one request after the other. -/
def Inv (up : List UInstr) (Act : D → Nat → Shared D → Thread D → User D → List (Ev D) → Prop) (Ok : List (Ev D) → Prop) (s : Sys D) : Prop :=
  Numbered s.sh ∧ Ok s.log ∧
  ((∀ th ∈ s.threads, th.done = true) ∧ s.sh.waiting = false ∧ Idle up s.user ∨
   ∃ old th, s.threads = old ++ [th] ∧ (∀ t ∈ old, t.done = true) ∧ th.done = false ∧ Act th.data old.length s.sh th s.user s.log)

variable {rp : List Instr} {up : List UInstr} {Act : D → Nat → Shared D → Thread D → User D → List (Ev D) → Prop} {Ok : List (Ev D) → Prop}

theorem Kept.start (k : Kept rp up Act Ok) : Inv up Act Ok (start : Sys D) :=
  ⟨⟨fun _ h => (by cases h), fun _ h => (by cases h)⟩, k.nil, .inl ⟨fun _ h => (by cases h), rfl, .inl rfl⟩⟩

theorem Kept.step (k : Kept rp up Act Ok) {s s' : Sys D} {l : Label D} (h : Inv up Act Ok s) (hs : step rp up true s l = some s') : Inv up Act Ok s' := by
  obtain ⟨hN, hok, h⟩ := h
  cases l with
  | arrive d =>
    simp only [Prompt.step, Bool.true_and] at hs
    split at hs
    · cases hs
    · rename_i hany
      injection hs with hs
      subst hs
      rcases h with ⟨hd, hw, hi⟩ | ⟨old, th, hth, _, hnd, _⟩
      · refine ⟨hN, k.ok hok ?_, .inr ⟨s.threads, _, rfl, hd, rfl, k.new rfl hw hi⟩⟩
        intro e he i b hb
        rw [List.mem_singleton.1 he] at hb
        cases hb
      · exact absurd (List.any_eq_true.2 ⟨th, by rw [hth]; simp, by rw [hnd]; rfl⟩) hany
  | run i =>
    simp only [Prompt.step] at hs
    split at hs
    · cases hs
    · rename_i th hi
      split at hs
      · cases hs
      · rename_i hnd
        rcases h with ⟨hd, _⟩ | ⟨old, t, hth, hold, htd, hact⟩
        · exact absurd (hd th (List.mem_of_getElem? hi)) hnd
        · have hil : i = old.length ∧ th = t := by
            rw [hth] at hi
            rcases Nat.lt_trichotomy i old.length with hl | hl | hl
            · rw [List.getElem?_append_left hl] at hi
              exact absurd (hold th (List.mem_of_getElem? hi)) hnd
            · subst hl
              rw [List.getElem?_append_right (Nat.le_refl _), Nat.sub_self] at hi
              exact ⟨rfl, (Option.some.inj hi).symm⟩
            · rw [List.getElem?_eq_none (by rw [List.length_append]; exact hl)] at hi
              cases hi
          obtain ⟨rfl, rfl⟩ := hil
          split at hs
          · rename_i hto
            injection hs with hs
            subst hs
            obtain ⟨h1, h2, h3⟩ := k.back hact hto hok
            refine ⟨hN, h1, .inl ⟨?_, h2, h3⟩⟩
            intro t ht
            simp only [hth, set_last] at ht
            rcases List.mem_append.1 ht with ht | ht
            · exact hold t ht
            · rw [List.mem_singleton.1 ht]
          · rename_i op rest hto
            cases hx : Prompt.exec op s.sh { th with todo := rest } with
            | none => rw [hx] at hs; cases hs
            | some r =>
              rw [hx] at hs
              injection hs with hs
              subst hs
              obtain ⟨e1, e2⟩ := exec_data hx
              refine ⟨exec_numbered hN hx, hok, .inr ⟨old, r.2, ?_, hold, e2.trans htd, ?_⟩⟩
              · simp only [hth, set_last]
              · have := k.exec (sh' := r.1) (th' := r.2) hN rfl hact hto hx
                rw [e1]
                exact this
  | type =>
    simp only [Prompt.step] at hs
    split at hs
    · rename_i hto
      injection hs with hs
      subst hs
      refine ⟨hN, hok, ?_⟩
      rcases h with ⟨hd, hw, hi⟩ | ⟨old, t, hth, hold, htd, hact⟩
      · exact .inl ⟨hd, hw, .inr rfl⟩
      · exact .inr ⟨old, t, hth, hold, htd, k.type hact hto⟩
    · cases hs
  | act b =>
    simp only [Prompt.step] at hs
    split at hs
    · cases hs
    · rename_i op rest hto
      injection hs with hs
      subst hs
      refine ⟨uexec_numbered hN, k.ok hok (uexec_log op b s.sh _), ?_⟩
      rcases h with ⟨hd, hw, hi⟩ | ⟨old, t, hth, hold, htd, hact⟩
      · obtain ⟨r, hr⟩ := k.check
        obtain ⟨h1, h2, h3⟩ := idle_act (b := b) hr hi hw hto
        refine .inl ⟨hd, ?_, h1⟩
        show (uexec op b s.sh { s.user with todo := rest }).1.waiting = false
        rw [h2]
        exact hw
      · exact .inr ⟨old, t, hth, hold, htd, k.user b hact hto⟩
  | giveUp =>
    simp only [Prompt.step] at hs
    split at hs
    · rename_i hto
      injection hs with hs
      subst hs
      rcases h with ⟨hd, hw, hi⟩ | ⟨old, t, hth, hold, htd, hact⟩
      · obtain ⟨r, hr⟩ := k.check
        exact (idle_no (by rw [hr]; simp) hi hto).elim
      · refine ⟨hN, k.ok hok ?_, .inr ⟨old, t, hth, hold, htd, k.giveUp hact hto⟩⟩
        intro e he i b hb
        rw [List.mem_singleton.1 he] at hb
        cases hb
    · cases hs

theorem Kept.run (k : Kept rp up Act Ok) {s s' : Sys D} {ls : List (Label D)} (h : Inv up Act Ok s) (hs : run rp up true s ls = some s') : Inv up Act Ok s' := by
  induction ls generalizing s with
  | nil =>
    injection hs with hs
    exact hs ▸ h
  | cons l ls ih =>
    simp only [Prompt.run] at hs
    cases hx : Prompt.step rp up true s l with
    | none => rw [hx] at hs; cases hs
    | some m =>
      rw [hx] at hs
      exact ih (k.step h hx) hs

theorem Kept.reach (k : Kept rp up Act Ok) {s : Sys D} (h : Reaches rp up true s) : Inv up Act Ok s := by
  obtain ⟨ls, h⟩ := h
  exact k.run k.start h

theorem kept_tx : Kept (D := D) tx userTx ActTx AllChosen where
  check := ⟨_, rfl⟩
  new := fun {_ _ _ _ _ older} hl hw hi => .early 0 (by decide) rfl (by omega) hi hw ⟨older, [], by simp [hl], by simp⟩
  exec := fun hN hd h ht hx => actTx_exec hN hd h ht hx
  back := by
    intro d i log sh th u h ht hok
    obtain ⟨h1, h2, h3⟩ := actTx_return h ht
    refine ⟨allChosen_snoc hok ?_, h2, h3⟩
    intro i' b' he
    injection he with e1 e2
    subst e1 e2
    obtain ⟨o, m, h, hm⟩ := h1
    exact ⟨d, o, m, h, hm⟩
  user := fun b h ht => actTx_user b h ht
  type := fun h ht => actTx_type h ht
  giveUp := fun h ht => actTx_giveUp h ht
  ok := fun h hl => allChosen_app h hl
  nil := by
    intro before i b h
    have := List.prefix_nil.1 h
    simp at this


/-! ## Key images -/

/-- A request for key images in progress. -/
inductive ActKi (d : D) (i : Nat) (sh : Shared D) (th : Thread D) (u : User D) (log : List (Ev D)) : Prop
  | early (n : Nat) (hn : n ≤ 2) (ht : th.todo = ki.drop n) (hd : 1 ≤ n → sh.data = some d) (hi : Idle userKi u) (hw : sh.waiting = false)
      (hl : Since d i log)
  | opened (j : Nat) (hj : j ≤ 4) (ht : th.todo = (core ++ ki.drop 8).drop j) (hd : sh.data = some d) (hw : sh.waiting = true) (he : Unfired sh th j 2)
      (hu : ((Idle userKi u ∨ u.todo = userKi.drop 1 ∨ (u.todo = userKi.drop 2 ∧ u.data = some d)) ∧ Since d i log) ∨
        (u.todo = userKi.drop 3 ∧ Shown d i log))
  | chosen (j : Nat) (hj : j ≤ 4) (ht : th.todo = (core ++ ki.drop 8).drop j) (hd : sh.data = some d) (he : Unfired sh th j 2)
      (hu : u.todo = userKi.drop 4 ∨ ((u.todo = userKi.drop 5 ∨ (u.todo = userKi.drop 6 ∧ sh.waiting = false)) ∧ (sh.result = true → u.answer = true)))
      (hl : ChosenFor d i log u.answer)
  | lost (j : Nat) (hj : j ≤ 4) (ht : th.todo = (core ++ ki.drop 8).drop j) (hd : sh.data = some d) (hw : sh.waiting = false) (he : Unfired sh th j 2)
      (hi : Idle userKi u)
  | woken (j : Nat) (hj : 2 ≤ j ∧ j ≤ 4) (ht : th.todo = (core ++ ki.drop 8).drop j) (hw : sh.waiting = false) (hi : Idle userKi u)
      (hl : sh.result = true → ChosenFor d i log true)
  | late (n : Nat) (hn : n ≤ 3) (ht : th.todo = (ki.drop 8).drop n) (hw : sh.waiting = false) (hi : Idle userKi u)
      (hl : sh.result = true → ChosenFor d i log true) (hr : 1 ≤ n → th.answer = sh.result)

theorem actKi_exec {d : D} {i : Nat} {log : List (Ev D)} {sh sh' : Shared D} {th th' : Thread D} {u : User D} {op : Instr} {rest : List Instr}
    (hN : Numbered sh) (hdat : th.data = d) (h : ActKi d i sh th u log) (ht : th.todo = op :: rest)
    (hx : exec op sh { th with todo := rest } = some (sh', th')) : ActKi d i sh' th' u log := by
  cases h with
  | early n hn hto hd hi hw hl =>
    interval_cases n <;> simp only [ki, List.drop_succ_cons, List.drop_zero] at hto <;>
      (rw [hto] at ht; injection ht with h1 h2; subst h1 h2; simp only [exec, Option.some.injEq, Prod.mk.injEq] at hx; obtain ⟨rfl, rfl⟩ := hx)
    · exact .early 1 (by decide) rfl (by simp [hdat]) hi hw hl
    · exact .early 2 (by decide) rfl (fun _ => hd (by decide)) hi hw hl
    · exact .opened 0 (by decide) rfl (hd (by decide)) rfl (by intro h; omega) (.inl ⟨.inl hi, hl⟩)
  | opened j hj hto hd hw he hu =>
    obtain ⟨h1, h2, h3, h4, h5, h6, h7⟩ := core_exec hj hN hto he ht hx
    exact .opened (j + 1) (by omega) h2 (h4.trans hd) (h5.trans hw) h3 hu
  | chosen j hj hto hd he hu hl =>
    obtain ⟨h1, h2, h3, h4, h5, h6, h7⟩ := core_exec hj hN hto he ht hx
    refine .chosen (j + 1) (by omega) h2 (h4.trans hd) h3 ?_ hl
    rw [h5]
    exact hu.imp id fun h => ⟨h.1, fun hr => h.2 (h7 hr)⟩
  | lost j hj hto hd hw he hi =>
    obtain ⟨h1, h2, h3, h4, h5, h6, h7⟩ := core_exec hj hN hto he ht hx
    exact .lost (j + 1) (by omega) h2 (h4.trans hd) (h5.trans hw) h3 hi
  | woken j hj hto hw hi hl =>
    obtain ⟨h1, rfl⟩ := core_woken hj hto ht hx
    rcases Nat.lt_or_ge j 4 with h5 | h5
    · exact .woken (j + 1) (by omega) h1 hw hi hl
    · have : j = 4 := by omega
      subst this
      exact .late 0 (by decide) h1 hw hi hl (by omega)
  | late n hn hto hw hi hl hr =>
    interval_cases n <;> simp only [ki, List.drop_succ_cons, List.drop_zero] at hto <;> rw [hto] at ht
    · injection ht with h1 h2; subst h1 h2; simp only [exec, Option.some.injEq, Prod.mk.injEq] at hx; obtain ⟨rfl, rfl⟩ := hx
      exact .late 1 (by decide) rfl hw hi hl fun _ => rfl
    · injection ht with h1 h2; subst h1 h2; simp only [exec, Option.some.injEq, Prod.mk.injEq] at hx; obtain ⟨rfl, rfl⟩ := hx
      exact .late 2 (by decide) rfl rfl hi hl fun _ => hr (by decide)
    · injection ht with h1 h2; subst h1 h2; simp only [exec, Option.some.injEq, Prod.mk.injEq] at hx; obtain ⟨rfl, rfl⟩ := hx
      exact .late 3 (by decide) rfl hw hi hl fun _ => rfl
    · cases ht

theorem actKi_return {d : D} {i : Nat} {log : List (Ev D)} {sh : Shared D} {th : Thread D} {u : User D} (h : ActKi d i sh th u log)
    (ht : th.todo = []) : (th.answer = true → ChosenFor d i log true) ∧ sh.waiting = false ∧ Idle userKi u := by
  cases h with
  | early n hn hto => rw [hto] at ht; interval_cases n <;> cases ht
  | opened j hj hto => rw [hto] at ht; interval_cases j <;> cases ht
  | chosen j hj hto => rw [hto] at ht; interval_cases j <;> cases ht
  | lost j hj hto => rw [hto] at ht; interval_cases j <;> cases ht
  | woken j hj hto => rw [hto] at ht; obtain ⟨h1, h2⟩ := hj; interval_cases j <;> cases ht
  | late n hn hto hw hi hl hr =>
    rw [hto] at ht
    interval_cases n
    · cases ht
    · cases ht
    · cases ht
    · rw [hr (by decide)]
      exact ⟨hl, hw, hi⟩

theorem actKi_user {d : D} {i : Nat} {log : List (Ev D)} {sh : Shared D} {th : Thread D} {u : User D} {op : UInstr} {rest : List UInstr} (b : Bool)
    (h : ActKi d i sh th u log) (ht : u.todo = op :: rest) :
    ActKi d i (uexec op b sh { u with todo := rest }).1 th (uexec op b sh { u with todo := rest }).2.1
      (log ++ (uexec op b sh { u with todo := rest }).2.2) := by
  cases h with
  | early n hn hto hd hi hw hl =>
    obtain ⟨h1, h2, h3⟩ := idle_act (b := b) rfl hi hw ht
    rw [h2, h3, List.append_nil]
    exact .early n hn hto hd h1 hw hl
  | lost j hj hto hd hw he hi =>
    obtain ⟨h1, h2, h3⟩ := idle_act (b := b) rfl hi hw ht
    rw [h2, h3, List.append_nil]
    exact .lost j hj hto hd hw he h1
  | woken j hj hto hw hi hl =>
    obtain ⟨h1, h2, h3⟩ := idle_act (b := b) rfl hi hw ht
    rw [h2, h3, List.append_nil]
    exact .woken j hj hto hw h1 hl
  | late n hn hto hw hi hl hr =>
    obtain ⟨h1, h2, h3⟩ := idle_act (b := b) rfl hi hw ht
    rw [h2, h3, List.append_nil]
    exact .late n hn hto hw h1 hl hr
  | opened j hj hto hd hw he hu =>
    rcases hu with ⟨(hi | hu | ⟨hu, hud⟩), hl⟩ | ⟨hu, hl⟩
    · rcases hi with h | h
      · rw [h] at ht; cases ht
      · rw [h] at ht
        injection ht with h1 h2
        subst h1 h2
        simp only [uexec, hw, if_true, List.append_nil]
        exact .opened j hj hto hd hw he (.inl ⟨.inr (.inl rfl), hl⟩)
    · rw [hu] at ht
      injection ht with h1 h2
      subst h1 h2
      simp only [uexec, hd, Option.isSome_some, if_true, List.append_nil]
      exact .opened j hj hto hd hw he (.inl ⟨.inr (.inr ⟨rfl, rfl⟩), hl⟩)
    · rw [hu] at ht
      injection ht with h1 h2
      subst h1 h2
      simp only [uexec, hud]
      exact .opened j hj hto hd hw he (.inr ⟨rfl, hl.show⟩)
    · rw [hu] at ht
      injection ht with h1 h2
      subst h1 h2
      simp only [uexec]
      exact .chosen j hj hto hd he (.inl rfl) (hl.choose b)
  | chosen j hj hto hd he hu hl =>
    rcases hu with hu | ⟨(hu | ⟨hu, hw⟩), hg⟩ <;>
      (rw [hu] at ht; injection ht with h1 h2; subst h1 h2)
    · simp only [uexec, List.append_nil]
      exact .chosen j hj hto hd he (.inr ⟨.inl rfl, id⟩) hl
    · simp only [uexec, List.append_nil]
      exact .chosen j hj hto hd he (.inr ⟨.inr ⟨rfl, rfl⟩, hg⟩) hl
    · rcases Nat.lt_or_ge j 2 with h2 | h2
      · simp only [uexec]
        split
        · rw [List.append_nil]
          exact .lost j hj hto hd hw (by intro h; omega) (.inl rfl)
        · rw [List.append_nil]
          exact .lost j hj hto hd hw he (.inl rfl)
      · obtain ⟨e, he1, he2, he3⟩ := he h2
        simp only [uexec, he1, List.append_nil]
        exact .woken j ⟨h2, hj⟩ hto hw (.inl rfl) fun h => hg h ▸ hl

theorem actKi_type {d : D} {i : Nat} {log : List (Ev D)} {sh : Shared D} {th : Thread D} {u : User D} (h : ActKi d i sh th u log) (ht : u.todo = []) :
    ActKi d i sh th { u with todo := userKi } log := by
  cases h with
  | early n hn hto hd hi hw hl => exact .early n hn hto hd (.inr rfl) hw hl
  | lost j hj hto hd hw he hi => exact .lost j hj hto hd hw he (.inr rfl)
  | woken j hj hto hw hi hl => exact .woken j hj hto hw (.inr rfl) hl
  | late n hn hto hw hi hl hr => exact .late n hn hto hw (.inr rfl) hl hr
  | opened j hj hto hd hw he hu =>
    rcases hu with ⟨(hi | hu | ⟨hu, hud⟩), hl⟩ | ⟨hu, hl⟩
    · exact .opened j hj hto hd hw he (.inl ⟨.inl (.inr rfl), hl⟩)
    all_goals rw [hu] at ht; cases ht
  | chosen j hj hto hd he hu hl =>
    rcases hu with hu | ⟨(hu | ⟨hu, hw⟩), hg⟩ <;> (rw [hu] at ht; cases ht)

theorem actKi_giveUp {d : D} {i : Nat} {log : List (Ev D)} {sh : Shared D} {th : Thread D} {u : User D} (h : ActKi d i sh th u log)
    (ht : .select ∈ u.todo ∧ .check ∉ u.todo) : ActKi d i sh th { u with todo := [] } (log ++ [.gaveUp]) := by
  cases h with
  | early n hn hto hd hi hw hl => exact (idle_no (by decide) hi ht).elim
  | lost j hj hto hd hw he hi => exact (idle_no (by decide) hi ht).elim
  | woken j hj hto hw hi hl => exact (idle_no (by decide) hi ht).elim
  | late n hn hto hw hi hl hr => exact (idle_no (by decide) hi ht).elim
  | opened j hj hto hd hw he hu =>
    have hl : Since d i log := by
      rcases hu with ⟨_, hl⟩ | ⟨_, hl⟩
      · exact hl
      · exact hl.since
    exact .opened j hj hto hd hw he (.inl ⟨.inl (.inl rfl), hl.add (.inr rfl)⟩)
  | chosen j hj hto hd he hu hl =>
    exfalso
    rcases hu with hu | ⟨(hu | ⟨hu, hw⟩), hg⟩ <;> (rw [hu] at ht; exact absurd ht.1 (by decide))

/-- What holds of every answer in a list of events holds of it with one more. -/
theorem every_snoc {P : List (Ev D) → Nat → Prop} {log : List (Ev D)} (h : ∀ before i, before ++ [.returned i true] <+: log → P before i) {e : Ev D}
    (he : ∀ i, e = .returned i true → P log i) : ∀ before i, before ++ [.returned i true] <+: log ++ [e] → P before i := by
  intro before i hp
  rcases List.prefix_concat_iff.1 hp with h' | h'
  · have h'' := List.append_inj' h' rfl
    rw [h''.1]
    exact he i (by simpa using h''.2.symm)
  · exact h before i h'

theorem every_app {P : List (Ev D) → Nat → Prop} {log l : List (Ev D)} (h : ∀ before i, before ++ [.returned i true] <+: log → P before i)
    (he : ∀ e ∈ l, ∀ i b, e ≠ .returned i b) : ∀ before i, before ++ [.returned i true] <+: log ++ l → P before i := by
  induction l generalizing log with
  | nil => simpa using h
  | cons e l ih =>
    have : log ++ e :: l = (log ++ [e]) ++ l := by simp
    rw [this]
    refine ih (every_snoc h ?_) fun x hx => he x (List.mem_cons_of_mem _ hx)
    intro i hb
    exact absurd hb (he e (List.mem_cons_self ..) i true)

theorem kept_ki : Kept (D := D) ki userKi ActKi YesChosen where
  check := ⟨_, rfl⟩
  new := fun {_ _ _ _ _ older} hl hw hi => .early 0 (by decide) rfl (by omega) hi hw ⟨older, [], by simp [hl], by simp⟩
  exec := fun hN hd h ht hx => actKi_exec hN hd h ht hx
  back := by
    intro d i log sh th u h ht hok
    obtain ⟨h1, h2, h3⟩ := actKi_return h ht
    refine ⟨every_snoc hok ?_, h2, h3⟩
    intro i' he
    injection he with e1 e2
    subst e1
    obtain ⟨o, m, h, hm⟩ := h1 e2
    exact ⟨d, o, m, h, hm⟩
  user := fun b h ht => actKi_user b h ht
  type := fun h ht => actKi_type h ht
  giveUp := fun h ht => actKi_giveUp h ht
  ok := fun h hl => every_app h hl
  nil := by
    intro before i h
    have := List.prefix_nil.1 h
    simp at this

/-! ## The view key -/

/-- What happened since request `i` arrived: nothing was chosen. -/
def SinceBlind (d : D) (i : Nat) (log : List (Ev D)) : Prop :=
  ∃ older mid, log = older ++ [.arrived i d] ++ mid ∧ ∀ e ∈ mid, e = .gaveUp

/-- The same, and then `b` was chosen. -/
def ChosenBlindFor (d : D) (i : Nat) (log : List (Ev D)) (b : Bool) : Prop :=
  ∃ older mid, log = older ++ [.arrived i d] ++ mid ++ [.answered b] ∧ ∀ e ∈ mid, e = .gaveUp

theorem SinceBlind.add {d : D} {i : Nat} {log : List (Ev D)} (h : SinceBlind d i log) : SinceBlind d i (log ++ [.gaveUp]) := by
  obtain ⟨o, m, rfl, hm⟩ := h
  refine ⟨o, m ++ [.gaveUp], by simp, ?_⟩
  intro x hx
  rcases List.mem_append.1 hx with h | h
  · exact hm x h
  · exact List.mem_singleton.1 h

theorem SinceBlind.choose {d : D} {i : Nat} {log : List (Ev D)} (h : SinceBlind d i log) (b : Bool) : ChosenBlindFor d i (log ++ [.answered b]) b := by
  obtain ⟨o, m, rfl, hm⟩ := h
  exact ⟨o, m, rfl, hm⟩

/-- A request for the view key in progress. -/
inductive ActWatch (d : D) (i : Nat) (sh : Shared D) (th : Thread D) (u : User D) (log : List (Ev D)) : Prop
  | early (n : Nat) (hn : n ≤ 2) (ht : th.todo = watch.drop n) (hi : Idle userWatch u) (hw : sh.waiting = false)
      (hl : SinceBlind d i log)
  | opened (j : Nat) (hj : j ≤ 4) (ht : th.todo = (core ++ watch.drop 8).drop j) (hw : sh.waiting = true) (he : Unfired sh th j 2)
      (hu : Idle userWatch u ∨ u.todo = userWatch.drop 1) (hl : SinceBlind d i log)
  | chosen (j : Nat) (hj : j ≤ 4) (ht : th.todo = (core ++ watch.drop 8).drop j) (he : Unfired sh th j 2)
      (hu : u.todo = userWatch.drop 2 ∨ ((u.todo = userWatch.drop 3 ∨ (u.todo = userWatch.drop 4 ∧ sh.waiting = false)) ∧ (sh.result = true → u.answer = true)))
      (hl : ChosenBlindFor d i log u.answer)
  | lost (j : Nat) (hj : j ≤ 4) (ht : th.todo = (core ++ watch.drop 8).drop j) (hw : sh.waiting = false) (he : Unfired sh th j 2)
      (hi : Idle userWatch u)
  | woken (j : Nat) (hj : 2 ≤ j ∧ j ≤ 4) (ht : th.todo = (core ++ watch.drop 8).drop j) (hw : sh.waiting = false) (hi : Idle userWatch u)
      (hl : sh.result = true → ChosenBlindFor d i log true)
  | late (n : Nat) (hn : n ≤ 2) (ht : th.todo = (watch.drop 8).drop n) (hw : sh.waiting = false) (hi : Idle userWatch u)
      (hl : sh.result = true → ChosenBlindFor d i log true) (hr : 1 ≤ n → th.answer = sh.result)

theorem actWatch_exec {d : D} {i : Nat} {log : List (Ev D)} {sh sh' : Shared D} {th th' : Thread D} {u : User D} {op : Instr} {rest : List Instr}
    (hN : Numbered sh) (hdat : th.data = d) (h : ActWatch d i sh th u log) (ht : th.todo = op :: rest)
    (hx : exec op sh { th with todo := rest } = some (sh', th')) : ActWatch d i sh' th' u log := by
  cases h with
  | early n hn hto hi hw hl =>
    interval_cases n <;> simp only [watch, List.drop_succ_cons, List.drop_zero] at hto <;>
      (rw [hto] at ht; injection ht with h1 h2; subst h1 h2; simp only [exec, Option.some.injEq, Prod.mk.injEq] at hx; obtain ⟨rfl, rfl⟩ := hx)
    · rw [hw]
      exact .early 1 (by decide) rfl hi hw hl
    · exact .early 2 (by decide) rfl hi hw hl
    · exact .opened 0 (by decide) rfl rfl (by intro h; omega) (.inl hi) hl
  | opened j hj hto hw he hu hl =>
    obtain ⟨h1, h2, h3, h4, h5, h6, h7⟩ := core_exec hj hN hto he ht hx
    exact .opened (j + 1) (by omega) h2 (h5.trans hw) h3 hu hl
  | chosen j hj hto he hu hl =>
    obtain ⟨h1, h2, h3, h4, h5, h6, h7⟩ := core_exec hj hN hto he ht hx
    refine .chosen (j + 1) (by omega) h2 h3 ?_ hl
    rw [h5]
    exact hu.imp id fun h => ⟨h.1, fun hr => h.2 (h7 hr)⟩
  | lost j hj hto hw he hi =>
    obtain ⟨h1, h2, h3, h4, h5, h6, h7⟩ := core_exec hj hN hto he ht hx
    exact .lost (j + 1) (by omega) h2 (h5.trans hw) h3 hi
  | woken j hj hto hw hi hl =>
    obtain ⟨h1, rfl⟩ := core_woken hj hto ht hx
    rcases Nat.lt_or_ge j 4 with h5 | h5
    · exact .woken (j + 1) (by omega) h1 hw hi hl
    · have : j = 4 := by omega
      subst this
      exact .late 0 (by decide) h1 hw hi hl (by omega)
  | late n hn hto hw hi hl hr =>
    interval_cases n <;> simp only [watch, List.drop_succ_cons, List.drop_zero] at hto <;> rw [hto] at ht
    · injection ht with h1 h2; subst h1 h2; simp only [exec, Option.some.injEq, Prod.mk.injEq] at hx; obtain ⟨rfl, rfl⟩ := hx
      exact .late 1 (by decide) rfl hw hi hl fun _ => rfl
    · injection ht with h1 h2; subst h1 h2; simp only [exec, Option.some.injEq, Prod.mk.injEq] at hx; obtain ⟨rfl, rfl⟩ := hx
      exact .late 2 (by decide) rfl rfl hi hl fun _ => hr (by decide)
    · cases ht

theorem actWatch_return {d : D} {i : Nat} {log : List (Ev D)} {sh : Shared D} {th : Thread D} {u : User D} (h : ActWatch d i sh th u log)
    (ht : th.todo = []) : (th.answer = true → ChosenBlindFor d i log true) ∧ sh.waiting = false ∧ Idle userWatch u := by
  cases h with
  | early n hn hto => rw [hto] at ht; interval_cases n <;> cases ht
  | opened j hj hto => rw [hto] at ht; interval_cases j <;> cases ht
  | chosen j hj hto => rw [hto] at ht; interval_cases j <;> cases ht
  | lost j hj hto => rw [hto] at ht; interval_cases j <;> cases ht
  | woken j hj hto => rw [hto] at ht; obtain ⟨h1, h2⟩ := hj; interval_cases j <;> cases ht
  | late n hn hto hw hi hl hr =>
    rw [hto] at ht
    interval_cases n
    · cases ht
    · cases ht
    · rw [hr (by decide)]
      exact ⟨hl, hw, hi⟩

theorem actWatch_user {d : D} {i : Nat} {log : List (Ev D)} {sh : Shared D} {th : Thread D} {u : User D} {op : UInstr} {rest : List UInstr} (b : Bool)
    (h : ActWatch d i sh th u log) (ht : u.todo = op :: rest) :
    ActWatch d i (uexec op b sh { u with todo := rest }).1 th (uexec op b sh { u with todo := rest }).2.1
      (log ++ (uexec op b sh { u with todo := rest }).2.2) := by
  cases h with
  | early n hn hto hi hw hl =>
    obtain ⟨h1, h2, h3⟩ := idle_act (b := b) rfl hi hw ht
    rw [h2, h3, List.append_nil]
    exact .early n hn hto h1 hw hl
  | lost j hj hto hw he hi =>
    obtain ⟨h1, h2, h3⟩ := idle_act (b := b) rfl hi hw ht
    rw [h2, h3, List.append_nil]
    exact .lost j hj hto hw he h1
  | woken j hj hto hw hi hl =>
    obtain ⟨h1, h2, h3⟩ := idle_act (b := b) rfl hi hw ht
    rw [h2, h3, List.append_nil]
    exact .woken j hj hto hw h1 hl
  | late n hn hto hw hi hl hr =>
    obtain ⟨h1, h2, h3⟩ := idle_act (b := b) rfl hi hw ht
    rw [h2, h3, List.append_nil]
    exact .late n hn hto hw h1 hl hr
  | opened j hj hto hw he hu hl =>
    rcases hu with (h | h) | hu
    · rw [h] at ht; cases ht
    · rw [h] at ht
      injection ht with h1 h2
      subst h1 h2
      simp only [uexec, hw, if_true, List.append_nil]
      exact .opened j hj hto hw he (.inr rfl) hl
    · rw [hu] at ht
      injection ht with h1 h2
      subst h1 h2
      simp only [uexec]
      exact .chosen j hj hto he (.inl rfl) (hl.choose b)
  | chosen j hj hto he hu hl =>
    rcases hu with hu | ⟨(hu | ⟨hu, hw⟩), hg⟩ <;>
      (rw [hu] at ht; injection ht with h1 h2; subst h1 h2)
    · simp only [uexec, List.append_nil]
      exact .chosen j hj hto he (.inr ⟨.inl rfl, id⟩) hl
    · simp only [uexec, List.append_nil]
      exact .chosen j hj hto he (.inr ⟨.inr ⟨rfl, rfl⟩, hg⟩) hl
    · rcases Nat.lt_or_ge j 2 with h2 | h2
      · simp only [uexec]
        split
        · rw [List.append_nil]
          exact .lost j hj hto hw (by intro h; omega) (.inl rfl)
        · rw [List.append_nil]
          exact .lost j hj hto hw he (.inl rfl)
      · obtain ⟨e, he1, he2, he3⟩ := he h2
        simp only [uexec, he1, List.append_nil]
        exact .woken j ⟨h2, hj⟩ hto hw (.inl rfl) fun h => hg h ▸ hl

theorem actWatch_type {d : D} {i : Nat} {log : List (Ev D)} {sh : Shared D} {th : Thread D} {u : User D} (h : ActWatch d i sh th u log) (ht : u.todo = []) :
    ActWatch d i sh th { u with todo := userWatch } log := by
  cases h with
  | early n hn hto hi hw hl => exact .early n hn hto (.inr rfl) hw hl
  | lost j hj hto hw he hi => exact .lost j hj hto hw he (.inr rfl)
  | woken j hj hto hw hi hl => exact .woken j hj hto hw (.inr rfl) hl
  | late n hn hto hw hi hl hr => exact .late n hn hto hw (.inr rfl) hl hr
  | opened j hj hto hw he hu hl =>
    rcases hu with hi | hu
    · exact .opened j hj hto hw he (.inl (.inr rfl)) hl
    · rw [hu] at ht; cases ht
  | chosen j hj hto he hu hl =>
    rcases hu with hu | ⟨(hu | ⟨hu, hw⟩), hg⟩ <;> (rw [hu] at ht; cases ht)

theorem actWatch_giveUp {d : D} {i : Nat} {log : List (Ev D)} {sh : Shared D} {th : Thread D} {u : User D} (h : ActWatch d i sh th u log)
    (ht : .select ∈ u.todo ∧ .check ∉ u.todo) : ActWatch d i sh th { u with todo := [] } (log ++ [.gaveUp]) := by
  cases h with
  | early n hn hto hi hw hl => exact (idle_no (by decide) hi ht).elim
  | lost j hj hto hw he hi => exact (idle_no (by decide) hi ht).elim
  | woken j hj hto hw hi hl => exact (idle_no (by decide) hi ht).elim
  | late n hn hto hw hi hl hr => exact (idle_no (by decide) hi ht).elim
  | opened j hj hto hw he hu hl =>
    exact .opened j hj hto hw he (.inl (.inl rfl)) hl.add
  | chosen j hj hto he hu hl =>
    exfalso
    rcases hu with hu | ⟨(hu | ⟨hu, hw⟩), hg⟩ <;> (rw [hu] at ht; exact absurd ht.1 (by decide))

theorem kept_watch : Kept (D := D) watch userWatch ActWatch YesChosenBlind where
  check := ⟨_, rfl⟩
  new := fun {_ _ _ _ _ older} hl hw hi => .early 0 (by decide) rfl hi hw ⟨older, [], by simp [hl], by simp⟩
  exec := fun hN hd h ht hx => actWatch_exec hN hd h ht hx
  back := by
    intro d i log sh th u h ht hok
    obtain ⟨h1, h2, h3⟩ := actWatch_return h ht
    refine ⟨every_snoc hok ?_, h2, h3⟩
    intro i' he
    injection he with e1 e2
    subst e1
    obtain ⟨o, m, h, hm⟩ := h1 e2
    exact ⟨d, o, m, h, hm⟩
  user := fun b h ht => actWatch_user b h ht
  type := fun h ht => actWatch_type h ht
  giveUp := fun h ht => actWatch_giveUp h ht
  ok := fun h hl => every_app h hl
  nil := by
    intro before i h
    have := List.prefix_nil.1 h
    simp at this

/-! ## Lost answers -/

/-- A request whose answer was lost. -/
def Lost (s : Sys D) : Prop :=
  Numbered s.sh ∧ ∃ old th, s.threads = old ++ [th] ∧ (∀ t ∈ old, t.done = true) ∧ th.done = false ∧ s.sh.waiting = false ∧ Idle userTx s.user ∧
    ∃ j, j ≤ 4 ∧ th.todo = (core ++ tx.drop 9).drop j ∧ Unfired s.sh th j 2

theorem lost_step {s s' : Sys D} {l : Label D} (h : Lost s) (hs : step tx userTx true s l = some s') : Lost s' ∧ s'.log = s.log := by
  obtain ⟨hN, old, t, hth, hold, htd, hw, hi, j, hj, hto, he⟩ := h
  cases l with
  | arrive d =>
    simp only [step, Bool.true_and] at hs
    split at hs
    · cases hs
    · rename_i hany
      exact absurd (List.any_eq_true.2 ⟨t, by rw [hth]; simp, by rw [htd]; rfl⟩) hany
  | run i =>
    simp only [step] at hs
    split at hs
    · cases hs
    · rename_i th hi'
      split at hs
      · cases hs
      · rename_i hnd
        have hil : i = old.length ∧ th = t := by
          rw [hth] at hi'
          rcases Nat.lt_trichotomy i old.length with hl | hl | hl
          · rw [List.getElem?_append_left hl] at hi'
            exact absurd (hold th (List.mem_of_getElem? hi')) hnd
          · subst hl
            rw [List.getElem?_append_right (Nat.le_refl _), Nat.sub_self] at hi'
            exact ⟨rfl, (Option.some.inj hi').symm⟩
          · rw [List.getElem?_eq_none (by rw [List.length_append]; exact hl)] at hi'
            cases hi'
        obtain ⟨rfl, rfl⟩ := hil
        split at hs
        · rename_i h0
          rw [hto] at h0
          interval_cases j <;> cases h0
        · rename_i op rest h0
          cases hx : Prompt.exec op s.sh { th with todo := rest } with
          | none => rw [hx] at hs; cases hs
          | some r =>
            rw [hx] at hs
            injection hs with hs
            subst hs
            obtain ⟨e1, e2⟩ := exec_data hx
            obtain ⟨h1, h2, h3, h4, h5, h6, h7⟩ := core_exec (sh' := r.1) (th' := r.2) hj hN hto he h0 hx
            exact ⟨⟨exec_numbered (sh' := r.1) (th' := r.2) hN hx, old, r.2, by simp only [hth, set_last], hold, e2.trans htd, h5.trans hw, hi, j + 1, by omega, h2, h3⟩, rfl⟩
  | type =>
    simp only [step] at hs
    split at hs
    · injection hs with hs
      subst hs
      exact ⟨⟨hN, old, t, hth, hold, htd, hw, .inr rfl, j, hj, hto, he⟩, rfl⟩
    · cases hs
  | act b =>
    simp only [step] at hs
    split at hs
    · cases hs
    · rename_i op rest hu
      injection hs with hs
      subst hs
      obtain ⟨h1, h2, h3⟩ := idle_act (b := b) rfl hi hw hu
      refine ⟨⟨uexec_numbered hN, old, t, hth, hold, htd, ?_, h1, j, hj, hto, ?_⟩, ?_⟩
      · simp only [h2]
        exact hw
      · simp only [h2]
        exact he
      · simp only [h3, List.append_nil]
  | giveUp =>
    simp only [step] at hs
    split at hs
    · rename_i hu
      exact (idle_no (by decide) hi hu).elim
    · cases hs

theorem lost_run {s s' : Sys D} {ls : List (Label D)} (h : Lost s) (hs : run tx userTx true s ls = some s') : Lost s' ∧ s'.log = s.log := by
  induction ls generalizing s with
  | nil =>
    injection hs with hs
    exact hs ▸ ⟨h, rfl⟩
  | cons l ls ih =>
    simp only [run] at hs
    cases hx : step tx userTx true s l with
    | none => rw [hx] at hs; cases hs
    | some m =>
      rw [hx] at hs
      obtain ⟨h1, h2⟩ := lost_step h hx
      obtain ⟨h3, h4⟩ := ih h1 hs
      exact ⟨h3, h4.trans h2⟩

end Verif.Prompt

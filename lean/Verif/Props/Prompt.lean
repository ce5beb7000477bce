import Verif.Lemmas.Prompt

/-! C93: what the user confirms at the terminal of the emulated device. -/

namespace Verif.Prompt
variable {D : Type}

/-- C93. A device that serves one request after the other gives a transaction the answer the user chose after having been shown that transaction, for
every schedule of the two threads. -/
theorem C93_transaction_shown {s : Sys D} (h : Reaches tx userTx true s) : AllChosen s.log := (kept_tx.reach h).2.1

/-- C93. Key images are released only if the user, having been shown the request, chose so. -/
theorem C93_key_images_shown {s : Sys D} (h : Reaches ki userKi true s) : YesChosen s.log := (kept_ki.reach h).2.1

/-- C93. The view key is released only if the user chose so after the request arrived. -/
theorem C93_view_key_chosen {s : Sys D} (h : Reaches watch userWatch true s) : YesChosenBlind s.log := (kept_watch.reach h).2.1

theorem run_append (rp : List Instr) (up : List UInstr) (q : Bool) (s : Sys D) (l m : List (Label D)) :
    run rp up q s (l ++ m) = (run rp up q s l).bind fun s' => run rp up q s' m := by
  induction l generalizing s with
  | nil => rfl
  | cons a l ih =>
    simp only [List.cons_append, run]
    cases step rp up q s a with
    | none => rfl
    | some t => exact ih t

theorem run_cons (rp : List Instr) (up : List UInstr) (q : Bool) (s : Sys D) (a : Label D) (l : List (Label D)) :
    run rp up q s (a :: l) = (step rp up q s a).bind fun s' => run rp up q s' l := rfl

/-- A thread alone. -/
def solo : Nat → Shared D → Thread D → Option (Shared D × Thread D)
  | 0, sh, th => some (sh, th)
  | k + 1, sh, th => match th.todo with
    | [] => none
    | op :: rest => (exec op sh { th with todo := rest }).bind fun r => solo k r.1 r.2

theorem run_solo (rp : List Instr) (up : List UInstr) (q : Bool) (old : List (Thread D)) (u : User D) (log : List (Ev D)) :
    ∀ (k : Nat) (sh sh' : Shared D) (th th' : Thread D), th.done = false → solo k sh th = some (sh', th') →
      run rp up q ⟨sh, old ++ [th], u, log⟩ (List.replicate k (.run old.length)) = some ⟨sh', old ++ [th'], u, log⟩ ∧ th'.done = false
  | 0, sh, sh', th, th', hd, h => by
    injection h with h
    injection h with h1 h2
    subst h1 h2
    exact ⟨rfl, hd⟩
  | k + 1, sh, sh', th, th', hd, h => by
    simp only [solo] at h
    split at h
    · cases h
    · rename_i op rest hto
      cases hx : exec op sh { th with todo := rest } with
      | none => rw [hx] at h; cases h
      | some r =>
        rw [hx] at h
        have hd' : r.2.done = false := (exec_data hx).2.trans hd
        have ih := run_solo rp up q old u log k r.1 sh' r.2 th' hd' h
        have hs : step rp up q ⟨sh, old ++ [th], u, log⟩ (.run old.length) = some ⟨r.1, old ++ [r.2], u, log⟩ := by
          have e : (old ++ [th])[old.length]? = some th := List.getElem?_concat_length
          unfold step
          simp only [e, hto, hx, if_neg (show ¬ (th.done = true) by rw [hd]; exact Bool.false_ne_true), Option.map_some, set_last]
        rw [List.replicate_succ, run, hs]
        exact ih

/-- The terminal alone. -/
def usolo (b : Bool) : Nat → Shared D → User D → List (Ev D) → Option (Shared D × User D × List (Ev D))
  | 0, sh, u, log => some (sh, u, log)
  | k + 1, sh, u, log => match u.todo with
    | [] => none
    | op :: rest =>
      let r := uexec op b sh { u with todo := rest }
      usolo b k r.1 r.2.1 (log ++ r.2.2)

theorem run_usolo (rp : List Instr) (up : List UInstr) (q : Bool) (ths : List (Thread D)) (b : Bool) :
    ∀ (k : Nat) (sh sh' : Shared D) (u u' : User D) (log log' : List (Ev D)), usolo b k sh u log = some (sh', u', log') →
      run rp up q ⟨sh, ths, u, log⟩ (List.replicate k (.act b)) = some ⟨sh', ths, u', log'⟩
  | 0, sh, sh', u, u', log, log', h => by
    injection h with h
    injection h with h1 h2
    injection h2 with h2 h3
    subst h1 h2 h3
    rfl
  | k + 1, sh, sh', u, u', log, log', h => by
    simp only [usolo] at h
    split at h
    · cases h
    · rename_i op rest hto
      have ih := run_usolo rp up q ths b k _ sh' _ u' _ log' h
      have hs : step rp up q ⟨sh, ths, u, log⟩ (.act b) = some ⟨(uexec op b sh { u with todo := rest }).1, ths,
          (uexec op b sh { u with todo := rest }).2.1, log ++ (uexec op b sh { u with todo := rest }).2.2⟩ := by
        simp only [step, hto]
      rw [List.replicate_succ, run, hs]
      exact ih

/-- C93. A request is served: if no other is in progress, it gets the answer the user gives to its prompt. -/
theorem C93_served {s : Sys D} (h : Reaches tx userTx true s) (hd : ∀ th ∈ s.threads, th.done = true) (hu : s.user.todo = []) (d : D) (b : Bool) :
    (run tx userTx true s (.arrive d :: (List.replicate 8 (.run s.threads.length) ++ .type :: List.replicate 8 (.act b) ++
        List.replicate 6 (.run s.threads.length)))).map (·.log) =
      some (s.log ++ [.arrived s.threads.length d, .shown d, .answered b, .returned s.threads.length b]) := by
  have hw : s.sh.waiting = false := by
    obtain ⟨_, _, h⟩ := kept_tx.reach h
    rcases h with ⟨_, hw, _⟩ | ⟨old, th, hth, _, hnd, _⟩
    · exact hw
    · rw [hd th (by rw [hth]; simp)] at hnd
      cases hnd
  have hany : (s.threads.any fun t => !t.done) = false := by
    rw [List.any_eq_false]
    intro t ht
    simp [hd t ht]
  obtain ⟨⟨a1, a2, a3, a4, a5, a6, a7⟩, th, ⟨u1, u2, u3⟩, log⟩ := s
  simp only at hu hw hany hd
  subst hu hw
  have s1 : step tx userTx true ⟨⟨a1, a2, false, a4, a5, a6, a7⟩, th, ⟨[], u2, u3⟩, log⟩ (.arrive d) =
      some ⟨⟨a1, a2, false, a4, a5, a6, a7⟩, th ++ [⟨d, tx, none, false, false⟩], ⟨[], u2, u3⟩, log ++ [.arrived th.length d]⟩ := by
    simp only [step, hany, Bool.and_false, Bool.false_eq_true, if_false]
  obtain ⟨h1, _⟩ := run_solo tx userTx true th ⟨[], u2, u3⟩ (log ++ [.arrived th.length d]) 8 ⟨a1, a2, false, a4, a5, a6, a7⟩
    ⟨some d, false, true, false, some a7, a6, a7 + 1⟩ ⟨d, tx, none, false, false⟩ ⟨d, tx.drop 8, some a7, false, false⟩ rfl rfl
  have h2 := run_usolo tx userTx true (th ++ [⟨d, tx.drop 8, some a7, false, false⟩]) b 8
    ⟨some d, false, true, false, some a7, a6, a7 + 1⟩ ⟨some d, b, false, b, some a7, a7 :: a6, a7 + 1⟩ ⟨userTx, u2, u3⟩ ⟨[], some d, b⟩
    (log ++ [.arrived th.length d]) (log ++ [.arrived th.length d] ++ [] ++ [] ++ [.shown d] ++ [.answered b] ++ [] ++ [] ++ [] ++ []) rfl
  obtain ⟨h3, _⟩ := run_solo tx userTx true th ⟨[], some d, b⟩
    (log ++ [.arrived th.length d] ++ [] ++ [] ++ [.shown d] ++ [.answered b] ++ [] ++ [] ++ [] ++ []) 5
    ⟨some d, b, false, b, some a7, a7 :: a6, a7 + 1⟩ ⟨none, b, false, b, some a7, a7 :: a6, a7 + 1⟩
    ⟨d, tx.drop 8, some a7, false, false⟩ ⟨d, [], some a7, b, false⟩ rfl (by simp [solo, exec, tx])
  have s2 : ∀ (sh : Shared D) ths u v l, step tx userTx true ⟨sh, ths, ⟨[], u, v⟩, l⟩ .type = some ⟨sh, ths, ⟨userTx, u, v⟩, l⟩ := fun _ _ _ _ _ => rfl
  have s3 : ∀ (sh : Shared D) u l e, step tx userTx true ⟨sh, th ++ [⟨d, [], e, b, false⟩], u, l⟩ (.run th.length) =
      some ⟨sh, th ++ [⟨d, [], e, b, true⟩], u, l ++ [.returned th.length b]⟩ := by
    intro sh u l e
    have e : (th ++ [(⟨d, [], e, b, false⟩ : Thread D)])[th.length]? = some ⟨d, [], e, b, false⟩ := List.getElem?_concat_length
    unfold step
    simp only [e, set_last, Bool.false_eq_true, if_false]
  have r6 : List.replicate 6 (Label.run (D := D) th.length) = List.replicate 5 (.run th.length) ++ [.run th.length] := rfl
  dsimp only
  rw [run_cons, s1, Option.bind_some, List.append_assoc, run_append, h1, Option.bind_some, List.cons_append, run_cons, s2, Option.bind_some, run_append, h2,
    Option.bind_some, r6, run_append, h3, Option.bind_some, run_cons, s3, Option.bind_some]
  simp only [run, Option.map_some, List.append_nil, List.append_assoc, List.cons_append, List.nil_append]

/-- C93. The same for key images. -/
theorem C93_served_key_images {s : Sys D} (h : Reaches ki userKi true s) (hd : ∀ th ∈ s.threads, th.done = true) (hu : s.user.todo = []) (d : D) (b : Bool) :
    (run ki userKi true s (.arrive d :: (List.replicate 7 (.run s.threads.length) ++ .type :: List.replicate 7 (.act b) ++
        List.replicate 5 (.run s.threads.length)))).map (·.log) =
      some (s.log ++ [.arrived s.threads.length d, .shown d, .answered b, .returned s.threads.length b]) := by
  have hw : s.sh.waiting = false := by
    obtain ⟨_, _, h⟩ := kept_ki.reach h
    rcases h with ⟨_, hw, _⟩ | ⟨old, th, hth, _, hnd, _⟩
    · exact hw
    · rw [hd th (by rw [hth]; simp)] at hnd
      cases hnd
  have hany : (s.threads.any fun t => !t.done) = false := by
    rw [List.any_eq_false]
    intro t ht
    simp [hd t ht]
  obtain ⟨⟨a1, a2, a3, a4, a5, a6, a7⟩, th, ⟨u1, u2, u3⟩, log⟩ := s
  simp only at hu hw hany hd
  subst hu hw
  have s1 : step ki userKi true ⟨⟨a1, a2, false, a4, a5, a6, a7⟩, th, ⟨[], u2, u3⟩, log⟩ (.arrive d) =
      some ⟨⟨a1, a2, false, a4, a5, a6, a7⟩, th ++ [⟨d, ki, none, false, false⟩], ⟨[], u2, u3⟩, log ++ [.arrived th.length d]⟩ := by
    simp only [step, hany, Bool.and_false, Bool.false_eq_true, if_false]
  obtain ⟨h1, _⟩ := run_solo ki userKi true th ⟨[], u2, u3⟩ (log ++ [.arrived th.length d]) 7 ⟨a1, a2, false, a4, a5, a6, a7⟩
    ⟨some d, a2, true, false, some a7, a6, a7 + 1⟩ ⟨d, ki, none, false, false⟩ ⟨d, ki.drop 7, some a7, false, false⟩ rfl rfl
  have h2 := run_usolo ki userKi true (th ++ [⟨d, ki.drop 7, some a7, false, false⟩]) b 7
    ⟨some d, a2, true, false, some a7, a6, a7 + 1⟩ ⟨some d, a2, false, b, some a7, a7 :: a6, a7 + 1⟩ ⟨userKi, u2, u3⟩ ⟨[], some d, b⟩
    (log ++ [.arrived th.length d]) (log ++ [.arrived th.length d] ++ [] ++ [] ++ [.shown d] ++ [.answered b] ++ [] ++ [] ++ []) rfl
  obtain ⟨h3, _⟩ := run_solo ki userKi true th ⟨[], some d, b⟩
    (log ++ [.arrived th.length d] ++ [] ++ [] ++ [.shown d] ++ [.answered b] ++ [] ++ [] ++ []) 4
    ⟨some d, a2, false, b, some a7, a7 :: a6, a7 + 1⟩ ⟨some d, a2, false, b, some a7, a7 :: a6, a7 + 1⟩
    ⟨d, ki.drop 7, some a7, false, false⟩ ⟨d, [], some a7, b, false⟩ rfl (by simp [solo, exec, ki])
  have s2 : ∀ (sh : Shared D) ths u v l, step ki userKi true ⟨sh, ths, ⟨[], u, v⟩, l⟩ .type = some ⟨sh, ths, ⟨userKi, u, v⟩, l⟩ := fun _ _ _ _ _ => rfl
  have s3 : ∀ (sh : Shared D) u l e, step ki userKi true ⟨sh, th ++ [⟨d, [], e, b, false⟩], u, l⟩ (.run th.length) =
      some ⟨sh, th ++ [⟨d, [], e, b, true⟩], u, l ++ [.returned th.length b]⟩ := by
    intro sh u l e
    have e : (th ++ [(⟨d, [], e, b, false⟩ : Thread D)])[th.length]? = some ⟨d, [], e, b, false⟩ := List.getElem?_concat_length
    unfold step
    simp only [e, set_last, Bool.false_eq_true, if_false]
  have r6 : List.replicate 5 (Label.run (D := D) th.length) = List.replicate 4 (.run th.length) ++ [.run th.length] := rfl
  dsimp only
  rw [run_cons, s1, Option.bind_some, List.append_assoc, run_append, h1, Option.bind_some, List.cons_append, run_cons, s2, Option.bind_some, run_append, h2,
    Option.bind_some, r6, run_append, h3, Option.bind_some, run_cons, s3, Option.bind_some]
  simp only [run, Option.map_some, List.append_nil, List.append_assoc, List.cons_append, List.nil_append]

/-- C93. The same for the view key. -/
theorem C93_served_view_key {s : Sys D} (h : Reaches watch userWatch true s) (hd : ∀ th ∈ s.threads, th.done = true) (hu : s.user.todo = []) (d : D) (b : Bool) :
    (run watch userWatch true s (.arrive d :: (List.replicate 7 (.run s.threads.length) ++ .type :: List.replicate 5 (.act b) ++
        List.replicate 4 (.run s.threads.length)))).map (·.log) =
      some (s.log ++ [.arrived s.threads.length d, .answered b, .returned s.threads.length b]) := by
  have hw : s.sh.waiting = false := by
    obtain ⟨_, _, h⟩ := kept_watch.reach h
    rcases h with ⟨_, hw, _⟩ | ⟨old, th, hth, _, hnd, _⟩
    · exact hw
    · rw [hd th (by rw [hth]; simp)] at hnd
      cases hnd
  have hany : (s.threads.any fun t => !t.done) = false := by
    rw [List.any_eq_false]
    intro t ht
    simp [hd t ht]
  obtain ⟨⟨a1, a2, a3, a4, a5, a6, a7⟩, th, ⟨u1, u2, u3⟩, log⟩ := s
  simp only at hu hw hany hd
  subst hu hw
  have s1 : step watch userWatch true ⟨⟨a1, a2, false, a4, a5, a6, a7⟩, th, ⟨[], u2, u3⟩, log⟩ (.arrive d) =
      some ⟨⟨a1, a2, false, a4, a5, a6, a7⟩, th ++ [⟨d, watch, none, false, false⟩], ⟨[], u2, u3⟩, log ++ [.arrived th.length d]⟩ := by
    simp only [step, hany, Bool.and_false, Bool.false_eq_true, if_false]
  obtain ⟨h1, _⟩ := run_solo watch userWatch true th ⟨[], u2, u3⟩ (log ++ [.arrived th.length d]) 7 ⟨a1, a2, false, a4, a5, a6, a7⟩
    ⟨a1, a2, true, false, some a7, a6, a7 + 1⟩ ⟨d, watch, none, false, false⟩ ⟨d, watch.drop 7, some a7, false, false⟩ rfl rfl
  have h2 := run_usolo watch userWatch true (th ++ [⟨d, watch.drop 7, some a7, false, false⟩]) b 5
    ⟨a1, a2, true, false, some a7, a6, a7 + 1⟩ ⟨a1, a2, false, b, some a7, a7 :: a6, a7 + 1⟩ ⟨userWatch, u2, u3⟩ ⟨[], u2, b⟩
    (log ++ [.arrived th.length d]) (log ++ [.arrived th.length d] ++ [] ++ [.answered b] ++ [] ++ [] ++ []) rfl
  obtain ⟨h3, _⟩ := run_solo watch userWatch true th ⟨[], u2, b⟩
    (log ++ [.arrived th.length d] ++ [] ++ [.answered b] ++ [] ++ [] ++ []) 3
    ⟨a1, a2, false, b, some a7, a7 :: a6, a7 + 1⟩ ⟨a1, a2, false, b, some a7, a7 :: a6, a7 + 1⟩
    ⟨d, watch.drop 7, some a7, false, false⟩ ⟨d, [], some a7, b, false⟩ rfl (by simp [solo, exec, watch])
  have s2 : ∀ (sh : Shared D) ths u v l, step watch userWatch true ⟨sh, ths, ⟨[], u, v⟩, l⟩ .type = some ⟨sh, ths, ⟨userWatch, u, v⟩, l⟩ := fun _ _ _ _ _ => rfl
  have s3 : ∀ (sh : Shared D) u l e, step watch userWatch true ⟨sh, th ++ [⟨d, [], e, b, false⟩], u, l⟩ (.run th.length) =
      some ⟨sh, th ++ [⟨d, [], e, b, true⟩], u, l ++ [.returned th.length b]⟩ := by
    intro sh u l e
    have e : (th ++ [(⟨d, [], e, b, false⟩ : Thread D)])[th.length]? = some ⟨d, [], e, b, false⟩ := List.getElem?_concat_length
    unfold step
    simp only [e, set_last, Bool.false_eq_true, if_false]
  have r6 : List.replicate 4 (Label.run (D := D) th.length) = List.replicate 3 (.run th.length) ++ [.run th.length] := rfl
  dsimp only
  rw [run_cons, s1, Option.bind_some, List.append_assoc, run_append, h1, Option.bind_some, List.cons_append, run_cons, s2, Option.bind_some, run_append, h2,
    Option.bind_some, r6, run_append, h3, Option.bind_some, run_cons, s3, Option.bind_some]
  simp only [run, Option.map_some, List.append_nil, List.append_assoc, List.cons_append, List.nil_append]

/-- C93. With a thread for every request this fails: the user is shown one transaction and, while they decide, another request arrives; their yes is given to
the other one, which was never shown. -/
theorem C93_false_threads : ∃ s : Sys Bool, Reaches tx userTx false s ∧
    s.log = [.arrived 0 true, .shown true, .arrived 1 false, .answered true, .returned 1 true] ∧ ¬ YesChosen s.log := by
  obtain ⟨s, hs, hl⟩ : ∃ s : Sys Bool, run tx userTx false start (.arrive true :: (List.replicate 8 (.run 0) ++ .type :: List.replicate 3 (.act true) ++
      .arrive false :: List.replicate 8 (.run 1) ++ List.replicate 5 (.act true) ++ List.replicate 6 (.run 1))) = some s ∧
      s.log = [.arrived 0 true, .shown true, .arrived 1 false, .answered true, .returned 1 true] := by
    refine ⟨_, rfl, rfl⟩
  refine ⟨s, ⟨_, hs⟩, hl, ?_⟩
  intro h
  rw [hl] at h
  obtain ⟨d, older, mid, h, _⟩ := h [.arrived 0 true, .shown true, .arrived 1 false, .answered true] 1 (by decide)
  have h' : ([.arrived 0 true, .shown true] : List (Ev Bool)) ++ [.arrived 1 false, .answered true] = (older ++ [.arrived 1 d] ++ mid) ++ [.shown d, .answered true] := h
  have := (List.append_inj' h' rfl).2
  simp at this

/-- C93. Even one request at a time, an answer given before the event of the request exists is lost: the request is never answered, the prompt cannot be
opened again and no other request is served. -/
theorem C93_false_lost (d : D) : ∃ s : Sys D, Reaches tx userTx true s ∧ s.log = [.arrived 0 d, .shown d, .answered true] ∧
    ∀ ls s', run tx userTx true s ls = some s' → s'.log = s.log := by
  obtain ⟨s, hs, hl, hs2⟩ : ∃ s : Sys D, run tx userTx true start (.arrive d :: (List.replicate 4 (.run 0) ++ .type :: List.replicate 8 (.act true))) = some s ∧
      s.log = [.arrived 0 d, .shown d, .answered true] ∧ s.threads = [] ++ [⟨d, core ++ tx.drop 9, none, false, false⟩] ∧ s.sh.waiting = false ∧
      s.user.todo = [] := by
    refine ⟨_, rfl, rfl, rfl, rfl, rfl⟩
  refine ⟨s, ⟨_, hs⟩, hl, fun ls s' h => (lost_run (s := s) ⟨(kept_tx.reach ⟨_, hs⟩).1, [], _, hs2.1, by simp, rfl, hs2.2.1, .inl hs2.2.2, 0, by decide, rfl, ?_⟩ h).2⟩
  intro h
  omega

/-- C93. A request for the view key that arrives while a prompt is open is refused at once, and the open prompt is left as it is. -/
theorem C93_view_key_busy (s : Sys D) (hw : s.sh.waiting = true) (d : D) :
    (run watch userWatch false s [.arrive d, .run s.threads.length, .run s.threads.length]).map (fun t => (t.log, t.sh, t.user)) =
      some (s.log ++ [.arrived s.threads.length d, .returned s.threads.length false], s.sh, s.user) := by
  obtain ⟨⟨a1, a2, a3, a4, a5, a6, a7⟩, th, u, log⟩ := s
  dsimp only at hw
  subst hw
  simp [run, step, watch, exec]

/-! ## Examples -/

/-- A run of the default server: the first request is refused, the second granted. -/
example : (run tx userTx true start (.arrive 7 :: (List.replicate 8 (.run 0) ++ .type :: List.replicate 8 (.act false) ++ List.replicate 6 (.run 0) ++
    .arrive 9 :: List.replicate 5 (.run 1) ++ .type :: List.replicate 5 (.act true) ++ List.replicate 3 (.run 1) ++ List.replicate 3 (.act true) ++
    List.replicate 6 (.run 1)))).map (·.log) = some [.arrived 0 7, .shown 7, .answered false, .returned 0 false,
      .arrived 1 9, .shown 9, .answered true, .returned 1 true] := by decide +kernel

/-- A second request has to wait. -/
example : (run tx userTx true start [.arrive 7, .arrive 8]).isNone = true := by decide +kernel

/-- A command interrupted and typed again. -/
example : (run ki userKi true start (.arrive 7 :: (List.replicate 7 (.run 0) ++ [.type, .act true, .act true, .act true, .giveUp, .type] ++
    List.replicate 7 (.act true) ++ List.replicate 5 (.run 0)))).map (·.log) =
    some [.arrived 0 7, .shown 7, .gaveUp, .shown 7, .answered true, .returned 0 true] := by decide +kernel

/-- Hypotheses of `C93_served`. -/
example : Reaches tx userTx true (start : Sys Nat) ∧ (∀ th ∈ (start : Sys Nat).threads, th.done = true) ∧ (start : Sys Nat).user.todo = [] :=
  ⟨⟨[], rfl⟩, fun _ h => (by cases h), rfl⟩

/-- A prompt that is open. -/
example : ((run watch userWatch false (start (D := Nat)) (.arrive 7 :: List.replicate 5 (.run 0))).map (·.sh.waiting)) = some true := rfl

end Verif.Prompt

import Verif.Lemmas.WalletProc
import Verif.Lemmas.HdPath

/-! C95: the wallet process the agent runs: its command line, its passwords, its output. -/

namespace Verif.WalletProc
open Verif Verif.WalletProcSpec

/-- C95, command line. Whatever the daemon address and the wallet file are, the shell runs the wallet program with exactly these arguments. Missing: the
directory of the programs is not quoted. -/
theorem C95_command_partial (s : Setup) (hbin : ∀ c ∈ s.bin, ordinary c = true ∧ c ≠ '=') :
    Runs (command s) (rpcCmd s.bin)
      (["--daemon-address".toList, s.rpcAddr, "--wallet-file".toList, s.walletFile, "--prompt-for-password".toList, "--rpc-login=trezor".toList,
        "--rpc-bind-port".toList, HdSpec.dec s.port] ++ if s.testnetArg || s.testnetNet then ["--testnet".toList] else []) := by
  have hcmd : ∀ c ∈ rpcCmd s.bin, ordinary c = true ∧ c ≠ '=' := by
    have hname : ∀ c ∈ '/' :: "monero-wallet-rpc".toList, ordinary c = true ∧ c ≠ '=' := by decide +kernel
    intro c hc
    unfold rpcCmd at hc
    dsimp only at hc
    split_ifs at hc
    · exact hname c (List.mem_cons_of_mem _ hc)
    · exact (List.mem_append.mp hc).elim (hbin c) fun h => hname c (List.mem_cons_of_mem _ h)
    · exact (List.mem_append.mp hc).elim (hbin c) (hname c)
  have hne : rpcCmd s.bin ≠ [] := by
    unfold rpcCmd
    dsimp only
    split_ifs <;> simp
  have hdig : ∀ c ∈ HdSpec.dec s.port, ordinary c = true := by
    intro c hc
    have h := (Hd.dec_digits s.port).1 c hc
    refine safe_ordinary ?_
    rw [safe, Char.isAlphanum, Char.isDigit]
    have h1 : c.val ≥ 48 := h.1
    have h2 : c.val ≤ 57 := h.2
    simp [h1, h2]
  have hlit : ∀ (w t : List Char), w ≠ [] → (∀ c ∈ w, ordinary c = true) → words .none none (w ++ ' ' :: t) = (words .none none t).map (w :: ·) := by
    intro w t hw ho
    rw [words_ordinary ho none _ hw, words_blank]
    rfl
  have hq : ∀ u t : List Char, words .none none (quote u ++ ' ' :: t) = (words .none none t).map (u :: ·) := by
    intro u t
    rw [words_quote_none, words_blank]
    rfl
  have hlast : ∀ w : List Char, w ≠ [] → (∀ c ∈ w, ordinary c = true) → words .none none w = some [w] := by
    intro w hw ho
    have := words_ordinary ho none [] hw
    rw [List.append_nil] at this
    rw [this]; rfl
  refine ⟨fun h => (hcmd _ h).2 rfl, ?_⟩
  have l1 := fun t => hlit "--daemon-address".toList t (by decide) (by decide +kernel)
  have l2 := fun t => hlit "--wallet-file".toList t (by decide) (by decide +kernel)
  have l3 := fun t => hlit "--prompt-for-password".toList t (by decide) (by decide +kernel)
  have l4 := fun t => hlit "--rpc-login=trezor".toList t (by decide) (by decide +kernel)
  have l5 := fun t => hlit "--rpc-bind-port".toList t (by decide) (by decide +kernel)
  have l6 := hlast "--testnet".toList (by decide) (by decide +kernel)
  have e1 : "--daemon-address ".toList = "--daemon-address".toList ++ [' '] := by decide +kernel
  have e2 : "--wallet-file ".toList = "--wallet-file".toList ++ [' '] := by decide +kernel
  have e5 : "--rpc-bind-port ".toList = "--rpc-bind-port".toList ++ [' '] := by decide +kernel
  rw [command, args, escapeShell, escapeShell, e1, e2, e5]
  generalize "--daemon-address".toList = a1 at *
  generalize "--wallet-file".toList = a2 at *
  generalize "--prompt-for-password".toList = a3 at *
  generalize "--rpc-login=trezor".toList = a4 at *
  generalize "--rpc-bind-port".toList = a5 at *
  generalize "--testnet".toList = a6 at *
  rw [hlit _ _ hne fun c hc => (hcmd c hc).1]
  split_ifs
  · simp only [joinSpace, List.cons_append, List.nil_append, List.append_assoc]
    rw [l1, hq, l2, hq, l3, l4, l5, hlit _ _ (Hd.dec_digits s.port).2 hdig, l6]
    rfl
  · simp only [joinSpace, List.cons_append, List.nil_append, List.append_assoc]
    rw [l1, hq, l2, hq, l3, l4, l5, hlast _ (Hd.dec_digits s.port).2 hdig]
    rfl

/-- A wallet file whose name would otherwise end the command and start another. -/
def nasty : Setup := ⟨"/opt/monero".toList, "127.0.0.1:18081".toList, "it's; $(rm -rf ~)".toList, 48084, false, true⟩

example : ∀ c ∈ nasty.bin, ordinary c = true ∧ c ≠ '=' := by decide +kernel
example : command nasty = ("/opt/monero/monero-wallet-rpc --daemon-address 127.0.0.1:18081 --wallet-file 'it'\"'\"'s; $(rm -rf ~)' " ++
    "--prompt-for-password --rpc-login=trezor --rpc-bind-port 48084 --testnet").toList := by decide +kernel

/-- C95, command line, false for the directory of the programs: with a space in it, another program is run. -/
theorem C95_false_directory : ∃ (s : Setup) (as : List (List Char)), rpcCmd s.bin = "/opt/my monero/monero-wallet-rpc".toList ∧
    Runs (command s) "/opt/my".toList as :=
  ⟨⟨"/opt/my monero".toList, "a".toList, "w".toList, 1, false, false⟩,
   ["monero/monero-wallet-rpc".toList, "--daemon-address".toList, "a".toList, "--wallet-file".toList, "w".toList, "--prompt-for-password".toList,
    "--rpc-login=trezor".toList, "--rpc-bind-port".toList, "1".toList], by decide +kernel, by decide +kernel, by decide +kernel⟩

/-- C95, passwords. The wallet asks for the password of the file and then for that of its clients, and gets both, with anything else it is told being
`quit`; the second is sixteen capital letters and digits. Missing: passwords with a line end. -/
theorem C95_passwords_partial {password : List Char} (hp : '\n' ∉ password) (draws : Nat → Fin 36) {rounds : List Round} (hr : rounds ≠ []) :
    let second := genSimplePasswd 16 draws
    Answers (feeds password second false rounds) password second ∧
      (∀ l ∈ (lines [] (feeds password second false rounds)).drop 2, l = "quit".toList ∨ l = []) ∧
      second.length = 16 ∧ ∀ c ∈ second, c.isUpper ∨ c.isDigit := by
  intro second
  have halpha : ∀ c ∈ second, c ∈ alphabet := by
    intro c hc
    obtain ⟨i, -, rfl⟩ := List.mem_map.mp hc
    have hl : ((draws i : Fin 36) : Nat) < alphabet.length := by
      have : alphabet.length = 36 := by decide +kernel
      rw [this]; exact (draws i).2
    have e : alphabet.getD (draws i) 'A' = alphabet[(draws i : Nat)] := by
      rw [List.getD_eq_getElem?_getD, List.getElem?_eq_getElem hl]; rfl
    rw [e]
    exact List.getElem_mem hl
  have hset : ∀ c ∈ alphabet, (c.isUpper ∨ c.isDigit) ∧ c ≠ '\n' := by decide +kernel
  have hs : '\n' ∉ second := fun h => (hset _ (halpha _ h)).2 rfl
  have hquit : ∀ rs, ∀ l ∈ lines [] (feeds password second true rs), l = "quit".toList ∨ l = [] := by
    intro rs
    induction rs with
    | nil => intro l hl; simp [feeds, lines] at hl
    | cons r rs ih =>
      intro l hl
      rw [feeds, if_pos rfl, List.nil_append, lines_append] at hl
      rcases List.mem_append.mp hl with hl | hl
      · split at hl
        · have e : lines [] "quit\n\n".toList = ["quit".toList, []] := by decide +kernel
          rw [e] at hl
          simpa using hl
        · simp [lines] at hl
      · have e : rest [] (if (r.terminating && r.running) = true then "quit\n\n".toList else []) = [] := by
          split <;> decide +kernel
        rw [e] at hl
        split at hl
        · exact ih l hl
        · simp [lines] at hl
  cases rounds with
  | nil => exact absurd rfl hr
  | cons r rs =>
    have key : lines [] (feeds password second false (r :: rs)) = password :: second ::
        lines [] (feeds password second true (r :: rs)) := by
      rw [feeds, feeds, if_neg (by simp), if_pos rfl, List.nil_append]
      have e : password ++ '\n' :: second ++ ['\n'] = password ++ ('\n' :: (second ++ ['\n'])) := by simp
      rw [e, List.append_assoc, List.append_assoc, lines_append, ((splitNl_lines [] password).1 hp).1, ((splitNl_lines [] password).1 hp).2.1]
      simp only [List.nil_append, List.cons_append, lines, if_true, List.append_assoc]
      rw [lines_append, ((splitNl_lines [] second).1 hs).1, ((splitNl_lines [] second).1 hs).2.1]
      simp [lines]
    refine ⟨⟨_, key⟩, ?_, by simp [second, genSimplePasswd], fun c hc => (hset c (halpha c hc)).1⟩
    rw [key]
    exact hquit _

example : feeds "pass word".toList (genSimplePasswd 16 fun i => Fin.ofNat 36 (7 * i)) false [⟨true, false⟩, ⟨true, false⟩, ⟨true, true⟩, ⟨false, true⟩] =
    "pass word\nAHOV29GNU18FMT07\nquit\n\n".toList := by decide +kernel

/-- C95, passwords, false for a password with a line end: the wallet takes the second half of it for the password of its clients, not the one the agent
uses. -/
theorem C95_false_password (second : List Char) : ∃ (password a b : List Char) (rounds : List Round),
    password = a ++ '\n' :: b ∧ Answers (feeds password second false rounds) a b := by
  refine ⟨"ab\ncd".toList, "ab".toList, "cd".toList, [⟨false, false⟩], by decide +kernel, ?_⟩
  have e : feeds "ab\ncd".toList second false [⟨false, false⟩] = "ab\ncd\n".toList ++ (second ++ ['\n']) := by
    simp [feeds]
  refine ⟨lines [] (second ++ ['\n']), ?_⟩
  rw [e, lines_append]
  have h1 : lines [] "ab\ncd\n".toList = ["ab".toList, "cd".toList] := by decide +kernel
  have h2 : rest [] "ab\ncd\n".toList = [] := by decide +kernel
  rw [h1, h2]
  rfl

/-- C95, output. However the two outputs of the wallet are mixed and cut into reads, as long as no line comes in more than two: each complete line is
recorded once, those of the standard output in their order; and the wallet is taken as ready exactly if a line announced it. Missing: reads that cut
lines more finely, carriage returns, an unfinished last line, and which of the two outputs a line is recorded for. -/
theorem C95_output_partial {reads : List Read} (hcr : ∀ r ∈ reads, '\r' ∉ r.2) (hcalm : ∀ b, Calm (chunks b reads)) :
    let h := listen {} reads
    (h.out ++ h.err).Perm (lines [] (text false reads) ++ lines [] (text true reads)) ∧
      (lines [] (text false reads)).Sublist h.out ∧
      (h.ready = true ↔ ∃ l, (l ∈ lines [] (text false reads) ∨ l ∈ lines [] (text true reads)) ∧ Announces l) := by
  intro h
  obtain ⟨p1, p2, -, p4, -⟩ := listen_all reads {} hcr (fun b => by cases b <;> exact calm_from (hcalm _))
  refine ⟨by simpa [cur] using p1, by simpa [cur] using p2, ?_⟩
  have e : h.ready = _ := p4
  rw [e]
  simp only [Bool.false_or, Bool.or_eq_true, List.any_eq_true, saysStarting_iff, cur]
  constructor
  · rintro (⟨l, h1, h2⟩ | ⟨l, h1, h2⟩)
    · exact ⟨l, .inl h1, h2⟩
    · exact ⟨l, .inr h1, h2⟩
  · rintro ⟨l, h1 | h1, h2⟩
    · exact .inl ⟨l, h1, h2⟩
    · exact .inr ⟨l, h1, h2⟩

/-- C95, output of a wallet that writes to its standard output only: the record is its complete lines. -/
theorem C95_standard_output_partial {reads : List Read} (hcr : ∀ r ∈ reads, '\r' ∉ r.2) (hstd : ∀ r ∈ reads, r.1 = false)
    (hcalm : Calm (chunks false reads)) : (listen {} reads).out = lines [] (text false reads) ∧ (listen {} reads).err = [] := by
  have hnil : chunks true reads = [] := by
    rw [chunks, List.map_eq_nil_iff, List.filter_eq_nil_iff]
    intro r hr
    simp [hstd r hr]
  obtain ⟨-, -, p3, -, -⟩ := listen_all reads {} hcr (fun b => by
    cases b
    · exact calm_from hcalm
    · rw [hnil]; trivial)
  simpa [cur] using p3 hstd

/-- Two outputs mixed, each line in one or two reads. -/
def mixed : List Read :=
  [(false, "loading\nStart".toList), (true, "warn".toList), (false, "ing wallet RPC\n".toList), (true, "ing\n".toList), (false, "x".toList)]

example : (∀ r ∈ mixed, '\r' ∉ r.2) ∧ text false mixed = "loading\nStarting wallet RPC\nx".toList ∧ text true mixed = "warning\n".toList ∧
    listen {} mixed = { out := ["loading".toList, "Starting wallet RPC".toList, "warning".toList], err := [], outCur := "x".toList, ready := true } := by
  decide +kernel

/-- Every line in one read is calm. -/
theorem calm_whole {cs : List (List Char)} (h : ∀ x ∈ cs, '\n' ∈ x) : Calm cs :=
  fun _ x _ e hx => absurd (h x (by rw [e]; simp)) hx

example : ∀ b, Calm (chunks b mixed) := by
  intro b pre x post e hx
  cases b
  · have ec : chunks false mixed = ["loading\nStart".toList, "ing wallet RPC\n".toList, "x".toList] := by decide +kernel
    rw [ec] at e
    rcases pre with _ | ⟨p, _ | ⟨q, _ | ⟨r, pre⟩⟩⟩
    · exact .inl rfl
    · simp only [List.cons_append, List.nil_append, List.cons.injEq] at e
      rw [← e.2.1] at hx
      exact absurd (by decide +kernel) hx
    · simp only [List.cons_append, List.nil_append, List.cons.injEq] at e
      rw [← e.1, ← e.2.1]
      exact .inr ⟨"loading\nStarting wallet RPC".toList, by decide +kernel⟩
    · simp at e
  · have ec : chunks true mixed = ["warn".toList, "ing\n".toList] := by decide +kernel
    rw [ec] at e
    rcases pre with _ | ⟨p, _ | ⟨q, pre⟩⟩
    · exact .inl rfl
    · simp only [List.cons_append, List.nil_append, List.cons.injEq] at e
      rw [← e.2.1] at hx
      exact absurd (by decide +kernel) hx
    · simp at e

/-- C95, output, false when a line comes in three reads: the line that announces the wallet is mutilated and the wallet never taken as ready. -/
theorem C95_false_output : ∃ reads : List Read, lines [] (text false reads) = ["starting wallet".toList] ∧
    (listen {} reads).out = ["ing wallet".toList] ∧ (listen {} reads).ready = false :=
  ⟨[(false, "start".toList), (false, "ing wall".toList), (false, "et\n".toList)], by decide +kernel⟩

/-- C95, output, false for the error output: its lines are recorded as standard output, when they come one in a read. -/
theorem C95_false_error_output (ls : List (List Char)) (h : ∀ l ∈ ls, '\n' ∉ l ∧ '\r' ∉ l) :
    (listen {} (ls.map fun l => (true, l ++ ['\n']))).out = ls ∧ (listen {} (ls.map fun l => (true, l ++ ['\n']))).err = [] := by
  have key : ∀ hd : Heard, hd.errCur = [] → (listen hd (ls.map fun l => (true, l ++ ['\n']))).out = hd.out ++ ls ∧
      (listen hd (ls.map fun l => (true, l ++ ['\n']))).err = hd.err := by
    induction ls with
    | nil => intro hd _; simp [listen]
    | cons l ls ih =>
      intro hd hc
      obtain ⟨h1, h2⟩ := h l (List.mem_cons_self ..)
      have e := addOutput_eq (h := hd) (x := l ++ ['\n']) (b := true) (by simpa using h2) (.inl (by simp))
      have el : lines (cur hd true) (l ++ ['\n']) = [l] := by
        have : cur hd true = [] := hc
        rw [this, lines_append, ((splitNl_lines [] l).1 h1).1, ((splitNl_lines [] l).1 h1).2.1]
        simp [lines]
      have er : rest (cur hd true) (l ++ ['\n']) = [] := by
        rw [rest_append]; rfl
      rw [el, er] at e
      rw [List.map_cons]
      have hl : ∀ rs, listen hd ((true, l ++ ['\n']) :: rs) = listen (addOutput hd (l ++ ['\n']) true) rs := fun _ => rfl
      rw [hl]
      obtain ⟨i1, i2⟩ := ih (fun x hx => h x (List.mem_cons_of_mem _ hx)) (addOutput hd (l ++ ['\n']) true) (by rw [e]; rfl)
      rw [i1, i2, e]
      simp [setCur]
  simpa using key {} rfl

/-- C95, output, false for a last line without its end, which is what a program that fails may leave: it is not recorded. -/
theorem C95_false_last_line (l : List Char) (h : '\n' ∉ l) (hr : '\r' ∉ l) : (listen {} [(false, l), (true, [])]).out = [] := by
  have e := addOutput_eq (h := {}) (x := l) (b := false) hr (.inr rfl)
  have el : lines (cur ({} : Heard) false) l = [] := ((splitNl_lines _ l).1 h).1
  rw [el] at e
  have hl : listen {} [(false, l), (true, [])] = addOutput (addOutput {} l false) [] true := rfl
  have e2 := addOutput_eq (h := addOutput {} l false) (x := []) (b := true) (by simp) (.inr (by rw [e]; rfl))
  rw [hl, e2, e]
  rfl

end Verif.WalletProc

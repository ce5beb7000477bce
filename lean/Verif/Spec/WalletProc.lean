/-! What the wallet process should get and what it says, without the agent's functions. -/

namespace Verif.WalletProcSpec

/-! ## Words of a shell command -/

inductive Quoting
  | none | single | double
deriving DecidableEq

/-- Characters a shell takes as they are outside of quotes, anywhere in a word. -/
def ordinary (c : Char) : Bool := !("|&;<>()$`\\\"' \t\n*?[]#~!{}^".toList.contains c)

/-- The words of a simple command, as POSIX shells split it: blanks separate words, text in single quotes is taken as it is, text in double quotes too
as long as it has none of `$`, `` ` ``, `\`. `none` if the text is anything else: an expansion, an operator, a second line, an open quote. The second
argument is the word begun. -/
def words : Quoting → Option (List Char) → List Char → Option (List (List Char))
  | .none, w, [] => some w.toList
  | _, _, [] => none
  | .none, w, c :: t =>
    if c = ' ' ∨ c = '\t' then (words .none none t).map (w.toList ++ ·)
    else if c = '\'' then words .single (some (w.getD [])) t
    else if c = '"' then words .double (some (w.getD [])) t
    else if ordinary c then words .none (some (w.getD [] ++ [c])) t
    else none
  | .single, w, c :: t => if c = '\'' then words .none w t else words .single (some (w.getD [] ++ [c])) t
  | .double, w, c :: t =>
    if c = '"' then words .none w t
    else if c = '$' ∨ c = '`' ∨ c = '\\' then none
    else words .double (some (w.getD [] ++ [c])) t

/-- The program run and its arguments. A first word with `=` would be an assignment. -/
def Runs (cmd program : List Char) (args : List (List Char)) : Prop := '=' ∉ program ∧ words .none none cmd = some (program :: args)

example : words .none none "ls  -l 'my file' a\"b c\"''".toList = some ["ls".toList, "-l".toList, "my file".toList, "ab c".toList] := by decide +kernel
example : words .none none "ls; rm x".toList = none ∧ words .none none "ls $HOME".toList = none ∧ words .none none "'".toList = none := by decide +kernel

/-! ## Lines -/

/-- The complete lines of a text, when `begun` precedes it. -/
def lines (begun : List Char) : List Char → List (List Char)
  | [] => []
  | c :: t => if c = '\n' then begun :: lines [] t else lines (begun ++ [c]) t

/-- The texts read from one of the two outputs, in turn. -/
def chunks (err : Bool) (reads : List (Bool × List Char)) : List (List Char) := (reads.filter (·.1 = err)).map (·.2)

/-- All of an output. -/
def text (err : Bool) (reads : List (Bool × List Char)) : List Char := (chunks err reads).flatten

/-- No line comes in more than two reads, the second of them with its end: a read without a line end comes only when no line is begun. -/
def Calm (cs : List (List Char)) : Prop :=
  ∀ pre x post, cs = pre ++ x :: post → '\n' ∉ x → pre.flatten = [] ∨ ∃ s, pre.flatten = s ++ ['\n']

/-- The line announces that the wallet starts, in letters of either case. -/
def Announces (line : List Char) : Prop := ∃ a b : List Char, line.map Char.toLower = a ++ "starting wallet".toList ++ b

/-- The lines typed to a program that asks twice. -/
def Answers (fed first second : List Char) : Prop := ∃ more, lines [] fed = first :: second :: more

end Verif.WalletProcSpec

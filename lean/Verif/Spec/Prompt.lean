import Verif.Model.Prompt

/-! What the user expects of a prompt, in terms of what can be seen. -/

namespace Verif.Prompt

variable {D : Type}

/-- What happened up to the answer `b` to request `i`: it arrived, asking for `d`; since then nothing but `d` was shown and no other choice was made; last,
`d` was shown and the user chose `b`. -/
def Chosen (before : List (Ev D)) (i : Nat) (b : Bool) : Prop :=
  ∃ d older mid, before = older ++ [.arrived i d] ++ mid ++ [.shown d, .answered b] ∧ ∀ e ∈ mid, e = .shown d ∨ e = .gaveUp

/-- The same for the command that shows nothing. -/
def ChosenBlind (before : List (Ev D)) (i : Nat) (b : Bool) : Prop :=
  ∃ d older mid, before = older ++ [.arrived i d] ++ mid ++ [.answered b] ∧ ∀ e ∈ mid, e = .gaveUp

/-- Every answer `yes` was chosen. -/
def YesChosen (log : List (Ev D)) : Prop := ∀ before i, before ++ [.returned i true] <+: log → Chosen before i true

/-- Every answer was chosen. -/
def AllChosen (log : List (Ev D)) : Prop := ∀ before i b, before ++ [.returned i b] <+: log → Chosen before i b

/-- Every answer `yes` was chosen (command without text). -/
def YesChosenBlind (log : List (Ev D)) : Prop := ∀ before i, before ++ [.returned i true] <+: log → ChosenBlind before i true

/-- States the device can get into. -/
def Reaches (rp : List Instr) (up : List UInstr) (seq : Bool) (s : Sys D) : Prop := ∃ ls, run rp up seq start ls = some s

end Verif.Prompt

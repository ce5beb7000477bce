import Verif.Model.Command
import Verif.Spec.Amount

/-! The documented form of the commands (misc.py 215, 245, 261, 281):
`transfer [index=<N1>[,<N2>,...]] [<priority>] [<ring_size>] <address> <amount> ... [<payment_id>]`, and the like. -/

namespace Verif.Cmd
open Verif

/-- Words, separated by a character. -/
def sepBy (c : Char) : List Text → Text
  | [] => []
  | [w] => w
  | w :: ws => w ++ c :: sepBy c ws

/-- A decimal number. -/
def Number (t : Text) : Prop := t ≠ [] ∧ ∀ c ∈ t, Amount.Digit c

/-- A letter or a digit. -/
def Alnum (c : Char) : Prop := Amount.Digit c ∨ (65 ≤ c.toNat ∧ c.toNat ≤ 90) ∨ (97 ≤ c.toNat ∧ c.toNat ≤ 122)

/-- What addresses look like: letters and digits, not only digits, and longer than the names of the priorities. -/
def AddressLike (t : Text) : Prop := 12 ≤ t.length ∧ (∀ c ∈ t, Alnum c) ∧ ∃ c ∈ t, ¬ Amount.Digit c

/-- The names of the priorities. -/
def priorityName : Nat → Text
  | 0 => "default".toList
  | 1 => "unimportant".toList
  | 2 => "normal".toList
  | 3 => "elevated".toList
  | _ => "priority".toList

/-- The optional beginning of a command. -/
structure Options where
  /-- empty: not given -/
  indices : List Text
  priority : Option Nat
  ring : Option Text

/-- The options as words. -/
def Options.words (o : Options) : List Text :=
  (if o.indices = [] then [] else ["index=".toList ++ sepBy ',' o.indices]) ++ (o.priority.map priorityName).toList ++ o.ring.toList

/-- Numbers are numbers. -/
structure Options.Ok (o : Options) : Prop where
  indices : ∀ t ∈ o.indices, Number t
  priority : ∀ n, o.priority = some n → n < 5
  ring : ∀ t, o.ring = some t → Number t

/-- Bytes in hex. -/
def hexText (b : Bytes) : Text := b.flatMap fun x => ["0123456789abcdef".toList.getD (x.toNat / 16) '0', "0123456789abcdef".toList.getD (x.toNat % 16) '0']

/-- Payment ids have 8 or 32 bytes. -/
def PidOk (pid : Option Bytes) : Prop := ∀ b, pid = some b → b.length = 8 ∨ b.length = 32

/-- The line of a transfer to addresses, with the texts of the amounts. -/
def transferLine (o : Options) (dests : List (Text × Text)) (pid : Option Bytes) : Text :=
  sepBy ' ' (o.words ++ dests.flatMap (fun d => [d.1, d.2]) ++ (pid.map hexText).toList)

/-- The line of `sweep_all`. -/
def sweepLine (o : Options) (address : Text) (pid : Option Bytes) : Text := sepBy ' ' (o.words ++ address :: (pid.map hexText).toList)

/-- The line of `sweep_below`. -/
def belowLine (amount : Text) (o : Options) (address : Text) (pid : Option Bytes) : Text :=
  sepBy ' ' (amount :: (o.words ++ address :: (pid.map hexText).toList))

/-- The bytes of an ASCII text. -/
def ascii (t : Text) : Bytes := t.map fun c => UInt8.ofNat c.toNat

end Verif.Cmd

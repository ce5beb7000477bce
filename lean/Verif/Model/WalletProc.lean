import Verif.Spec.Hd

/-! The wallet process the agent starts: monero_poc/agent.py 950-1100 (`wallet_rpc_main`), monero_poc/utils/misc.py 120-129, 349-365.

Simplifications: text is a list of characters; the decoding of the bytes read (1033) is left out, and so are the log lines the agent prints about a line
(1018-1025), threads, waiting and signals. `shlex.quote` and `shellescape.quote` (the same function) belong to libraries and are modelled from their
documentation. -/

namespace Verif.WalletProc
open Verif

/-! ## The command line -/

/-- The characters `quote` leaves alone: letters, digits and `_@%+=:,.` with slash and dash. -/
def safe (c : Char) : Bool := c.isAlphanum || "_@%+=:,./-".toList.contains c

/-- `shellescape.quote`: nothing becomes `''`; safe text stays; other text is put in single quotes, each single quote of it in double quotes. -/
def quote (t : List Char) : List Char :=
  if t = [] then ['\'', '\''] else
  if t.all safe then t else
  '\'' :: t.flatMap (fun c => if c = '\'' then ['\'', '"', '\'', '"', '\''] else [c]) ++ ['\'']

/-- misc.py 349-365, for a text: 356 raises, 361 returns. -/
def escapeShell (t : List Char) : List Char := quote t

/-- 955: `os.path.join(monero_bin, "monero-wallet-rpc")`. -/
def rpcCmd (bin : List Char) : List Char :=
  let name := "monero-wallet-rpc".toList
  if bin = [] then name else
  if bin.getLast? = some '/' then bin ++ name else bin ++ '/' :: name

/-- Parts of the agent and its arguments. -/
structure Setup where
  bin : List Char
  rpcAddr : List Char
  walletFile : List Char
  port : Nat
  testnetArg : Bool
  testnetNet : Bool

/-- `" ".join(args)` -/
def joinSpace : List (List Char) → List Char
  | [] => []
  | [w] => w
  | w :: ws => w ++ ' ' :: joinSpace ws

/-- 963-969, 971-972 -/
def args (s : Setup) : List (List Char) :=
  ["--daemon-address ".toList ++ escapeShell s.rpcAddr,
   "--wallet-file ".toList ++ escapeShell s.walletFile,
   "--prompt-for-password".toList,
   "--rpc-login=trezor".toList,
   "--rpc-bind-port ".toList ++ HdSpec.dec s.port] ++
  if s.testnetArg || s.testnetNet then ["--testnet".toList] else []

/-- 979 -/
def command (s : Setup) : List Char := rpcCmd s.bin ++ ' ' :: joinSpace (args s)

/-! ## What it is fed -/

/-- `string.ascii_uppercase + string.digits` -/
def alphabet : List Char := "ABCDEFGHIJKLMNOPQRSTUVWXYZ0123456789".toList

/-- misc.py 120-129: one `random.choice` for each character. -/
def genSimplePasswd (n : Nat) (draws : Nat → Fin 36) : List Char := (List.range n).map fun i => alphabet.getD (draws i) 'A'

/-- One round of the loop 1060-1081: does the process still run when it is polled (1074), and is the agent terminating. -/
structure Round where
  running : Bool
  terminating : Bool

/-- 1060-1081, the text fed. `set` is `passwd_set`. -/
def feeds (password rpcPasswd : List Char) : Bool → List Round → List Char
  | _, [] => []
  | set, r :: rs =>
    (if set then [] else password ++ '\n' :: rpcPasswd ++ ['\n']) ++
    (if r.terminating && r.running then "quit\n\n".toList else []) ++
    (if r.running then feeds password rpcPasswd true rs else [])

/-! ## What it says -/

/-- `x.split("\n")` -/
def splitNl : List Char → List (List Char)
  | [] => [[]]
  | c :: t => if c = '\n' then [] :: splitNl t else
    match splitNl t with
    | [] => [[c]]
    | l :: ls => (c :: l) :: ls

/-- `v.strip("\r")` -/
def stripCr (v : List Char) : List Char := ((v.dropWhile (· == '\r')).reverse.dropWhile (· == '\r')).reverse

/-- 1034-1040 for one buffer: `lines = [""]`, `lines[-1] += clines[0]`, `lines.extend(clines[1:])`. -/
def chunkLines (x : List Char) : List (List Char) := (splitNl x).map stripCr

/-- 1027-1028: does the line say that the wallet is starting. -/
def saysStarting (line : List Char) : Bool := decide ("starting wallet".toList <:+: line.map Char.toLower)

/-- What the agent has of the process: 994-995 and `rpc_ready`. -/
structure Heard where
  out : List (List Char) := []
  err : List (List Char) := []
  outCur : List Char := []
  errCur : List Char := []
  ready : Bool := false
deriving DecidableEq

/-- 1015-1030 -/
def processLine (h : Heard) (line : List Char) (isErr : Bool) : Heard :=
  let h := if isErr then { h with err := h.err ++ [line] } else { h with out := h.out ++ [line] }
  if saysStarting line then { h with ready := true } else h

/-- `dst_cur[0]` -/
def cur (h : Heard) (isErr : Bool) : List Char := if isErr then h.errCur else h.outCur

/-- `dst_cur[0] = t` -/
def setCur (h : Heard) (isErr : Bool) (t : List Char) : Heard := if isErr then { h with errCur := t } else { h with outCur := t }

/-- 1032-1051 with one buffer, as it is always called. 1045 does not pass `is_err` on. 1051 replaces what 1042 has put together. -/
def addOutput (h : Heard) (x : List Char) (isErr : Bool) : Heard :=
  let lines := chunkLines x
  let h := setCur h isErr (cur h isErr ++ lines.headD [])
  let h := if lines.length > 1 then setCur (processLine h (cur h isErr) false) isErr [] else h
  let h := (lines.tail.dropLast).foldl (fun h line => processLine h line isErr) h
  setCur h isErr (lines.getLastD [])

/-- A read from the process: from its error output or not, and the text. -/
abbrev Read := Bool × List Char

/-- 1068-1072, 1086-1087: everything read, in turn. A read of nothing changes nothing in the loop (1069, 1071); after the end (1086) it is added. -/
def listen (h : Heard) (reads : List Read) : Heard := reads.foldl (fun h r => addOutput h r.2 r.1) h

end Verif.WalletProc

import Verif.Model.Server
set_option autoImplicit false
/- Model of tools/send_egts.py, the script that plays a file of packets to a receiver and prints the answers. The file is taken to be
ASCII. The receiver is `handleConn` of Model/Server at the other end of a TCP connection: what it writes arrives in order, cut
anywhere. Not modelled: arguments, failure to open the file or to connect, `send` that takes less than the whole packet, what
the script does after the receiver has closed the connection. -/
namespace Egts.SendEgts
variable [P : Platform]

/-- text mode of `open` (send_egts.py:22): `\r\n` and `\r` are read as `\n`. -/
def universal : Bytes → Bytes
  | [] => []
  | 13 :: 10 :: s => 10 :: universal s
  | 13 :: s => 10 :: universal s
  | c :: s => c :: universal s

/-- `f.readlines()` (line 23): the lines with their terminators; the last one may have none. `cur` is the line read so far. -/
def readlines (cur : Bytes) : Bytes → List Bytes
  | [] => if cur = [] then [] else [cur]
  | c :: s => if c = 10 then (cur ++ [c]) :: readlines [] s else readlines (cur ++ [c]) s

/-- white space skipped by `bytes.fromhex` (tools/send_egts.py:22-32) -/
def isSpace (c : UInt8) : Bool := c = 32 || (9 ≤ c && c ≤ 13)

/-- value of a hexadecimal digit (tools/send_egts.py:22-32) -/
def hexDigit (c : UInt8) : Option Nat :=
  if 48 ≤ c && c ≤ 57 then some (c.toNat - 48)
  else if 97 ≤ c && c ≤ 102 then some (c.toNat - 87)
  else if 65 ≤ c && c ≤ 70 then some (c.toNat - 55)
  else none

/-- `bytes.fromhex` (line 25), CPython 3.7 and later: white space is skipped before each pair of digits; `none`: ValueError. -/
def fromHex : Bytes → Option Bytes
  | [] => some []
  | [c] => if isSpace c then some [] else none
  | a :: b :: s =>
    if isSpace a then fromHex (b :: s)
    else match hexDigit a, hexDigit b with
      | some x, some y => (fromHex s).map (UInt8.ofNat (16 * x + y) :: ·)
      | _, _ => none

/-- how the script ends (tools/send_egts.py:22-32) -/
inductive SendEnd where
  | done           -- the loop is over, the connection is closed (line 32)
  | valueError     -- exception of `bytes.fromhex`
  | hangs          -- blocked in `recv`, the receiver waits for bytes
  | disconnected   -- `recv` finds the connection closed
deriving DecidableEq

/-- what the script has sent, what it has printed as received, and how it ended (tools/send_egts.py:22-32) -/
structure SendRun where
  sent : List Bytes
  got : List Bytes
  how : SendEnd

/-- everything the receiver has written after it got the bytes `s` (tools/send_egts.py:22-32) -/
def answered (env : Env) (s : Bytes) : Bytes :=
  ((handleConn env true .silent [s]).1.filterMap fun
    | .write b => some b
    | _ => none).flatten

/-- the loop of lines 23-30: `s` are the bytes sent before, `r` is the number of bytes received before. `recv(2048)` returns between 1
and 2048 of the bytes that have arrived (`cut k` says how many, if there are more) and waits if there are none. -/
def sendLoop (env : Env) (cut : Nat → Nat) : Nat → Bytes → Nat → List Bytes → SendRun
  | _, _, _, [] => ⟨[], [], .done⟩
  | k, s, r, l :: ls =>
    match fromHex l.dropLast with                                       -- 25: rec[:-1]
    | none => ⟨[], [], .valueError⟩
    | some b =>
      let s' := s ++ b                                                  -- 26
      let pending := (answered env s').drop r
      if pending = [] then
        ⟨[b], [], if (handleConn env true .silent [s']).2 = .waiting then .hangs else .disconnected⟩
      else
        let g := pending.take (1 + cut k % 2048)                        -- 28
        let run := sendLoop env cut (k + 1) s' (r + g.length) ls
        ⟨b :: run.sent, g :: run.got, run.how⟩

/-- the script with the file `text` (tools/send_egts.py:22-32) -/
def sendEgts (env : Env) (cut : Nat → Nat) (text : Bytes) : SendRun :=
  sendLoop env cut 0 [] 0 (readlines [] (universal text))

end Egts.SendEgts

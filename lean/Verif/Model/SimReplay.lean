import Verif.Model.Receiver
import Verif.Model.Simulator
/-
Model of the statistics of the UDP frame simulator and of its list of packets to drop.
Source: /repo/cpp/frameSimulator/src/FrameSimulatorPluginUDP.cpp: setup 61-66, replay_frames 133-234, send_packet 241-250;
FrameSimulatorOption.cpp: set_list_option 12-14, set_optionallist_option 20-24.
The frames that are replayed and their order are in Simulator. The percentages of the log messages are not modelled.
-/
namespace Verif.SimReplay
open Verif.Ipc (Str)
open Verif.Receiver (dec splitComma)

/-! ## Statistics -/

/-- What happens to a packet. -/
inductive Fate
  | dropped                     -- lines 168-187
  | sent (bytes : Nat)          -- `sendto` returns the number of bytes
  | failed                      -- `sendto` returns -1
deriving DecidableEq, Repr

/-- Addition of two `int`; `none`: the overflow is undefined. -/
def addI (a b : Int) : Option Int :=
  if -2147483648 ≤ a + b ∧ a + b < 2147483648 then some (a + b) else none

/-- The counters of a frame (lines 157-159), or of all frames (lines 142-145). -/
structure Tally where
  sent : Int := 0
  dropped : Int := 0
  bytes : Int := 0
deriving DecidableEq, Repr

/-- The result of `sendto` is added to the bytes, line 190, and the packet counts as sent, line 191. -/
def countSent (t : Tally) (r : Int) : Option Tally :=
  (addI t.bytes r).bind fun b => (addI t.sent 1).map fun s => ⟨s, t.dropped, b⟩

/-- Lines 165-202. -/
def count (t : Tally) : Fate → Option Tally
  | .dropped => (addI t.dropped 1).map fun d => ⟨t.sent, d, t.bytes⟩
  | .sent n => countSent t n
  | .failed => countSent t (-1)

def countAll (t : Tally) : List Fate → Option Tally
  | [] => some t
  | x :: l => (count t x).bind (countAll · l)

/-- Lines 225-228: the counters of the frame are added to the totals. -/
def addTally (t f : Tally) : Option Tally :=
  (addI t.sent f.sent).bind fun s => (addI t.dropped f.dropped).bind fun d => (addI t.bytes f.bytes).map fun b => ⟨s, d, b⟩

/-- All frames, each with the fates of its packets. -/
def totals (t : Tally) : List (List Fate) → Option Tally
  | [] => some t
  | f :: fs => (countAll {} f).bind fun x => (addTally t x).bind (totals · fs)

/-- The totals in the last log message, lines 232-236. -/
def report (fs : List (List Fate)) : Option Tally := totals {} fs

/-- All packets of a frame are sent: header and data. -/
def allSent (f : Simulator.Frame) : List Fate := f.packets.map (fun r => .sent r.wire.length)

/-! ## The list of packets to drop -/

/-- `token_compress_on`: no empty items but at the ends. -/
def squeeze : List Str → List Str
  | [] => []
  | [a] => [a]
  | a :: b :: l => a :: ((b :: l).dropLast.filter (fun t => !t.isEmpty) ++ [(b :: l).getLast (by simp)])

/-- `set_list_option`. -/
def items (s : Str) : List Str := squeeze (splitComma s)

/-- Lines 179-184: the number of the packet as text is looked up in the list. -/
def listed (s : Str) (p : Nat) : Bool := (items s).contains (dec p)

end Verif.SimReplay

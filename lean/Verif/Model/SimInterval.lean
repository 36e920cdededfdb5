/-
The interval between the frames of the simulator.
Source: /repo/cpp/frameSimulator/src/FrameSimulatorPluginUDP.cpp: replay 150-217 (the times); /repo/cpp/frameSimulator/src/FrameSimulatorPlugin.cpp 47;
/repo/cpp/frameSimulator/include/FrameSimulatorPlugin.h 50 (`boost::optional<float>`).

A `float` is counted in units of 2^-149 s, of which all floats are multiples; arithmetic rounds to 24 bits, to the nearest, ties to even; floats
above 2^128 do not occur. The clock is counted in ns, and `time` cuts it to seconds. `nanosleep` takes exactly the time asked for, is not
interrupted, and refuses a number of nanoseconds of 10^9 and more. How long the sending of a frame takes is free. Nothing else takes time.
-/
namespace Verif.SimInterval

/-- One second, in units of 2^-149 s. -/
def one : Nat := 2 ^ 149

/-- Rounding to the nearest of the two neighbours with this step. -/
def nearest (n step : Nat) : Nat :=
  if 2 * (n % step) < step ∨ (2 * (n % step) = step ∧ n / step % 2 = 0) then n / step * step else (n / step + 1) * step

/-- Rounding to a float. -/
def round (n : Nat) : Nat := if n < 2 ^ 24 then n else nearest n (2 ^ (n.log2 - 23))

/-- `difftime(end_time, start_time)` as a float, lines 155-204: a frame that is started at `t` ns and sent for `d` ns. -/
def frameTime (t d : Nat) : Nat := round (((t + d) / 1000000000 - t / 1000000000) * one)

/-- `wait_time_s`, line 208, if it is positive. -/
def waitTime (gap frame : Int) : Option Nat := if gap - frame > 0 then some (round (gap - frame).toNat) else none

/-- The time given to `nanosleep`. -/
structure Spec where
  sec : Nat
  nsec : Nat
deriving DecidableEq, Repr

/-- Lines 213-214. `none`: the conversion to `int` overflows. -/
def spec (wait : Nat) : Option Spec :=
  if wait / one < 2 ^ 31 then some ⟨wait / one, round (round (wait - round (wait / one * one)) * 1000000000) / one⟩ else none

/-- The time slept, in ns. An invalid time is refused at once. -/
def slept (s : Spec) : Nat := if s.nsec < 1000000000 then s.sec * 1000000000 + s.nsec else 0

/-- Lines 209-216. -/
def sleepFor : Option Nat → Option Nat
  | none => some 0
  | some w => (spec w).map slept

/-- Lines 207-217: the time slept after a frame. `none`: undefined. -/
def pause (gap : Option Int) (frame : Nat) : Option Nat :=
  match gap with
  | none => some 0
  | some g => sleepFor (waitTime g frame)

/-- When the next frame is started. -/
def next (gap : Option Int) (t d : Nat) : Option Nat := (pause gap (frameTime t d)).map (fun (p : Nat) => t + d + p)

/-- When the frames are started, from the times their sending takes. -/
def starts (gap : Option Int) (t : Nat) : List Nat → Option (List Nat)
  | [] => some [t]
  | d :: ds => match next gap t d with
    | none => none
    | some u => (starts gap u ds).map (t :: ·)

end Verif.SimInterval
